import Verif.Lemmas.LazSample
import Verif.Props.Header
/-!
# C46: the LAZ writer
-/
namespace Copc
open Spec

/-- An empty collection is ignored, whatever its format and the state of the writer. -/
theorem C46_empty (L : Lazperf) (fmt : Int) (len : Nat) (w : LazWriter) :
    LazWriter.writePoints L fmt len [] w = (.ok (), w) := by
  unfold LazWriter.writePoints
  rw [Act.bind_ok (Act.gets_apply _ _), if_pos rfl]
  rfl

/-- A collection of another format or record length is rejected without effect. -/
theorem C46_mismatch (L : Lazperf) {fmt : Int} {len : Nat} {ps : List Point} {w : LazWriter} (hp : ps ≠ [])
    (hm : fmt ≠ w.cfg.header.fmt ∨ len ≠ w.cfg.header.recLen.toNat) :
    LazWriter.writePoints L fmt len ps w = (.throw .wrongFormat, w) := by
  unfold LazWriter.writePoints
  rw [Act.bind_ok (Act.gets_apply _ _), if_neg hp, Act.bind_throw (Act.throwIf_pos hm _ _)]

/-- Compressed data with no points is rejected without effect. -/
theorem C46_zero (L : Lazperf) (bs : Bytes) (w : LazWriter) :
    LazWriter.writePointsCompressed L bs 0 w = (.throw .zeroCount, w) := by
  unfold LazWriter.writePointsCompressed
  rw [Act.bind_ok (Act.gets_apply _ _), Act.bind_throw (Act.throwIf_pos rfl _ _)]

/-- The writing calls of any history: one that returns appends to the file the bytes of one chunk, and counts it
and its points; one that throws anything but "chunk too large" changes nothing at all. -/
theorem C46_append {L : Lazperf} {c : LazConfig} {w0 w : LazWriter} {h : List (LazOp × Res Unit)}
    (hm : LazWriter.make OStream.fresh c = .ok w0) (hh : LazHistory L w0 h w) (hu : LazUnclosed h)
    {op : LazOp} (hc : op ≠ .close) (hne : ∀ fmt len, op ≠ .points fmt len []) :
    ((op.run L w).1 = .ok () → ∃ n blob, op.Stores L w.cfg.header (n, blob) ∧
      (op.run L w).2.base.out.data = w.base.out.data ++ blob ∧
      (op.run L w).2.base.pointCount = (w.base.pointCount + (n % 2 ^ 64).toNat) % 2 ^ 64 ∧
      (op.run L w).2.base.chunks.length = w.base.chunks.length + 1 ∧ (op.run L w).2.cfg = w.cfg) ∧
    ((op.run L w).1 ≠ .ok () → (op.run L w).1 ≠ .throw .chunkTooLarge → (op.run L w).2 = w) := by
  obtain ⟨otpd, h1, h2, _⟩ := lazMake_ok hm
  obtain ⟨log, hi⟩ := lInv_history h1 h2 hh hu
  rcases laz_effect L hc hi.base (by omega) with ⟨e1, e2⟩ | ⟨blob, n, hs, _, he⟩
  · rcases e2 with ⟨f, l, rfl, _⟩ | ⟨_, e2⟩
    · exact absurd rfl (hne f l)
    · exact ⟨fun e => absurd e (e2 ()), fun _ _ => e1⟩
  · rcases he with ⟨_, e⟩ | ⟨_, e⟩
    · rw [e]
      exact ⟨fun h => (by cases h), fun _ h => absurd rfl h⟩
    · rw [e]
      refine ⟨fun _ => ⟨n, blob, hs, ?_, rfl, by simp [chunkAdded], rfl⟩, fun h => absurd rfl h⟩
      have := (hi.base.out.write blob).data
      show (w.base.out.write blob).data = _
      rw [this, hi.base.out.data]

theorem lazHeader_facts {c : LazConfig} {otpd eb count eo : Nat} {h14 : Header14} (hf : c.header.copcFlag = false)
    (h : lazHeader14 c otpd eb count eo = .ok h14) :
    h14.pointOffset = UInt32.ofNat otpd ∧ h14.pointCount14 = UInt64.ofNat count ∧ h14.evlrOffset = UInt64.ofNat eo ∧
    h14.evlrCount = UInt32.ofNat (if c.wkt = [] then 0 else 1) ∧
    h14.vlrCount.toNat = (if eb ≠ 0 then 1 else 0) + 1 := by
  unfold lazHeader14 LasHeader.toLazPerf at h
  rw [hf] at h
  simp only [Bool.false_and, Bool.false_eq_true, if_false] at h
  obtain rfl := Res.ok.inj h
  refine ⟨rfl, rfl, rfl, rfl, ?_⟩
  by_cases he : eb ≠ 0 <;> simp [he]

theorem lazOtpd_small {c : LazConfig} {otpd : Nat} (hl : c.eb.length ≤ 341)
    (ho : BaseW.offsetToPointData c = .ok otpd) : otpd < 2 ^ 32 := by
  obtain ⟨eb, he⟩ := offset_ebSize ho
  have hi : lazItems c.header.fmt eb ≤ 3 := by unfold lazItems; split <;> split <;> omega
  unfold BaseW.offsetToPointData at ho
  rw [he, Res.okBind] at ho
  injection ho with ho
  split at ho <;> omega

/-- The file after `Close`, for any history of calls none of which failed for the size of its chunk.
The chunks are those of the calls that returned, in order. The bytes before the offset to point data are the
header, the VLRs it announces and zeros; from there on the file consists of: the offset of the chunk table, the
chunks, the chunk table (version 0, number of chunks, compressed counts and sizes), and the WKT string, if any,
as an extended VLR at the offset given by the header. At most 341 extra-byte items: more do not fit a VLR. -/
theorem C46_closed {L : Lazperf} {c : LazConfig} {w0 w w' : LazWriter} {h : List (LazOp × Res Unit)}
    (hm : LazWriter.make OStream.fresh c = .ok w0) (hr : c.header.pointsByReturn.length = 15)
    (hl : c.eb.length ≤ 341) (hh : LazHistory L w0 h w) (hu : LazUnclosed h) (hn : LazNoneTooLarge h)
    (hc : LazWriter.close L w = (.ok (), w')) (hs : w'.base.out.data.length < 2 ^ 63) :
    let data := w'.base.out.data
    let hd := Header14.decode data
    let po := hd.pointOffset.toNat
    let fin := vlrEnd data hd.vlrCount.toNat 375
    ∃ chunks : List (Int × Bytes), List.Forall₂ (fun op x => op.Stores L c.header x) (chunkCalls h) chunks ∧
      po = w0.base.out.data.length - 8 ∧ fin ≤ po ∧ slice data fin (po - fin) = List.replicate (po - fin) 0 ∧
      data.drop po =
        leN 8 (po + 8 + ((chunks.map (·.2)).flatten).length) ++ ((chunks.map (·.2)).flatten ++
        (leN 4 0 ++ leN 4 chunks.length ++ L.table (chunks.map fun x => ((x.1 % 2 ^ 64).toNat, x.2.length)) ++
        (if c.wkt = [] then [] else BaseW.wktEvlr c.wkt))) ∧
      hd.pointCount14.toNat = (chunks.map fun x => (x.1 % 2 ^ 64).toNat).sum % 2 ^ 64 ∧
      hd.evlrCount = (if c.wkt = [] then 0 else 1) ∧
      data.drop hd.evlrOffset.toNat = (if c.wkt = [] then [] else BaseW.wktEvlr c.wkt) := by
  obtain ⟨otpd, h1, h2, hcfg⟩ := lazMake_ok hm
  obtain ⟨log, hi⟩ := lInv_history h1 h2 hh hu
  obtain ⟨hch, hsz⟩ := hi.logged.chunks hn
  have hcl : BaseW.close L w.cfg w.base = (.ok (), w'.base) := by
    unfold LazWriter.close at hc
    rw [Act.bind_ok (Act.gets_apply _ _)] at hc
    unfold LazWriter.onBase at hc
    rw [Act.zoom_apply] at hc
    injection hc with e1 e2
    rw [← e2]
    exact Prod.ext e1 rfl
  obtain ⟨eb, h14, hfew, heb, hh14, hfit, hd, _⟩ := lazClose_ok hi.offset hi.base hcl
  have hflag : w.cfg.header.copcFlag = false := by rw [hi.edit.copcFlag, hcfg]; rfl
  obtain ⟨f1, f2, f3, f4, f5⟩ := lazHeader_facts hflag hh14
  have hret : w.cfg.header.pointsByReturn.length = 15 := by rw [hi.edit.returns, hcfg]; exact hr
  have hsized := toLazPerf_sized hret hh14
  have h375 := Header14.length_encode hsized
  have hwk : w.cfg.wkt = c.wkt := by rw [hi.edit.wkt, hcfg]; rfl
  have hweb : w.cfg.eb = c.eb := by rw [hi.edit.eb, hcfg]; rfl
  have hsmall := lazOtpd_small (by rw [hweb]; exact hl) hi.offset
  have h0 : w0.base.out.data.length - 8 = otpd := by rw [h2.out.data]; simp [chunkData]
  have hdec : Header14.decode w'.base.out.data = h14 := by
    rw [hd]
    unfold lazFile lazHead
    simp only [List.append_assoc]
    exact Header14.decode_encode hsized _
  have harea : (lazHead L w.cfg eb h14 ++ List.replicate (otpd - (lazHead L w.cfg eb h14).length) 0).length = otpd := by
    simp; omega
  have hpo : h14.pointOffset.toNat = otpd := by rw [f1, UInt32.toNat_ofNat', Nat.mod_eq_of_lt hsmall]
  have hcd : chunkData (ulog log) = (log.map (·.2)).flatten := by
    unfold chunkData ulog; rw [List.map_map]; rfl
  have hdrop : w'.base.out.data.drop 375 = lazVlrs L w.cfg eb ++
      (List.replicate (otpd - (lazHead L w.cfg eb h14).length) 0 ++ (bodyBytes L otpd (ulog log) ++ wktBytes w.cfg.wkt)) := by
    rw [hd]
    simp only [lazFile, lazHead, List.append_assoc]
    rw [List.drop_left' h375]
  have hfin := vlrEnd_laz (c := w.cfg) (by rw [hweb]; exact hl) hdrop
  have hblock : (lazHead L w.cfg eb h14).length = 375 + (lazVlrs L w.cfg eb).length := by
    rw [lazHead, List.length_append, h375]
  have htot : w'.base.out.data.length = otpd + (bodyBytes L otpd (ulog log)).length + (wktBytes w.cfg.wkt).length := by
    rw [hd, lazFile, List.length_append, harea, List.length_append]; omega
  have hmod : ∀ x ∈ log, x.2.length % 2 ^ 64 = x.2.length := by
    intro x hx
    have : x.2.length ≤ ((log.map (·.2)).flatten).length := by
      obtain ⟨a, b, rfl⟩ := List.append_of_mem hx
      simp; omega
    have hb := length_bodyBytes L otpd (ulog log)
    rw [hcd] at hb
    exact Nat.mod_eq_of_lt (by omega)
  have htab : sizes (ulog log) = log.map fun x => ((x.1 % 2 ^ 64).toNat, x.2.length) := by
    unfold sizes ulog
    rw [List.map_map]
    apply List.map_congr_left
    intro x hx
    simp only [Function.comp, hmod x hx]
    rfl
  have hst : ∀ op x, LazOp.Stores L w0.cfg.header op x ↔ LazOp.Stores L c.header op x := by
    intro op x
    rw [hcfg]
    obtain ⟨n, blob⟩ := x
    cases op <;> rfl
  simp only
  rw [hdec, hpo, f5, hfin, h0]
  refine ⟨log, ?_, rfl, by omega, ?_, ?_, ?_, ?_, ?_⟩
  · exact hch.imp fun op x hx => (hst op x).1 hx
  · rw [← hblock]
    refine slice_at (a := lazHead L w.cfg eb h14) (c := bodyBytes L otpd (ulog log) ++ wktBytes w.cfg.wkt) ?_ rfl (by simp)
    rw [hd]
    simp only [lazFile, List.append_assoc]
  · rw [hd, lazFile, List.drop_left' harea]
    simp only [bodyBytes, tableBytes, htab, hcd, length_ulog, List.append_assoc, wktBytes, hwk]
  · rw [f2, UInt64.toNat_ofNat', hi.base.count]
    rw [show (ulog log).map (·.1) = log.map fun x => (x.1 % 2 ^ 64).toNat by unfold ulog; rw [List.map_map]; rfl]
    exact Nat.mod_mod _ _
  · rw [f4, hwk]
    split <;> rfl
  · rw [f3, UInt64.toNat_ofNat', Nat.mod_eq_of_lt (by omega), hd]
    have : lazFile L w.cfg eb h14 otpd (ulog log) = ((lazHead L w.cfg eb h14 ++
        List.replicate (otpd - (lazHead L w.cfg eb h14).length) 0) ++ bodyBytes L otpd (ulog log)) ++ wktBytes w.cfg.wkt := by
      simp [lazFile]
    rw [this, List.drop_left' (by rw [List.length_append, harea])]
    unfold wktBytes
    rw [hwk]

theorem lazConsistent_eb {c : LazConfig} (h : LazConsistent c) :
    c.header.ebSize = .ok (c.eb.map lasItemSize).sum ∧ (c.eb.map lasItemSize).sum < 65536 := by
  have hb : pointBaseByteSize c.header.fmt = .ok (lasBaseSize c.header.fmt) := by
    rcases h.fmt with e | e | e <;> rw [e] <;> rfl
  have hl := h.len
  have hlt := c.header.recLen.toNat_lt
  constructor
  · unfold LasHeader.ebSize ebByteSize
    rw [hb, Res.okBind, hl]
    congr 1
    generalize lasBaseSize c.header.fmt = b at *
    generalize (c.eb.map lasItemSize).sum = s at *
    omega
  · omega

/-- With a consistent configuration `Close` returns whatever the history, except when there are 2^32 chunks or
more. -/
theorem C46_outcome {L : Lazperf} {c : LazConfig} {w0 w : LazWriter} {h : List (LazOp × Res Unit)}
    (hm : LazWriter.make OStream.fresh c = .ok w0) (hcons : LazConsistent c)
    (hr : c.header.pointsByReturn.length = 15) (hh : LazHistory L w0 h w) (hu : LazUnclosed h) :
    (LazWriter.close L w).1 = .ok () ∨
      (4294967295 < w.base.chunks.length ∧ (LazWriter.close L w).1 = .throw .tooManyChunks) := by
  obtain ⟨otpd, h1, h2, hcfg⟩ := lazMake_ok hm
  obtain ⟨log, hi⟩ := lInv_history h1 h2 hh hu
  have hcl : (LazWriter.close L w).1 = (BaseW.close L w.cfg w.base).1 := by
    unfold LazWriter.close
    rw [Act.bind_ok (Act.gets_apply _ _)]
    unfold LazWriter.onBase
    rw [Act.zoom_apply]
  rw [hcl]
  by_cases hf : (ulog log).length ≤ 4294967295
  · left
    obtain ⟨e1, e2⟩ := lazConsistent_eb hcons
    have heb : w.cfg.header.ebSize = .ok (c.eb.map lasItemSize).sum := by
      rw [hi.edit.ebSize, hcfg]; exact e1
    obtain ⟨h14, hh14⟩ := lazHeader14_ok w.cfg otpd (c.eb.map lasItemSize).sum w.base.pointCount
      (otpd + (bodyBytes L otpd (ulog log)).length)
    have hret : w.cfg.header.pointsByReturn.length = 15 := by rw [hi.edit.returns, hcfg]; exact hr
    have hsized := toLazPerf_sized hret hh14
    rw [lazClose_eq L hi.offset heb hi.base hf hh14]
    have hweb : w.cfg.eb = c.eb := by rw [hi.edit.eb, hcfg]; rfl
    have ho := hi.offset
    unfold BaseW.offsetToPointData at ho
    rw [heb, Res.okBind] at ho
    injection ho with ho
    have hsum := sum_pos hcons.items
    rw [if_neg]
    rw [lazHead, List.length_append, Header14.length_encode hsized, length_lazVlrs, hweb]
    rw [hweb] at ho
    rw [← ho]
    generalize lazItems w.cfg.header.fmt (c.eb.map lasItemSize).sum = k
    by_cases hp : (c.eb.map lasItemSize).sum > 0
    · rw [if_pos hp]
      have : 192 * c.eb.length > 0 := by
        refine Nat.pos_of_ne_zero fun hz => ?_
        have : c.eb = [] := List.length_eq_zero_iff.1 (by omega)
        rw [this] at hp
        simp at hp
      rw [if_pos this]
      omega
    · rw [if_neg hp]
      have : ¬ 192 * c.eb.length > 0 := by omega
      rw [if_neg this]
      omega
  · right
    have := lazClose_few (L := L) hi.offset hi.base (by omega)
    refine ⟨?_, this⟩
    rw [hi.base.chunks, length_chunkEnds]
    omega

/-- A second `Close` changes nothing. -/
theorem C46_again {L : Lazperf} {w w' : LazWriter} (hc : LazWriter.close L w = (.ok (), w')) :
    LazWriter.close L w' = (.ok (), w') := by
  have ho : w'.base.open_ = false := by
    unfold LazWriter.close at hc
    rw [Act.bind_ok (Act.gets_apply _ _)] at hc
    unfold LazWriter.onBase at hc
    rw [Act.zoom_apply] at hc
    injection hc with e1 e2
    rw [← e2]
    simp only
    have e3 : BaseW.close L w.cfg w.base = (.ok (), (BaseW.close L w.cfg w.base).2) := Prod.ext e1 rfl
    generalize (BaseW.close L w.cfg w.base).2 = b at e3
    unfold BaseW.close at e3
    rw [Act.bind_ok (Act.gets_apply _ _)] at e3
    by_cases hop : w.base.open_ = false
    · rw [if_pos hop] at e3
      injection e3 with _ e3
      rw [← e3]; exact hop
    · rw [if_neg hop] at e3
      obtain ⟨_, _, _, e3⟩ := Act.bind_eq_ok.1 e3
      obtain ⟨_, _, _, e3⟩ := Act.bind_eq_ok.1 e3
      obtain ⟨_, _, _, e3⟩ := Act.bind_eq_ok.1 e3
      obtain ⟨_, _, _, e3⟩ := Act.bind_eq_ok.1 e3
      obtain ⟨_, _, _, e3⟩ := Act.bind_eq_ok.1 e3
      obtain ⟨_, _, _, e3⟩ := Act.bind_eq_ok.1 e3
      injection e3 with _ e3
      rw [← e3]
  unfold LazWriter.close
  rw [Act.bind_ok (Act.gets_apply _ _)]
  unfold LazWriter.onBase
  rw [Act.zoom_apply]
  have : BaseW.close L w'.cfg w'.base = (.ok (), w'.base) := by
    unfold BaseW.close
    rw [Act.bind_ok (Act.gets_apply _ _), if_pos ho]
    rfl
  rw [this]

/-! ### The hypotheses can be met -/

/-- The sample writer (format 6, one extra byte, a WKT string) with calls that write, are ignored and are
rejected meets the hypotheses of `C46_closed` and `C46_append`. -/
example : LazWriter.make OStream.fresh LazSample.cfg = .ok LazSample.w0 ∧
    LazSample.cfg.header.pointsByReturn.length = 15 ∧ LazSample.cfg.eb.length ≤ 341 ∧
    LazHistory LazSample.L LazSample.w0 LazSample.hist LazSample.w ∧ LazUnclosed LazSample.hist ∧
    LazNoneTooLarge LazSample.hist ∧
    LazWriter.close LazSample.L LazSample.w = (.ok (), LazSample.closed) ∧
    LazSample.closed.base.out.data.length < 2 ^ 63 :=
  ⟨LazSample.made, LazSample.returns, LazSample.few, LazSample.history, LazSample.unclosed,
    LazSample.noneTooLarge, LazSample.close_eq, LazSample.small⟩

/-- Its file: four points, chunks of 62, 31 and 31 bytes from offset 721 + 8. -/
example : (Header14.decode LazSample.closed.base.out.data).pointCount14 = 4 ∧
    (Header14.decode LazSample.closed.base.out.data).pointOffset = 721 ∧
    (Header14.decode LazSample.closed.base.out.data).evlrCount = 1 ∧
    slice LazSample.closed.base.out.data 721 8 = leN 8 (721 + 8 + 124) := by decide +kernel

theorem LazSample.consistent : LazConsistent LazSample.cfg where
  fmt := .inl (by decide +kernel)
  len := by decide +kernel
  items := by decide +kernel

/-- What a chunk of more than 2^31 - 1 bytes does: the call throws, but the chunk is in the file and its points
are counted (the precondition of `C46_closed` that no call failed so cannot be dropped). -/
theorem C46_too_large {L : Lazperf} {c : LazConfig} {w0 w : LazWriter} {h : List (LazOp × Res Unit)}
    (hm : LazWriter.make OStream.fresh c = .ok w0) (hh : LazHistory L w0 h w) (hu : LazUnclosed h)
    {bs : Bytes} {count : Int} (hc : count ≠ 0) (hl : bs.length > 2147483647) (hl2 : bs.length < 2 ^ 64) :
    (LazWriter.writePointsCompressed L bs count w).1 = .throw .chunkTooLarge ∧
    (LazWriter.writePointsCompressed L bs count w).2.base.out.data = w.base.out.data ++ bs ∧
    (LazWriter.writePointsCompressed L bs count w).2.base.pointCount =
      (w.base.pointCount + (count % 2 ^ 64).toNat) % 2 ^ 64 := by
  obtain ⟨otpd, h1, h2, _⟩ := lazMake_ok hm
  obtain ⟨log, hi⟩ := lInv_history h1 h2 hh hu
  rcases laz_effect L (op := .compressed bs count) (by intro h; cases h) hi.base (by omega) with
    ⟨e1, e2⟩ | ⟨blob, n, hs, _, he⟩
  · exfalso
    have key' : BaseW.writeChunk L w.cfg.header bs count true w.base =
        (.throw .chunkTooLarge, chunkAdded w.base bs count) := by
      unfold BaseW.writeChunk
      rw [Act.bind_ok (Act.gets_apply _ _), Act.bind_ok (Act.throwIf_neg (by rw [hi.base.out.tellp]; simp) _ _)]
      simp only [if_true]
      rw [Act.bind_ok (show BaseW.emit bs w.base = (.ok (), { w.base with out := w.base.out.write bs }) from rfl)]
      dsimp only
      rw [finishChunk_spec hi.base (by omega) bs count, if_pos (by rw [Nat.mod_eq_of_lt hl2]; exact hl)]
    have hx : (LazOp.run L (.compressed bs count) w).2.base = chunkAdded w.base bs count := by
      show (LazWriter.writePointsCompressed L bs count w).2.base = _
      unfold LazWriter.writePointsCompressed LazWriter.onBase
      rw [Act.bind_ok (Act.gets_apply _ _), Act.bind_ok (Act.throwIf_neg hc _ _), Act.bind_apply, Act.zoom_apply, key']
    rw [e1] at hx
    have h3 := congrArg (fun b : BaseW => b.chunks.length) hx
    simp [chunkAdded] at h3
  · obtain ⟨rfl, rfl⟩ := hs
    have hout := (hi.base.out.write blob).data
    rcases he with ⟨_, e⟩ | ⟨hle, _⟩
    · have e' : LazWriter.writePointsCompressed L blob n w = _ := e
      rw [e']
      refine ⟨rfl, ?_, rfl⟩
      show (w.base.out.write blob).data = _
      rw [hout, hi.base.out.data]
    · rw [Nat.mod_eq_of_lt hl2] at hle
      omega

/-- After `Close` a write is not rejected: it returns and overwrites the pointer to the chunk table. -/
theorem C46_write_after_close_violated :
    (LazWriter.writePointsCompressed LazSample.L (List.replicate 8 5) 1 LazSample.closed).1 = .ok () ∧
    slice (LazWriter.writePointsCompressed LazSample.L (List.replicate 8 5) 1 LazSample.closed).2.base.out.data 721 8 =
      List.replicate 8 5 := by decide +kernel

/-- Extra bytes counted in the record length but not described by an item: the header does not fit and `Close`
throws (`C46_outcome` needs a consistent configuration). -/
theorem C46_undescribed_violated :
    let c : LazConfig := { LazSample.cfg with eb := [] }
    (LazWriter.close LazSample.L (Sample.getOk (LazWriter.make OStream.fresh c))).1 = .throw .headerTooBig := by
  decide +kernel

end Copc
