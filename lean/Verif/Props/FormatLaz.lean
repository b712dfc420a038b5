import Verif.Props.Format
import Verif.Props.LazReader
/-! # C84: a written LAZ file, read by its format alone -/
namespace Copc
open Spec

section
variable {L : Lazperf} {w0 w : LazWriter} {h : List (LazOp × Res Unit)} {data : Bytes}

/-- The header that `ToLazPerf` makes, by positions. -/
theorem header_says {hd : LasHeader} {po : UInt32} {pc eo : UInt64} {ec : UInt32} {b1 b2 : Bool} {h14 : Header14}
    (hh : hd.toLazPerf po pc eo ec b1 b2 = .ok h14) (hg : GoodHeader hd) (hf : hd.fmt = 6 ∨ hd.fmt = 7 ∨ hd.fmt = 8)
    (hl : 375 ≤ data.length) (hd14 : Header14.decode data = h14) :
    Format.HeaderSays data hd ∧ Format.num data 4 96 = po.toNat ∧ Format.num data 8 247 = pc.toNat ∧
      Format.num data 8 235 = eo.toNat ∧ Format.num data 4 243 = ec.toNat ∧ Format.num data 4 100 = h14.vlrCount.toNat := by
  have h15 := hg.byReturn
  obtain ⟨a1, a2, a3, a4, a5, a6, a7, a8, a9, a10, a11, a12, a13, a14, a15, a16⟩ := header_raw hl hd14
  obtain ⟨b1, b2, b3, b4, b5, b6, b7, b8, b9, b10, b11, b12, b13, b14⟩ := header_raw2 hd14
  unfold LasHeader.toLazPerf at hh
  split at hh
  · cases hh
  · obtain rfl := Res.ok.inj hh
    refine ⟨⟨a1.symm, a2.symm, a3.symm, holds_strncpy hg.guid a4, ⟨a5.symm, a6.symm⟩,
      holds_strncpy hg.sys a7, holds_strncpy hg.gen a8, ⟨a9.symm, a10.symm⟩, a11.symm, ?_,
      a15.symm, b1.symm, b2.symm, ?_, ?_, b9.symm, ?_⟩, a12.symm, b12.symm, b10.symm, b11.symm, a13.symm⟩
    · rw [← a14]
      simp only
      rcases hf with hf | hf | hf <;> rw [hf] <;> decide
    · rw [← b3, ← b5, ← b7]
    · rw [← b4, ← b6, ← b8]
    · intro i hi
      have e := congrArg (fun l => l.getD i 0) b14
      simp only [List.getD_eq_getElem?_getD, List.getElem?_map] at e ⊢
      rw [List.getElem?_eq_getElem (by rw [h15]; exact hi), List.getElem?_range hi] at e
      rw [List.getElem?_eq_getElem (by rw [h15]; exact hi)]
      exact e.symm

/-- The header is where the format has it and says what the program set (the configuration `w.cfg` at `Close`). -/
theorem C84_header (hw : LazWritten L w0 w h data) : Format.HeaderSays data w.cfg.header := by
  obtain ⟨otpd, eb, h14, log, hd, _⟩ := hw.done
  have hrf := hd.recFile hw.storable.header.byReturn hw.storable.few
  obtain ⟨rest, hh⟩ := hrf.head
  have h375 := Header14.length_encode hrf.sized
  have hl : 375 ≤ data.length := by rw [hh, List.length_append]; omega
  have hdec : Header14.decode data = h14 := by rw [hh]; exact Header14.decode_encode hrf.sized _
  have := hd.header
  unfold lazHeader14 at this
  exact (header_says this hw.storable.header hw.storable.fmt hl hdec).1

/-- The number of points, the place of the chunk table and the chunks, by positions: the 8 bytes at the offset to point data
that the header gives are the offset of the chunk table; between the two are, one after the other, the chunks of the calls
that wrote one; the header has the number of points (if the numbers given are not negative and not too many). -/
theorem C84_points (hw : LazWritten L w0 w h data) : ∃ chunks : List (Int × Bytes),
    List.Forall₂ (fun op x => op.Stores L w0.cfg.header x) (chunkCalls h) chunks ∧
    Format.num data 8 (Format.num data 4 96) = Format.num data 4 96 + 8 + ((chunks.map (·.2)).flatten).length ∧
    Format.text data ((chunks.map (·.2)).flatten).length (Format.num data 4 96 + 8) = (chunks.map (·.2)).flatten ∧
    Format.num data 4 (Format.num data 8 (Format.num data 4 96)) = 0 ∧
    Format.num data 4 (Format.num data 8 (Format.num data 4 96) + 4) = chunks.length ∧
    ((∀ x ∈ chunks, 0 ≤ x.1) → (chunks.map (·.1)).sum < 2 ^ 64 → (Format.num data 8 247 : Int) = (chunks.map (·.1)).sum) := by
  obtain ⟨otpd, eb, h14, log, hd, hst, hsz, hfew, hcnt, hed⟩ := hw.done
  have hrf := hd.recFile hw.storable.header.byReturn hw.storable.few
  obtain ⟨rest, hh⟩ := hrf.head
  have h375 := Header14.length_encode hrf.sized
  have hl : 375 ≤ data.length := by rw [hh, List.length_append]; omega
  have hdec : Header14.decode data = h14 := by rw [hh]; exact Header14.decode_encode hrf.sized _
  have hh14 := hd.header
  unfold lazHeader14 at hh14
  obtain ⟨_, p1, p2, _⟩ := header_says hh14 hw.storable.header hw.storable.fmt hl hdec
  have hpo : Format.num data 4 96 = otpd := by rw [p1, UInt32.toNat_ofNat', Nat.mod_eq_of_lt hd.small]
  have hcd : chunkData (ulog log) = (log.map (·.2)).flatten := by
    unfold chunkData ulog; rw [List.map_map]; rfl
  have htot := hd.total
  have hb := length_bodyBytes L otpd (ulog log)
  have hsize := hd.size
  have htab : Format.num data 8 otpd = otpd + 8 + ((log.map (·.2)).flatten).length := by
    unfold Format.num
    rw [hd.body, bodyBytes]
    simp only [List.append_assoc]
    rw [getN_leN, hcd, Nat.mod_eq_of_lt (by rw [← hcd]; omega)]
  have h3 : data.drop (otpd + 8 + ((log.map (·.2)).flatten).length) = leN 4 0 ++ (leN 4 log.length ++ (L.table (sizes (ulog log)) ++ wktBytes w.cfg.wkt)) := by
    rw [← List.drop_drop, hd.ahead, hcd, List.drop_left' rfl]
    unfold tableBytes; simp only [List.append_assoc, length_ulog]
  refine ⟨log, hst, by rw [hpo, htab], ?_, ?_, ?_, ?_⟩
  · rw [hpo]
    unfold Format.text
    rw [hd.ahead, hcd, List.take_left' rfl]
  · rw [hpo, htab]
    unfold Format.num
    rw [h3, getN_leN]
  · rw [hpo, htab]
    unfold Format.num
    rw [← List.drop_drop, h3, List.drop_left' (length_leN 4 _), getN_leN, Nat.mod_eq_of_lt (by omega)]
  · intro hpos hlt
    rw [p2, UInt64.toNat_ofNat', hcnt]
    have key : ∀ l : List (Int × Bytes), (∀ x ∈ l, 0 ≤ x.1) → (l.map (·.1)).sum < 2 ^ 64 →
        0 ≤ (l.map (·.1)).sum ∧ ((((ulog l).map (·.1)).sum : Nat) : Int) = (l.map (·.1)).sum := by
      intro l
      induction l with
      | nil => intro _ _; exact ⟨by simp, by simp [ulog]⟩
      | cons a l ih =>
        intro h1 h2
        have h0 := h1 a (by simp)
        rw [List.map_cons, List.sum_cons] at h2 ⊢
        have hnn : 0 ≤ (l.map (·.1)).sum := List.sum_nonneg (by
          intro x hx
          obtain ⟨y, hy, rfl⟩ := List.mem_map.1 hx
          exact h1 y (by simp [hy]))
        obtain ⟨i1, i2⟩ := ih (fun x hx => h1 x (by simp [hx])) (by omega)
        unfold ulog at i2 ⊢
        rw [List.map_cons, List.map_cons, List.sum_cons]
        refine ⟨by omega, ?_⟩
        rw [Int.natCast_add, i2]
        have : ((u64 a.1 : Nat) : Int) = a.1 := by unfold u64; omega
        rw [this]
    obtain ⟨k1, k2⟩ := key log hpos hlt
    generalize ((ulog log).map (·.1)).sum = z at *
    generalize (log.map (·.1)).sum = y at *
    omega

/-- The extra-byte descriptors are the payload of the VLR ("LASF_Spec", 4), which is there when a point has extra bytes; the
WKT string, unless it is empty, is the payload of the only extended VLR. -/
theorem C84_records (hw : LazWritten L w0 w h data) :
    (Format.vlrs data).map (fun r => (r.user, r.id)) =
      (if lasBaseSize w.cfg.header.fmt < w.cfg.header.recLen.toNat then [(specUser, 4)] else []) ++ [(laszipUser, 22204)] ∧
    (lasBaseSize w.cfg.header.fmt < w.cfg.header.recLen.toNat →
      ∃ o, ⟨specUser, 4, o, 192 * w.cfg.eb.length⟩ ∈ Format.vlrs data ∧
      ∀ i f, w.cfg.eb[i]? = some f → Format.num data 1 (o + 192 * i + 2) = f.dataType.toNat ∧
        Format.num data 1 (o + 192 * i + 3) = f.options.toNat ∧ Format.Holds data 32 (o + 192 * i + 4) f.name ∧
        Format.Holds data 32 (o + 192 * i + 160) f.description) ∧
    (w.cfg.wkt = [] → Format.evlrs data = []) ∧
    (w.cfg.wkt ≠ [] → ∃ o, Format.evlrs data = [⟨projectionUser, 2112, o, w.cfg.wkt.length⟩] ∧
      Format.text data w.cfg.wkt.length o = w.cfg.wkt) := by
  obtain ⟨otpd, eb, h14, log, hd, _⟩ := hw.done
  have hrf := hd.recFile hw.storable.header.byReturn hw.storable.few
  obtain ⟨rest, hh⟩ := hrf.head
  obtain ⟨pre, rest', ht, hp⟩ := hrf.tail
  have h375 := Header14.length_encode hrf.sized
  have hl : 375 ≤ data.length := by rw [hh, List.length_append]; omega
  have hdec : Header14.decode data = h14 := by rw [hh]; exact Header14.decode_encode hrf.sized _
  have a := header_raw hl hdec
  have b := header_raw2 hdec
  have d1 : data.drop 375 = (lazRecs L w.cfg eb).flatMap VRec.bytes ++ rest := by
    conv_lhs => rw [hh]
    rw [List.drop_left' h375]
  have d2 : data.drop h14.evlrOffset.toNat = (wktRecs w.cfg.wkt).flatMap VRec.bytes ++ rest' := by
    conv_lhs => rw [ht]
    rw [List.drop_left' hp]
  obtain ⟨r1, r2⟩ := records_recs (b := false) (head := 54) (len := 2) rfl rfl _ d1 hrf.vfit
  obtain ⟨r3, r4⟩ := records_recs (b := true) (head := 60) (len := 8) rfl rfl _ d2 hrf.efit
  have e1 : Format.vlrs data = (placedRecs 375 (lazRecs L w.cfg eb)).map (fun x => x.2.raw x.1) := by
    unfold Format.vlrs
    rw [← a.2.2.2.2.2.2.2.2.2.2.1, ← a.2.2.2.2.2.2.2.2.2.2.2.2.1, hrf.vcount, hrf.size375]
    exact r1
  have e2 : Format.evlrs data = (placedRecs h14.evlrOffset.toNat (wktRecs w.cfg.wkt)).map (fun x => x.2.raw x.1) := by
    unfold Format.evlrs
    rw [← b.2.2.2.2.2.2.2.2.2.2.1, ← b.2.2.2.2.2.2.2.2.2.1, hrf.ecount]
    exact r3
  have hb : lasBaseSize w.cfg.header.fmt ≤ w.cfg.header.recLen.toNat := by rw [hw.storable.len]; omega
  have heb : eb = w.cfg.header.recLen.toNat - lasBaseSize w.cfg.header.fmt :=
    Res.ok.inj (hd.eb_ok.symm.trans (ebSize_consistent hw.storable.fmt hb).1)
  refine ⟨?_, ?_, ?_, ?_⟩
  · rw [e1]
    unfold lazRecs
    by_cases he : eb > 0
    · rw [if_pos he, if_pos (by omega)]; rfl
    · rw [if_neg he, if_neg (by omega)]; rfl
  · intro hlt
    have hm : (375, (⟨false, idSpec, 4, [], putEb w.cfg.eb⟩ : VRec)) ∈ placedRecs 375 (lazRecs L w.cfg eb) := by
      unfold lazRecs
      rw [if_pos (by omega), List.singleton_append, placedRecs]
      exact List.mem_cons_self
    refine ⟨375 + 54, ?_, ?_⟩
    · rw [e1, ← length_putEb]
      exact List.mem_map.2 ⟨_, hm, rfl⟩
    · intro i f hf
      obtain ⟨g1, g2, g3, g4⟩ := eb_item (l := w.cfg.eb) (r2 _ hm) hf
      have hok := hw.storable.descriptors f (List.mem_of_getElem? hf)
      refine ⟨g1, g2, ?_, ?_⟩
      · unfold Format.Holds
        refine Eq.trans g3 ?_
        rw [padTo, List.take_of_length_le hok.name.2]
      · unfold Format.Holds
        refine Eq.trans g4 ?_
        rw [padTo, List.take_of_length_le hok.description.2]
  · intro hwkt
    rw [e2, wktRecs, if_pos hwkt]; rfl
  · intro hwkt
    have hm : (h14.evlrOffset.toNat, (⟨true, idProj, 2112, [], w.cfg.wkt⟩ : VRec)) ∈
        placedRecs h14.evlrOffset.toNat (wktRecs w.cfg.wkt) := by
      rw [wktRecs, if_neg hwkt, placedRecs]
      exact List.mem_cons_self
    refine ⟨h14.evlrOffset.toNat + 60, ?_, r4 _ hm⟩
    rw [e2, wktRecs, if_neg hwkt]; rfl

end

/-- A LAZ file with extra bytes, a WKT string and three chunks. -/
example : ∃ data, LazWritten LazSample.L LazSample.w0 LazSample.w LazSample.hist data ∧
    lasBaseSize LazSample.w.cfg.header.fmt < LazSample.w.cfg.header.recLen.toNat ∧ LazSample.w.cfg.wkt ≠ [] ∧
    (chunkCalls LazSample.hist).length = 3 :=
  ⟨_, lazSample_written, by decide +kernel, by decide +kernel, by rw [lazSample_calls]; rfl⟩

end Copc
