import Verif.Lemmas.LazRead
import Verif.Lemmas.ReaderData
import Verif.Props.RoundTrip
/-!
# C55: a LAZ file reads back as written
-/
namespace Copc
open Spec

theorem lazClose_base {L : Lazperf} {w w' : LazWriter} (hc : LazWriter.close L w = (.ok (), w')) :
    BaseW.close L w.cfg w.base = (.ok (), w'.base) := by
  unfold LazWriter.close at hc
  rw [Act.bind_ok (Act.gets_apply _ _)] at hc
  unfold LazWriter.onBase at hc
  rw [Act.zoom_apply] at hc
  injection hc with e1 e2
  rw [← e2]
  exact Prod.ext e1 rfl

section
variable {L : Lazperf} {w0 w : LazWriter} {h : List (LazOp × Res Unit)} {data : Bytes}

theorem LazWritten.done (hw : LazWritten L w0 w h data) : ∃ otpd eb h14 log,
    LazDone L w.cfg eb h14 otpd (ulog log) w.base.pointCount data ∧
    List.Forall₂ (fun op x => op.Stores L w0.cfg.header x) (chunkCalls h) log ∧
    (∀ x ∈ log, x.2.length % 2 ^ 64 ≤ 2147483647) ∧ log.length < 2 ^ 32 ∧
    w.base.pointCount = ((ulog log).map (·.1)).sum % 2 ^ 64 ∧ LazEdit w0.cfg w.cfg := by
  obtain ⟨c, hm⟩ := hw.made
  obtain ⟨w', hc, rfl⟩ := hw.closed
  obtain ⟨otpd, h1, h2, hcfg⟩ := lazMake_ok hm
  obtain ⟨log, hi⟩ := lInv_history h1 h2 hw.history hw.unclosed
  obtain ⟨hch, hsz⟩ := hi.logged.chunks hw.noneTooLarge
  obtain ⟨eb, h14, hfew, heb, hh14, hfit, hd, _⟩ := lazClose_ok hi.offset hi.base (lazClose_base hc)
  have hflag : w.cfg.header.copcFlag = false := by rw [hi.edit.copcFlag, hcfg]; rfl
  refine ⟨otpd, eb, h14, log, ⟨heb, hh14, hfit, hd, hflag, lazOtpd_small hw.storable.few hi.offset, hw.size⟩,
    hch, hsz, ?_, hi.base.count, hi.edit⟩
  rw [length_ulog] at hfew
  omega

/-- The chunks written are the compressed records given. -/
theorem gives_log {hd : LasHeader} {eb : Nat} (he : hd.ebSize = .ok eb) (hpos : 0 < hd.recLen.toNat) :
    ∀ {ops : List LazOp} {log : List (Int × Bytes)} {recss : List (List Bytes)},
    List.Forall₂ (fun op x => op.Stores L hd x) ops log → List.Forall₂ (LazOp.Gives L hd) ops recss →
    log = recss.map fun recs => ((recs.length : Int), L.compress hd.fmt eb recs) := by
  intro ops log recss h1
  induction h1 generalizing recss with
  | nil => intro h2; cases h2; rfl
  | @cons op x ops log hs _ ih =>
    intro h2
    cases h2 with
    | @cons _ recs _ recss hg h2 =>
      rw [List.map_cons, ← ih h2]
      congr 1
      obtain ⟨n, blob⟩ := x
      obtain ⟨_, _, g3, g4⟩ := hg
      cases op with
      | points f l ps =>
        obtain ⟨bs, eb', recs', t0, t1, t2, t3, rfl, rfl⟩ := hs
        obtain rfl := Res.ok.inj (t1.symm.trans he)
        have g4' : packPoints ps hd.scale hd.offset = .ok recs.flatten := g4
        obtain rfl := Res.ok.inj (t0.symm.trans g4')
        obtain rfl := flatten_inj hpos t3 g3 t2
        rfl
      | compressed bs c =>
        obtain ⟨g5, eb', g6, g7⟩ := g4
        obtain ⟨rfl, rfl⟩ := hs
        obtain rfl := Res.ok.inj (g6.symm.trans he)
        rw [g7, g5]
      | close => exact hs.elim

theorem gives_each {hd : LasHeader} {ops : List LazOp} {recss : List (List Bytes)}
    (hg : List.Forall₂ (LazOp.Gives L hd) ops recss) :
    ∀ recs ∈ recss, recs ≠ [] ∧ recs.length < 2 ^ 32 ∧ ∀ r ∈ recs, r.length = hd.recLen.toNat := by
  intro recs hr
  induction hg with
  | nil => cases hr
  | cons hg _ ih =>
    rcases List.mem_cons.1 hr with rfl | hr
    · exact ⟨hg.1, hg.2.1, hg.2.2.1⟩
    · exact ih hr

/-- `LazConfig` of a reader opened on the file has the metadata the writer had when it was closed. -/
theorem C55_metadata (hw : LazWritten L w0 w h data) : ∃ b, BaseReader.init ⟨data, 0, false⟩ = .ok b ∧
    SameLazMetadata w.cfg b.las := by
  obtain ⟨otpd, eb, h14, log, hd, _⟩ := hw.done
  obtain ⟨q, hq⟩ := hd.opens hw.storable
  exact ⟨_, hq, rfl, rfl, rfl, rfl, rfl, rfl, rfl, rfl, rfl, rfl, rfl, rfl, rfl, rfl, rfl, rfl⟩

theorem LazWritten.shape (hw : LazWritten L w0 w h data) :
    (w0.cfg.header.fmt = 6 ∨ w0.cfg.header.fmt = 7 ∨ w0.cfg.header.fmt = 8) ∧
      lasBaseSize w0.cfg.header.fmt ≤ w0.cfg.header.recLen.toNat := by
  obtain ⟨_, _, _, _, _, _, _, _, _, he⟩ := hw.done
  rw [← he.fmt, ← he.recLen]
  exact ⟨hw.storable.fmt, by have := hw.storable.len; omega⟩

theorem LazWritten.reader (hw : LazWritten L w0 w h data) (hs : w0.cfg.header.recLen.toNat ≤ 255)
    {recss : List (List Bytes)} (hg : List.Forall₂ (LazOp.Gives L w0.cfg.header) (chunkCalls h) recss)
    (hn : recss.flatten.length < 2 ^ 64) :
    ∃ r, LazReader.init L ⟨data, 0, false⟩ = .ok r ∧ SameLazMetadata w.cfg r.base.las ∧
      r.base.las.header.pointCount.toNat = recss.flatten.length ∧
      LazReader.getPointData L r = .ok recss.flatten.flatten ∧ r.chunks = recss.map (·.length) := by
  obtain ⟨hf, hlen⟩ := hw.shape
  obtain ⟨e1, e2, e3⟩ := ebSize_consistent hf hlen
  have hpos : 0 < w0.cfg.header.recLen.toNat := by
    have : 0 < lasBaseSize w0.cfg.header.fmt := by rcases hf with e | e | e <;> rw [e] <;> decide
    omega
  obtain ⟨otpd, eb, h14, log, hd, hch, hsz, hfew, hcount, hedit⟩ := hw.done
  have hebs : eb = w0.cfg.header.recLen.toNat - lasBaseSize w0.cfg.header.fmt := by
    have := hd.eb_ok
    rw [hedit.ebSize, e1] at this
    exact (Res.ok.inj this).symm
  subst hebs
  have hlog := gives_log e1 hpos hch hg
  have hgr : ∀ recs ∈ recss, recs ≠ [] ∧ recs.length < 2 ^ 32 ∧ ∀ r ∈ recs, r.length = w0.cfg.header.recLen.toNat := by
    exact gives_each hg
  have hu : ulog log = recss.map fun recs => (recs.length, L.compress w0.cfg.header.fmt
      (w0.cfg.header.recLen.toNat - lasBaseSize w0.cfg.header.fmt) recs) := by
    rw [hlog]
    unfold ulog
    rw [List.map_map]
    apply List.map_congr_left
    intro recs hr
    have := (hgr recs hr).2.1
    simp only [Function.comp, u64, Prod.mk.injEq, and_true]
    omega
  have hsum : ((ulog log).map (·.1)).sum = recss.flatten.length := by
    rw [hu, List.map_map, List.length_flatten]; rfl
  rw [hsum, Nat.mod_eq_of_lt hn] at hcount
  obtain ⟨q, hq⟩ := hd.opens hw.storable
  have htab := hd.chunkTable (by rw [length_ulog]; exact hfew) (by
    intro x hx
    have hx' := hx
    rw [hu] at hx
    obtain ⟨recs, hr, rfl⟩ := List.mem_map.1 hx
    refine ⟨(hgr recs hr).2.1, ?_⟩
    unfold ulog at hx'
    obtain ⟨y, hy, e⟩ := List.mem_map.1 hx'
    have := hsz y hy
    have e2 := congrArg Prod.snd e
    simp only at e2 ⊢
    rw [← e2]
    omega)
  obtain ⟨_, f2, _⟩ := lazHeader_facts hd.flag hd.header
  have hpc : h14.pointCount14.toNat = recss.flatten.length := by
    rw [f2, hcount, UInt64.toNat_ofNat', Nat.mod_eq_of_lt hn]
  refine ⟨⟨⟨⟨data, q, false⟩, stripFormat h14, RecFile.table h14 (lazRecs L w.cfg
      (w0.cfg.header.recLen.toNat - lasBaseSize w0.cfg.header.fmt)) (wktRecs w.cfg.wkt),
      ⟨w.cfg.header.restored h14, w.cfg.wkt, w.cfg.eb⟩⟩, (ulog log).map (·.1)⟩, ?_, ⟨rfl, rfl, rfl, rfl, rfl, rfl, rfl, rfl, rfl, rfl, rfl, rfl, rfl, rfl, rfl, rfl⟩, ?_, ?_, ?_⟩
  · unfold LazReader.init
    rw [hq]
    simp only [Res.bind]
    rw [hd.chunkSize hw.storable]
    simp only
    rw [htab]
  · exact hpc
  · have hfm : w.cfg.header.fmt = w0.cfg.header.fmt := hedit.fmt
    unfold LazReader.getPointData
    simp only
    have he' : (w.cfg.header.restored h14).ebSize = .ok (w0.cfg.header.recLen.toNat - lasBaseSize w0.cfg.header.fmt) := by
      rw [← e1, ← hedit.ebSize]; rfl
    have hfm' : (w.cfg.header.restored h14).fmt = w0.cfg.header.fmt := hfm
    have hpo : (w.cfg.header.restored h14).pointOffset.toNat = otpd := hd.pointOffset
    have hpc' : (w.cfg.header.restored h14).pointCount.toNat = recss.flatten.length := hpc
    have htot := hd.total
    have hb := length_bodyBytes L otpd (ulog log)
    have hsz' := hd.size
    rw [he', Res.okBind, hfm', e2, Res.okBind, hpo, hpc', if_neg (by rw [e3]; omega), RecFile.seekg_good (by omega)]
    simp only [Bool.false_eq_true, if_false]
    rw [hd.ahead]
    have hcd : chunkData (ulog log) = (recss.map (L.compress w0.cfg.header.fmt
      (w0.cfg.header.recLen.toNat - lasBaseSize w0.cfg.header.fmt))).flatten := by
      unfold chunkData; rw [hu, List.map_map]; rfl
    have hcounts : (ulog log).map (·.1) = recss.map (·.length) := by rw [hu, List.map_map]; rfl
    rw [hcd, hcounts, readRecords_chunks hf _ recss fun recs hr => ⟨(hgr recs hr).1, by rw [e3]; exact (hgr recs hr).2.2⟩,
      Res.okBind, take_all]
    intro x hx
    obtain ⟨recs, hr, hx⟩ := List.mem_flatten.1 hx
    exact (hgr recs hr).2.2 x hx
  · show (ulog log).map (·.1) = _
    rw [hu, List.map_map]
    rfl


/-- The file can be opened, and the first `GetPointData` returns the records given to the calls that returned, in
order. Records of at most 255 bytes (see C47). -/
theorem C55_data (hw : LazWritten L w0 w h data) (hs : w0.cfg.header.recLen.toNat ≤ 255)
    {recss : List (List Bytes)} (hg : List.Forall₂ (LazOp.Gives L w0.cfg.header) (chunkCalls h) recss)
    (hn : recss.flatten.length < 2 ^ 64) :
    ∃ r, LazReader.init L ⟨data, 0, false⟩ = .ok r ∧ SameLazMetadata w.cfg r.base.las ∧
      r.base.las.header.pointCount.toNat = recss.flatten.length ∧
      LazReader.getPointData L r = .ok recss.flatten.flatten := by
  obtain ⟨r, h1, h2, h3, h4, _⟩ := hw.reader hs hg hn
  exact ⟨r, h1, h2, h3, h4⟩

theorem packPoints_append {a b : List Point} {sc of : Vec3 Dbl} {x y : Bytes} (ha : packPoints a sc of = .ok x)
    (hb : packPoints b sc of = .ok y) : packPoints (a ++ b) sc of = .ok (x ++ y) := by
  unfold packPoints at *
  obtain ⟨la, h1, h2⟩ := Res.bind_ok_iff.1 ha
  obtain ⟨lb, h3, h4⟩ := Res.bind_ok_iff.1 hb
  have key : ∀ (f : Point → Res Bytes) (a : List Point) (la : List Bytes), Res.mapL f a = .ok la →
      Res.mapL f (a ++ b) = (Res.mapL f b).bind fun l => .ok (la ++ l) := by
    intro f a
    induction a with
    | nil =>
      intro la h
      rw [Res.mapL] at h
      obtain rfl := Res.ok.inj h
      rw [List.nil_append]
      cases Res.mapL f b <;> rfl
    | cons p a ih =>
      intro la h
      rw [Res.mapL] at h
      obtain ⟨v, hv, h⟩ := Res.bind_ok_iff.1 h
      obtain ⟨l, hl, h⟩ := Res.bind_ok_iff.1 h
      obtain rfl := Res.ok.inj h
      rw [List.cons_append, Res.mapL, hv, ih l hl]
      cases Res.mapL f b <;> rfl
  rw [key _ a la h1, h3, Res.okBind, Res.okBind]
  obtain rfl := Res.ok.inj h2
  obtain rfl := Res.ok.inj h4
  rw [List.flatten_append]

theorem chunkCalls_ne {h : List (LazOp × Res Unit)} {op : LazOp} (ho : op ∈ chunkCalls h) (f : Int) (l : Nat) :
    op ≠ .points f l [] := by
  rintro rfl
  unfold chunkCalls at ho
  obtain ⟨⟨o, r⟩, _, e⟩ := List.mem_filterMap.1 ho
  cases o with
  | points f' l' ps =>
    cases ps with
    | nil => cases e
    | cons p ps => cases r <;> simp at e
  | compressed bs c => cases r <;> simp at e
  | close => cases r <;> simp at e

/-- The points of a call. -/
def opPoints : LazOp → List Point
  | .points _ _ ps => ps
  | _ => []

theorem points_gives {hd : LasHeader} (hpos : 0 < hd.recLen.toNat) :
    ∀ {ops : List LazOp} {log : List (Int × Bytes)},
    List.Forall₂ (fun op x => op.Stores L hd x) ops log →
    (∀ op ∈ ops, (∃ f l ps, op = .points f l ps) ∧ opPoints op ≠ []) →
    (∀ p ∈ ops.flatMap opPoints, Reach p ∧ p.recLen = hd.recLen.toNat) → (ops.flatMap opPoints).length < 2 ^ 31 →
    ∃ recss, List.Forall₂ (LazOp.Gives L hd) ops recss ∧
      packPoints (ops.flatMap opPoints) hd.scale hd.offset = .ok recss.flatten.flatten ∧
      recss.flatten.length = (ops.flatMap opPoints).length := by
  intro ops log h1
  induction h1 with
  | nil => intro _ _ _; exact ⟨[], .nil, rfl, rfl⟩
  | @cons op x ops log hs _ ih =>
    intro h2 h3 h4
    rw [List.flatMap_cons, List.length_append] at h4
    obtain ⟨recss, i1, i2, i3⟩ := ih (fun o ho => h2 o (by simp [ho])) (fun p hp => h3 p (by
      rw [List.flatMap_cons]; exact List.mem_append_right _ hp)) (by omega)
    obtain ⟨⟨f, l, ps, rfl⟩, hne⟩ := h2 op (by simp)
    obtain ⟨n, blob⟩ := x
    obtain ⟨bs, eb, recs, t0, t1, rfl, t3, rfl, rfl⟩ := hs
    have hlen := C18_pack_length ps _ (fun p hp => h3 p (by
      rw [List.flatMap_cons]; exact List.mem_append_left _ hp)) _ _ _ t0
    have hlen2 : recs.flatten.length = recs.length * hd.recLen.toNat := by
      rw [List.length_flatten, List.map_congr_left t3, List.map_const', List.sum_replicate_nat]
    have hcount : recs.length = ps.length := Nat.eq_of_mul_eq_mul_right hpos (hlen2.symm.trans hlen)
    have hps : (opPoints (.points f l ps)).length = ps.length := rfl
    have hpp : 0 < ps.length := List.length_pos_iff.2 hne
    refine ⟨recs :: recss, .cons ⟨?_, by omega, t3, t0⟩ i1, ?_, ?_⟩
    · intro e
      rw [e] at hcount
      simp at hcount
      omega
    · rw [List.flatMap_cons, List.flatten_cons, List.flatten_append]
      exact packPoints_append t0 i2
    · rw [List.flatten_cons, List.length_append, i3, List.flatMap_cons, List.length_append, hcount, hps]

/-- The file can be opened, and the first `GetPoints` returns as many points as were given to the calls that
returned, in order, each what the original becomes when stored (`ReadBack`). Records of at most 255 bytes. -/
theorem C55_points (hw : LazWritten L w0 w h data) (hs : w0.cfg.header.recLen.toNat ≤ 255)
    (honly : ∀ op ∈ chunkCalls h, ∃ f l ps, op = .points f l ps)
    (hp : ∀ p ∈ givenPoints h, Reach p ∧ p.fmt = w0.cfg.header.fmt ∧ p.recLen = w0.cfg.header.recLen.toNat)
    (hn : (givenPoints h).length < 2 ^ 31) :
    ∃ r qs, LazReader.init L ⟨data, 0, false⟩ = .ok r ∧ LazReader.getPoints L r = .ok qs ∧
      r.base.las.header.pointCount.toNat = (givenPoints h).length ∧
      List.Forall₂ (ReadBack w0.cfg.header.scale w0.cfg.header.offset) (givenPoints h) qs := by
  obtain ⟨hf, hlen⟩ := hw.shape
  obtain ⟨e1, e2, e3⟩ := ebSize_consistent hf hlen
  have hpos : 0 < w0.cfg.header.recLen.toNat := by
    have : 0 < lasBaseSize w0.cfg.header.fmt := by rcases hf with e | e | e <;> rw [e] <;> decide
    omega
  obtain ⟨_, _, _, log, _, hch, _, _, _, hedit⟩ := hw.done
  have hg : givenPoints h = (chunkCalls h).flatMap opPoints := by
    unfold givenPoints
    congr 1
  rw [hg] at hp hn ⊢
  obtain ⟨recss, g1, g2, g3⟩ := points_gives hpos hch (fun op ho => ⟨honly op ho, by
    obtain ⟨f, l, ps, rfl⟩ := honly op ho
    intro e
    have : ps = [] := e
    subst this
    exact chunkCalls_ne ho f l rfl⟩) (fun p hp' => ⟨(hp p hp').1, (hp p hp').2.2⟩) hn
  obtain ⟨r, r1, r2, r3, r4⟩ := C55_data hw hs g1 (by omega)
  have hbl : baseSize w0.cfg.header.fmt + (w0.cfg.header.recLen.toNat - lasBaseSize w0.cfg.header.fmt) =
      w0.cfg.header.recLen.toNat := e3
  obtain ⟨qs, hq, hall⟩ := C18_roundtrip _ w0.cfg.header.fmt
    (w0.cfg.header.recLen.toNat - lasBaseSize w0.cfg.header.fmt) (by rw [hbl]; have := w0.cfg.header.recLen.toNat_lt; omega)
    hf (fun p hp' => ⟨(hp p hp').1, (hp p hp').2.1, (hp p hp').2.2.trans hbl.symm⟩) (by omega) _ _ _ g2
  have heb : r.base.las.header.ebSize = .ok (w0.cfg.header.recLen.toNat - lasBaseSize w0.cfg.header.fmt) := by
    rw [← e1]
    unfold LasHeader.ebSize
    rw [r2.fmt, r2.recLen, hedit.fmt, hedit.recLen]
  have hfm : r.base.las.header.fmt = w0.cfg.header.fmt := r2.fmt.trans hedit.fmt
  refine ⟨r, qs, r1, ?_, by rw [r3, g3], hall⟩
  unfold LazReader.getPoints
  simp only
  rw [r4, Res.okBind]
  by_cases h0 : recss.flatten.flatten = []
  · rw [if_pos h0, heb, Res.okBind, hfm]
    rw [h0] at hq
    have hl := C18_pack_length _ _ (fun p hp' => ⟨(hp p hp').1, (hp p hp').2.2⟩) _ _ _ g2
    rw [h0] at hl
    have hz : ((chunkCalls h).flatMap opPoints).length = 0 := by
      rcases Nat.mul_eq_zero.1 (show _ * _ = 0 from hl.symm) with h | h
      · exact h
      · omega
    have hz2 := hall.length_eq
    have : qs = [] := List.length_eq_zero_iff.1 (by omega)
    subst this
    unfold Coll.make
    rw [if_neg (by rcases hf with e | e | e <;> rw [e] <;> omega), e2]
    rfl
  · rw [if_neg h0]
    unfold Reader.unpackWith
    rw [heb, Res.okBind, hfm, r2.scale, r2.offset, hedit.scale, hedit.offset]
    exact hq

end

/-! ### The hypotheses can be met -/

theorem lazSample_storable : LazStorable LazSample.w.cfg := by
  refine ⟨⟨by decide +kernel, by decide +kernel, by decide +kernel⟩, ⟨by decide +kernel,
    by decide +kernel, ⟨by decide +kernel, ?_⟩, ⟨by decide +kernel, ?_⟩, ⟨by decide +kernel, ?_⟩⟩,
    by decide +kernel, ?_, by decide +kernel⟩
  · have : LazSample.w.cfg.header.guid = [] := by decide +kernel
    rw [this]; decide
  · have : LazSample.w.cfg.header.systemIdentifier = [] := by decide +kernel
    rw [this]; decide
  · have : LazSample.w.cfg.header.generatingSoftware = [] := by decide +kernel
    rw [this]; decide
  · have : LazSample.w.cfg.eb = [EbField.simple 1 0 []] := by decide +kernel
    rw [this]
    intro f hf
    obtain rfl := List.mem_singleton.1 hf
    exact ⟨by decide, by decide, ⟨by decide, by decide⟩, ⟨by decide, by decide⟩⟩

theorem lazSample_written : LazWritten LazSample.L LazSample.w0 LazSample.w LazSample.hist
    LazSample.closed.base.out.data where
  made := ⟨_, LazSample.made⟩
  history := LazSample.history
  unclosed := LazSample.unclosed
  noneTooLarge := LazSample.noneTooLarge
  closed := ⟨_, LazSample.close_eq, rfl⟩
  storable := lazSample_storable
  size := LazSample.small

theorem zip_maps {α β : Type} : ∀ l : List (α × β), l = (l.map (·.1)).zip (l.map (·.2))
  | [] => rfl
  | (a, b) :: l => by rw [List.map_cons, List.map_cons, List.zip_cons_cons, ← zip_maps l]

theorem lazSample_hist : LazSample.hist = LazSample.ops.zip
    [.ok (), .ok (), .throw .wrongFormat, .throw .zeroCount, .ok (), .ok ()] := by
  rw [zip_maps LazSample.hist, LazSample.outcomes, show LazSample.hist.map (·.1) = [] ++ LazSample.ops from
    LazSample.run_ops LazSample.ops LazSample.w0 []]
  rfl

theorem lazSample_calls : chunkCalls LazSample.hist = [.points 6 31 [LazSample.pt 1, LazSample.pt 5],
    .compressed (List.replicate 31 4) 1, .points 6 31 [LazSample.pt (-8)]] := by
  rw [lazSample_hist]
  rfl

/-- The records of the sample. -/
def lazSampleRecs (ps : List Point) : List Bytes :=
  Lazperf.pieces 31 ps.length (match packPoints ps LazSample.w0.cfg.header.scale LazSample.w0.cfg.header.offset with
    | .ok bs => bs
    | _ => [])

theorem lazSample_points1 : LazOp.Gives LazSample.L LazSample.w0.cfg.header (.points 6 31 [LazSample.pt 1, LazSample.pt 5])
    (lazSampleRecs [LazSample.pt 1, LazSample.pt 5]) :=
  ⟨by decide +kernel, by decide +kernel, by decide +kernel, by
    show packPoints _ _ _ = _
    decide +kernel⟩

theorem lazSample_points2 : LazOp.Gives LazSample.L LazSample.w0.cfg.header (.points 6 31 [LazSample.pt (-8)])
    (lazSampleRecs [LazSample.pt (-8)]) :=
  ⟨by decide +kernel, by decide +kernel, by decide +kernel, by
    show packPoints _ _ _ = _
    decide +kernel⟩

theorem lazSample_compressed : LazOp.Gives LazSample.L LazSample.w0.cfg.header (.compressed (List.replicate 31 4) 1)
    [List.replicate 31 4] :=
  ⟨by decide, by decide, by decide +kernel, rfl, 1, by decide +kernel, by decide +kernel⟩

/-- A history with calls that write points, write compressed data, are ignored and are rejected. -/
example : LazWritten LazSample.L LazSample.w0 LazSample.w LazSample.hist LazSample.closed.base.out.data ∧
    LazSample.w0.cfg.header.recLen.toNat ≤ 255 ∧
    List.Forall₂ (LazOp.Gives LazSample.L LazSample.w0.cfg.header) (chunkCalls LazSample.hist)
      [lazSampleRecs [LazSample.pt 1, LazSample.pt 5], [List.replicate 31 4], lazSampleRecs [LazSample.pt (-8)]] := by
  refine ⟨lazSample_written, by decide +kernel, ?_⟩
  rw [lazSample_calls]
  exact .cons lazSample_points1 (.cons lazSample_compressed (.cons lazSample_points2 .nil))

namespace LazSample

/-- A history with points only. -/
def opsP : List LazOp := [.points 6 31 [pt 1, pt 5], .points 7 37 [pt 1], .points 6 31 [], .points 6 31 [pt (-8)]]
def histP : List (LazOp × Res Unit) := (run L opsP w0 []).1
def wP : LazWriter := (run L opsP w0 []).2
def closedP : LazWriter := (LazWriter.close L wP).2

theorem outcomesP : histP.map (·.2) = [.ok (), .throw .wrongFormat, .ok (), .ok ()] := by decide +kernel

theorem histP_eq : histP = opsP.zip [.ok (), .throw .wrongFormat, .ok (), .ok ()] := by
  rw [zip_maps histP, outcomesP, show histP.map (·.1) = [] ++ opsP from run_ops opsP w0 []]
  rfl

theorem historyP : LazHistory L w0 histP wP :=
  run_history opsP w0 [] .start (by
    intro x hx
    have hm : x.2 ∈ histP.map (·.2) := List.mem_map_of_mem hx
    rw [outcomesP] at hm
    intro he
    rw [he] at hm
    simp at hm)

theorem closesP : (LazWriter.close L wP).1 = .ok () := by decide +kernel

theorem close_eqP : LazWriter.close L wP = (.ok (), closedP) := Prod.ext closesP rfl

theorem unclosedP : LazUnclosed histP := by
  intro x hx
  have hm : x.1 ∈ histP.map (·.1) := List.mem_map_of_mem hx
  rw [show histP.map (·.1) = [] ++ opsP from run_ops opsP w0 []] at hm
  intro he
  rw [he] at hm
  simp [opsP] at hm

theorem smallP : closedP.base.out.data.length < 2 ^ 63 := by decide +kernel

theorem storableP : wP.cfg = w.cfg := by
  have h1 : wP.cfg.header = w.cfg.header := by decide +kernel
  have h2 : wP.cfg.wkt = w.cfg.wkt := by decide +kernel
  have h3 : wP.cfg.eb = w.cfg.eb := by decide +kernel
  cases h : wP.cfg
  cases h' : w.cfg
  rw [h, h'] at h1 h2 h3
  simp only at h1 h2 h3
  rw [h1, h2, h3]

theorem writtenP : LazWritten L w0 wP histP closedP.base.out.data where
  made := ⟨_, made⟩
  history := historyP
  unclosed := unclosedP
  noneTooLarge := by
    intro x hx
    have hm : x.2 ∈ histP.map (·.2) := List.mem_map_of_mem hx
    rw [outcomesP] at hm
    intro he
    rw [he] at hm
    simp at hm
  closed := ⟨_, close_eqP, rfl⟩
  storable := by rw [storableP]; exact lazSample_storable
  size := smallP

theorem setExtra_nine {p : Point} (h1 : p.fmt = 6) (h2 : p.recLen = 31) :
    p.setExtraBytes [9] = .ok { p with extra := [9] } := by
  have h : p.ebByteSize = .ok 1 := by
    unfold Point.ebByteSize
    rw [h1, h2]
    decide
  unfold Point.setExtraBytes
  rw [h]
  rfl

theorem pt_reach (x : Int) : Reach (pt x) ∧ (pt x).fmt = 6 ∧ (pt x).recLen = 31 := by
  have h0 : Point.make 6 1 = .ok (Point.fresh 6 1) := by decide +kernel
  have e0 : Sample.getOk (Point.make 6 1) = Point.fresh 6 1 := by rw [h0]; rfl
  have h1 : Reach (Point.fresh 6 1) := Reach.make (fmt := 6) (eb := 1) (by decide) h0
  have h2 := (((h1.setter (Setter.setX _ (Flt.ofInt x))).setter (Setter.setY _ (Flt.ofInt 2))).setter
    (Setter.setZ _ (Flt.ofInt (-3)))).setter (Setter.setIntensity _ 77)
  have e : pt x = { (((Point.fresh 6 1).setX (Flt.ofInt x)).setY (Flt.ofInt 2)).setZ (Flt.ofInt (-3)) |>.setIntensity 77 with extra := [9] } := by
    unfold pt
    rw [e0]
    rfl
  have h3 : ((((Point.fresh 6 1).setX (Flt.ofInt x)).setY (Flt.ofInt 2)).setZ (Flt.ofInt (-3)) |>.setIntensity 77).setExtraBytes [9] =
      .ok (pt x) := by
    rw [e]
    exact setExtra_nine rfl rfl
  refine ⟨h2.setter (Setter.setExtraBytes [9] h3), ?_, ?_⟩
  · rw [e]; rfl
  · rw [e]; rfl

end LazSample

/-- A history of points. -/
example : LazWritten LazSample.L LazSample.w0 LazSample.wP LazSample.histP LazSample.closedP.base.out.data ∧
    (∀ op ∈ chunkCalls LazSample.histP, ∃ f l ps, op = .points f l ps) ∧
    givenPoints LazSample.histP = [LazSample.pt 1, LazSample.pt 5, LazSample.pt (-8)] ∧
    (∀ p ∈ givenPoints LazSample.histP, Reach p ∧ p.fmt = LazSample.w0.cfg.header.fmt ∧
      p.recLen = LazSample.w0.cfg.header.recLen.toNat) := by
  have hc : chunkCalls LazSample.histP = [.points 6 31 [LazSample.pt 1, LazSample.pt 5], .points 6 31 [LazSample.pt (-8)]] := by
    rw [LazSample.histP_eq]; rfl
  have hg : givenPoints LazSample.histP = [LazSample.pt 1, LazSample.pt 5, LazSample.pt (-8)] := by
    unfold givenPoints; rw [hc]; rfl
  refine ⟨LazSample.writtenP, ?_, hg, ?_⟩
  · rw [hc]; simp
  · rw [hg]
    have h1 : LazSample.w0.cfg.header.fmt = 6 := by decide +kernel
    have h2 : LazSample.w0.cfg.header.recLen.toNat = 31 := by decide +kernel
    rw [h1, h2]
    intro p hp
    simp only [List.mem_cons, List.not_mem_nil, or_false] at hp
    rcases hp with rfl | rfl | rfl <;> exact LazSample.pt_reach _

end Copc
