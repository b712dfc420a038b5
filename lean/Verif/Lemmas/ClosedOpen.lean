import Verif.Lemmas.ClosedRead
/-! # Opening a closed file -/
namespace Copc
open Spec

/-- The extents as read back. -/
def Extents.restored (e : Extents) : Extents :=
  if e.extStats then e else { e with extents := e.extents.map (fun x => ⟨x.minimum, x.maximum, Flt.zero, Extent.one⟩) }

/-- The header as read back. -/
def LasHeader.restored (h : LasHeader) (r : Header14) : LasHeader :=
  { h with
    globalEncoding := h.globalEncoding ||| 16
    pointCount := r.pointCount14
    pointOffset := r.pointOffset
    evlrOffset := r.evlrOffset
    evlrCount := r.evlrCount
    vlrCount := r.vlrCount
    copcFlag := true }

section
variable {data : Bytes} {h14 : Header14} {L : Lazperf} {c : CopcConfig} {eb : Nat} {gps : Extent} {es : List VRec}

/-- Where the WKT string is. -/
def WktIn (wkt : Bytes) (es : List VRec) : Prop :=
  (∀ v ∈ es, v.Is idProj 2112 → v.payload = wkt) ∧ ((∀ v ∈ es, ¬v.Is idProj 2112) → wkt = [])

theorem find_split {α : Type} (p : α → Prop) [DecidablePred p] : ∀ l : List α, (∃ a ∈ l, p a) →
    ∃ l1 a l2, l = l1 ++ a :: l2 ∧ p a ∧ ∀ b ∈ l1, ¬p b
  | [], h => by obtain ⟨_, h, _⟩ := h; cases h
  | a :: l, h => by
    by_cases ha : p a
    · exact ⟨[], a, l, rfl, ha, by simp⟩
    · obtain ⟨l1, b, l2, h1, h2, h3⟩ := find_split p l (by
        obtain ⟨b, hb, hpb⟩ := h
        rcases List.mem_cons.1 hb with rfl | hb
        · exact absurd hpb ha
        · exact ⟨b, hb, hpb⟩)
      refine ⟨a :: l1, b, l2, by rw [h1]; rfl, h2, ?_⟩
      intro x hx
      rcases List.mem_cons.1 hx with rfl | hx
      · exact ha
      · exact h3 x hx

theorem copcRecs_wkt : ∀ w ∈ copcRecs L c eb gps, ¬w.Is idProj 2112 := by
  intro w hw
  have hne : ∀ u, u ≠ idProj → w.user = u → ¬w.Is idProj 2112 := fun u h1 h2 h3 => h1 (h2.symm.trans h3.1)
  unfold copcRecs statRecs lazRecs at hw
  simp only [List.mem_cons, List.mem_append] at hw
  rcases hw with rfl | rfl | hw | hw | hw | hw
  · exact hne idCopc (by decide) rfl
  · exact hne idCopc (by decide) rfl
  · split at hw
    · obtain rfl := List.mem_singleton.1 hw
      exact hne idRock (by decide) rfl
    · cases hw
  · split at hw
    · obtain rfl := List.mem_singleton.1 hw
      exact hne idSpec (by decide) rfl
    · cases hw
  · subst hw
    exact hne idLaz (by decide) rfl
  · cases hw

theorem readWkt_good (h : RecFile data h14 (copcRecs L c eb gps) es) {wkt : Bytes} (hw : WktIn wkt es)
    (hl : wkt.length < 2 ^ 31) (p : Nat) :
    ∃ q, BaseReader.readWkt (RecFile.table h14 (copcRecs L c eb gps) es) ⟨data, p, false⟩ =
      (.ok wkt, ⟨data, q, false⟩) := by
  by_cases hx : ∃ v ∈ es, v.Is idProj 2112
  · obtain ⟨l1, v, l2, hes, hv, hl1⟩ := find_split (fun v : VRec => v.Is idProj 2112) es hx
    subst hes
    have hpay : v.payload = wkt := hw.1 v (by simp) hv
    obtain ⟨pre, rest, hd, hpre⟩ := h.split_evlr
    have hap := h.apart
    unfold BaseReader.readWkt
    rw [h.fetch_evlr copcRecs_wkt hl1 hv]
    simp only
    rw [h.length_evlr (by rw [hpay]; exact hl), if_pos (by omega), BaseReader.readPayload, if_neg (by omega), Int.toNat_natCast,
      readFilled_at hd h.len hpre.symm p rfl, hpay]
    exact ⟨_, rfl⟩
  · simp only [not_exists, not_and] at hx
    unfold BaseReader.readWkt
    rw [h.fetch_none copcRecs_wkt hx]
    simp only [ne_eq, not_true_eq_false, if_false]
    exact ⟨p, by rw [hw.2 hx]⟩

theorem readEb_good (h : RecFile data h14 (copcRecs L c eb gps) es) (hes : ∀ v ∈ es, ¬v.Is idSpec 4)
    (heb : eb > 0 ↔ c.eb ≠ []) (hok : ∀ f ∈ c.eb, EbOk f) (p : Nat) :
    ∃ q, BaseReader.readEb (RecFile.table h14 (copcRecs L c eb gps) es) ⟨data, p, false⟩ =
      (.ok c.eb, ⟨data, q, false⟩) := by
  have hpre1 : ∀ w ∈ (⟨false, idCopc, 1, BaseW.descInfo, c.info.encode gps⟩ :: 
      ⟨false, idCopc, 10000, BaseW.descExtents, Extents.putItems c.extents.toVlr⟩ :: statRecs c : List VRec), ¬w.Is idSpec 4 := by
    intro w hw
    have hne : ∀ u, u ≠ idSpec → w.user = u → ¬w.Is idSpec 4 := fun u h1 h2 h3 => h1 (h2.symm.trans h3.1)
    simp only [List.mem_cons] at hw
    rcases hw with rfl | rfl | hw
    · exact hne idCopc (by decide) rfl
    · exact hne idCopc (by decide) rfl
    · unfold statRecs at hw
      split at hw
      · obtain rfl := List.mem_singleton.1 hw
        exact hne idRock (by decide) rfl
      · cases hw
  have hlaz : ¬(VRec.mk false idLaz 22204 BaseW.descLaz (L.lazVlr c.header.fmt eb)).Is idSpec 4 := by
    intro hc
    exact absurd (show idLaz = idSpec from hc.1) (by decide)
  by_cases he : eb > 0
  · have hrec : copcRecs L c eb gps = (⟨false, idCopc, 1, BaseW.descInfo, c.info.encode gps⟩ :: 
        ⟨false, idCopc, 10000, BaseW.descExtents, Extents.putItems c.extents.toVlr⟩ :: statRecs c) ++
        ⟨false, idSpec, 4, [], putEb c.eb⟩ :: [⟨false, idLaz, 22204, BaseW.descLaz, L.lazVlr c.header.fmt eb⟩] := by
      unfold copcRecs lazRecs
      rw [if_pos he]
      rfl
    rw [hrec] at h ⊢
    generalize (⟨false, idCopc, 1, BaseW.descInfo, c.info.encode gps⟩ :: 
        ⟨false, idCopc, 10000, BaseW.descExtents, Extents.putItems c.extents.toVlr⟩ :: statRecs c : List VRec) = l at *
    obtain ⟨pre, rest, hd, hpre⟩ := h.split_vlr
    unfold BaseReader.readEb
    rw [h.fetch_vlr hpre1 ⟨rfl, rfl⟩]
    simp only
    rw [h.length_vlr, if_pos (by omega), BaseReader.readPayload, if_neg (by omega), Int.toNat_natCast,
      readFilled_at hd h.len hpre.symm p rfl]
    simp only [Res.bind, getEb_putEb hok]
    exact ⟨_, rfl⟩
  · have hnil : c.eb = [] := by
      by_contra hc
      exact he (heb.2 hc)
    have : ∀ w ∈ copcRecs L c eb gps, ¬w.Is idSpec 4 := by
      intro w hw
      unfold copcRecs lazRecs at hw
      rw [if_neg he, List.nil_append] at hw
      rw [← List.cons_append, ← List.cons_append] at hw
      rcases List.mem_append.1 hw with hw | hw
      · exact hpre1 w hw
      · rw [List.mem_singleton.1 hw]; exact hlaz
    unfold BaseReader.readEb
    rw [h.fetch_none this hes]
    simp only [ne_eq, not_true_eq_false, if_false]
    exact ⟨p, by rw [hnil]⟩

theorem readInfo_good (h : RecFile data h14 (copcRecs L c eb gps) es) (p : Nat) :
    BaseReader.fetchVlr (RecFile.table h14 (copcRecs L c eb gps) es) idCopc 1 = 375 ∧
    ∃ q, Reader.readInfo (RecFile.table h14 (copcRecs L c eb gps) es) ⟨data, p, false⟩ =
      (.ok c.info, ⟨data, q, false⟩) := by
  have hrec : copcRecs L c eb gps = [] ++ ⟨false, idCopc, 1, BaseW.descInfo, c.info.encode gps⟩ :: 
      (⟨false, idCopc, 10000, BaseW.descExtents, Extents.putItems c.extents.toVlr⟩ ::
        (statRecs c ++ lazRecs L c.toLazConfig eb)) := rfl
  rw [hrec] at h ⊢
  generalize (⟨false, idCopc, 10000, BaseW.descExtents, Extents.putItems c.extents.toVlr⟩ ::
        (statRecs c ++ lazRecs L c.toLazConfig eb) : List VRec) = m at *
  obtain ⟨pre, rest, hd, hpre⟩ := h.split_vlr
  have hf := h.fetch_vlr (user := idCopc) (id := 1) (by simp) ⟨rfl, rfl⟩
  rw [vsize_nil, Nat.add_zero] at hf
  refine ⟨hf, ?_⟩
  unfold Reader.readInfo
  rw [hf]
  simp only [ne_eq, not_true_eq_false, if_false]
  rw [if_neg (by omega), readFilled_at hd h.len (by rw [hpre]; rfl) p (length_info _ _).symm]
  simp only [info_decode]
  exact ⟨_, rfl⟩

theorem readItems_good {vs : List VRec} (h : RecFile data h14 vs es) {l m : List VRec} {v : VRec}
    (hvs : vs = l ++ v :: m) {items : List (Dbl × Dbl)} (hv : v.payload = Extents.putItems items) (p : Nat) :
    ∃ q, Reader.readExtentItems (RecFile.table h14 vs es) (375 + vsize l) ⟨data, p, false⟩ =
      (Extents.getItems (Extents.putItems items).length (Extents.putItems items), ⟨data, q, false⟩) := by
  subst hvs
  obtain ⟨pre, rest, hd, hpre⟩ := h.split_vlr
  have hl : v.payload.length = 16 * items.length := by rw [hv, length_putItems]
  unfold Reader.readExtentItems
  rw [h.length_vlr]
  simp only [Int.toNat_natCast]
  rw [read_at hd h.len hpre.symm p (by rw [hl, Nat.mul_div_cancel_left _ (by omega)])]
  simp only [hv]
  exact ⟨_, rfl⟩

theorem readExtents_good (h : RecFile data h14 (copcRecs L c eb gps) es)
    (hes : ∀ v ∈ es, ¬v.Is idRock 10001) (hg : GoodExtents c.extents c.eb.length)
    (ho : ∀ x ∈ c.extents.extents, Ordered x) (hlt : c.eb.length < 65536) (p : Nat) :
    ∃ q, Reader.readExtents c.extents.fmt (RecFile.table h14 (copcRecs L c eb gps) es) c.eb ⟨data, p, false⟩ =
      (.ok c.extents.restored, ⟨data, q, false⟩) := by
  obtain ⟨items, r, g1, g2, g3, g4, g5, g6⟩ := C22_roundtrip c.extents c.eb.length hg ho [] []
  simp only [List.append_nil] at g1 g6
  have hmod : c.eb.length % 65536 = c.eb.length := Nat.mod_eq_of_lt hlt
  have hrec : copcRecs L c eb gps = [⟨false, idCopc, 1, BaseW.descInfo, c.info.encode gps⟩] ++ 
      ⟨false, idCopc, 10000, BaseW.descExtents, Extents.putItems c.extents.toVlr⟩ ::
        (statRecs c ++ lazRecs L c.toLazConfig eb) := rfl
  have hf1 : BaseReader.fetchVlr (RecFile.table h14 (copcRecs L c eb gps) es) idCopc 10000 =
      375 + vsize [⟨false, idCopc, 1, BaseW.descInfo, c.info.encode gps⟩] := by
    have h' := h
    rw [hrec] at h' ⊢
    refine h'.fetch_vlr ?_ ⟨rfl, rfl⟩
    intro w hw hc
    rw [List.mem_singleton.1 hw] at hc
    exact absurd (show (1 : UInt16) = 10000 from hc.2) (by decide)
  obtain ⟨q1, i1⟩ := readItems_good h hrec (items := c.extents.toVlr) rfl p
  have hlaz : ∀ w ∈ lazRecs L c.toLazConfig eb, ¬w.Is idRock 10001 := by
    intro w hw
    have hne : ∀ u, u ≠ idRock → w.user = u → ¬w.Is idRock 10001 := fun u h1 h2 h3 => h1 (h2.symm.trans h3.1)
    unfold lazRecs at hw
    rcases List.mem_append.1 hw with hw | hw
    · split at hw
      · exact hne idSpec (by decide) (by rw [List.mem_singleton.1 hw])
      · cases hw
    · exact hne idLaz (by decide) (by rw [List.mem_singleton.1 hw])
  have hfirst : ∀ w ∈ [(⟨false, idCopc, 1, BaseW.descInfo, c.info.encode gps⟩ : VRec),
      ⟨false, idCopc, 10000, BaseW.descExtents, Extents.putItems c.extents.toVlr⟩], ¬w.Is idRock 10001 := by
    intro w hw hc
    have : w.user = idCopc := by
      rcases List.mem_cons.1 hw with rfl | hw
      · rfl
      · rw [List.mem_singleton.1 hw]
    exact absurd (this.symm.trans hc.1) (by decide)
  unfold Reader.readExtents
  rw [hf1]
  simp only
  rw [if_pos (by omega), i1]
  simp only [g1, Res.bind, hmod]
  cases hx : c.extents.extStats with
  | true =>
    have hrec2 : copcRecs L c eb gps = [⟨false, idCopc, 1, BaseW.descInfo, c.info.encode gps⟩,
        ⟨false, idCopc, 10000, BaseW.descExtents, Extents.putItems c.extents.toVlr⟩] ++
        ⟨false, idRock, 10001, BaseW.descStats, Extents.putItems c.extents.toVlrExtended⟩ :: lazRecs L c.toLazConfig eb := by
      unfold copcRecs statRecs
      rw [hx]; rfl
    have hf2 : BaseReader.fetchVlr (RecFile.table h14 (copcRecs L c eb gps) es) idRock 10001 =
        375 + vsize [⟨false, idCopc, 1, BaseW.descInfo, c.info.encode gps⟩,
          ⟨false, idCopc, 10000, BaseW.descExtents, Extents.putItems c.extents.toVlr⟩] := by
      have h' := h
      rw [hrec2] at h' ⊢
      exact h'.fetch_vlr hfirst ⟨rfl, rfl⟩
    obtain ⟨q2, i2⟩ := readItems_good h hrec2 (items := c.extents.toVlrExtended) rfl q1
    obtain ⟨items', k1, k2⟩ := g6 hx
    have hne : 375 + vsize [(⟨false, idCopc, 1, BaseW.descInfo, c.info.encode gps⟩ : VRec),
          ⟨false, idCopc, 10000, BaseW.descExtents, Extents.putItems c.extents.toVlr⟩] ≠ 0 := by omega
    rw [hf2]
    rw [hx] at g2
    simp only [hne, ne_eq, not_false_eq_true, decide_true, if_true, g2, i2, k1, k2]
    refine ⟨q2, ?_⟩
    unfold Extents.restored
    rw [hx, if_pos rfl]
  | false =>
    have hf2 : BaseReader.fetchVlr (RecFile.table h14 (copcRecs L c eb gps) es) idRock 10001 = 0 := by
      refine h.fetch_none ?_ hes
      intro w hw
      unfold copcRecs statRecs at hw
      rw [hx] at hw
      simp only [Bool.false_eq_true, if_false, List.nil_append] at hw
      have hw' : w ∈ [(⟨false, idCopc, 1, BaseW.descInfo, c.info.encode gps⟩ : VRec),
        ⟨false, idCopc, 10000, BaseW.descExtents, Extents.putItems c.extents.toVlr⟩] ++ lazRecs L c.toLazConfig eb := hw
      rcases List.mem_append.1 hw' with h1 | h1
      · exact hfirst w h1
      · exact hlaz w h1
    rw [hf2]
    rw [hx] at g2 g4
    simp only [ne_eq, not_true_eq_false, decide_false, if_false, g2]
    refine ⟨q1, ?_⟩
    unfold Extents.restored
    rw [hx, if_neg (by simp)]
    congr 2
    cases r
    simp only at g3 g4 g5
    subst g3 g4 g5
    rw [← hx]

end

theorem Spec.Storable.goodExtents {c : CopcConfig} (h : Storable c) : GoodExtents c.extents c.eb.length where
  fmt := by rw [h.extentsFmt]; exact h.fmt
  number := by rw [h.extentsFmt]; exact h.extents

theorem restored_copy {e : Extents} (h : ∀ x ∈ e.extents, Ordered x ∧ VarOk x) : e.restored.copy = .ok e.restored := by
  have key : ∀ l : List Extent, (∀ x ∈ l, Ordered x ∧ VarOk x) → Res.mapL Extent.copy l = .ok l := by
    intro l
    induction l with
    | nil => intro _; rfl
    | cons a l ih =>
      intro hl
      rw [Res.mapL, C24_copy, if_pos (hl a (by simp)), ih fun x hx => hl x (by simp [hx])]
      rfl
  have hone : ∀ mn mx : Dbl, VarOk ⟨mn, mx, Flt.zero, Extent.one⟩ := by
    intro mn mx
    rw [varOk_iff]
    show Flt.lt' Extent.one Flt.zero = false
    decide +kernel
  unfold Extents.copy Extents.restored
  split
  · rw [key _ h]; rfl
  · rw [key]
    · rfl
    · intro x hx
      obtain ⟨y, hy, rfl⟩ := List.mem_map.1 hx
      exact ⟨(h y hy).1, hone _ _⟩

/-- Opening a file made of the records of a COPC file. -/
theorem init_good {data : Bytes} {h14 : Header14} {L : Lazperf} {c : CopcConfig} {eb : Nat} {gps : Extent}
    {es : List VRec} (h : RecFile data h14 (copcRecs L c eb gps) es) (hs : Storable c)
    (hhd : LasHeader.fromLazPerf (stripFormat h14) = .ok (c.header.restored h14)) (hw : WktIn c.wkt es)
    (heb : eb > 0 ↔ c.eb ≠ []) (hes : ∀ v ∈ es, ¬v.Is idSpec 4 ∧ ¬v.Is idRock 10001)
    (hpage : ∃ v ∈ es, v.Is idCopc 1000) :
    ∃ q, Reader.init ⟨data, 0, false⟩ = .ok ⟨⟨⟨data, q, false⟩, RHier.make c.info.rootHierOffset c.info.rootHierSize⟩,
      RecFile.table h14 (copcRecs L c eb gps) es,
      { header := c.header.restored h14, wkt := c.wkt, eb := c.eb, info := c.info, extents := c.extents.restored }⟩ := by
  obtain ⟨q1, r1⟩ := h.readHeaders 0
  obtain ⟨q2, r2⟩ := readWkt_good h hw hs.wktLen q1
  obtain ⟨q3, r3⟩ := readEb_good h (fun v hv => (hes v hv).1) heb hs.descriptors q2
  obtain ⟨hf1, q4, r4⟩ := readInfo_good h q3
  obtain ⟨q5, r5⟩ := readExtents_good h (fun v hv => (hes v hv).2) hs.goodExtents (fun x hx => (hs.ordered x hx).1)
    (by have := hs.few; omega) q4
  have hb : BaseReader.init ⟨data, 0, false⟩ = .ok ⟨⟨data, q3, false⟩, stripFormat h14,
      RecFile.table h14 (copcRecs L c eb gps) es, ⟨c.header.restored h14, c.wkt, c.eb⟩⟩ := by
    unfold BaseReader.init
    rw [if_neg (by simp), h.readHeader]
    simp only [Res.bind]
    rw [hhd]
    simp only [r1, r2, r3]
  have hf2 : BaseReader.fetchVlr (RecFile.table h14 (copcRecs L c eb gps) es) idCopc 1000 ≠ 0 := by
    by_cases hv : ∃ v ∈ copcRecs L c eb gps, v.Is idCopc 1000
    · obtain ⟨l1, v, l2, e, hv, hl⟩ := find_split (fun v : VRec => v.Is idCopc 1000) _ hv
      rw [e] at h ⊢
      rw [h.fetch_vlr hl hv]
      omega
    · simp only [not_exists, not_and] at hv
      obtain ⟨l1, v, l2, e, hv', hl⟩ := find_split (fun v : VRec => v.Is idCopc 1000) _ hpage
      subst e
      rw [h.fetch_evlr hv hl hv']
      have := h.apart
      omega
  refine ⟨q5, ?_⟩
  unfold Reader.init
  rw [hb]
  simp only [Res.bind]
  unfold Reader.initCopc
  simp only
  have hfm : (c.header.restored h14).fmt = c.extents.fmt := hs.extentsFmt.symm
  rw [if_neg (by rw [hf1]; omega), r4]
  simp only [Res.bind]
  rw [hfm, r5]
  simp only
  unfold CopcConfig.ofParts
  rw [restored_copy hs.ordered]
  rfl

/-- **The configuration** read back from a closed file. -/
theorem CloseOk.init {L : Lazperf} {ord : Order} {otpd : Nat} {log : List (Nat × Bytes)} {w w' : Writer}
    {hier : List (VoxelKey × VoxelKey)} {eb : Nat} {h14 : Header14} {gps : Extent}
    (h : CloseOk L ord otpd log w w' hier eb h14 gps) (hp : PageInv w) (hs : Storable w.cfg)
    (hflag : w.cfg.header.copcFlag = true) (hlen : w'.base.out.data.length < 2 ^ 63)
    (hfew : w.pages.length + 1 < 2 ^ 31) :
    ∃ q vlrs, Reader.init ⟨w'.base.out.data, 0, false⟩ =
      .ok ⟨⟨⟨w'.base.out.data, q, false⟩, RHier.make w'.cfg.info.rootHierOffset w'.cfg.info.rootHierSize⟩, vlrs,
        { header := w.cfg.header.restored h14
          wkt := w.cfg.wkt
          eb := w.cfg.eb
          info := w'.cfg.info
          extents := w.cfg.extents.restored }⟩ := by
  obtain ⟨_, _, _, _, _, _, hcfg, _, _⟩ := h.closed
  obtain ⟨hc1, hc2⟩ := closedCfg_facts L ord otpd log hier w
  rw [← hcfg] at hc1 hc2
  have hsum := sum_pos hs.items
  have hebs : eb = (w.cfg.eb.map lasItemSize).sum := by
    have := h.eb_ok
    rw [hs.eb.1] at this
    exact (Res.ok.inj this).symm
  have hbase : baseDims w.cfg.header.fmt ≤ 18 := by rcases hs.fmt with e | e | e <;> rw [e] <;> decide
  have hfew2 := hs.few
  have hrf := h.recFile hp hs.header.byReturn hs.few (by have := hs.extents; omega) hflag hlen hfew
  have hs' : Storable w'.cfg := by
    refine ⟨⟨?_, ?_, ?_, ?_⟩, ?_, ?_, ?_, ?_, ?_, ?_⟩
    · rw [hc1]; exact hs.fmt
    · rw [hc1]; exact hs.len
    · rw [hc1]; exact hs.items
    · rw [hc1, hc2]; exact hs.extents
    · rw [hc1]; exact hs.header
    · rw [hc1, hc2]; exact hs.extentsFmt
    · rw [hc2]; exact hs.ordered
    · rw [hc1]; exact hs.few
    · rw [hc1]; exact hs.descriptors
    · rw [hc1]; exact hs.wktLen
  obtain ⟨hpl, hpf⟩ := pageRecs_facts ord w.pages hier
    (Writer.visit ord hier (Writer.levels w.pages) VoxelKey.root) (otpd + (bodyBytes L otpd log).length) []
  have huser : ∀ v ∈ evRecs L ord otpd log hier w, (v.user = idCopc ∧ v.id = 1000) ∨
      (w.cfg.wkt ≠ [] ∧ v = ⟨true, idProj, 2112, [], w.cfg.wkt⟩) := by
    intro v hv
    rw [evRecs] at hv
    rcases List.mem_append.1 hv with hv | hv
    · exact .inl ⟨(hpf v hv).2.1, (hpf v hv).2.2.1⟩
    · unfold wktRecs at hv
      split at hv
      · cases hv
      · exact .inr ⟨by assumption, List.mem_singleton.1 hv⟩
  have hwkt : WktIn w'.cfg.wkt (evRecs L ord otpd log hier w) := by
    rw [hc1]
    refine ⟨?_, ?_⟩
    · intro v hv hc
      rcases huser v hv with ⟨h1, _⟩ | ⟨_, rfl⟩
      · exact absurd (h1.symm.trans hc.1) (by decide)
      · rfl
    · intro hall
      by_contra hne
      refine hall ⟨true, idProj, 2112, [], w.cfg.wkt⟩ ?_ ⟨rfl, rfl⟩
      rw [evRecs, wktRecs, if_neg hne]
      simp
  have hes : ∀ v ∈ evRecs L ord otpd log hier w, ¬v.Is idSpec 4 ∧ ¬v.Is idRock 10001 := by
    intro v hv
    rcases huser v hv with ⟨h1, _⟩ | ⟨_, rfl⟩
    · exact ⟨fun hc => absurd (h1.symm.trans hc.1) (by decide), fun hc => absurd (h1.symm.trans hc.1) (by decide)⟩
    · exact ⟨fun hc => absurd (show idProj = idSpec from hc.1) (by decide),
        fun hc => absurd (show idProj = idRock from hc.1) (by decide)⟩
  have hpage : ∃ v ∈ evRecs L ord otpd log hier w, v.Is idCopc 1000 := by
    have hvl := h.visit_length hp
    have hpos : 0 < w.pages.length := by
      have := hp.root
      unfold AList.keys at this
      obtain ⟨x, hx, _⟩ := List.mem_map.1 this
      exact List.length_pos_of_mem hx
    rw [evRecs]
    cases hr : pageRecs ord w.pages hier (otpd + (bodyBytes L otpd log).length) []
        (Writer.visit ord hier (Writer.levels w.pages) VoxelKey.root) with
    | nil => rw [hr] at hpl; simp only [List.length_nil] at hpl; omega
    | cons v l =>
      rw [hr] at hpf
      have := hpf v (by simp)
      exact ⟨v, by simp, this.2.1, this.2.2.1⟩
  obtain ⟨r14, hr1, hr2, hr3⟩ := C19_roundtrip_partial w.cfg.header hs.header (UInt32.ofNat otpd) (UInt64.ofNat w.base.pointCount)
      (UInt64.ofNat (preHeader L ord otpd log hier w).base.evlrOffset)
      (UInt32.ofNat (preHeader L ord otpd log hier w).base.evlrCount) (eb ≠ 0)
      w.cfg.extents.extStats (fun _ => hflag)
  have hr14 : r14 = h14 := by
    have := h.header
    rw [hr1] at this
    exact Res.ok.inj this
  subst hr14
  have hhd : LasHeader.fromLazPerf (stripFormat r14) = .ok (w'.cfg.header.restored r14) := by
    have := hr3 []
    rw [Header14.decode_encode hrf.sized] at this
    rw [this, hc1]
    unfold LasHeader.toLazPerf at hr1
    rw [hflag] at hr1
    simp only [Bool.not_true, Bool.and_false, Bool.false_eq_true, if_false] at hr1
    obtain rfl := Res.ok.inj hr1
    rfl
  obtain ⟨q, hq⟩ := init_good hrf hs' hhd hwkt (by
    rw [hebs, hc1]
    constructor
    · intro hgt hc
      rw [hc] at hgt
      simp at hgt
    · intro hne
      have := List.length_pos_iff.2 hne
      omega) hes hpage
  rw [hc1, hc2] at hq
  exact ⟨q, _, hq⟩

end Copc
