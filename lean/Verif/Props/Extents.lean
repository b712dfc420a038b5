import Verif.Lemmas.Extents
/-! # C22–C24: extents -/
namespace Copc
open Spec

/-- **C24** Construction from values succeeds exactly when `minimum <= maximum` and `variance >= 0`
(NaN passes every test) and keeps the values. -/
theorem C24_constructor (mn mx mean var : Dbl) :
    Extent.make mn mx mean var =
      (open Classical in if Ordered ⟨mn, mx, mean, var⟩ ∧ VarOk ⟨mn, mx, mean, var⟩
        then .ok ⟨mn, mx, mean, var⟩ else .throw .extentOrder) := by
  unfold Extent.make
  rw [ordered_iff, varOk_iff]
  cases Flt.lt' mx mn <;> cases Flt.lt' var Flt.zero <;> simp

/-- **C24** The same for copies: an extent that fails the tests cannot be copied. -/
theorem C24_copy (x : Extent) : Extent.copy x =
    (open Classical in if Ordered x ∧ VarOk x then .ok x else .throw .extentOrder) := by
  unfold Extent.copy
  rw [ordered_iff, varOk_iff]
  cases Flt.lt' x.maximum x.minimum <;> cases Flt.lt' x.var Flt.zero <;> simp

/-- **C24** Construction from a vector accepts 2 or 4 ordered values … -/
theorem C24_vector (l : List Dbl) (x : Extent) (h : Extent.ofVec l = .ok x) :
    Ordered x ∧ ((l = [x.minimum, x.maximum] ∧ x.mean = Flt.zero ∧ x.var = Extent.one) ∨
      l = [x.minimum, x.maximum, x.mean, x.var]) := by
  rw [ordered_iff]
  unfold Extent.ofVec at h
  split at h
  · split at h
    · simp at h
    · rename_i hlt
      obtain rfl := Res.ok.inj h
      exact ⟨by simpa using hlt, .inl ⟨rfl, rfl, rfl⟩⟩
  · split at h
    · simp at h
    · rename_i hlt
      obtain rfl := Res.ok.inj h
      exact ⟨by simpa using hlt, .inr rfl⟩
  · simp at h

/-- **C24** … but, unlike the other constructors, accepts a negative variance. -/
theorem C24_vector_variance_violated : ∃ l x, Extent.ofVec l = .ok x ∧ ¬ VarOk x := by
  refine ⟨[Flt.zero, Flt.zero, Flt.zero, dbl 0xBFF0000000000000], _, rfl, ?_⟩
  rw [varOk_iff]; decide +kernel

/-- **C24** Extents of a supported format and `n` extra-byte items: 14, 17 or 18 plus `n` default
extents; other formats are rejected. -/
theorem C24_number (fmt : Int) (n : Nat) (x : Bool) :
    ((fmt = 6 ∨ fmt = 7 ∨ fmt = 8) → ∃ e, Extents.make fmt n x = .ok e ∧ GoodExtents e n ∧
      e.fmt = fmt ∧ e.extStats = x ∧ ∀ y ∈ e.extents, y = Extent.default) ∧
    (¬ (fmt = 6 ∨ fmt = 7 ∨ fmt = 8) → Extents.make fmt n x = .throw .badFormat) := by
  constructor
  · intro h
    refine ⟨_, extents_make_ok h n x, ⟨h, by simp⟩, rfl, rfl, fun y hy => List.eq_of_mem_replicate hy⟩
  · intro h
    unfold Extents.make
    rw [if_pos (by omega)]

/-- **C24** `ByteSize` is the number of bytes the extents VLR of that format writes. -/
theorem C24_byteSize (e : Extents) (n : Nat) (g : GoodExtents e n) :
    Extents.byteSize e.fmt n = .ok (Extents.putItems e.toVlr).length ∧
    (Extents.putItems e.toVlrExtended).length = (Extents.putItems e.toVlr).length := by
  refine ⟨?_, ?_⟩
  · unfold Extents.byteSize
    rw [extents_make_ok g.fmt, length_putItems]
    simp [Extents.toVlr, g.number, Nat.mul_comm]
  · simp [length_putItems, Extents.toVlr, Extents.toVlrExtended]

/-- **C22** Extents written as the payload of the extents VLR (and of the extended stats VLR when
enabled) and read back with the same format and number of extra-byte items are restored: minimum and
maximum always, mean and variance when extended stats are enabled (otherwise they are the defaults). -/
theorem C22_roundtrip (e : Extents) (n : Nat) (g : GoodExtents e n) (ho : ∀ x ∈ e.extents, Ordered x)
    (rest rest' : Bytes) :
    ∃ items r, Extents.getItems (Extents.putItems e.toVlr).length
        (Extents.putItems e.toVlr ++ rest) = .ok items ∧
      Extents.ofVlr items e.fmt n e.extStats = .ok r ∧
      r.fmt = e.fmt ∧ r.extStats = e.extStats ∧
      r.extents = e.extents.map (fun x => ⟨x.minimum, x.maximum, Flt.zero, Extent.one⟩) ∧
      (e.extStats = true → ∃ items', Extents.getItems (Extents.putItems e.toVlrExtended).length
          (Extents.putItems e.toVlrExtended ++ rest') = .ok items' ∧
        r.setExtendedStats items' = .ok e) := by
  have hm : Res.mapL (fun i : Dbl × Dbl => Extent.make2 i.1 i.2) e.toVlr =
      .ok (e.extents.map (fun x => ⟨x.minimum, x.maximum, Flt.zero, Extent.one⟩)) := by
    have : ∀ i ∈ e.toVlr, (fun i : Dbl × Dbl => Extent.make2 i.1 i.2) i =
        .ok ((fun i : Dbl × Dbl => ⟨i.1, i.2, Flt.zero, Extent.one⟩) i) := by
      intro i hi
      obtain ⟨x, hx, rfl⟩ := List.mem_map.1 hi
      have h1 := (ordered_iff x).1 (ho x hx)
      have h2 : Flt.lt' Extent.one Flt.zero = false := by decide +kernel
      simp only [Extent.make2, Extent.make, h1, h2, Bool.false_eq_true, if_false]
    rw [Res.mapL_eq_ok_map this]
    simp [Extents.toVlr, List.map_map, Function.comp_def]
  refine ⟨e.toVlr, ⟨e.fmt, e.extStats, e.extents.map (fun x => ⟨x.minimum, x.maximum, Flt.zero, Extent.one⟩)⟩,
    getItems_putItems _ _ _ (length_putItems _), ?_, rfl, rfl, rfl, fun hx => ?_⟩
  · unfold Extents.ofVlr Extents.number
    have := g.fmt
    rw [if_neg (by omega), numDims_ok g.fmt]
    simp only [Res.bind]
    rw [if_neg (by simp [Extents.toVlr, g.number]), hm]
  · refine ⟨_, getItems_putItems _ _ _ (length_putItems _), ?_⟩
    unfold Extents.setExtendedStats
    simp only [hx]
    rw [if_neg (by simp), if_neg (by simp [Extents.toVlrExtended])]
    congr 1
    obtain ⟨f, s, l⟩ := e
    simp only at hx
    subst hx
    simp only [Extents.mk.injEq, true_and]
    simp only [Extents.toVlrExtended]
    clear hm g ho
    induction l with
    | nil => rfl
    | cons a l ih => simp [ih]

/-- **C22** A VLR with the wrong number of items is rejected, for the extents and for the extended
stats. -/
theorem C22_wrong_size (items : List (Dbl × Dbl)) (fmt : Int) (n : Nat) (x : Bool)
    (hf : fmt = 6 ∨ fmt = 7 ∨ fmt = 8) :
    (items.length ≠ baseDims fmt + n → Extents.ofVlr items fmt n x = .throw .extentsSize) ∧
    (∀ e, GoodExtents e n → e.fmt = fmt → e.extStats = true → items.length ≠ baseDims fmt + n →
      e.setExtendedStats items = .throw .extentsSize) := by
  constructor
  · intro h
    unfold Extents.ofVlr Extents.number
    rw [if_neg (by omega), numDims_ok hf]
    simp only [Res.bind]
    rw [if_pos h]
  · intro e g he hx h
    unfold Extents.setExtendedStats
    rw [hx, if_neg (by simp), if_pos (by rw [g.number, he]; exact h)]

/-- **C23** Extents rebuilt for another format: every dimension both formats have keeps its extent,
every new dimension gets the default. -/
theorem C23_dimensions (o : Extents) (no : Nat) (g : GoodExtents o no) (fmt : Int)
    (hf : fmt = 6 ∨ fmt = 7 ∨ fmt = 8) (n : Nat) (x : Bool) :
    ∃ e, o.reformat fmt n x = .ok e ∧ GoodExtents e n ∧ e.fmt = fmt ∧ e.extStats = x ∧
      (∀ d : Dim, d.inFormat fmt → d.inFormat o.fmt → Dim.get e d = Dim.get o d) ∧
      (∀ d : Dim, d.inFormat fmt → ¬ d.inFormat o.fmt → Dim.get e d = .ok Extent.default) ∧
      (n = no → e.getExtraBytes = o.getExtraBytes) ∧
      (n ≠ no → e.getExtraBytes = .ok (List.replicate n Extent.default)) := by
  obtain ⟨ofmt, oe, ol⟩ := o
  obtain ⟨gf, gn⟩ := g
  simp only at gf gn
  have hd1 := baseDims_ge fmt
  have hd2 := baseDims_ge ofmt
  unfold Extents.reformat
  rw [extents_make_ok hf]
  simp only [Res.bind]
  obtain ⟨l1, e1, len1, k1⟩ := copyRange_ok ol 14 (List.replicate (baseDims fmt + n) Extent.default) 0 0
    (by omega) (by simp; omega)
  rw [e1]
  simp only
  have h2 : ∃ l2, (if fmt > 6 ∧ ofmt > 6 then copyRange l1 ol 14 14 3 else .ok l1) = .ok l2 ∧
      l2.length = baseDims fmt + n ∧ ∀ k : Nat, l2[k]? =
        if fmt > 6 ∧ ofmt > 6 ∧ 14 ≤ k ∧ k < 17 then ol[k]? else l1[k]? := by
    by_cases hc : fmt > 6 ∧ ofmt > 6
    · have hb : 17 ≤ baseDims fmt ∧ 17 ≤ baseDims ofmt := by
        unfold baseDims; constructor <;> split <;> [skip; split; skip; split] <;> omega
      obtain ⟨l2, e2, len2, k2⟩ := copyRange_ok ol 3 l1 14 14 (by omega) (by simp [len1]; omega)
      refine ⟨l2, by rw [if_pos hc, e2], by simp [len2, len1], fun k => ?_⟩
      rw [k2]
      by_cases hk : 14 ≤ k ∧ k < 17
      · rw [if_pos hk, if_pos ⟨hc.1, hc.2, hk⟩]; congr 1; omega
      · rw [if_neg (by omega), if_neg (by omega)]
    · refine ⟨l1, by rw [if_neg hc], by simp [len1], fun k => ?_⟩
      rw [if_neg (by omega)]
  obtain ⟨l2, e2, len2, k2⟩ := h2
  rw [e2]
  simp only
  have h3 : ∃ l3, (if fmt = 8 ∧ ofmt = 8 then copyRange l2 ol 17 17 1 else .ok l2) = .ok l3 ∧
      l3.length = baseDims fmt + n ∧ ∀ k : Nat, l3[k]? =
        if fmt = 8 ∧ ofmt = 8 ∧ k = 17 then ol[k]? else l2[k]? := by
    by_cases hc : fmt = 8 ∧ ofmt = 8
    · have hb : 18 ≤ baseDims fmt ∧ 18 ≤ baseDims ofmt := by
        unfold baseDims; constructor <;> split <;> [skip; split; skip; split] <;> omega
      obtain ⟨l3, e3, len3, k3⟩ := copyRange_ok ol 1 l2 17 17 (by omega) (by omega)
      refine ⟨l3, by rw [if_pos hc, e3], by simp [len3, len2], fun k => ?_⟩
      rw [k3]
      by_cases hk : k = 17
      · subst hk; rw [if_pos (by omega), if_pos ⟨hc.1, hc.2, rfl⟩]
      · rw [if_neg (by omega), if_neg (by omega)]
    · refine ⟨l2, by rw [if_neg hc], by simp [len2], fun k => ?_⟩
      rw [if_neg (by tauto)]
  obtain ⟨l3, e3, len3, k3⟩ := h3
  rw [e3]
  simp only
  rw [numDims_ok gf, numDims_ok hf]
  simp only
  have h4 : ∃ l4, (if (n : Int) ≠ (ol.length : Int) - (baseDims ofmt : Int) then Res.ok l3
        else copyRange l3 ol (baseDims fmt) (baseDims ofmt) n) = .ok l4 ∧
      l4.length = baseDims fmt + n ∧ ∀ k : Nat, l4[k]? =
        if n = no ∧ baseDims fmt ≤ k ∧ k < baseDims fmt + n then ol[baseDims ofmt + (k - baseDims fmt)]?
        else l3[k]? := by
    by_cases hc : n = no
    · obtain ⟨l4, e4, len4, k4⟩ := copyRange_ok ol n l3 (baseDims fmt) (baseDims ofmt) (by omega) (by omega)
      refine ⟨l4, by rw [if_neg (by omega), e4], by omega, fun k => ?_⟩
      rw [k4]
      by_cases hk : baseDims fmt ≤ k ∧ k < baseDims fmt + n
      · rw [if_pos hk, if_pos ⟨hc, hk⟩]
      · rw [if_neg hk, if_neg (by omega)]
    · refine ⟨l3, by rw [if_pos (by omega)], by omega, fun k => ?_⟩
      rw [if_neg (by omega)]
  obtain ⟨l4, e4, len4, k4⟩ := h4
  refine ⟨⟨fmt, x, l4⟩, ?_, ⟨hf, len4⟩, rfl, rfl, ?_, ?_, ?_, ?_⟩
  · rw [e4]
  · -- shared dimensions
    have key : ∀ k : Nat, k < baseDims fmt → (k < 14 ∨ (14 ≤ k ∧ k < 17 ∧ fmt > 6 ∧ ofmt > 6) ∨
        (k = 17 ∧ fmt = 8 ∧ ofmt = 8)) → l4[k]? = ol[k]? := by
      intro k hk hc
      rw [k4, if_neg (by omega), k3]
      rcases hc with hc | hc | hc
      · rw [if_neg (by omega), k2, if_neg (by omega), k1, if_pos (by omega)]
        congr 1; omega
      · rw [if_neg (by omega), k2, if_pos (by omega)]
      · rw [if_pos ⟨hc.2.1, hc.2.2, hc.1⟩]
    have at_eq : ∀ k : Nat, k < baseDims fmt → (k < 14 ∨ (14 ≤ k ∧ k < 17 ∧ fmt > 6 ∧ ofmt > 6) ∨
        (k = 17 ∧ fmt = 8 ∧ ofmt = 8)) → Extents.at' ⟨fmt, x, l4⟩ k = Extents.at' ⟨ofmt, oe, ol⟩ k := by
      intro k h1 h2
      simp only [Extents.at', key k h1 h2]
    have hb : (fmt = 7 ∨ fmt = 8 → 17 ≤ baseDims fmt) ∧ (fmt = 8 → baseDims fmt = 18) := by
      unfold baseDims; constructor <;> intro hh <;> split <;> [skip; split; skip; split] <;> omega
    intro d h1 h2
    cases d <;> simp only [Dim.inFormat] at h1 h2 <;> simp only [Dim.get]
    case red =>
      simp only [Extents.getRed]; rw [if_pos (by omega), if_pos (by omega), at_eq 14 (by omega) (by omega)]
    case green =>
      simp only [Extents.getGreen]; rw [if_pos (by omega), if_pos (by omega), at_eq 15 (by omega) (by omega)]
    case blue =>
      simp only [Extents.getBlue]; rw [if_pos (by omega), if_pos (by omega), at_eq 16 (by omega) (by omega)]
    case nir =>
      simp only [Extents.getNir]; rw [if_pos h1, if_pos h2, at_eq 17 (by omega) (by omega)]
    all_goals exact at_eq _ (by omega) (by omega)
  · have hb : (fmt = 7 ∨ fmt = 8 → 17 ≤ baseDims fmt) ∧ (fmt = 8 → baseDims fmt = 18) := by
      unfold baseDims; constructor <;> intro hh <;> split <;> [skip; split; skip; split] <;> omega
    have key : ∀ k : Nat, k < baseDims fmt → ((14 ≤ k ∧ k < 17 ∧ ¬ ofmt > 6) ∨
        (k = 17 ∧ ofmt ≠ 8)) → Extents.at' ⟨fmt, x, l4⟩ k = .ok Extent.default := by
      intro k hk hc
      have : l4[k]? = some Extent.default := by
        rw [k4, if_neg (by omega), k3, if_neg (by omega), k2, if_neg (by omega), k1, if_neg (by omega)]
        rw [List.getElem?_replicate, if_pos (by omega)]
      simp only [Extents.at', this]
    intro d h1 h2
    cases d <;> simp only [Dim.inFormat, not_true_eq_false] at h1 h2 <;> simp only [Dim.get]
    case red => simp only [Extents.getRed]; rw [if_pos (by omega), key 14 (by omega) (by omega)]
    case green => simp only [Extents.getGreen]; rw [if_pos (by omega), key 15 (by omega) (by omega)]
    case blue => simp only [Extents.getBlue]; rw [if_pos (by omega), key 16 (by omega) (by omega)]
    case nir => simp only [Extents.getNir]; rw [if_pos h1, key 17 (by omega) (by omega)]
  · intro hn
    simp only [Extents.getExtraBytes, numDims_ok hf, numDims_ok gf, Res.bind]
    congr 1
    apply List.ext_getElem?
    intro k
    rw [List.getElem?_drop, List.getElem?_drop, k4]
    by_cases hk : k < n
    · rw [if_pos (by omega)]
      congr 1; omega
    · rw [if_neg (by omega), List.getElem?_eq_none (by omega), List.getElem?_eq_none (by omega)]
  · intro hn
    simp only [Extents.getExtraBytes, numDims_ok hf, Res.bind]
    congr 1
    apply List.ext_getElem?
    intro k
    have hb : (fmt = 6 ∧ baseDims fmt = 14) ∨ (fmt = 7 ∧ baseDims fmt = 17) ∨
        (fmt = 8 ∧ baseDims fmt = 18) := by
      rcases hf with rfl | rfl | rfl <;> simp [baseDims]
    rw [List.getElem?_drop, k4, if_neg (by omega), k3, if_neg (by omega), k2, if_neg (by omega), k1,
      if_neg (by omega), List.getElem?_replicate, List.getElem?_replicate]
    by_cases hk : k < n
    · rw [if_pos (by omega), if_pos hk]
    · rw [if_neg (by omega), if_neg hk]

/-- Format 8 extents with a non-trivial X and NIR extent and two extra-byte items meet the hypotheses of
`C22_roundtrip` and `C23_dimensions`. -/
def sampleExtents : Extents :=
  ⟨8, true, ⟨dbl 0xC000000000000000, dbl 0x4000000000000000, Flt.zero, Extent.one⟩ ::
    List.replicate 19 Extent.default⟩

theorem sampleExtents_good : GoodExtents sampleExtents 2 ∧ ∀ x ∈ sampleExtents.extents, Ordered x := by
  refine ⟨⟨by decide, by decide⟩, fun x hx => (ordered_iff x).2 ?_⟩
  simp only [sampleExtents, List.mem_cons, List.mem_replicate] at hx
  rcases hx with rfl | ⟨_, rfl⟩ <;> decide +kernel

example : ∃ e, sampleExtents.reformat 7 2 false = .ok e :=
  (C23_dimensions sampleExtents 2 sampleExtents_good.1 7 (by decide) 2 false).imp fun _ h => h.1

end Copc
