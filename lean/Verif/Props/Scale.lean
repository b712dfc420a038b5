import Verif.Lemmas.Scale
import Verif.Lemmas.RatNum
/-! # C11, C12, C13: scaling of coordinates -/
namespace Copc
open Flt

/-- A scale and offset for which stored integers survive a round trip through doubles: finite, a scale
between `2^-1000` and `2^900` in magnitude and an offset of at most `2^51` scale steps. -/
def Spec.GoodScale (scale offset : Dbl) : Prop :=
  scale.isFinite = true ∧ offset.isFinite = true ∧ (2 : ℚ) ^ (-1000 : ℤ) ≤ |scale.val| ∧
    |scale.val| ≤ 2 ^ (900 : ℤ) ∧ |offset.val| ≤ 2 ^ 51 * |scale.val|

/-- **C11** (one coordinate): every `int32` coordinate that is unpacked (scaled to a double) and
packed again with the same scale and offset is stored as the identical integer. -/
theorem C11_coordinate (X : Int) (hX : InI32 X) (scale offset : Dbl)
    (h : Spec.GoodScale scale offset) :
    removeScale (applyScale X scale offset) scale offset = .ok X :=
  removeScale_applyScale hX h.1 h.2.1 h.2.2.1 h.2.2.2.1 h.2.2.2.2

/-- Ten to the minus three as a double and an offset of 500000 are good (non-vacuity). -/
theorem goodScale_example : Spec.GoodScale (dbl 0x3F50624DD2F1A9FC) (dbl 0x411E848000000000) := by
  have hs : (dbl 0x3F50624DD2F1A9FC).val = 0x10624DD2F1A9FC * 2 ^ (-62 : ℤ) := by
    have hk : (dbl 0x3F50624DD2F1A9FC).sval = 0x10624DD2F1A9FC * 2 ^ 1012 := by decide +kernel
    unfold val
    rw [hk]
    have hu : (unit 52 11 : ℚ) = 2 ^ 1012 * 2 ^ 62 := by rw [← pow_add]; norm_num [unit]
    rw [hu]; push_cast
    rw [zpow_neg]
    have : (2 : ℚ) ^ 1012 ≠ 0 := pow_ne_zero _ (by norm_num)
    generalize (2 : ℚ) ^ 1012 = T at *
    rw [mul_comm T, mul_div_mul_right _ _ this]
    norm_num
  have ho : (dbl 0x411E848000000000).val = 500000 := by
    have : dbl 0x411E848000000000 = ofInt 500000 := by decide +kernel
    rw [this]; exact (ofInt_val 500000 (by decide)).2
  have habs : |(dbl 0x3F50624DD2F1A9FC).val| = 0x10624DD2F1A9FC * 2 ^ (-62 : ℤ) := by
    rw [hs]; apply abs_of_pos; norm_num
  refine ⟨by decide +kernel, by decide +kernel, ?_, ?_, ?_⟩
  · rw [habs]
    have : (2 : ℚ) ^ (-1000 : ℤ) ≤ 2 ^ (-62 : ℤ) := zpow_le_zpow_right₀ (by norm_num) (by norm_num)
    refine this.trans ?_
    norm_num
  · rw [habs]
    have : (2 : ℚ) ^ (0 : ℤ) ≤ 2 ^ (900 : ℤ) := zpow_le_zpow_right₀ (by norm_num) (by norm_num)
    refine le_trans ?_ this
    norm_num
  · rw [habs, ho]; norm_num

example : removeScale (applyScale (-2147483648) (dbl 0x3F50624DD2F1A9FC) (dbl 0x411E848000000000))
    (dbl 0x3F50624DD2F1A9FC) (dbl 0x411E848000000000) = .ok (-2147483648) :=
  C11_coordinate _ (by decide) _ _ goodScale_example

/-- The bound on the offset is needed: with scale 1 and offset `2^53` the coordinate 1 is lost. -/
example : removeScale (applyScale 1 (ofInt 1) (dbl 0x4340000000000000)) (ofInt 1)
    (dbl 0x4340000000000000) ≠ .ok 1 := by decide +kernel

/-- **C12**: for all doubles (finite or not) with `q = (value - offset) / scale` as computed in IEEE
arithmetic: if packing stores `n`, then `n` is an `int32` and an integer nearest to `q`; it throws
exactly when `q` is infinite or `q` rounds to an integer outside `int32`; it is undefined behaviour
exactly when `q` is NaN. -/
theorem C12_removeScale (value scale offset : Dbl) :
    let q := div (sub value offset) scale
    (∀ n, removeScale value scale offset = .ok n →
      InI32 n ∧ q.isFinite = true ∧ |(n : ℚ) - q.val| ≤ 1 / 2) ∧
    ((∃ ex, removeScale value scale offset = .throw ex) ↔
      q.isInf = true ∨ q.isFinite = true ∧
        ((q.val ≤ -2147483648 - 1 / 2) ∨ (2147483647 + 1 / 2 ≤ q.val))) ∧
    (removeScale value scale offset = .ub ↔ q.isNaN = true) := by
  intro q
  by_cases hn : q.isNaN = true
  · have hr := removeScale_nan hn
    have hf : q.isFinite = false := by
      simp only [isNaN, isFinite, decide_eq_true_eq, decide_eq_false_iff_not] at *; omega
    have hi : q.isInf = false := by
      simp only [isNaN, isInf, decide_eq_true_eq, decide_eq_false_iff_not] at *; omega
    simp [hr, hn, hf, hi]
  · by_cases hi : q.isInf = true
    · have hr := removeScale_inf hi
      simp [hr, hn, hi]
    · have hf : q.isFinite = true := by
        simp only [isNaN, isInf, isFinite, decide_eq_true_eq] at *; omega
      have hr := removeScale_finite hf
      have near := roundInt_near q
      change removeScale value scale offset = if InI32 (roundInt q) then .ok (roundInt q) else
        .throw .scaleRange at hr
      refine ⟨?_, ?_, ?_⟩
      · intro n h
        rw [hr] at h
        split at h
        · rename_i hin
          simp at h; subst h; exact ⟨hin, hf, near⟩
        · simp at h
      · have sgn : q.val = if q.neg then -|q.val| else |q.val| := by
          rw [abs_val]
          have hu := unitQ_pos 52 11
          have h1 : q.val = q.val * unit 52 11 / unit 52 11 := by rw [mul_div_cancel_right₀ _ hu.ne']
          rw [h1, val_eq]
          cases q.neg <;> simp
          ring
        obtain ⟨n1, n2⟩ := nearInt_spec q
        have key : ¬ InI32 (roundInt q) ↔
            ((q.val ≤ -2147483648 - 1 / 2) ∨ (2147483647 + 1 / 2 ≤ q.val)) := by
          have ab := abs_nonneg q.val
          unfold InI32 roundInt
          rw [sgn]
          have e1 : ∀ N : ℕ, N ≤ nearInt q ↔ (N : ℚ) - 1 / 2 ≤ |q.val| := by
            intro N
            constructor
            · intro h
              have : (N : ℚ) ≤ nearInt q := by exact_mod_cast h
              linarith
            · intro h
              have : (N : ℚ) < nearInt q + 1 := by linarith
              have : N < nearInt q + 1 := by exact_mod_cast this
              omega
          have e2 := e1 2147483649
          have e3 := e1 2147483648
          push_cast at e2 e3
          cases q.neg <;> simp only [if_true, if_false, Bool.false_eq_true]
          · constructor
            · intro h
              right
              have := e3.1 (by omega)
              linarith
            · rintro (h | h)
              · exfalso; linarith
              · have := e3.2 (by linarith); omega
          · constructor
            · intro h
              left
              have := e2.1 (by omega)
              linarith
            · rintro (h | h)
              · have := e2.2 (by linarith); omega
              · exfalso; linarith
        rw [← key]
        rw [hr]
        have hi' : q.isInf = false := by simpa using hi
        simp only [hi', hf, Bool.false_eq_true, false_or, true_and]
        constructor
        · rintro ⟨ex, h⟩
          split at h
          · simp at h
          · assumption
        · intro h; rw [if_neg h]; exact ⟨_, rfl⟩
      · rw [hr]
        have hn' : q.isNaN = false := by simpa using hn
        simp only [hn', Bool.false_eq_true, iff_false]
        split <;> simp

/-- **C12** (accuracy): for finite value, scale and offset, the stored integer differs from the exact
quotient `(value - offset) / scale` by at most one half plus the relative error of two roundings
(plus the underflow terms). -/
theorem C12_accuracy (value scale offset : Dbl) (n : Int) (hv : value.isFinite = true)
    (hs : scale.isFinite = true) (ho : offset.isFinite = true) (h0 : scale.val ≠ 0)
    (h : removeScale value scale offset = .ok n) :
    let E := (value.val - offset.val) / scale.val
    |(n : ℚ) - E| ≤ 1 / 2 + |E| / 2 ^ 53 + (1 / (2 * unit 52 11)) / |scale.val| +
      (|E| + |E| / 2 ^ 53 + (1 / (2 * unit 52 11)) / |scale.val|) / 2 ^ 53 +
      1 / (2 * unit 52 11) := by
  intro E
  obtain ⟨_, hqf, hnear⟩ := (C12_removeScale value scale offset).1 n h
  have kw := sub_key hv ho
  -- the difference is finite, otherwise the quotient would not be
  have fw : (sub value offset).isFinite = true := by
    by_contra hc
    have hi : (sub value offset).isInf = true := by
      have := kw.2
      simp only [isNaN, isFinite, isInf, decide_eq_true_eq, decide_eq_false_iff_not] at *; omega
    have hdiv : div (sub value offset) scale = inf ((sub value offset).neg != scale.neg) := by
      unfold div
      simp only [kw.2, notNaN_of_finite hs, hi, notInf_of_finite hs, Bool.or_self,
        Bool.false_eq_true, if_false, if_true]
    rw [hdiv] at hqf
    simp [isFinite, inf] at hqf
  have e1 := val_error kw.1 fw
  have kq := div_key fw hs h0
  have e2 := val_error kq.1 hqf
  set w := (sub value offset).val
  set q := (div (sub value offset) scale).val
  set η : ℚ := 1 / (2 * unit 52 11) with hη
  have hS : 0 < |scale.val| := abs_pos.2 h0
  have d1 : |w / scale.val - E| ≤ |E| / 2 ^ 53 + η / |scale.val| := by
    have : w / scale.val - E = (w - (value.val - offset.val)) / scale.val := by
      simp only [E]; ring
    rw [this, abs_div, div_le_iff₀ hS, add_mul, div_mul_cancel₀ _ hS.ne']
    have hE : |E| / 2 ^ 53 * |scale.val| = |value.val - offset.val| / 2 ^ 53 := by
      simp only [E]; rw [abs_div]; field_simp
    rw [hE]
    exact e1
  have d2 : |w / scale.val| ≤ |E| + |E| / 2 ^ 53 + η / |scale.val| := by
    have := abs_add_le (w / scale.val - E) E
    rw [sub_add_cancel] at this
    linarith
  have d3 : |w / scale.val| / 2 ^ (52 + 1) ≤ (|E| + |E| / 2 ^ 53 + η / |scale.val|) / 2 ^ 53 :=
    div_le_div_of_nonneg_right d2 (by norm_num)
  have t1 := abs_add_le ((n : ℚ) - q) (q - w / scale.val)
  have t2 := abs_add_le ((n : ℚ) - q + (q - w / scale.val)) (w / scale.val - E)
  have t3 : (n : ℚ) - q + (q - w / scale.val) + (w / scale.val - E) = n - E := by ring
  rw [t3] at t2
  linarith

/-- Non-vacuity: `1.2345` is stored as `1235` (scale 0.001, offset 0) and `3e6` is rejected. -/
example : removeScale (dbl 0x3FF3C083126E978D) (dbl 0x3F50624DD2F1A9FC) zero = .ok 1235 ∨
    removeScale (dbl 0x3FF3C083126E978D) (dbl 0x3F50624DD2F1A9FC) zero = .ok 1234 := by
  decide +kernel
example : removeScale (ofInt 3000000) (dbl 0x3F50624DD2F1A9FC) zero = .throw .scaleRange := by
  decide +kernel
example : removeScale nan (dbl 0x3F50624DD2F1A9FC) zero = .ub := by decide +kernel

/-! ## C13 -/

/-- **C13** is false of the code, even in exact arithmetic: `ApplyInverseScale` computes
`v / scale - offset` instead of `(v - offset) / scale`. -/
theorem C13_violated : ∃ scale offset v : Vec3 ℚ, scale.x ≠ 0 ∧ scale.y ≠ 0 ∧ scale.z ≠ 0 ∧
    headerApplyInverseScale scale offset (headerApplyScale scale offset v) ≠ v := by
  refine ⟨⟨1/2, 1/2, 1/2⟩, ⟨1, 1, 1⟩, ⟨0, 0, 0⟩, by norm_num, by norm_num, by norm_num, ?_⟩
  intro h
  have := congrArg Vec3.x h
  norm_num [headerApplyInverseScale, headerApplyScale, Vec3.vadd, Vec3.vsub, Vec3.vmul, Vec3.vdiv,
    CxxNum.add, CxxNum.sub, CxxNum.mul, CxxNum.div] at this

/-- **C13** (exactly when it holds, in exact arithmetic): for non-zero scales the round trip is the
identity exactly when on every axis the offset is 0 or the scale is 1. -/
theorem C13_inverse_scale_partial (scale offset v : Vec3 ℚ) (hx : scale.x ≠ 0) (hy : scale.y ≠ 0)
    (hz : scale.z ≠ 0) :
    headerApplyInverseScale scale offset (headerApplyScale scale offset v) = v ↔
      (offset.x = 0 ∨ scale.x = 1) ∧ (offset.y = 0 ∨ scale.y = 1) ∧
      (offset.z = 0 ∨ scale.z = 1) := by
  have key : ∀ s o u : ℚ, s ≠ 0 → ((u * s + o) / s - o = u ↔ (o = 0 ∨ s = 1)) := by
    intro s o u hs
    constructor
    · intro h
      have h2 : o * (1 - s) = 0 := by
        field_simp at h
        linarith
      rcases mul_eq_zero.1 h2 with h3 | h3
      · exact .inl h3
      · right; linarith
    · rintro (rfl | rfl)
      · simp [hs]
      · simp
  obtain ⟨a, b, c⟩ := v
  simp only [headerApplyInverseScale, headerApplyScale, Vec3.vadd, Vec3.vsub, Vec3.vmul, Vec3.vdiv,
    CxxNum.add, CxxNum.sub, CxxNum.mul, CxxNum.div, Vec3.mk.injEq, key _ _ _ hx, key _ _ _ hy,
    key _ _ _ hz]

/-- **C13** (the per-axis functions): `RemoveScaleX/Y/Z` do invert `ApplyScaleX/Y/Z` on `int32`
coordinates, in IEEE arithmetic, for good scales and offsets. -/
theorem C13_removeScale_axis (X : Int) (hX : InI32 X) (scale offset : Dbl)
    (h : Spec.GoodScale scale offset) :
    headerRemoveScale (applyScale X scale offset) scale offset = .ok X :=
  headerRemoveScale_applyScale hX h.1 h.2.1 h.2.2.1 h.2.2.2.1 h.2.2.2.2

/-- **C13** (the per-axis functions have no range check): a value of `3e6` with scale 0.001 is
undefined behaviour. -/
theorem C13_removeScale_axis_unchecked :
    headerRemoveScale (ofInt 3000000) (dbl 0x3F50624DD2F1A9FC) zero = .ub := by decide +kernel

end Copc
