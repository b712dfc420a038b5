import Verif.Props.PointsArray
/-! # C51: how far the scan angle round trip can be off -/
namespace Copc
open Spec Point

theorem trunc_near {m e : Nat} {x : Flt m e} (hx : x.isFinite = true) :
    ∃ n : Int, Flt.trunc x = some n ∧ |(n : ℚ)| ≤ |x.val| ∧ |x.val - n| < 1 := by
  unfold Flt.trunc
  rw [if_pos hx]
  refine ⟨_, rfl, ?_⟩
  have hu := Flt.unitQ_pos m e
  have hu' := Flt.unit_pos m e
  have hv := Flt.val_eq x
  have h1 := Nat.div_mul_le_self (Flt.sig m x.mag) (Flt.unit m e)
  have h2 := Nat.lt_div_mul_add (a := Flt.sig m x.mag) hu'
  have h1' : ((Flt.sig m x.mag / Flt.unit m e : ℕ) : ℚ) * Flt.unit m e ≤ Flt.sig m x.mag := by
    exact_mod_cast h1
  have h2' : (Flt.sig m x.mag : ℚ) < ((Flt.sig m x.mag / Flt.unit m e : ℕ) : ℚ) * Flt.unit m e
      + Flt.unit m e := by exact_mod_cast h2
  generalize Flt.sig m x.mag / Flt.unit m e = n at *
  generalize (Flt.sig m x.mag : ℚ) = S at *
  generalize (Flt.unit m e : ℚ) = U at *
  have hn : (0 : ℚ) ≤ n := Nat.cast_nonneg n
  have hS : 0 ≤ S := le_trans (mul_nonneg hn hu.le) h1'
  have hxv : x.val = (if x.neg = true then -S else S) / U := by rw [← hv]; field_simp
  have a1 : (n : ℚ) ≤ S / U := by rw [le_div_iff₀ hu]; exact h1'
  have a2 : S / U < n + 1 := by rw [div_lt_iff₀ hu]; linarith
  rw [hxv]
  cases x.neg
  · simp only [Bool.false_eq_true, if_false, Int.cast_natCast]
    rw [abs_of_nonneg hn, abs_of_nonneg (le_trans hn a1)]
    exact ⟨a1, by rw [abs_lt]; constructor <;> linarith⟩
  · simp only [if_true, Int.cast_neg, Int.cast_natCast, abs_neg, neg_div]
    rw [abs_of_nonneg hn, abs_of_nonneg (le_trans hn a1)]
    exact ⟨a1, by rw [abs_lt]; constructor <;> linarith⟩


/-- The constant `0.006f`. -/
theorem degreeStep_val : degreeStep.isFinite = true ∧ degreeStep.val = 12884902 / 2 ^ 31 := by
  refine ⟨by decide +kernel, ?_⟩
  have hk : degreeStep.sval = 12884902 * 2 ^ 118 := by decide +kernel
  have su : (Flt.unit 23 8 : ℚ) = 2 ^ 118 * 2 ^ 31 := by
    have : Flt.unit 23 8 = 2 ^ 149 := by decide
    rw [this]; norm_num
  unfold Flt.val
  rw [hk, su]
  norm_num

theorem exists_sgl_big : ∃ B : Sgl, B.isFinite = true ∧ B.val = 2 ^ 20 := by
  refine ⟨Flt.ofBits 0x49800000, by decide +kernel, ?_⟩
  have hk : (Flt.ofBits 0x49800000 : Sgl).sval = 2 ^ 149 * 2 ^ 20 := by decide +kernel
  have su : (Flt.unit 23 8 : ℚ) = 2 ^ 149 := by
    have : Flt.unit 23 8 = 2 ^ 149 := by decide
    rw [this]; norm_num
  unfold Flt.val
  rw [hk, su]
  norm_num

theorem eta_sgl : (1 : ℚ) / (2 * Flt.unit 23 8) ≤ 1 / 1000000 := by
  have : Flt.unit 23 8 = 2 ^ 149 := by decide
  rw [this]; norm_num

/-- The arithmetic of the error bound. -/
theorem angle_bound {n N D Q s η A B C : ℚ} (hn : |n| ≤ 32768) (hs : s = 12884902 / 2 ^ 31)
    (hη : η ≤ 1 / 1000000) (hA : A = s * N) (hB : B = D / s)
    (e0 : |N - n| ≤ |n| / 2 ^ (23 + 1) + η) (e1 : |D - A| ≤ |A| / 2 ^ (23 + 1) + η)
    (e2 : |Q - B| ≤ |B| / 2 ^ (23 + 1) + η) (_ : C = 0) :
    |N| ≤ 40000 ∧ |A| ≤ 241 ∧ |D| ≤ 242 ∧ |B| ≤ 41000 ∧ |Q - n| ≤ 1 / 20 := by
  have hs0 : 0 < s := by rw [hs]; norm_num
  have p24 : (2 : ℚ) ^ (23 + 1) = 16777216 := by norm_num
  rw [p24] at e0 e1 e2
  have hN : |N| ≤ 40000 := by
    have := abs_sub_abs_le_abs_sub N n
    linarith
  have hA' : |A| ≤ 241 := by
    rw [hA, abs_mul, abs_of_pos hs0, hs]
    have : (12884902 / 2 ^ 31 : ℚ) * |N| ≤ (12884902 / 2 ^ 31) * 40000 :=
      mul_le_mul_of_nonneg_left hN (by norm_num)
    refine this.trans (by norm_num)
  have hD : |D| ≤ 242 := by
    have := abs_sub_abs_le_abs_sub D A
    linarith
  have hB' : |B| ≤ 41000 := by
    rw [hB, abs_div, abs_of_pos hs0, div_le_iff₀ hs0, hs]
    refine hD.trans (by norm_num)
  have hBN : |B - N| ≤ 1 / 300 := by
    have h1 : B - N = (D - A) / s := by rw [hB, hA]; field_simp
    rw [h1, abs_div, abs_of_pos hs0, div_le_iff₀ hs0]
    have h2 : (1 / 300 : ℚ) * s ≥ 1 / 60000 := by rw [hs]; norm_num
    linarith
  refine ⟨hN, hA', hD, hB', ?_⟩
  have t1 := abs_add_le (Q - B) (B - N)
  have t2 := abs_add_le (Q - B + (B - N)) (N - n)
  have t3 : Q - B + (B - N) + (N - n) = Q - n := by ring
  rw [t3] at t2
  linarith

theorem angle_trunc (n : ℤ) (nq : |(n : ℚ)| ≤ 32768) : ∃ t : ℤ,
    Flt.trunc (Flt.div (Flt.mul degreeStep (Flt.ofInt n : Sgl)) degreeStep) = some t ∧
      |t - n| ≤ 1 ∧ |t| ≤ |n| := by
    obtain ⟨sf, sv⟩ := degreeStep_val
    obtain ⟨B, hB, vB⟩ := exists_sgl_big
    have eta := eta_sgl
    have hd0 : degreeStep.val ≠ 0 := by rw [sv]; norm_num
    have k0 := Flt.ofInt_key (m := 23) (e := 8) n
    have f0 := Flt.finite_of_abs_le k0.1 k0.2 B hB (by rw [vB]; refine nq.trans (by norm_num))
    have e0 := Flt.val_error k0.1 f0
    have k1 := Flt.mul_key sf f0
    have k2 := fun f1 => Flt.div_key (x := Flt.mul degreeStep (Flt.ofInt n : Sgl)) f1 sf hd0
    generalize (Flt.ofInt n : Sgl) = i at *
    generalize Flt.mul degreeStep i = d at *
    generalize degreeStep = st at *
    -- the product is small
    have hN : |i.val| ≤ 40000 := by
      have := abs_sub_abs_le_abs_sub i.val (n : ℚ)
      have p24 : (2 : ℚ) ^ (23 + 1) = 16777216 := by norm_num
      rw [p24] at e0
      linarith
    have hA : |st.val * i.val| ≤ 241 := by
      rw [abs_mul, sv, abs_of_pos (by norm_num)]
      have : (12884902 / 2 ^ 31 : ℚ) * |i.val| ≤ (12884902 / 2 ^ 31) * 40000 :=
        mul_le_mul_of_nonneg_left hN (by norm_num)
      refine this.trans (by norm_num)
    have f1 := Flt.finite_of_abs_le k1.1 k1.2 B hB (by rw [vB]; exact hA.trans (by norm_num))
    have e1 := Flt.val_error k1.1 f1
    have k2 := k2 f1
    have hBd : |d.val / st.val| ≤ 41000 := by
      have h2 := (angle_bound (Q := d.val / st.val) (C := 0) nq sv eta rfl rfl e0 e1 (by
        rw [sub_self, abs_zero]
        have := Flt.unitQ_pos 23 8
        positivity) rfl).2.2.2.1
      exact h2
    have f2 := Flt.finite_of_abs_le k2.1 k2.2 B hB (by rw [vB]; exact hBd.trans (by norm_num))
    have e2 := Flt.val_error k2.1 f2
    have hQ := (angle_bound (C := 0) nq sv eta rfl rfl e0 e1 e2 rfl).2.2.2.2
    obtain ⟨t, ht, ht1, ht2⟩ := trunc_near f2
    refine ⟨t, ht, ?_, ?_⟩
    · have : |((t - n : ℤ) : ℚ)| < 2 := by
        push_cast
        have t1 := abs_add_le ((t : ℚ) - (Flt.div d st).val) ((Flt.div d st).val - n)
        rw [sub_add_sub_cancel] at t1
        rw [abs_sub_comm] at ht2
        linarith
      have h2 : |t - n| < 2 := by exact_mod_cast this
      omega
    · have : |(t : ℚ)| < |(n : ℚ)| + 1 := by
        have := abs_sub_abs_le_abs_sub (Flt.div d st).val (n : ℚ)
        linarith
      have h2 : |t| < |n| + 1 := by exact_mod_cast this
      omega

theorem i16_range (v : Int16) : -32768 ≤ v.toInt ∧ v.toInt ≤ 32767 := by
  have h1 := v.toInt_lt; have h2 := v.le_toInt
  norm_num at h1 h2
  omega

theorem setDegrees_eq (p : Point) (t : ℤ) (d : Sgl) (tr : -32768 ≤ t ∧ t ≤ 32767)
    (ht : Flt.trunc (Flt.div d degreeStep) = some t) :
    p.setScanAngleDegrees d = .ok { p with scanAngle := Int16.ofInt t } := by
  simp only [setScanAngleDegrees, ht, tr, and_self, if_true]

theorem degrees_eq (p : Point) (n : ℤ) (hn : p.scanAngle.toInt = n) :
    p.scanAngleDegrees = Flt.mul degreeStep (Flt.ofInt n : Sgl) := by
  unfold scanAngleDegrees; rw [hn]

/-- **C51** (partial): for every raw scan angle the round trip through degrees succeeds and is off by
at most one step, towards zero. Missing: equality, which is false (`C51_violated`). -/
theorem C51_near_partial (p : Point) : ∃ q, p.setScanAngleDegrees p.scanAngleDegrees = .ok q ∧
    { q with scanAngle := p.scanAngle } = p ∧
    |q.scanAngle.toInt - p.scanAngle.toInt| ≤ 1 ∧ |q.scanAngle.toInt| ≤ |p.scanAngle.toInt| := by
  obtain ⟨n, hn⟩ : ∃ n : ℤ, p.scanAngle.toInt = n := ⟨_, rfl⟩
  obtain ⟨hr', hr⟩ : -32768 ≤ n ∧ n ≤ 32767 := by rw [← hn]; exact i16_range _
  have nq : |(n : ℚ)| ≤ 32768 := by
    rw [abs_le]
    constructor
    · have : ((-32768 : ℤ) : ℚ) ≤ n := by exact_mod_cast hr'
      simpa using this
    · have : (n : ℚ) ≤ ((32767 : ℤ) : ℚ) := by exact_mod_cast hr
      norm_num at this; linarith
  obtain ⟨t, ht, htn, hta⟩ := angle_trunc n nq
  have tr : -32768 ≤ t ∧ t ≤ 32767 := by
    have h3 := abs_le.1 hta
    have h4 := abs_le.1 htn
    by_cases h0 : 0 ≤ n
    · rw [abs_of_nonneg h0] at h3; omega
    · rw [abs_of_neg (by omega)] at h3; omega
  have hset : p.setScanAngleDegrees p.scanAngleDegrees = .ok { p with scanAngle := Int16.ofInt t } :=
    setDegrees_eq p t _ tr (by rw [degrees_eq p n hn]; exact ht)
  have ti : (Int16.ofInt t).toInt = t := Int16.toInt_ofInt_of_le (by omega) (by omega)
  refine ⟨_, hset, rfl, ?_, ?_⟩
  · simp only [ti, hn]; exact htn
  · simp only [ti, hn]; exact hta

end Copc
