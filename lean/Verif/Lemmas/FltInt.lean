import Verif.Lemmas.FltExact
/-! # Rounding to integers -/
namespace Copc.Flt

/-- `floor(|x| + 1/2)`. -/
def nearInt (x : Dbl) : ℕ := (2 * sig 52 x.mag + unit 52 11) / (2 * unit 52 11)

theorem abs_val (x : Dbl) : |x.val| = (sig 52 x.mag : ℚ) / unit 52 11 := by
  have h := val_eq x
  have hu := unitQ_pos 52 11
  rw [eq_div_iff hu.ne']
  have : |x.val| * (unit 52 11 : ℚ) = |x.val * unit 52 11| := by rw [abs_mul, abs_of_pos hu]
  rw [this, h]
  cases x.neg <;> simp

theorem nearInt_spec (x : Dbl) : (nearInt x : ℚ) ≤ |x.val| + 1 / 2 ∧
    |x.val| + 1 / 2 < nearInt x + 1 := by
  have hu := unitQ_pos 52 11
  have hu' := unit_pos 52 11
  rw [abs_val]
  have h1 := Nat.div_mul_le_self (2 * sig 52 x.mag + unit 52 11) (2 * unit 52 11)
  have h2 := Nat.lt_div_mul_add (a := 2 * sig 52 x.mag + unit 52 11) (b := 2 * unit 52 11)
    (by omega)
  rw [show (2 * sig 52 x.mag + unit 52 11) / (2 * unit 52 11) = nearInt x from rfl] at h1 h2
  have h1q : ((nearInt x : ℚ)) * (2 * unit 52 11) ≤ 2 * sig 52 x.mag + unit 52 11 := by
    exact_mod_cast h1
  have h2q : (2 * sig 52 x.mag + unit 52 11 : ℚ) < nearInt x * (2 * unit 52 11) + 2 * unit 52 11 := by
    exact_mod_cast h2
  generalize (unit 52 11 : ℚ) = U at *
  constructor
  · rw [div_add' _ _ _ hu.ne', le_div_iff₀ hu]; linarith
  · rw [div_add' _ _ _ hu.ne', div_lt_iff₀ hu]; linarith

theorem nearInt_eq {x : Dbl} {n : ℕ} (h1 : (n : ℚ) - 1 / 2 ≤ |x.val|) (h2 : |x.val| < n + 1 / 2) :
    nearInt x = n := by
  obtain ⟨a, b⟩ := nearInt_spec x
  have c1 : (nearInt x : ℚ) < n + 1 := by linarith
  have c2 : (n : ℚ) < nearInt x + 1 := by linarith
  have d1 : nearInt x < n + 1 := by exact_mod_cast c1
  have d2 : n < nearInt x + 1 := by exact_mod_cast c2
  omega

/-- The integer that `std::round` gives. -/
def roundInt (x : Dbl) : ℤ := if x.neg then -(nearInt x : ℤ) else nearInt x

theorem roundInt_near (x : Dbl) : |(roundInt x : ℚ) - x.val| ≤ 1 / 2 := by
  obtain ⟨a, b⟩ := nearInt_spec x
  have hv := val_eq x
  have hu := unitQ_pos 52 11
  unfold roundInt
  have hx : x.val = if x.neg then -|x.val| else |x.val| := by
    rw [abs_val]
    have : x.val = x.val * unit 52 11 / unit 52 11 := by rw [mul_div_cancel_right₀ _ hu.ne']
    rw [this, hv]
    cases x.neg <;> simp
    ring
  cases hn : x.neg <;> rw [hn] at hx <;> simp only [if_true, if_false, Bool.false_eq_true] at hx ⊢ <;>
    rw [abs_le] <;> push_cast <;> constructor <;> linarith

theorem round_key (x : Dbl) (hx : x.isFinite = true) :
    (round x).key = keyR 52 11 (roundInt x) ∧ (round x).isNaN = false := by
  unfold round
  rw [if_pos hx]
  refine ⟨key_mkRound Nat.one_pos ?_, mkRound_notNaN _ _ _⟩
  unfold roundInt
  rw [show (2 * sig 52 x.mag + unit 52 11) / (2 * unit 52 11) = nearInt x from rfl]
  cases x.neg <;> simp

/-- `std::round` of a finite double is finite and exact. -/
theorem round_val (x : Dbl) (hx : x.isFinite = true) :
    (round x).isFinite = true ∧ (round x).val = roundInt x := by
  have hk := round_key x hx
  have hrep : ∃ y : Dbl, y.isFinite = true ∧ y.val = roundInt x := by
    obtain ⟨k, j, hk1, hj1, hj2, hval, hor⟩ := val_form x hx
    by_cases hj : 0 ≤ j
    · -- already an integer
      refine ⟨x, hx, ?_⟩
      have hint : x.val = ((k * 2 ^ j.toNat : ℤ) : ℚ) := by
        rw [hval]; push_cast
        congr 1
        rw [← zpow_natCast]; congr 1; omega
      have h := roundInt_near x
      rw [hint, ← Int.cast_sub, ← Int.cast_abs] at h
      have h3 : |roundInt x - k * 2 ^ j.toNat| < 1 := by
        have : ((|roundInt x - k * 2 ^ j.toNat| : ℤ) : ℚ) < 1 := by linarith
        exact_mod_cast this
      have h4 := Int.abs_lt_one_iff.1 h3
      rw [hint]; congr 1; omega
    · have hlt : |x.val| < 2 ^ 52 + 1 / 2 := by
        have h2 : |x.val| ≤ 2 ^ 53 * 2 ^ (-1 : ℤ) - 2 ^ (-1:ℤ) := by
          rw [hval, abs_mul, abs_of_pos (zpow_pos (by norm_num) j : (0:ℚ) < 2 ^ j)]
          have hkq : |(k : ℚ)| ≤ 2 ^ 53 - 1 := by
            have : |k| ≤ 2 ^ 53 - 1 := by rw [Int.abs_eq_natAbs]; omega
            exact_mod_cast this
          have hjj : (2 : ℚ) ^ j ≤ 2 ^ (-1 : ℤ) := zpow_le_zpow_right₀ (by norm_num) (by omega)
          have hp : (0 : ℚ) < 2 ^ j := zpow_pos (by norm_num) j
          have : |(k : ℚ)| * 2 ^ j ≤ (2 ^ 53 - 1) * 2 ^ (-1 : ℤ) := by
            apply mul_le_mul hkq hjj hp.le (by norm_num)
          linarith
        norm_num at h2 ⊢
        linarith
      have hn : nearInt x < 2 ^ 53 := by
        have := (nearInt_spec x).1
        have h5 : (nearInt x : ℚ) < ((2 ^ 53 : ℕ) : ℚ) := by push_cast; linarith
        exact Nat.cast_lt.1 h5
      obtain ⟨y, hy, hyv⟩ := exists_dbl (roundInt x) 0 (by unfold roundInt; split <;> omega)
        (by norm_num) (by norm_num)
      exact ⟨y, hy, by rw [hyv]; simp⟩
  obtain ⟨y, hy, hyv⟩ := hrep
  exact ⟨finite_of_eq hk.1 hk.2 hy hyv, val_exact hk.1 hy hyv.symm⟩

/-- Truncation of an integral value. -/
theorem trunc_of_int {x : Dbl} (hx : x.isFinite = true) {n : ℤ} (h : x.val = n) :
    trunc x = some n := by
  unfold trunc
  rw [if_pos hx]
  have hu := unitQ_pos 52 11
  have hu' := unit_pos 52 11
  have hv := val_eq x
  rw [h] at hv
  simp only
  cases hn : x.neg
  · rw [hn] at hv
    simp only [Bool.false_eq_true, if_false] at hv ⊢
    have hz : n * (unit 52 11 : ℤ) = sig 52 x.mag := by exact_mod_cast hv
    have hn0 : 0 ≤ n := by
      by_contra hc
      have : n * (unit 52 11 : ℤ) < 0 := mul_neg_of_neg_of_pos (by omega) (by exact_mod_cast hu')
      omega
    obtain ⟨k, rfl⟩ := Int.eq_ofNat_of_zero_le hn0
    have : sig 52 x.mag = k * unit 52 11 := by exact_mod_cast hz.symm
    rw [this, Nat.mul_div_cancel _ hu']
  · rw [hn] at hv
    simp only [if_true] at hv ⊢
    have hz : n * (unit 52 11 : ℤ) = -(sig 52 x.mag : ℤ) := by exact_mod_cast hv
    have hn0 : n ≤ 0 := by
      by_contra hc
      have : 0 < n * (unit 52 11 : ℤ) := mul_pos (by omega) (by exact_mod_cast hu')
      omega
    obtain ⟨k, hk⟩ := Int.eq_ofNat_of_zero_le (show 0 ≤ -n by omega)
    have hnk : n = -(k : ℤ) := by omega
    subst hnk
    have : sig 52 x.mag = k * unit 52 11 := by
      have : ((sig 52 x.mag : ℕ) : ℤ) = k * unit 52 11 := by linarith
      exact_mod_cast this
    rw [this, Nat.mul_div_cancel _ hu']

end Copc.Flt
