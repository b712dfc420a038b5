import Verif.Lemmas.FltVal
/-! # Exactly representable values -/
namespace Copc.Flt
variable {m e : Nat}

theorem sig_surj (m : Nat) (t k : Nat) (hk : k < 2 ^ (m + 1)) :
    ∃ g, sig m g = k * 2 ^ t ∧ g < (t + 2) * 2 ^ m := by
  have hp : 0 < 2 ^ m := Nat.pow_pos (by decide)
  induction t generalizing k with
  | zero =>
    refine ⟨k, ?_, by rw [Nat.pow_succ] at hk; omega⟩
    unfold sig
    split
    · simp
    · rename_i h
      have h1 : k / 2 ^ m = 1 := by
        rw [Nat.pow_succ] at hk
        exact Nat.div_eq_of_lt_le (by omega) (by omega)
      have h2 := Nat.div_add_mod k (2 ^ m)
      rw [h1] at h2 ⊢
      simp at h2 ⊢
      omega
  | succ t ih =>
    by_cases hc : k < 2 ^ m
    · obtain ⟨g, h1, h2⟩ := ih (2 * k) (by rw [Nat.pow_succ]; omega)
      refine ⟨g, by rw [h1, Nat.pow_succ]; ring, lt_of_lt_of_le h2 (Nat.mul_le_mul_right _ (by omega))⟩
    · rw [Nat.pow_succ] at hk
      have hd : ((t + 2) * 2 ^ m + (k - 2 ^ m)) / 2 ^ m = t + 2 := by
        rw [Nat.mul_comm, Nat.mul_add_div hp, Nat.div_eq_of_lt (by omega), Nat.add_zero]
      have hm : ((t + 2) * 2 ^ m + (k - 2 ^ m)) % 2 ^ m = k - 2 ^ m := by
        rw [Nat.mul_comm, Nat.mul_add_mod, Nat.mod_eq_of_lt (by omega)]
      refine ⟨(t + 2) * 2 ^ m + (k - 2 ^ m), ?_, ?_⟩
      · unfold sig
        rw [if_neg, hd, hm]
        · have : 2 ^ m + (k - 2 ^ m) = k := by omega
          rw [this]; rfl
        · have : 2 ^ m ≤ (t + 2) * 2 ^ m := Nat.le_mul_of_pos_left _ (by omega)
          omega
      · have : (t + 1 + 2) * 2 ^ m = (t + 2) * 2 ^ m + 2 ^ m := by ring
        omega

/-- A finite value with a given sign and number of units. -/
theorem exists_units (neg : Bool) (k t : Nat) (hk : k < 2 ^ (m + 1)) (ht : t + 2 ≤ 2 ^ e - 1) :
    ∃ x : Flt m e, x.isFinite = true ∧ x.neg = neg ∧ sig m x.mag = k * 2 ^ t := by
  obtain ⟨g, h1, h2⟩ := sig_surj m t k hk
  have h3 : g < infMag m e := lt_of_lt_of_le h2 (Nat.mul_le_mul_right _ ht)
  exact ⟨⟨neg, g, h3.trans (infMag_lt m e)⟩, by simpa [isFinite] using h3, rfl, h1⟩

/-- `k * 2^j` is a double for 53 bit `k` and moderate `j`. -/
theorem exists_dbl (k j : ℤ) (hk : k.natAbs < 2 ^ 53) (hj : -1074 ≤ j) (hj' : j ≤ 971) :
    ∃ x : Dbl, x.isFinite = true ∧ x.val = (k : ℚ) * 2 ^ j := by
  have hk' : k.natAbs < 2 ^ (52 + 1) := hk
  obtain ⟨x, h1, h2, h3⟩ := exists_units (m := 52) (e := 11) (decide (k < 0)) k.natAbs
    (j + 1074).toNat hk' (by norm_num; omega)
  refine ⟨x, h1, ?_⟩
  have hv := val_eq x
  rw [h2, h3] at hv
  have hu : (unit 52 11 : ℚ) = 2 ^ (1074 : ℤ) := by norm_num [unit]
  have ht : ((k.natAbs * 2 ^ (j + 1074).toNat : ℕ) : ℚ) = |(k : ℚ)| * 2 ^ (j + 1074) := by
    have h1 : ((2 : ℚ) ^ (j + 1074)) = 2 ^ (j + 1074).toNat := by
      rw [← zpow_natCast]; congr 1; omega
    rw [h1]; push_cast; rw [Nat.cast_natAbs]; push_cast; rfl
  rw [ht, hu] at hv
  have h2' : (2 : ℚ) ^ (j + 1074) = 2 ^ j * 2 ^ (1074 : ℤ) := zpow_add₀ (by norm_num) _ _
  rw [h2'] at hv
  have h3' : (2 : ℚ) ^ (1074 : ℤ) ≠ 0 := zpow_ne_zero _ (by norm_num)
  generalize (2 : ℚ) ^ (1074 : ℤ) = U at *
  have : x.val * U = (k : ℚ) * 2 ^ j * U := by
    rw [hv]
    by_cases hn : k < 0
    · have : |(k : ℚ)| = -k := abs_of_neg (by exact_mod_cast hn)
      simp only [hn, decide_true, if_true, this]; ring
    · have : |(k : ℚ)| = k := abs_of_nonneg (by exact_mod_cast not_lt.1 hn)
      simp only [hn, decide_false, Bool.false_eq_true, if_false, this]; ring
  exact mul_right_cancel₀ h3' this

theorem finite_of_eq {r x : Dbl} {v : ℚ} (hk : r.key = keyR 52 11 v) (hn : r.isNaN = false)
    (hx : x.isFinite = true) (h : x.val = v) : r.isFinite = true := by
  have hxm : x.mag < infMag 52 11 := by simpa [isFinite] using hx
  have := keyR_val (x := x) hxm.le
  rw [h] at this
  rw [← hk] at this
  have a : ∀ y : Dbl, (y.key).natAbs = y.mag := by
    intro y; unfold key; cases y.neg <;> simp
  have h1 := a r; have h2 := a x
  rw [finite_iff]; omega

/-- Integers of magnitude below `2^53` convert exactly. -/
theorem ofInt_val (n : ℤ) (h : n.natAbs < 2 ^ 53) :
    (ofInt n : Dbl).isFinite = true ∧ (ofInt n : Dbl).val = n := by
  obtain ⟨x, hx, hv⟩ := exists_dbl n 0 h (by norm_num) (by norm_num)
  rw [zpow_zero, mul_one] at hv
  have hk := ofInt_key (m := 52) (e := 11) n
  exact ⟨finite_of_eq hk.1 hk.2 hx hv, val_exact hk.1 hx hv.symm⟩

theorem pow2_key (n : ℤ) (h0 : 0 ≤ n) (h1 : n ≤ 971) :
    (pow2 n : Dbl).key = keyR 52 11 (2 ^ n) ∧ (pow2 n : Dbl).isNaN = false := by
  unfold pow2
  rw [if_pos h0]
  refine ⟨key_mkRound Nat.one_pos ?_, mkRound_notNaN _ _ _⟩
  have : min n.toNat (2 ^ 11) = n.toNat := by omega
  rw [this]
  have h1 : ((2 : ℚ) ^ n) = 2 ^ n.toNat := by rw [← zpow_natCast]; congr 1; omega
  rw [h1]; push_cast; simp

/-- `pow(2, n)` is exact. -/
theorem pow2_val (n : ℤ) (h0 : 0 ≤ n) (h1 : n ≤ 971) :
    (pow2 n : Dbl).isFinite = true ∧ (pow2 n : Dbl).val = 2 ^ n := by
  obtain ⟨x, hx, hv⟩ := exists_dbl 1 n (by norm_num) (by omega) (by omega)
  simp only [Int.cast_one, one_mul] at hv
  have hk := pow2_key n h0 h1
  exact ⟨finite_of_eq hk.1 hk.2 hx hv, val_exact hk.1 hx hv.symm⟩

/-- A finite double is `k * 2^j`. -/
theorem val_form (x : Dbl) (hx : x.isFinite = true) : ∃ k j : ℤ, k.natAbs < 2 ^ 53 ∧ -1074 ≤ j ∧
    j ≤ 971 ∧ x.val = k * 2 ^ j ∧ (j = -1074 ∨ 2 ^ 52 ≤ k.natAbs) := by
  rw [finite_iff] at hx
  have hI : infMag 52 11 = 2047 * 2 ^ 52 := by decide
  have hv := val_eq x
  have hu : (unit 52 11 : ℚ) = 2 ^ (1074 : ℤ) := by norm_num [unit]
  rw [hu] at hv
  have h3' : (2 : ℚ) ^ (1074 : ℤ) ≠ 0 := zpow_ne_zero _ (by norm_num)
  have fin : ∀ (a : ℕ) (j : ℤ), ((sig 52 x.mag : ℕ) : ℚ) = a * 2 ^ (j + 1074) →
      x.val = ((if x.neg then -(a : ℤ) else a : ℤ) : ℚ) * 2 ^ j := by
    intro a j ha
    rw [ha, zpow_add₀ (by norm_num)] at hv
    generalize (2 : ℚ) ^ (1074 : ℤ) = U at *
    apply mul_right_cancel₀ h3'
    rw [hv]
    cases x.neg <;> simp <;> ring
  by_cases hc : x.mag < 2 ^ 52
  · refine ⟨if x.neg then -(x.mag : ℤ) else x.mag, -1074, ?_, le_refl _, by norm_num, ?_, .inl rfl⟩
    · cases x.neg <;> simp only [if_true, if_false, Bool.false_eq_true] <;> omega
    · apply fin
      rw [show sig 52 x.mag = x.mag by unfold sig; rw [if_pos hc]]; simp
  · set q := x.mag / 2 ^ 52 with hq
    set r := x.mag % 2 ^ 52 with hr
    have hr' : r < 2 ^ 52 := Nat.mod_lt _ (by decide)
    have hdm := Nat.div_add_mod x.mag (2 ^ 52)
    have hq1 : 1 ≤ q := by omega
    have hq2 : q < 2047 := by rw [hI] at hx; omega
    refine ⟨if x.neg then -((2 ^ 52 + r : ℕ) : ℤ) else (2 ^ 52 + r : ℕ), (q : ℤ) - 1 - 1074, ?_,
      by omega, by omega, ?_, .inr ?_⟩
    · cases x.neg <;> simp only [if_true, if_false, Bool.false_eq_true] <;> omega
    · apply fin
      rw [show sig 52 x.mag = (2 ^ 52 + r) * 2 ^ (q - 1) by simp only [sig, hc, if_false]; rw [← hq, ← hr]]
      have : (2 : ℚ) ^ ((q : ℤ) - 1 - 1074 + 1074) = 2 ^ (q - 1) := by
        rw [← zpow_natCast]; congr 1; omega
      rw [this]; push_cast; ring
    · cases x.neg <;> simp only [if_true, if_false, Bool.false_eq_true] <;> omega

/-- Dividing a double by a power of two is exact while the result stays normal. -/
theorem div_pow2_val {x : Dbl} (hx : x.isFinite = true) (d : ℤ) (h0 : 0 ≤ d) (h1 : d ≤ 971)
    (hn : 2 ^ (d - 1022) ≤ |x.val|) :
    (div x (pow2 d)).isFinite = true ∧ (div x (pow2 d)).val = x.val / 2 ^ d := by
  obtain ⟨fp, vp⟩ := pow2_val d h0 h1
  have hk := div_key hx fp (by rw [vp]; exact zpow_ne_zero _ (by norm_num))
  rw [vp] at hk
  obtain ⟨k, j, hk1, hj1, hj2, hval, hor⟩ := val_form x hx
  have hjd : -1074 ≤ j - d := by
    by_contra hlt
    rw [not_le] at hlt
    rw [hval, abs_mul] at hn
    have hp : (0 : ℚ) < 2 ^ j := zpow_pos (by norm_num) _
    rw [abs_of_pos hp] at hn
    have hkq : |(k : ℚ)| < 2 ^ (53 : ℤ) := by
      have : |k| < 2 ^ 53 := by rw [Int.abs_eq_natAbs]; exact_mod_cast hk1
      exact_mod_cast this
    have : |(k : ℚ)| * 2 ^ j < 2 ^ (53 : ℤ) * 2 ^ j := by
      exact mul_lt_mul_of_pos_right hkq hp
    rw [← zpow_add₀ (by norm_num : (2 : ℚ) ≠ 0)] at this
    have h2 : (2 : ℚ) ^ (53 + j) ≤ 2 ^ (d - 1022) := zpow_le_zpow_right₀ (by norm_num) (by omega)
    linarith
  obtain ⟨y, hy, hyv⟩ := exists_dbl k (j - d) hk1 hjd (by omega)
  have he : y.val = x.val / 2 ^ d := by
    rw [hyv, hval, zpow_sub₀ (by norm_num)]; ring
  exact ⟨finite_of_eq hk.1 hk.2 hy he, val_exact hk.1 hy he.symm⟩

end Copc.Flt
