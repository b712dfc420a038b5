import Verif.Lemmas.FltInt
import Verif.Lemmas.FltOrder
import Verif.Model.Scale
/-! # Error analysis of scaling -/
namespace Copc.Flt

theorem lt'_ofInt {x : Dbl} (hx : x.isFinite = true) {n k : ℤ} (h : x.val = n)
    (hk : k.natAbs < 2 ^ 53) : (lt' x (ofInt k) = true ↔ n < k) ∧
    (lt' (ofInt k) x = true ↔ k < n) := by
  obtain ⟨f, v⟩ := ofInt_val k hk
  rw [lt'_iff hx f, lt'_iff f hx, h, v]
  exact ⟨Int.cast_lt, Int.cast_lt⟩

/-- What `RemoveScale` does with the quotient. -/
theorem removeScale_finite {v s o : Dbl} (hq : (div (sub v o) s).isFinite = true) :
    removeScale v s o = if InI32 (roundInt (div (sub v o) s)) then
      .ok (roundInt (div (sub v o) s)) else .throw .scaleRange := by
  obtain ⟨f, hv⟩ := round_val _ hq
  have h1 := lt'_ofInt f hv (k := -2147483648) (by decide)
  have h2 := lt'_ofInt f hv (k := 2147483647) (by decide)
  unfold removeScale
  simp only [trunc_of_int f hv]
  by_cases hin : InI32 (roundInt (div (sub v o) s))
  · rw [if_neg, if_pos hin]
    · simp [chk32, hin]
    · rw [Bool.or_eq_true, h1.1, h2.2]; unfold InI32 at hin; omega
  · rw [if_pos, if_neg hin]
    rw [Bool.or_eq_true, h1.1, h2.2]; unfold InI32 at hin; omega

theorem headerRemoveScale_finite {v s o : Dbl} (hq : (div (sub v o) s).isFinite = true) :
    headerRemoveScale v s o = chk32 (roundInt (div (sub v o) s)) := by
  obtain ⟨fr, vr⟩ := round_val _ hq
  unfold headerRemoveScale
  have := trunc_of_int fr vr
  simp only [this]

theorem removeScale_nan {v s o : Dbl} (hq : (div (sub v o) s).isNaN = true) :
    removeScale v s o = .ub := by
  have hf : (div (sub v o) s).isFinite = false := by
    simp only [isNaN, isFinite, decide_eq_true_eq, decide_eq_false_iff_not] at *; omega
  unfold removeScale
  simp only [round, hf, Bool.false_eq_true, if_false, lt', hq, trunc]
  simp

theorem removeScale_inf {v s o : Dbl} (hq : (div (sub v o) s).isInf = true) :
    removeScale v s o = .throw .scaleRange := by
  have hf : (div (sub v o) s).isFinite = false := by
    simp only [isInf, isFinite, decide_eq_true_eq, decide_eq_false_iff_not] at *; omega
  have hn : (div (sub v o) s).isNaN = false := by
    simp only [isInf, isNaN, decide_eq_true_eq, decide_eq_false_iff_not] at *; omega
  have hm : (div (sub v o) s).mag = infMag 52 11 := by simpa [isInf] using hq
  unfold removeScale
  simp only [round, hf, Bool.false_eq_true, if_false]
  rw [if_pos]
  rw [Bool.or_eq_true]
  have k1 : (ofInt (-2147483648) : Dbl).key = -0x41E0000000000000 := by decide +kernel
  have k2 : (ofInt 2147483647 : Dbl).key = 0x41DFFFFFFFC00000 := by decide +kernel
  have n1 : (ofInt (-2147483648) : Dbl).isNaN = false := by decide +kernel
  have n2 : (ofInt 2147483647 : Dbl).isNaN = false := by decide +kernel
  have hI : infMag 52 11 = 0x7FF0000000000000 := by decide
  unfold lt'
  rw [hn, n1, n2, k1, k2]
  unfold key
  rw [hm, hI]
  cases (div (sub v o) s).neg <;> simp

/-! ### Rounding error of single operations, scaled down -/

theorem div_error {x y : Dbl} (hx : x.isFinite = true) (hy : y.isFinite = true) (h0 : y.val ≠ 0)
    (hf : (div x y).isFinite = true) : |(div x y).val - x.val / y.val| ≤
      |x.val / y.val| / 2 ^ 53 + 1 / (2 * unit 52 11) := val_error (div_key hx hy h0).1 hf

/-- `2^960`, a convenient finite bound. -/
theorem exists_big : ∃ B : Dbl, B.isFinite = true ∧ B.val = 2 ^ (960 : ℤ) := by
  obtain ⟨x, hx, hv⟩ := exists_dbl 1 960 (by norm_num) (by norm_num) (by norm_num)
  exact ⟨x, hx, by rw [hv]; push_cast; ring⟩

theorem fin_of_le {r : Dbl} {v : ℚ} (hk : r.key = keyR 52 11 v) (hn : r.isNaN = false)
    (h : |v| ≤ 2 ^ (960 : ℤ)) : r.isFinite = true := by
  obtain ⟨B, hB, hv⟩ := exists_big
  exact finite_of_abs_le hk hn B hB (by rw [hv]; exact h)

theorem eta_eq : (1 / (2 * unit 52 11) : ℚ) = 2 ^ (-1000 : ℤ) * 2 ^ (-75 : ℤ) := by
  have h : (unit 52 11 : ℚ) = 2 ^ (1074 : ℤ) := by norm_num [unit]
  rw [h, ← zpow_add₀ (by norm_num), one_div]
  have h2 : (2 : ℚ) * 2 ^ (1074 : ℤ) = 2 ^ (1075 : ℤ) := by
    rw [show (1075 : ℤ) = 1 + 1074 by norm_num, zpow_add₀ (by norm_num) 1 1074, zpow_one]
  rw [h2, ← zpow_neg, show (-1000 + -75 : ℤ) = -1075 by norm_num]

theorem eta_le : (1 / (2 * unit 52 11) : ℚ) ≤ 1 / 2 ^ 70 := by
  rw [eta_eq, ← zpow_add₀ (by norm_num)]
  have h3 : (1 : ℚ) / 2 ^ 70 = 2 ^ (-70 : ℤ) := by rw [zpow_neg, one_div]; norm_cast
  rw [h3]
  exact zpow_le_zpow_right₀ (by norm_num) (by norm_num)

theorem big_bound {S : ℚ} (s2 : S ≤ 2 ^ (900 : ℤ)) : 2 ^ 53 * S ≤ 2 ^ (960 : ℤ) := by
  have h1 : (2 : ℚ) ^ 53 * S ≤ 2 ^ (53 : ℤ) * 2 ^ (900 : ℤ) := by
    have : (2 : ℚ) ^ 53 = 2 ^ (53 : ℤ) := by norm_cast
    rw [this]
    exact mul_le_mul_of_nonneg_left s2 (zpow_nonneg (by norm_num) _)
  refine h1.trans ?_
  rw [← zpow_add₀ (by norm_num)]
  exact zpow_le_zpow_right₀ (by norm_num) (by norm_num)

/-- Conclusion of the error analysis: the recovered quotient is within one half of `X`. -/
theorem quotient_near {X : ℤ} {s o : Dbl} (hX : X.natAbs ≤ 2 ^ 31) (hs : s.isFinite = true)
    (ho : o.isFinite = true) (s1 : 2 ^ (-1000 : ℤ) ≤ |s.val|) (s2 : |s.val| ≤ 2 ^ (900 : ℤ))
    (o1 : |o.val| ≤ 2 ^ 51 * |s.val|) :
    (div (sub (applyScale X s o) o) s).isFinite = true ∧
      |(div (sub (applyScale X s o) o) s).val - X| < 1 / 2 := by
  obtain ⟨fX, vX⟩ := ofInt_val X (by omega)
  have hXq : |(X : ℚ)| ≤ 2 ^ 31 := by
    have : |X| ≤ 2 ^ 31 := by rw [Int.abs_eq_natAbs]; exact_mod_cast hX
    exact_mod_cast this
  have hp1000 : (0 : ℚ) < 2 ^ (-1000 : ℤ) := zpow_pos (by norm_num) _
  have hS : 0 < |s.val| := lt_of_lt_of_le hp1000 s1
  have hs0 : s.val ≠ 0 := abs_pos.1 hS
  -- the absolute error, relative to the scale
  set η : ℚ := 1 / (2 * unit 52 11) with hη
  have hη0 : 0 < η := div_pos one_pos (mul_pos two_pos (unitQ_pos 52 11))
  have hηs : η ≤ |s.val| / 2 ^ 70 := by
    have e : η = 2 ^ (-1000 : ℤ) * 2 ^ (-75 : ℤ) := eta_eq
    rw [e]
    have : (2 : ℚ) ^ (-75 : ℤ) ≤ 1 / 2 ^ 70 := by norm_num
    calc (2 : ℚ) ^ (-1000 : ℤ) * 2 ^ (-75 : ℤ) ≤ |s.val| * (1 / 2 ^ 70) :=
          mul_le_mul s1 this (zpow_nonneg (by norm_num) _) hS.le
      _ = |s.val| / 2 ^ 70 := by ring
  have hη1 : η ≤ 1 / 2 ^ 70 := eta_le
  have big : ∀ v : ℚ, |v| ≤ 2 ^ 53 * |s.val| → |v| ≤ 2 ^ (960 : ℤ) :=
    fun v hv => hv.trans (big_bound s2)
  clear s1 s2 hp1000
  set S := |s.val| with hSdef
  -- product
  have k1 := mul_key fX hs
  rw [vX] at k1
  have b1 : |(X : ℚ) * s.val| ≤ 2 ^ 31 * S := by
    rw [abs_mul]; exact mul_le_mul_of_nonneg_right hXq hS.le
  have f1 := fin_of_le k1.1 k1.2 (big _ (by linarith))
  have e1 := val_error k1.1 f1
  rw [← hη] at e1
  set p := (mul (ofInt X) s).val with hp
  have e1' : |p - X * s.val| ≤ 2 ^ 31 * S / 2 ^ 53 + S / 2 ^ 70 := by
    have : |(X : ℚ) * s.val| / 2 ^ (52 + 1) ≤ 2 ^ 31 * S / 2 ^ 53 :=
      div_le_div_of_nonneg_right b1 (by norm_num)
    linarith
  have hp1 : |p| ≤ 2 ^ 32 * S := by
    have : |p| ≤ |p - X * s.val| + |(X : ℚ) * s.val| := by
      have := abs_add_le (p - X * s.val) (X * s.val); simpa using this
    linarith
  -- sum
  have k2 := add_key f1 ho
  rw [← hp] at k2
  have b2 : |p + o.val| ≤ (2 ^ 51 + 2 ^ 32) * S := by
    have := abs_add_le p o.val; linarith
  have f2 := fin_of_le k2.1 k2.2 (big _ (by linarith))
  have e2 := val_error k2.1 f2
  rw [← hη] at e2
  have fv : (applyScale X s o).isFinite = true := f2
  have hvdef : (applyScale X s o).val = (add (mul (ofInt X) s) o).val := rfl
  rw [← hvdef] at e2
  set v := (applyScale X s o).val with hv
  have e2' : |v - (p + o.val)| ≤ (2 ^ 51 + 2 ^ 32) * S / 2 ^ 53 + S / 2 ^ 70 := by
    have : |p + o.val| / 2 ^ (52 + 1) ≤ (2 ^ 51 + 2 ^ 32) * S / 2 ^ 53 := by
      norm_num; norm_num at b2; linarith
    linarith
  -- difference
  have k3 := sub_key fv ho
  rw [← hv] at k3
  have d3 : |v - o.val - X * s.val| ≤ 3 / 10 * S := by
    have := abs_add_le (v - (p + o.val)) (p - X * s.val)
    rw [show v - (p + o.val) + (p - X * s.val) = v - o.val - X * s.val by ring] at this
    norm_num at e1' e2' ⊢
    linarith
  have b3 : |v - o.val| ≤ 2 ^ 32 * S := by
    have := abs_add_le (v - o.val - X * s.val) (X * s.val)
    rw [show v - o.val - X * s.val + X * s.val = v - o.val by ring] at this
    linarith
  have f3 := fin_of_le k3.1 k3.2 (big _ (by linarith))
  have e3 := val_error k3.1 f3
  rw [← hη] at e3
  set w := (sub (applyScale X s o) o).val with hw
  have d4 : |w - X * s.val| ≤ 31 / 100 * S := by
    have := abs_add_le (w - (v - o.val)) (v - o.val - X * s.val)
    rw [show w - (v - o.val) + (v - o.val - X * s.val) = w - X * s.val by ring] at this
    have h5 : |v - o.val| / 2 ^ (52 + 1) ≤ 2 ^ 32 * S / 2 ^ 53 := by
      norm_num; norm_num at b3; linarith
    norm_num at h5 d3 e3 hηs ⊢
    linarith
  -- quotient
  have k4 := div_key f3 hs hs0
  rw [← hw] at k4
  have d5 : |w / s.val - X| ≤ 31 / 100 := by
    have : w / s.val - X = (w - X * s.val) / s.val := by field_simp
    rw [this, abs_div, div_le_iff₀ hS]
    exact d4
  have b4 : |w / s.val| ≤ 2 ^ 32 := by
    have := abs_add_le (w / s.val - X) X
    rw [show w / s.val - X + X = w / s.val by ring] at this
    norm_num at hXq ⊢
    linarith
  have f4 : (div (sub (applyScale X s o) o) s).isFinite = true := by
    apply fin_of_le k4.1 k4.2
    refine le_trans b4 ?_
    have : (2 : ℚ) ^ 32 = 2 ^ (32 : ℤ) := by norm_cast
    rw [this]
    exact zpow_le_zpow_right₀ (by norm_num) (by norm_num)
  refine ⟨f4, ?_⟩
  have e4 := val_error k4.1 f4
  rw [← hη] at e4
  have := abs_add_le ((div (sub (applyScale X s o) o) s).val - w / s.val) (w / s.val - X)
  rw [show (div (sub (applyScale X s o) o) s).val - w / s.val + (w / s.val - X) =
    (div (sub (applyScale X s o) o) s).val - X by ring] at this
  have h6 : |w / s.val| / 2 ^ (52 + 1) ≤ 2 ^ 32 / 2 ^ 53 := by
    norm_num; norm_num at b4; linarith
  norm_num at h6 e4 hη1 ⊢
  linarith

theorem roundInt_eq {x : Dbl} {X : ℤ} (h : |x.val - X| < 1 / 2) : roundInt x = X := by
  have h1 := roundInt_near x
  have h2 := abs_add_le ((roundInt x : ℚ) - x.val) (x.val - X)
  rw [show (roundInt x : ℚ) - x.val + (x.val - X) = roundInt x - X by ring] at h2
  have h3 : |(roundInt x : ℚ) - X| < 1 := by linarith
  have h4 : |roundInt x - X| < 1 := by exact_mod_cast h3
  have := Int.abs_lt_one_iff.1 h4
  omega

/-- Scaling followed by unscaling recovers the integer. -/
theorem removeScale_applyScale {X : ℤ} {s o : Dbl} (hX : InI32 X) (hs : s.isFinite = true)
    (ho : o.isFinite = true) (s1 : 2 ^ (-1000 : ℤ) ≤ |s.val|) (s2 : |s.val| ≤ 2 ^ (900 : ℤ))
    (o1 : |o.val| ≤ 2 ^ 51 * |s.val|) : removeScale (applyScale X s o) s o = .ok X := by
  have hX' : X.natAbs ≤ 2 ^ 31 := by unfold InI32 at hX; omega
  obtain ⟨hf, hn⟩ := quotient_near hX' hs ho s1 s2 o1
  rw [removeScale_finite hf, roundInt_eq hn, if_pos hX]

theorem headerRemoveScale_applyScale {X : ℤ} {s o : Dbl} (hX : InI32 X) (hs : s.isFinite = true)
    (ho : o.isFinite = true) (s1 : 2 ^ (-1000 : ℤ) ≤ |s.val|) (s2 : |s.val| ≤ 2 ^ (900 : ℤ))
    (o1 : |o.val| ≤ 2 ^ 51 * |s.val|) : headerRemoveScale (applyScale X s o) s o = .ok X := by
  have hX' : X.natAbs ≤ 2 ^ 31 := by unfold InI32 at hX; omega
  obtain ⟨hf, hn⟩ := quotient_near hX' hs ho s1 s2 o1
  rw [headerRemoveScale_finite hf, roundInt_eq hn]
  exact if_pos hX

end Copc.Flt
