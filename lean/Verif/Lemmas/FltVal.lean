import Verif.Lemmas.FltRound
import Mathlib.Tactic.NormNum
import Mathlib.Tactic.FieldSimp
import Mathlib.Tactic.Positivity
import Mathlib.Tactic.Push
import Mathlib.Algebra.Order.Field.Rat
import Mathlib.Data.Rat.Floor
/-! Floating point values as rationals. -/
namespace Copc.Flt
variable {m e : Nat}

theorem unit_pos (m e : Nat) : 0 < unit m e := Nat.pow_pos (by decide)

/-- Rational value of a finite number. -/
def val (x : Flt m e) : ℚ := (x.sval : ℚ) / (unit m e : ℚ)

theorem unitQ_pos (m e : Nat) : (0 : ℚ) < (unit m e : ℚ) := by exact_mod_cast unit_pos m e

/-- Rounding a rational to the integer key of a float. -/
def keyR (m e : Nat) (v : ℚ) : ℤ :=
  if v < 0 then -(roundMag m e (|v| * unit m e).num.natAbs (|v| * unit m e).den : ℤ)
  else roundMag m e (|v| * unit m e).num.natAbs (|v| * unit m e).den

theorem roundMag_congr (m e : Nat) {p₁ d₁ p₂ d₂ : Nat} (h₁ : 0 < d₁) (h₂ : 0 < d₂)
    (h : p₁ * d₂ = p₂ * d₁) : roundMag m e p₁ d₁ = roundMag m e p₂ d₂ :=
  Nat.le_antisymm (roundMag_mono m e h₁ h₂ h.le) (roundMag_mono m e h₂ h₁ h.ge)

theorem natAbs_num_div {q : ℚ} (h : 0 ≤ q) : ((q.num.natAbs : ℚ) / (q.den : ℚ)) = q := by
  have h1 : (q.num.natAbs : ℤ) = q.num := Int.natAbs_of_nonneg (Rat.num_nonneg.2 h)
  have h2 : ((q.num.natAbs : ℤ) : ℚ) = (q.num : ℚ) := by rw [h1]
  have h3 : ((q.num.natAbs : ℕ) : ℚ) = (q.num : ℚ) := by rw [← h2]; simp
  rw [h3, Rat.num_div_den]

/-- `roundMag` in terms of rationals. -/
theorem roundMag_le_of_le (m e : Nat) {p₁ d₁ p₂ d₂ : Nat} (h₁ : 0 < d₁) (h₂ : 0 < d₂)
    (h : (p₁ : ℚ) / d₁ ≤ (p₂ : ℚ) / d₂) : roundMag m e p₁ d₁ ≤ roundMag m e p₂ d₂ := by
  apply roundMag_mono m e h₁ h₂
  have a : (0 : ℚ) < d₁ := by exact_mod_cast h₁
  have b : (0 : ℚ) < d₂ := by exact_mod_cast h₂
  rw [div_le_div_iff₀ a b] at h
  exact_mod_cast h

theorem roundMag_eq_of_eq (m e : Nat) {p₁ d₁ p₂ d₂ : Nat} (h₁ : 0 < d₁) (h₂ : 0 < d₂)
    (h : (p₁ : ℚ) / d₁ = (p₂ : ℚ) / d₂) : roundMag m e p₁ d₁ = roundMag m e p₂ d₂ :=
  Nat.le_antisymm (roundMag_le_of_le m e h₁ h₂ h.le) (roundMag_le_of_le m e h₂ h₁ h.ge)

@[simp] theorem roundMag_zero (m e d : Nat) (hd : 0 < d) : roundMag m e 0 d = 0 := by
  have := roundMag_exact m e 0 hd (Nat.zero_le _)
  simpa using this

/-- Key of a rounded quotient. -/
theorem key_mkRound {neg : Bool} {p d : Nat} (hd : 0 < d) {v : ℚ}
    (hv : v * unit m e = if neg then -((p : ℚ) / d) else (p : ℚ) / d) :
    (mkRound neg p d : Flt m e).key = keyR m e v := by
  have hU := unitQ_pos m e
  have hd' : (0 : ℚ) < d := by exact_mod_cast hd
  have hq : (0 : ℚ) ≤ (p : ℚ) / d := by positivity
  have habs : |v| * unit m e = (p : ℚ) / d := by
    rw [← abs_of_pos hU, ← abs_mul, hv]
    split
    · rw [abs_neg, abs_of_nonneg hq]
    · rw [abs_of_nonneg hq]
  have hround : roundMag m e (|v| * unit m e).num.natAbs (|v| * unit m e).den = roundMag m e p d := by
    apply roundMag_eq_of_eq m e (Rat.den_pos _) hd
    rw [natAbs_num_div (by positivity), habs]
  unfold keyR
  rw [hround]
  simp only [key, mkRound]
  by_cases hneg : v < 0
  · rw [if_pos hneg]
    cases neg
    · exfalso
      simp at hv
      have : v * unit m e < 0 := mul_neg_of_neg_of_pos hneg hU
      linarith
    · simp
  · rw [if_neg hneg]
    cases neg
    · simp
    · simp only [if_true] at hv ⊢
      have h0 : 0 ≤ v * unit m e := mul_nonneg (by linarith) hU.le
      have : (p : ℚ) / d = 0 := by linarith
      have hp : p = 0 := by
        rcases div_eq_zero_iff.1 this with h | h
        · exact_mod_cast h
        · exact absurd h hd'.ne'
      rw [hp, roundMag_zero _ _ _ hd]; simp

theorem keyR_mono {m e : Nat} {v w : ℚ} (h : v ≤ w) : keyR m e v ≤ keyR m e w := by
  have hU := unitQ_pos m e
  have key : ∀ a b : ℚ, |a| ≤ |b| →
      roundMag m e (|a| * unit m e).num.natAbs (|a| * unit m e).den ≤
      roundMag m e (|b| * unit m e).num.natAbs (|b| * unit m e).den := by
    intro a b hab
    apply roundMag_le_of_le m e (Rat.den_pos _) (Rat.den_pos _)
    rw [natAbs_num_div (by positivity), natAbs_num_div (by positivity)]
    exact mul_le_mul_of_nonneg_right hab hU.le
  unfold keyR
  by_cases hv : v < 0
  · rw [if_pos hv]
    by_cases hw : w < 0
    · rw [if_pos hw]
      have := key w v (by rw [abs_of_neg hw, abs_of_neg hv]; linarith)
      omega
    · rw [if_neg hw]; omega
  · rw [if_neg hv, if_neg (by linarith)]
    have := key v w (by rw [abs_of_nonneg (by linarith), abs_of_nonneg (by linarith)]; exact h)
    omega

theorem finite_iff (x : Flt m e) : x.isFinite = true ↔ x.mag < infMag m e := by simp [isFinite]

theorem notNaN_of_finite {x : Flt m e} (h : x.isFinite = true) : x.isNaN = false := by
  rw [finite_iff] at h; simp [isNaN]; omega

theorem notInf_of_finite {x : Flt m e} (h : x.isFinite = true) : x.isInf = false := by
  rw [finite_iff] at h; simp [isInf]; omega

theorem mkRound_notNaN (neg : Bool) (p d : Nat) : (mkRound neg p d : Flt m e).isNaN = false := by
  simp [isNaN, mkRound, roundMag_eq]

/-- `sval` is `sig` of the key. -/
theorem val_eq (x : Flt m e) :
    x.val * unit m e = if x.neg then -((sig m x.mag : ℚ)) else (sig m x.mag : ℚ) := by
  unfold val sval
  rw [div_mul_cancel₀ _ (unitQ_pos m e).ne']
  split <;> simp

/-- Rounding the value of a finite number gives back the number (up to the sign of zero). -/
theorem keyR_val {x : Flt m e} (h : x.mag ≤ infMag m e) : keyR m e x.val = x.key := by
  have h1 : (mkRound x.neg (sig m x.mag * 1) 1 : Flt m e).key = keyR m e x.val := by
    apply key_mkRound Nat.one_pos
    rw [val_eq]; simp
  rw [← h1]
  simp only [key, mkRound, roundMag_exact m e x.mag Nat.one_pos h]

theorem keyR_zero (m e : Nat) : keyR m e 0 = 0 := by
  simp [keyR, roundMag_zero]

/-- Order of finite values is order of the keys. -/
theorem val_le_iff {x y : Flt m e} : x.val ≤ y.val ↔ x.key ≤ y.key := by
  have hU := unitQ_pos m e
  have h : x.val ≤ y.val ↔ x.sval ≤ y.sval := by
    unfold val
    rw [div_le_div_iff_of_pos_right hU]
    exact_mod_cast Iff.rfl
  rw [h]
  unfold sval key
  have a := sig_le_iff m (a := x.mag) (b := y.mag)
  have b := sig_le_iff m (a := y.mag) (b := x.mag)
  have c := sig_eq_zero (m := m) (a := x.mag)
  have d := sig_eq_zero (m := m) (a := y.mag)
  split <;> split <;> omega

theorem val_lt_iff {x y : Flt m e} : x.val < y.val ↔ x.key < y.key := by
  rw [← not_le, val_le_iff, not_le]

theorem val_eq_iff {x y : Flt m e} : x.val = y.val ↔ x.key = y.key := by
  have h1 := val_le_iff (x := x) (y := y)
  have h2 := val_le_iff (x := y) (y := x)
  constructor
  · intro h; have := h1.1 h.le; have := h2.1 h.ge; omega
  · intro h; exact le_antisymm (h1.2 h.le) (h2.2 h.ge)

theorem le'_iff {x y : Flt m e} (hx : x.isFinite = true) (hy : y.isFinite = true) :
    le' x y = true ↔ x.val ≤ y.val := by
  rw [val_le_iff]; simp [le', notNaN_of_finite hx, notNaN_of_finite hy]

theorem lt'_iff {x y : Flt m e} (hx : x.isFinite = true) (hy : y.isFinite = true) :
    lt' x y = true ↔ x.val < y.val := by
  rw [val_lt_iff]; simp [lt', notNaN_of_finite hx, notNaN_of_finite hy]

theorem neg'_finite {x : Flt m e} : x.neg'.isFinite = x.isFinite := rfl

theorem neg'_val (x : Flt m e) : x.neg'.val = -x.val := by
  have : x.neg'.sval = -x.sval := by
    unfold sval neg'
    cases x.neg <;> simp
  unfold val; rw [this]; push_cast; ring

theorem zero_val : (zero : Flt m e).val = 0 := by simp [val, sval, zero]

/-! ### Operations on finite arguments -/

theorem add_key {x y : Flt m e} (hx : x.isFinite = true) (hy : y.isFinite = true) :
    (add x y).key = keyR m e (x.val + y.val) ∧ (add x y).isNaN = false := by
  have hU := unitQ_pos m e
  have hv : (x.val + y.val) * unit m e = ((x.sval + y.sval : ℤ) : ℚ) := by
    unfold val; rw [add_mul, div_mul_cancel₀ _ hU.ne', div_mul_cancel₀ _ hU.ne']; push_cast; ring
  simp only [add, notNaN_of_finite hx, notNaN_of_finite hy, notInf_of_finite hx, notInf_of_finite hy]
  simp only [Bool.or_false, Bool.false_eq_true, if_false]
  by_cases h0 : x.sval + y.sval = 0
  · rw [if_pos h0]
    have : x.val + y.val = 0 := by
      rw [h0] at hv; simp at hv; rcases hv with h | h
      · exact h
      · exfalso; rw [h] at hU; simp at hU
    rw [this, keyR_zero]
    constructor
    · simp [key]
    · simp [isNaN]
  · rw [if_neg h0]
    refine ⟨key_mkRound Nat.one_pos ?_, mkRound_notNaN _ _ _⟩
    rw [hv]
    by_cases hneg : x.sval + y.sval < 0
    · simp only [hneg, decide_true, if_true]
      rw [Nat.cast_natAbs, abs_of_neg hneg]; push_cast; ring
    · simp only [hneg, decide_false]
      rw [Nat.cast_natAbs, abs_of_nonneg (by omega)]; simp

theorem sub_key {x y : Flt m e} (hx : x.isFinite = true) (hy : y.isFinite = true) :
    (sub x y).key = keyR m e (x.val - y.val) ∧ (sub x y).isNaN = false := by
  unfold sub
  have := add_key hx (y := y.neg') (by rw [neg'_finite]; exact hy)
  rwa [neg'_val, ← sub_eq_add_neg] at this

theorem mul_key {x y : Flt m e} (hx : x.isFinite = true) (hy : y.isFinite = true) :
    (mul x y).key = keyR m e (x.val * y.val) ∧ (mul x y).isNaN = false := by
  have hU := unitQ_pos m e
  have ex := val_eq x
  have ey := val_eq y
  simp only [mul, notNaN_of_finite hx, notNaN_of_finite hy, notInf_of_finite hx, notInf_of_finite hy]
  simp only [Bool.or_false, Bool.false_eq_true, if_false]
  refine ⟨key_mkRound (unit_pos m e) ?_, mkRound_notNaN _ _ _⟩
  have : x.val * y.val * unit m e = (x.val * unit m e) * (y.val * unit m e) / unit m e := by
    field_simp
  rw [this, ex, ey]
  cases x.neg <;> cases y.neg <;> simp <;> ring

theorem div_key {x y : Flt m e} (hx : x.isFinite = true) (hy : y.isFinite = true)
    (h0 : y.val ≠ 0) :
    (div x y).key = keyR m e (x.val / y.val) ∧ (div x y).isNaN = false := by
  have hU := unitQ_pos m e
  have ex := val_eq x
  have ey := val_eq y
  have hmag : ¬ y.mag = 0 := by
    intro h
    apply h0
    have := val_eq y
    rw [h] at this; simp at this
    rcases this with h | h
    · exact h
    · rw [h] at hU; simp at hU
  have hs : sig m y.mag ≠ 0 := fun h => hmag (sig_eq_zero.1 h)
  simp only [div, notNaN_of_finite hx, notNaN_of_finite hy, notInf_of_finite hx, notInf_of_finite hy]
  simp only [Bool.or_false, Bool.false_eq_true, if_false, hmag]
  refine ⟨key_mkRound (Nat.pos_of_ne_zero hs) ?_, mkRound_notNaN _ _ _⟩
  have hs' : (sig m y.mag : ℚ) ≠ 0 := by exact_mod_cast hs
  have : x.val / y.val * unit m e = (x.val * unit m e) / (y.val * unit m e) * unit m e := by
    field_simp
  rw [this, ex, ey]
  cases x.neg <;> cases y.neg <;> simp <;> field_simp

theorem ofInt_key (n : ℤ) : (ofInt n : Flt m e).key = keyR m e n ∧
    (ofInt n : Flt m e).isNaN = false := by
  refine ⟨key_mkRound Nat.one_pos ?_, mkRound_notNaN _ _ _⟩
  by_cases hneg : n < 0
  · simp only [hneg, decide_true, if_true]
    have h : (n.natAbs : ℚ) = -n := by rw [Nat.cast_natAbs, abs_of_neg hneg]; push_cast; rfl
    push_cast; rw [h]; ring
  · simp only [hneg, decide_false]
    have h : (n.natAbs : ℚ) = n := by rw [Nat.cast_natAbs, abs_of_nonneg (by omega)]
    push_cast; rw [h]; simp

/-! ### Error bound -/

/-- A non-NaN number is determined in value by its key. -/
theorem val_of_key {x : Flt m e} {v : ℚ} (hk : x.key = keyR m e v) (hn : x.isNaN = false)
    (hf : keyR m e v < infMag m e) (hf' : -(infMag m e : ℤ) < keyR m e v) :
    x.isFinite = true := by
  rw [← hk] at hf hf'
  simp [isNaN] at hn
  rw [finite_iff]
  unfold key at hf hf'
  split at hf <;> rename_i hs <;> simp only [hs, if_true] at hf' <;> simp at hf' <;> omega

theorem keyR_abs_le {m e : Nat} {v : ℚ} (x : Flt m e) (hx : x.mag ≤ infMag m e)
    (h : |v| ≤ x.val) : |keyR m e v| ≤ x.key := by
  have h1 := keyR_mono (m := m) (e := e) (le_trans (le_abs_self v) h)
  have h2 := keyR_mono (m := m) (e := e) (show -x.val ≤ v by have := neg_abs_le v; linarith)
  rw [keyR_val hx] at h1
  have h3 : keyR m e (-x.val) = -x.key := by
    rw [← neg'_val, keyR_val (x := x.neg') hx]
    unfold key neg'; cases x.neg <;> simp
  rw [h3] at h2
  exact abs_le.2 ⟨h2, h1⟩

/-- If `|v|` is at most some finite number, the rounded result is finite. -/
theorem finite_of_abs_le {r : Flt m e} {v : ℚ} (hk : r.key = keyR m e v) (hn : r.isNaN = false)
    (x : Flt m e) (hx : x.isFinite = true) (h : |v| ≤ x.val) : r.isFinite = true := by
  rw [finite_iff] at hx
  have := keyR_abs_le x hx.le h
  have hxk : x.key ≤ x.mag := by unfold key; split <;> omega
  rw [abs_le] at this
  apply val_of_key hk hn <;> omega

/-- The value of a finite rounded result is close to the exact value. -/
theorem val_error {r : Flt m e} {v : ℚ} (hk : r.key = keyR m e v) (hf : r.isFinite = true) :
    |r.val - v| ≤ |v| / 2 ^ (m + 1) + 1 / (2 * unit m e) := by
  have hU := unitQ_pos m e
  rw [finite_iff] at hf
  set q : ℚ := |v| * unit m e with hq
  have hq0 : 0 ≤ q := by positivity
  set p := q.num.natAbs with hp
  set d := q.den with hd
  have hd0 : 0 < d := Rat.den_pos _
  have hd' : (0 : ℚ) < d := by exact_mod_cast hd0
  have hpd : (p : ℚ) / d = q := natAbs_num_div hq0
  -- the magnitude is `roundMag p d`
  have hmag : r.mag = roundMag m e p d := by
    unfold key keyR at hk
    rw [← hq, ← hp, ← hd] at hk
    split at hk <;> split at hk <;> omega
  have hraw : r.mag = rawMag m p d := by
    rw [roundMag_eq] at hmag
    omega
  -- sign
  have hsv : r.val * unit m e = if v < 0 then -(sig m r.mag : ℚ) else (sig m r.mag : ℚ) := by
    rw [val_eq]
    unfold key keyR at hk
    rw [← hq, ← hp, ← hd] at hk
    have hz : r.mag = 0 → (sig m r.mag : ℚ) = 0 := by intro h; rw [h]; simp
    by_cases h0 : r.mag = 0
    · rw [hz h0]; simp
    · split at hk <;> split at hk <;> simp_all <;> omega
  have hv : v * unit m e = if v < 0 then -q else q := by
    rw [hq]
    split
    · rename_i h; rw [abs_of_neg h]; ring
    · rename_i h; rw [abs_of_nonneg (by linarith)]
  have hdiff : |r.val - v| * unit m e = |(sig m r.mag : ℚ) - q| := by
    have : |r.val - v| * unit m e = |(r.val - v) * unit m e| := by rw [abs_mul, abs_of_pos hU]
    rw [this, sub_mul, hsv, hv]
    split
    · rw [← abs_neg]; congr 1; ring
    · rfl
  obtain ⟨e1, e2⟩ := rawMag_error m p hd0
  rw [← hraw] at e1 e2
  have hmax : max (2 ^ m * d) p ≤ 2 ^ m * d + p := by omega
  have e1' : (2 : ℚ) ^ (m + 1) * ((sig m r.mag : ℚ) * d) ≤ 2 ^ (m + 1) * p + (2 ^ m * d + p) := by
    exact_mod_cast le_trans e1 (by omega)
  have e2' : (2 : ℚ) ^ (m + 1) * p ≤ 2 ^ (m + 1) * ((sig m r.mag : ℚ) * d) + (2 ^ m * d + p) := by
    exact_mod_cast le_trans e2 (by omega)
  have hpq : (p : ℚ) = q * d := by rw [← hpd]; field_simp
  rw [hpq] at e1' e2'
  have hM : (0 : ℚ) < 2 ^ m := by positivity
  have key : |(sig m r.mag : ℚ) - q| ≤ q / 2 ^ (m + 1) + 1 / 2 := by
    rw [abs_le]
    constructor
    · have : 2 ^ (m + 1) * q ≤ 2 ^ (m + 1) * (sig m r.mag : ℚ) + (2 ^ m + q) := by
        have := e2'
        have h3 : (2 ^ (m + 1) * q) * d ≤ (2 ^ (m + 1) * (sig m r.mag : ℚ) + (2 ^ m + q)) * d := by
          nlinarith
        exact le_of_mul_le_mul_right h3 hd'
      rw [pow_succ] at this ⊢
      have h4 : q / (2 ^ m * 2) * (2 ^ m * 2) = q := by field_simp
      nlinarith
    · have : 2 ^ (m + 1) * (sig m r.mag : ℚ) ≤ 2 ^ (m + 1) * q + (2 ^ m + q) := by
        have h3 : (2 ^ (m + 1) * (sig m r.mag : ℚ)) * d ≤ (2 ^ (m + 1) * q + (2 ^ m + q)) * d := by
          nlinarith
        exact le_of_mul_le_mul_right h3 hd'
      rw [pow_succ] at this ⊢
      have h4 : q / (2 ^ m * 2) * (2 ^ m * 2) = q := by field_simp
      nlinarith
  have : |r.val - v| * unit m e ≤ (|v| / 2 ^ (m + 1) + 1 / (2 * unit m e)) * unit m e := by
    rw [hdiff]
    refine le_trans key (le_of_eq ?_)
    rw [hq]; field_simp
  exact le_of_mul_le_mul_right this hU

/-- Exactness: if the exact result is the value of a finite number, it is the result. -/
theorem val_exact {r x : Flt m e} {v : ℚ} (hk : r.key = keyR m e v) (hx : x.isFinite = true)
    (h : v = x.val) : r.val = v := by
  rw [finite_iff] at hx
  rw [h, keyR_val hx.le] at hk
  rw [h]; exact val_eq_iff.2 hk

end Copc.Flt
