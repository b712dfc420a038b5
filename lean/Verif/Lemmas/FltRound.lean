import Verif.Base.Flt
import Mathlib.Tactic.Ring
import Mathlib.Tactic.Linarith
/-! Rounding of naturals: monotonicity, exactness, error bound. -/
namespace Copc.Flt

theorem rneDiv_spec (p : Nat) {d : Nat} (hd : 0 < d) :
    2 * (rneDiv p d * d) ≤ 2 * p + d ∧ 2 * p ≤ 2 * (rneDiv p d * d) + d ∧
    (2 * (rneDiv p d * d) = 2 * p + d → rneDiv p d % 2 = 0) ∧
    (2 * p = 2 * (rneDiv p d * d) + d → rneDiv p d % 2 = 0) := by
  have h := Nat.div_add_mod p d
  have hr := Nat.mod_lt p hd
  rw [Nat.mul_comm d] at h
  unfold rneDiv
  generalize p / d = f at *
  generalize p % d = r at *
  have hs : (f + 1) * d = f * d + d := Nat.succ_mul f d
  simp only
  split
  · refine ⟨by omega, by omega, by omega, by omega⟩
  · split
    · rw [hs]; refine ⟨by omega, by omega, by omega, by omega⟩
    · split
      · refine ⟨by omega, by omega, by omega, by omega⟩
      · rw [hs]; refine ⟨by omega, by omega, by omega, by omega⟩

theorem rneDiv_mono {p₁ d₁ p₂ d₂ : Nat} (h₁ : 0 < d₁) (h₂ : 0 < d₂) (h : p₁ * d₂ ≤ p₂ * d₁) :
    rneDiv p₁ d₁ ≤ rneDiv p₂ d₂ := by
  obtain ⟨a1, a2, a3, a4⟩ := rneDiv_spec p₁ h₁
  obtain ⟨b1, b2, b3, b4⟩ := rneDiv_spec p₂ h₂
  generalize rneDiv p₁ d₁ = n₁ at *
  generalize rneDiv p₂ d₂ = n₂ at *
  by_contra hlt
  obtain ⟨j, rfl⟩ : ∃ j, n₁ = n₂ + 1 + j := ⟨n₁ - n₂ - 1, by omega⟩
  have e1 : 2 * ((n₂ + 1 + j) * d₁) * d₂ ≤ 2 * p₁ * d₂ + d₁ * d₂ := by nlinarith
  have e2 : 2 * p₂ * d₁ ≤ 2 * (n₂ * d₂) * d₁ + d₂ * d₁ := by nlinarith
  have hj : j = 0 := by
    rcases Nat.eq_zero_or_pos j with h | h
    · exact h
    · exfalso
      have : d₁ * d₂ ≤ j * (d₁ * d₂) := Nat.le_mul_of_pos_left _ h
      have : 0 < d₁ * d₂ := Nat.mul_pos h₁ h₂
      nlinarith
  subst hj
  have t1 : 2 * ((n₂ + 1 + 0) * d₁) = 2 * p₁ + d₁ := by
    apply Nat.le_antisymm a1
    by_contra hc
    have : (2 * ((n₂ + 1 + 0) * d₁) + 1) * d₂ ≤ (2 * p₁ + d₁) * d₂ :=
      Nat.mul_le_mul_right _ (by omega)
    nlinarith
  have t2 : 2 * p₂ = 2 * (n₂ * d₂) + d₂ := by
    apply Nat.le_antisymm b2
    by_contra hc
    have : (2 * p₂ + 1) * d₁ ≤ (2 * (n₂ * d₂) + d₂) * d₁ := Nat.mul_le_mul_right _ (by omega)
    nlinarith
  have := a3 t1
  have := b4 t2
  omega

theorem rneDiv_exact (n : Nat) {d : Nat} (hd : 0 < d) : rneDiv (n * d) d = n := by
  simp [rneDiv, Nat.mul_div_cancel _ hd, hd]

theorem rneDiv_le {p d n : Nat} (hd : 0 < d) (h : p ≤ n * d) : rneDiv p d ≤ n := by
  have := rneDiv_mono (p₁ := p) (d₁ := d) (p₂ := n * d) (d₂ := d) hd hd (Nat.mul_le_mul_right d h)
  rwa [rneDiv_exact n hd] at this

theorem le_rneDiv {p d n : Nat} (hd : 0 < d) (h : n * d ≤ p) : n ≤ rneDiv p d := by
  have := rneDiv_mono (p₁ := n * d) (d₁ := d) (p₂ := p) (d₂ := d) hd hd (Nat.mul_le_mul_right d h)
  rwa [rneDiv_exact n hd] at this

/-! ### `sig` -/

theorem sig_rep (m E f : Nat) (hf : f < 2 ^ m) :
    sig m (E * 2 ^ m + f) = if E = 0 then f else (2 ^ m + f) * 2 ^ (E - 1) := by
  have hp : 0 < 2 ^ m := Nat.pow_pos (by decide)
  unfold sig
  rcases Nat.eq_zero_or_pos E with h | h
  · subst h; simp [hf]
  · have h1 : ¬ E * 2 ^ m + f < 2 ^ m := by
      have : 1 * 2 ^ m ≤ E * 2 ^ m := Nat.mul_le_mul_right _ h
      omega
    have h2 : (E * 2 ^ m + f) % 2 ^ m = f := by
      rw [Nat.add_comm, Nat.add_mul_mod_self_right, Nat.mod_eq_of_lt hf]
    have h3 : (E * 2 ^ m + f) / 2 ^ m = E := by
      rw [Nat.add_comm, Nat.add_mul_div_right _ _ hp, Nat.div_eq_of_lt hf]; omega
    rw [if_neg h1, h2, h3, if_neg (by omega)]

theorem mag_rep (m mag : Nat) : ∃ E f, f < 2 ^ m ∧ mag = E * 2 ^ m + f := by
  have hp : 0 < 2 ^ m := Nat.pow_pos (by decide)
  refine ⟨mag / 2 ^ m, mag % 2 ^ m, Nat.mod_lt _ hp, ?_⟩
  have := Nat.div_add_mod mag (2 ^ m)
  rw [Nat.mul_comm] at this
  exact this.symm

theorem sig_lt_succ (m a : Nat) : sig m a < sig m (a + 1) := by
  obtain ⟨E, f, hf, rfl⟩ := mag_rep m a
  have hp : 0 < 2 ^ m := Nat.pow_pos (by decide)
  by_cases h : f + 1 < 2 ^ m
  · rw [Nat.add_assoc, sig_rep m E f hf, sig_rep m E (f + 1) h]
    split
    · omega
    · exact Nat.mul_lt_mul_of_pos_right (by omega) (Nat.pow_pos (by decide))
  · have e : E * 2 ^ m + f + 1 = (E + 1) * 2 ^ m + 0 := by rw [Nat.succ_mul]; omega
    rw [e, sig_rep m E f hf, sig_rep m (E + 1) 0 hp, if_neg (show ¬ E + 1 = 0 by omega)]
    split
    · rename_i h0; subst h0; simp; omega
    · obtain ⟨E', rfl⟩ : ∃ E', E = E' + 1 := ⟨E - 1, by omega⟩
      simp only [Nat.add_sub_cancel, Nat.pow_succ]
      have : 0 < 2 ^ E' := Nat.pow_pos (by decide)
      nlinarith

theorem sig_strictMono (m : Nat) {a b : Nat} (h : a < b) : sig m a < sig m b := by
  induction b with
  | zero => omega
  | succ b ih =>
    rcases Nat.lt_succ_iff_lt_or_eq.1 h with h | h
    · exact Nat.lt_trans (ih h) (sig_lt_succ m b)
    · subst h; exact sig_lt_succ m a

theorem sig_lt_iff (m : Nat) {a b : Nat} : sig m a < sig m b ↔ a < b := by
  constructor
  · intro h
    by_contra hc
    rcases Nat.lt_or_eq_of_le (Nat.le_of_not_lt hc) with h' | h'
    · have := sig_strictMono m h'; omega
    · subst h'; omega
  · exact sig_strictMono m

theorem sig_le_iff (m : Nat) {a b : Nat} : sig m a ≤ sig m b ↔ a ≤ b := by
  have := sig_lt_iff m (a := b) (b := a); omega

theorem sig_inj (m : Nat) {a b : Nat} (h : sig m a = sig m b) : a = b := by
  have h1 := sig_lt_iff m (a := b) (b := a)
  have h2 := sig_lt_iff m (a := a) (b := b)
  omega

@[simp] theorem sig_zero (m : Nat) : sig m 0 = 0 := by
  simp [sig]

theorem sig_eq_zero {m a : Nat} : sig m a = 0 ↔ a = 0 :=
  ⟨fun h => sig_inj m (by rw [h, sig_zero]), fun h => by rw [h, sig_zero]⟩

/-- The word produced by rounding at level `L` denotes `n * 2^L`. -/
theorem sig_lev (m L n : Nat) (h : n ≤ 2 ^ (m + 1)) (h' : L = 0 ∨ 2 ^ m ≤ n) :
    sig m (L * 2 ^ m + n) = n * 2 ^ L := by
  have hp : 0 < 2 ^ m := Nat.pow_pos (by decide)
  rw [Nat.pow_succ] at h
  by_cases h1 : n < 2 ^ m
  · have : L = 0 := by omega
    subst this
    rw [sig_rep m 0 n h1]; simp
  · by_cases h2 : n < 2 * 2 ^ m
    · obtain ⟨f, rfl⟩ : ∃ f, n = 2 ^ m + f := ⟨n - 2 ^ m, by omega⟩
      rw [show L * 2 ^ m + (2 ^ m + f) = (L + 1) * 2 ^ m + f by rw [Nat.succ_mul]; omega,
        sig_rep m (L + 1) f (by omega), if_neg (by omega)]
      simp
    · have : n = 2 * 2 ^ m := by omega
      subst this
      rw [show L * 2 ^ m + 2 * 2 ^ m = (L + 2) * 2 ^ m + 0 by ring,
        sig_rep m (L + 2) 0 hp, if_neg (by omega)]
      simp only [Nat.add_zero, show L + 2 - 1 = L + 1 by omega, Nat.pow_succ]
      ring

/-! ### levels -/

theorem lev_upper (m p : Nat) {d : Nat} (hd : 0 < d) : p < d * 2 ^ (lev m p d + m + 1) := by
  have h : p / d < 2 ^ (lev m p d + m + 1) := by
    refine Nat.lt_of_lt_of_le Nat.lt_log2_self ?_
    exact Nat.pow_le_pow_right (by decide) (by unfold lev; omega)
  rw [Nat.div_lt_iff_lt_mul hd] at h
  rwa [Nat.mul_comm]

theorem lev_lower (m p : Nat) {d : Nat} (hd : 0 < d) (h : lev m p d ≠ 0) :
    d * 2 ^ (lev m p d + m) ≤ p := by
  unfold lev at h ⊢
  have hk : p / d ≠ 0 := by intro h0; rw [h0] at h; simp at h
  have := Nat.log2_self_le hk
  rw [show Nat.log2 (p / d) - m + m = Nat.log2 (p / d) by omega]
  rw [Nat.mul_comm]
  exact (Nat.le_div_iff_mul_le hd).1 this

theorem lev_mono (m : Nat) {p₁ d₁ p₂ d₂ : Nat} (h₁ : 0 < d₁) (h₂ : 0 < d₂)
    (h : p₁ * d₂ ≤ p₂ * d₁) : lev m p₁ d₁ ≤ lev m p₂ d₂ := by
  by_contra hc
  have hl := lev_lower m p₁ h₁ (by omega)
  have hu := lev_upper m p₂ h₂
  have : 2 ^ (lev m p₂ d₂ + m + 1) ≤ 2 ^ (lev m p₁ d₁ + m) :=
    Nat.pow_le_pow_right (by decide) (by omega)
  have a : d₁ * 2 ^ (lev m p₁ d₁ + m) * d₂ ≤ p₁ * d₂ := Nat.mul_le_mul_right _ hl
  have b : p₂ * d₁ < d₂ * 2 ^ (lev m p₂ d₂ + m + 1) * d₁ := Nat.mul_lt_mul_of_pos_right hu h₁
  have c : d₂ * d₁ * 2 ^ (lev m p₂ d₂ + m + 1) ≤ d₂ * d₁ * 2 ^ (lev m p₁ d₁ + m) :=
    Nat.mul_le_mul_left _ this
  nlinarith

/-- The unclamped word. -/
def rawMag (m p d : Nat) : Nat := lev m p d * 2 ^ m + rneDiv p (d * 2 ^ lev m p d)

theorem roundMag_eq (m e p d : Nat) : roundMag m e p d = min (rawMag m p d) (infMag m e) := rfl

theorem raw_n_le (m p : Nat) {d : Nat} (hd : 0 < d) :
    rneDiv p (d * 2 ^ lev m p d) ≤ 2 ^ (m + 1) := by
  have hp : 0 < 2 ^ lev m p d := Nat.pow_pos (by decide)
  apply rneDiv_le (Nat.mul_pos hd hp)
  have := lev_upper m p hd
  rw [show lev m p d + m + 1 = (m + 1) + lev m p d by omega, Nat.pow_add] at this
  rw [Nat.mul_comm (2 ^ (m + 1)), Nat.mul_assoc, Nat.mul_comm (2 ^ lev m p d)]
  omega

theorem raw_n_ge (m p : Nat) {d : Nat} (hd : 0 < d) :
    lev m p d = 0 ∨ 2 ^ m ≤ rneDiv p (d * 2 ^ lev m p d) := by
  by_cases h : lev m p d = 0
  · exact .inl h
  · right
    have hp : 0 < 2 ^ lev m p d := Nat.pow_pos (by decide)
    apply le_rneDiv (Nat.mul_pos hd hp)
    have := lev_lower m p hd h
    rw [Nat.pow_add] at this
    rw [Nat.mul_comm (2 ^ m), Nat.mul_assoc]
    exact this

theorem sig_rawMag (m p : Nat) {d : Nat} (hd : 0 < d) :
    sig m (rawMag m p d) = rneDiv p (d * 2 ^ lev m p d) * 2 ^ lev m p d :=
  sig_lev m _ _ (raw_n_le m p hd) (raw_n_ge m p hd)

theorem rawMag_mono (m : Nat) {p₁ d₁ p₂ d₂ : Nat} (h₁ : 0 < d₁) (h₂ : 0 < d₂)
    (h : p₁ * d₂ ≤ p₂ * d₁) : rawMag m p₁ d₁ ≤ rawMag m p₂ d₂ := by
  have hl := lev_mono m h₁ h₂ h
  rcases Nat.lt_or_eq_of_le hl with hlt | heq
  · have a := raw_n_le m p₁ h₁
    have b := raw_n_ge m p₂ h₂
    unfold rawMag
    rw [Nat.pow_succ] at a
    have : (lev m p₁ d₁ + 1) * 2 ^ m ≤ lev m p₂ d₂ * 2 ^ m := Nat.mul_le_mul_right _ hlt
    rw [Nat.succ_mul] at this
    omega
  · unfold rawMag
    rw [heq]
    have : rneDiv p₁ (d₁ * 2 ^ lev m p₂ d₂) ≤ rneDiv p₂ (d₂ * 2 ^ lev m p₂ d₂) := by
      have hp : 0 < 2 ^ lev m p₂ d₂ := Nat.pow_pos (by decide)
      apply rneDiv_mono (Nat.mul_pos h₁ hp) (Nat.mul_pos h₂ hp)
      rw [← Nat.mul_assoc, ← Nat.mul_assoc]
      exact Nat.mul_le_mul_right _ h
    omega

/-- Rounding is monotone. -/
theorem roundMag_mono (m e : Nat) {p₁ d₁ p₂ d₂ : Nat} (h₁ : 0 < d₁) (h₂ : 0 < d₂)
    (h : p₁ * d₂ ≤ p₂ * d₁) : roundMag m e p₁ d₁ ≤ roundMag m e p₂ d₂ := by
  have := rawMag_mono m h₁ h₂ h
  simp only [roundMag_eq]
  omega

theorem rawMag_exact (m mag : Nat) {d : Nat} (hd : 0 < d) : rawMag m (sig m mag * d) d = mag := by
  apply sig_inj m
  rw [sig_rawMag m _ hd]
  obtain ⟨E, f, hf, rfl⟩ := mag_rep m mag
  have hlev : lev m (sig m (E * 2 ^ m + f) * d) d = E - 1 := by
    unfold lev
    rw [Nat.mul_div_cancel _ hd, sig_rep m E f hf]
    split
    · rename_i h0; subst h0
      have : Nat.log2 f ≤ m := by
        rcases Nat.eq_zero_or_pos f with h | h
        · subst h; simp
        · exact Nat.le_of_lt ((Nat.log2_lt (by omega)).2 hf)
      omega
    · have hp : 0 < 2 ^ m := Nat.pow_pos (by decide)
      have : Nat.log2 ((2 ^ m + f) * 2 ^ (E - 1)) = m + (E - 1) := by
        rw [Nat.log2_eq_iff (Nat.ne_of_gt (Nat.mul_pos (by omega) (Nat.pow_pos (by decide))))]
        constructor
        · rw [Nat.pow_add]; exact Nat.mul_le_mul_right _ (by omega)
        · rw [show m + (E - 1) + 1 = (m + 1) + (E - 1) by omega, Nat.pow_add]
          exact Nat.mul_lt_mul_of_pos_right (by rw [Nat.pow_succ]; omega) (Nat.pow_pos (by decide))
      rw [this]; omega
  rw [hlev]
  have key : ∃ n, sig m (E * 2 ^ m + f) = n * 2 ^ (E - 1) := by
    rw [sig_rep m E f hf]
    split
    · rename_i h0; subst h0; exact ⟨f, by simp⟩
    · exact ⟨_, rfl⟩
  obtain ⟨n, hn⟩ := key
  rw [hn, show n * 2 ^ (E - 1) * d = n * (d * 2 ^ (E - 1)) by ring,
    rneDiv_exact _ (Nat.mul_pos hd (Nat.pow_pos (by decide)))]

/-- Rounding is exact on representable values. -/
theorem roundMag_exact (m e mag : Nat) {d : Nat} (hd : 0 < d) (h : mag ≤ infMag m e) :
    roundMag m e (sig m mag * d) d = mag := by
  rw [roundMag_eq, rawMag_exact m mag hd]; omega

/-- Upper bound by a representable value. -/
theorem roundMag_le (m e mag : Nat) {p d : Nat} (hd : 0 < d) (h : mag ≤ infMag m e)
    (hp : p ≤ sig m mag * d) : roundMag m e p d ≤ mag := by
  have := roundMag_mono m e (p₁ := p) (d₁ := d) (p₂ := sig m mag * d) (d₂ := d) hd hd
    (Nat.mul_le_mul_right _ hp)
  rwa [roundMag_exact m e mag hd h] at this

theorem le_roundMag (m e mag : Nat) {p d : Nat} (hd : 0 < d) (h : mag ≤ infMag m e)
    (hp : sig m mag * d ≤ p) : mag ≤ roundMag m e p d := by
  have := roundMag_mono m e (p₁ := sig m mag * d) (d₁ := d) (p₂ := p) (d₂ := d) hd hd
    (Nat.mul_le_mul_right _ hp)
  rwa [roundMag_exact m e mag hd h] at this

/-- Error bound: half a unit, or half a unit in the last place. -/
theorem rawMag_error (m p : Nat) {d : Nat} (hd : 0 < d) :
    2 ^ (m + 1) * (sig m (rawMag m p d) * d) ≤ 2 ^ (m + 1) * p + max (2 ^ m * d) p ∧
    2 ^ (m + 1) * p ≤ 2 ^ (m + 1) * (sig m (rawMag m p d) * d) + max (2 ^ m * d) p := by
  have hp : 0 < 2 ^ lev m p d := Nat.pow_pos (by decide)
  rw [sig_rawMag m p hd]
  obtain ⟨h1, h2, _, _⟩ := rneDiv_spec p (Nat.mul_pos hd hp)
  generalize rneDiv p (d * 2 ^ lev m p d) = n at *
  have hb : 2 ^ m * (d * 2 ^ lev m p d) ≤ max (2 ^ m * d) p := by
    by_cases h : lev m p d = 0
    · rw [h]; simp
    · have := lev_lower m p hd h
      rw [Nat.pow_add] at this
      refine Nat.le_trans (Nat.le_of_eq ?_) (Nat.le_trans this (Nat.le_max_right _ _))
      ring
  rw [Nat.pow_succ]
  have e : n * 2 ^ lev m p d * d = n * (d * 2 ^ lev m p d) := by ring
  rw [e]
  generalize n * (d * 2 ^ lev m p d) = s at *
  generalize d * 2 ^ lev m p d = D at *
  generalize max (2 ^ m * d) p = M at *
  have hm : 0 < 2 ^ m := Nat.pow_pos (by decide)
  constructor
  · have := Nat.mul_le_mul_left (2 ^ m) h1; nlinarith
  · have := Nat.mul_le_mul_left (2 ^ m) h2; nlinarith

end Copc.Flt
