import Verif.Lemmas.FltOrder
/-! # Node boxes have ordered axes, or a NaN -/
namespace Copc.Flt
variable {m e : Nat}

/-- NaN or not negative. -/
def NN (x : Flt m e) : Prop := x.isNaN = true ∨ 0 ≤ x.key

theorem nan_isNaN_dbl : (nan : Dbl).isNaN = true := by decide

theorem not_finite {x : Flt m e} (h : x.isNaN = false) (hf : ¬ x.isFinite = true) :
    x.isInf = true := by
  simp [isNaN, isFinite, isInf] at *; omega

theorem key_nonneg_iff {x : Flt m e} : 0 ≤ x.key ↔ x.neg = false ∨ x.mag = 0 := by
  unfold key; cases x.neg <;> simp

theorem NN_sub {a b : Dbl} (h : le' b a = true) : NN (sub a b) := by
  have hn := le'_notNaN h
  by_cases ha : a.isFinite = true <;> by_cases hb : b.isFinite = true
  · right
    rw [(sub_key ha hb).1, ← keyR_zero 52 11]
    apply keyR_mono
    have := (le'_iff hb ha).1 h
    linarith
  · -- `b` infinite: it is `-inf`
    have hi := not_finite hn.1 hb
    have hm : b.mag = infMag 52 11 := by simpa [isInf] using hi
    have hs : sub a b = b.neg' := by
      have h1 : b.neg'.isNaN = false := hn.1
      have h2 : b.neg'.isInf = true := hi
      simp [sub, add, hn.2, h1, h2, notInf_of_finite ha]
    right
    rw [hs, key_nonneg_iff]
    left
    simp only [le', Bool.and_eq_true, decide_eq_true_eq] at h
    have hk := h.2
    rw [finite_iff] at ha
    unfold key at hk
    rw [hm] at hk
    cases hbn : b.neg
    · exfalso; rw [hbn] at hk; simp at hk; split at hk <;> omega
    · simp [neg', hbn]
  all_goals
    -- `a` infinite
    have hi := not_finite hn.2 ha
    have hm : a.mag = infMag 52 11 := by simpa [isInf] using hi
    have h1 : b.neg'.isNaN = false := hn.1
    have hs : sub a b = nan ∧ (b.isInf = true ∧ a.neg = b.neg) ∨
        sub a b = a ∧ ¬ (b.isInf = true ∧ a.neg = b.neg) := by
      have h2 : b.neg'.isInf = b.isInf := rfl
      have h3 : (a.neg != b.neg'.neg) = (a.neg == b.neg) := by
        simp only [neg']; cases a.neg <;> cases b.neg <;> rfl
      simp only [sub, add, hn.2, h1, hi, h2, h3, Bool.or_self, Bool.false_eq_true, if_false,
        if_true]
      by_cases hc : b.isInf = true ∧ a.neg = b.neg
      · left; simp [hc]
      · right
        refine ⟨if_neg ?_, hc⟩
        simpa using hc
    rcases hs with ⟨hs, _⟩ | ⟨hs, hc⟩
    · left; rw [hs]; decide
    · right
      rw [hs, key_nonneg_iff]
      left
      simp only [le', Bool.and_eq_true, decide_eq_true_eq] at h
      have hk := h.2
      have hbm : b.mag ≤ infMag 52 11 := by
        have := hn.1; simp [isNaN] at this; exact this
      have hI := infMag_dbl_pos
      rw [Bool.eq_false_iff]
      intro han
      apply hc
      unfold key at hk
      rw [hm, han] at hk
      cases hbn : b.neg
      · rw [hbn] at hk; simp at hk; omega
      · rw [hbn] at hk; simp at hk
        have : b.mag = infMag 52 11 := by omega
        simp [isInf, this, han]

theorem NN_div {x y : Dbl} (hx : NN x) (hy : y.neg = false) : NN (div x y) := by
  unfold NN at *
  rw [key_nonneg_iff] at *
  unfold div
  have hnan : (nan : Dbl).isNaN = true := by decide
  by_cases hn : x.isNaN = true
  · simp [hn, hnan]
  · simp only [hn, false_or, Bool.false_eq_true, Bool.false_or] at *
    by_cases hyn : y.isNaN = true
    · simp [hyn, hnan]
    · simp only [hyn, hy, Bool.false_eq_true, if_false]
      rcases hx with hx | hx
      · simp only [hx]
        split
        · split <;> simp [hnan, inf]
        · split
          · simp
          · split
            · split <;> simp [hnan, inf]
            · simp [mkRound]
      · have h0 : x.isInf = false := by simp [isInf, hx]; decide
        simp only [h0, hx, Bool.false_eq_true, if_false]
        split
        · simp
        · split
          · simp [hnan]
          · right; right
            have : sig 52 0 = 0 := by decide
            simp only [mkRound, this, Nat.zero_mul]
            apply roundMag_zero
            rename_i h
            unfold sig
            split
            · omega
            · exact Nat.mul_pos (by have : 0 < 2 ^ 52 := by decide
                                    omega) (Nat.pow_pos (by decide))

theorem pow2_neg (n : Int) : (pow2 n : Flt m e).neg = false := by
  unfold pow2; split <;> rfl

theorem le'_add {x s : Dbl} (hs : NN s) (hx : x.isNaN = false) (h : (add x s).isNaN = false) :
    le' x (add x s) = true := by
  simp only [le', hx, h]
  simp
  rcases hs with hs | hs
  · exfalso
    rw [show add x s = nan by simp [add, hs]] at h
    revert h; decide
  · by_cases fx : x.isFinite = true <;> by_cases fs : s.isFinite = true
    · rw [(add_key fx fs).1, ← keyR_val (x := x) (by rw [finite_iff] at fx; omega)]
      apply keyR_mono
      have : (zero : Dbl).val ≤ s.val := val_le_iff.2 (by simpa [zero, key] using hs)
      rw [zero_val] at this
      linarith
    · have hsn : s.isNaN = false := by
        rw [Bool.eq_false_iff]; intro hc
        rw [show add x s = nan by simp [add, hc]] at h
        revert h; decide
      have hi := not_finite hsn fs
      have : add x s = s := by
        simp [add, hx, hsn, notInf_of_finite fx, hi]
      rw [this]
      have hm : s.mag = infMag 52 11 := by simpa [isInf] using hi
      rw [finite_iff] at fx
      rw [key_nonneg_iff, hm] at hs
      have hI := infMag_dbl_pos
      have : s.neg = false := by rcases hs with h | h; exact h; omega
      simp only [key, this, hm]
      split <;> simp <;> omega
    all_goals
      have hsn : s.isNaN = false := by
        rw [Bool.eq_false_iff]; intro hc
        rw [show add x s = nan by simp [add, hc]] at h
        revert h; decide
      have hi := not_finite hx fx
      have : add x s = x := by
        unfold add at h ⊢
        simp only [hx, hsn, hi] at h ⊢
        simp only [Bool.or_self, Bool.false_eq_true, if_false, if_true] at h ⊢
        split at h
        · rw [nan_isNaN_dbl] at h; cases h
        · split
          · contradiction
          · rfl
      rw [this]

theorem add_notNaN {x s : Dbl} (h : (add x s).isNaN = false) : x.isNaN = false := by
  rw [Bool.eq_false_iff]; intro hc
  rw [show add x s = nan by simp [add, hc]] at h
  revert h; decide

end Copc.Flt

namespace Copc
open Flt

theorem max3_cases (a b c : Dbl) : max3 a b c = a ∨ max3 a b c = b ∨ max3 a b c = c := by
  unfold max3
  simp only
  split <;> split <;> simp

/-- The header bounds are ordered on every axis (this excludes NaN). -/
def OrderedBounds (mn mx : Vec3 Dbl) : Prop :=
  le' mn.x mx.x = true ∧ le' mn.y mx.y = true ∧ le' mn.z mx.z = true

theorem NN_span {mn mx : Vec3 Dbl} (h : OrderedBounds mn mx) : NN (span mn mx) := by
  unfold span
  rcases max3_cases (CxxNum.sub mx.x mn.x) (CxxNum.sub mx.y mn.y) (CxxNum.sub mx.z mn.z) with
    h' | h' | h' <;> rw [h']
  · exact NN_sub h.1
  · exact NN_sub h.2.1
  · exact NN_sub h.2.2

theorem NN_nodeStep {mn mx : Vec3 Dbl} (h : OrderedBounds mn mx) (d : Int) :
    NN (Box.nodeStep d mn mx) := NN_div (NN_span h) (pow2_neg d)

theorem ofNode_xMax (k : VoxelKey) (mn mx : Vec3 Dbl) : (Box.ofNode k mn mx).xMax =
    Flt.add (Box.ofNode k mn mx).xMin (Box.nodeStep k.d mn mx) := by
  simp only [Box.ofNode, CxxNum.add]
theorem ofNode_yMax (k : VoxelKey) (mn mx : Vec3 Dbl) : (Box.ofNode k mn mx).yMax =
    Flt.add (Box.ofNode k mn mx).yMin (Box.nodeStep k.d mn mx) := by
  simp only [Box.ofNode, CxxNum.add]
theorem ofNode_zMax (k : VoxelKey) (mn mx : Vec3 Dbl) : (Box.ofNode k mn mx).zMax =
    Flt.add (Box.ofNode k mn mx).zMin (Box.nodeStep k.d mn mx) := by
  simp only [Box.ofNode, CxxNum.add]

theorem nodeBox_ordered {mn mx : Vec3 Dbl} (h : OrderedBounds mn mx) (k : VoxelKey) :
    ((Box.ofNode k mn mx).xMax.isNaN = false →
      le' (Box.ofNode k mn mx).xMin (Box.ofNode k mn mx).xMax = true) ∧
    ((Box.ofNode k mn mx).yMax.isNaN = false →
      le' (Box.ofNode k mn mx).yMin (Box.ofNode k mn mx).yMax = true) ∧
    ((Box.ofNode k mn mx).zMax.isNaN = false →
      le' (Box.ofNode k mn mx).zMin (Box.ofNode k mn mx).zMax = true) := by
  have hs := NN_nodeStep h k.d
  rw [ofNode_xMax, ofNode_yMax, ofNode_zMax]
  generalize Box.nodeStep k.d mn mx = s at hs ⊢
  generalize Box.ofNode k mn mx = b
  exact ⟨fun hn => le'_add hs (add_notNaN hn) hn, fun hn => le'_add hs (add_notNaN hn) hn,
    fun hn => le'_add hs (add_notNaN hn) hn⟩

end Copc
