import Verif.Spec.Extents
import Verif.Lemmas.Header
import Verif.Lemmas.FltOrder
import Verif.Lemmas.Point
namespace Copc
open Spec

theorem not_lt'_iff {a b : Dbl} :
    Flt.lt' a b = false ↔ a.isNaN = true ∨ b.isNaN = true ∨ ext b ≤ ext a := by
  cases ha : a.isNaN <;> cases hb : b.isNaN
  · rw [Flt.ext_le_iff Flt.infMag_dbl_pos hb ha]
    simp [Flt.lt', ha, hb]
  · simp [Flt.lt', hb]
  · simp [Flt.lt', ha]
  · simp [Flt.lt', ha]

theorem ordered_iff (x : Extent) : Ordered x ↔ Flt.lt' x.maximum x.minimum = false := by
  rw [not_lt'_iff]; unfold Ordered; tauto

theorem ext_zero : ext (Flt.zero : Dbl) = 0 := by
  have h1 : (Flt.zero : Dbl).isInf = false := by decide
  have h2 : (Flt.zero : Dbl).val = 0 := by
    unfold Flt.val Flt.zero; simp [Flt.sval, Flt.sig]
  unfold ext
  rw [h1, h2]
  simp

theorem varOk_iff (x : Extent) : VarOk x ↔ Flt.lt' x.var Flt.zero = false := by
  rw [not_lt'_iff, ext_zero]
  have : (Flt.zero : Dbl).isNaN = false := by decide
  unfold VarOk; simp [this]

theorem numDims_ok {fmt : Int} (h : fmt = 6 ∨ fmt = 7 ∨ fmt = 8) :
    pointBaseNumberDimensions fmt = .ok (baseDims fmt) := by
  rcases h with rfl | rfl | rfl <;> decide

theorem copyRange_ok {α : Type} (src : List α) (n : Nat) : ∀ (dst : List α) (i j : Nat),
    j + n ≤ src.length → i + n ≤ dst.length →
    ∃ l, copyRange dst src i j n = .ok l ∧ l.length = dst.length ∧
      ∀ k : Nat, l[k]? = if i ≤ k ∧ k < i + n then src[j + (k - i)]? else dst[k]? := by
  induction n with
  | zero =>
    intro dst i j _ _
    refine ⟨dst, rfl, rfl, fun k => ?_⟩
    rw [if_neg (by omega)]
  | succ n ih =>
    intro dst i j hj hi
    have hs : src[j]? = some (src[j]'(by omega)) := by rw [List.getElem?_eq_getElem]
    obtain ⟨l, h1, h2, h3⟩ := ih (dst.set i (src[j]'(by omega))) (i + 1) (j + 1) (by omega) (by simp; omega)
    refine ⟨l, ?_, by simpa using h2, fun k => ?_⟩
    · simp only [copyRange, hs]
      rw [if_pos (by omega)]
      exact h1
    · rw [h3 k]
      by_cases hk : k = i
      · subst hk
        rw [if_neg (by omega), if_pos (by omega), List.getElem?_set_self (by omega)]
        simp [hs]
      · by_cases hr : i + 1 ≤ k ∧ k < i + 1 + n
        · rw [if_pos hr, if_pos (by omega)]
          congr 1; omega
        · rw [if_neg hr, if_neg (by omega), List.getElem?_set_ne (by omega)]

theorem extents_make_ok {fmt : Int} (h : fmt = 6 ∨ fmt = 7 ∨ fmt = 8) (n : Nat) (x : Bool) :
    Extents.make fmt n x = .ok ⟨fmt, x, List.replicate (baseDims fmt + n) Extent.default⟩ := by
  unfold Extents.make Extents.number
  rw [if_neg (by omega), numDims_ok h]
  rfl

theorem getItems_putItems (l : List (Dbl × Dbl)) (rest : Bytes) (k : Nat) (hk : k = 16 * l.length) :
    Extents.getItems k (Extents.putItems l ++ rest) = .ok l := by
  have hl : (Extents.putItems l).length = 16 * l.length :=
    length_flatMap_const (f := fun i : Dbl × Dbl => putD i.1 ++ putD i.2) (k := 16) (by simp) l
  have hn : k / 16 = l.length := by omega
  unfold Extents.getItems
  simp only [hn]
  rw [if_neg (by simp [hl])]
  unfold Extents.putItems
  rw [getMany_flatMap l]
  intro a _ r
  simp [List.append_assoc]

theorem length_putItems (l : List (Dbl × Dbl)) : (Extents.putItems l).length = 16 * l.length :=
  length_flatMap_const (f := fun i : Dbl × Dbl => putD i.1 ++ putD i.2) (k := 16) (by simp) l

theorem baseDims_ge (fmt : Int) : 14 ≤ baseDims fmt ∧ baseDims fmt ≤ 18 := by
  unfold baseDims; split <;> [skip; split] <;> omega

end Copc
