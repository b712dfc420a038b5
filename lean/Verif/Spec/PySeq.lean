import Mathlib.Data.List.Sort
import Verif.Model.PyPoints
/-!
# Indexing and slicing of Python sequences (Python language reference, "Sequence types")
-/
namespace Copc.Spec
open Copc

/-- Position of index `i` in a sequence of `n` items: negative indices count from the end. -/
def Position (n : Nat) (i : Int) (p : Nat) : Prop := p < n ∧ (i = p ∨ i = (p : Int) - n)

/-- A bound of a slice of `n` items: negative bounds count from the end, then a bound outside the sequence is
replaced by the nearest end; with a negative step the ends are `-1` and `n - 1` instead of `0` and `n`. -/
def bound (n : Nat) (neg : Bool) (i : Int) : Int :=
  let j := if i < 0 then i + n else i
  if neg then max (-1) (min j (n - 1)) else max 0 (min j n)

/-- First bound; missing: the first item in the direction of the step. -/
def first (n : Nat) (neg : Bool) : Option Int → Int
  | none => if neg then n - 1 else 0
  | some i => bound n neg i

/-- Second bound; missing: past the last item in the direction of the step. -/
def last (n : Nat) (neg : Bool) : Option Int → Int
  | none => if neg then -1 else n
  | some i => bound n neg i

/-- `l` are the positions selected by the slice in a sequence of `n` items: in the direction of the step, every
`|step|`-th position from the first bound to before the second. -/
def Selected (n : Nat) (s : PySlice) (l : List Nat) : Prop :=
  let k := s.step.getD 1
  (0 < k ∧ l.Pairwise (· < ·) ∧
    ∀ p : Nat, p ∈ l ↔ first n false s.start ≤ p ∧ (p : Int) < last n false s.stop ∧
      k ∣ p - first n false s.start) ∨
  (k < 0 ∧ l.Pairwise (· > ·) ∧
    ∀ p : Nat, p ∈ l ↔ (p : Int) ≤ first n true s.start ∧ last n true s.stop < p ∧
      k ∣ p - first n true s.start)

end Copc.Spec
