import Verif.Spec.Geometry
import Verif.Spec.Hierarchy
/-!
# Depths, resolutions and boxes of queries

Only data types and the division of doubles are taken from the model.
-/
namespace Copc.Spec
open Copc

/-- `a ≤ b`, neither of them NaN. -/
def Le (a b : Dbl) : Prop := a.isNaN = false ∧ b.isNaN = false ∧ ext a ≤ ext b

/-- The depth of the deepest node; -1 when there is none. -/
def MaxDepth (ps : List FPage) (m : Int) : Prop :=
  (∀ n, NodeOf ps n → n.key.d ≤ m) ∧ ((∃ n, NodeOf ps n ∧ n.key.d = m) ∨ ((∀ n, ¬NodeOf ps n) ∧ m = -1))

/-- The resolution at a depth: the spacing halved (in double arithmetic) that many times. -/
def halved (spacing : Dbl) : Nat → Dbl
  | 0 => spacing
  | n + 1 => Flt.div (halved spacing n) (Flt.ofInt 2)

/-- `d` is the right depth for the resolution `r` on a file with deepest node at depth `m`: `m` for `r ≤ 0`;
otherwise the smallest depth up to `m` whose resolution is at most `r`, `m` if there is none. -/
def DepthFor (m : Int) (spacing r : Dbl) (d : Int) : Prop :=
  (Le r Flt.zero → d = m) ∧
  (¬Le r Flt.zero →
    (∃ i : Nat, (i : Int) ≤ m ∧ d = i ∧ Le (halved spacing i) r ∧ ∀ j < i, ¬Le (halved spacing j) r) ∨
    (d = m ∧ ∀ j : Nat, (j : Int) ≤ m → ¬Le (halved spacing j) r))

/-- `l` lists the nodes of the file that satisfy `P`, each once. -/
def ListsThose (ps : List FPage) (P : Node → Prop) (l : List Node) : Prop :=
  l.Nodup ∧ ∀ n, n ∈ l ↔ NodeOf ps n ∧ P n

/-- Along every axis the sides of `b` lie between those of `o`. -/
def BoxWithin (b o : Box Dbl) : Prop :=
  (Le o.xMin b.xMin ∧ Le b.xMax o.xMax) ∧ (Le o.yMin b.yMin ∧ Le b.yMax o.yMax) ∧
    (Le o.zMin b.zMin ∧ Le b.zMax o.zMax)

/-- Along every axis each of `b` and `o` begins before the other ends. -/
def BoxMeets (b o : Box Dbl) : Prop :=
  (Le b.xMin o.xMax ∧ Le o.xMin b.xMax) ∧ (Le b.yMin o.yMax ∧ Le o.yMin b.yMax) ∧
    (Le b.zMin o.zMax ∧ Le o.zMin b.zMax)

end Copc.Spec
