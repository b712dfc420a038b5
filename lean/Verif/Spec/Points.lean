import Verif.Model.Points
import Verif.Spec.Point
/-! # What a program may do with point collections -/
namespace Copc.Spec
open Copc

/-- Point objects and collections of a program. -/
structure World where
  heap : Heap
  colls : List Coll

/-- All points of the collection have its format and record length. -/
def Homogeneous (h : Heap) (c : Coll) : Prop :=
  ∀ i ∈ c.pts, ∃ p, h[i]? = some p ∧ p.fmt = c.fmt ∧ p.recLen = c.recLen

/-- No other collection shares a point with the `k`-th one. -/
def Exclusive (w : World) (k : Nat) : Prop :=
  ∀ c, w.colls[k]? = some c → ∀ j d, j ≠ k → w.colls[j]? = some d → ∀ i ∈ d.pts, i ∉ c.pts

/-- One call that returns normally. Collections may share points in every way; the single
restrictions are that points are not converted one by one behind the back of a collection
(`Point::ToPointFormat` on a shared pointer), and that a collection is converted (`convert`) only
when no other one shares its points and the converted record length fits 16 bits. -/
inductive PStep : World → World → Prop
  | newPoint {w fmt eb p} : eb < 65536 → Point.make fmt eb = .ok p →
      PStep w { w with heap := w.heap ++ [p] }
  | copyPoint {w} {i : Nat} {p q : Point} : w.heap[i]? = some p → p.copy = .ok q →
      PStep w { w with heap := w.heap ++ [q] }
  | unpackPoint {w fmt scale offset eb bs p rest} : eb < 65536 →
      Point.unpack fmt scale offset eb bs = .ok (p, rest) → PStep w { w with heap := w.heap ++ [p] }
  | setter {w} {i : Nat} {p q : Point} : w.heap[i]? = some p → Setter p q → PStep w { w with heap := w.heap.set i q }
  | newColl {w fmt eb c} : eb < 65536 → Coll.make fmt eb = .ok c →
      PStep w { w with colls := w.colls ++ [c] }
  | ofVector {w is c} : Coll.ofVector w.heap is = .ok c → PStep w { w with colls := w.colls ++ [c] }
  | copyColl {w} {k : Nat} {c : Coll} : w.colls[k]? = some c → PStep w { w with colls := w.colls ++ [c] }
  | addPoint {w k c i c'} : w.colls[k]? = some c → c.addPoint w.heap i = .ok c' →
      PStep w { w with colls := w.colls.set k c' }
  | addPoints {w k c is c'} : w.colls[k]? = some c → c.addPoints w.heap is = .ok c' →
      PStep w { w with colls := w.colls.set k c' }
  | addColl {w} {k j : Nat} {c d c' : Coll} : w.colls[k]? = some c → w.colls[j]? = some d → c.addColl d = .ok c' →
      PStep w { w with colls := w.colls.set k c' }
  | createPoint {w} {k : Nat} {c : Coll} {p : Point} : w.colls[k]? = some c → c.createPoint = .ok p →
      PStep w { w with heap := w.heap ++ [p] }
  | convert {w k c fmt h' c'} : w.colls[k]? = some c → Exclusive w k →
      baseSize fmt + (c.recLen - baseSize c.fmt) < 65536 →
      c.toPointFormat w.heap fmt = .ok (h', c') →
      PStep w { heap := h', colls := w.colls.set k c' }

/-- Worlds reachable from the empty one by any number of calls. -/
inductive PReach : World → Prop
  | init : PReach ⟨[], []⟩
  | step {w w'} : PReach w → PStep w w' → PReach w'

end Copc.Spec
