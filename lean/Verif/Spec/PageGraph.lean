import Verif.Spec.Layout
import Mathlib.Logic.Relation
/-!
# Which hierarchy pages of a file refer to which

A page is given by its place in the file: offset and size. Only the data types `VoxelKey` and `Entry` with
its 32-byte encoding are taken from the model.
-/
namespace Copc.Spec
open Copc

/-- Place of a page: offset and size. -/
abbrev Place := Nat × Int

/-- Among the 32-byte entries of the page at `p` there is one for a page at `q`. -/
def PageRefers (data : Bytes) (p q : Place) : Prop :=
  ∃ (i : Nat) (e : Entry), 32 * ((i : Int) + 1) ≤ p.2 ∧ slice data (p.1 + 32 * i) 32 = e.pack ∧ e.InRange ∧
    Valid e.key ∧ 0 ≤ e.byteSize ∧ e.pointCount = -1 ∧ q = (e.offset, e.byteSize)

/-- The pages reached from the root page by following entries. -/
inductive PageAt (data : Bytes) (root : Place) : Place → Prop
  | root : PageAt data root root
  | sub {p q : Place} : PageAt data root p → PageRefers data p q → PageAt data root q

/-- No page of the file refers to itself, directly or through other pages. -/
def NoCycle (data : Bytes) (root : Place) : Prop :=
  ∀ p, PageAt data root p → ¬Relation.TransGen (PageRefers data) p p

end Copc.Spec
