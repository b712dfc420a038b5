import Verif.Spec.Octree
/-! # Pages of a COPC hierarchy -/
namespace Copc.Spec
open Copc

/-- Among the pages with keys `ks`, the parent of page `k` is its nearest strict ancestor `p`. -/
def IsParentPage (ks : List VoxelKey) (k p : VoxelKey) : Prop :=
  p ∈ ks ∧ Below k p ∧ p ≠ k ∧ ∀ q ∈ ks, Below k q → q ≠ k → Below p q

end Copc.Spec
