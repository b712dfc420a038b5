import Verif.Model.Key
/-!
# What the octree relations mean

Only the data type `VoxelKey` is taken from the model.
-/
namespace Copc.Spec

/-- A usable key: no negative field. -/
def Valid (k : VoxelKey) : Prop := 0 ≤ k.d ∧ 0 ≤ k.x ∧ 0 ≤ k.y ∧ 0 ≤ k.z

/-- The key lies in the octree: at depth `d` there are `2^d` cells along each axis. -/
def InOctree (k : VoxelKey) : Prop :=
  0 ≤ k.d ∧ 0 ≤ k.x ∧ k.x < 2 ^ k.d.toNat ∧ 0 ≤ k.y ∧ k.y < 2 ^ k.d.toNat ∧
    0 ≤ k.z ∧ k.z < 2 ^ k.d.toNat

/-- The key `n` levels up: coordinates shifted right `n` times. -/
def up (n : Nat) (k : VoxelKey) : VoxelKey := ⟨k.d - n, k.x / 2 ^ n, k.y / 2 ^ n, k.z / 2 ^ n⟩

/-- `a` is at or below `b` in the octree. -/
def Below (a b : VoxelKey) : Prop := ∃ n : Nat, (n : Int) ≤ a.d ∧ b = up n a

/-- `c` is one of the eight children cells of `k`. -/
def IsChild (k c : VoxelKey) : Prop :=
  c.d = k.d + 1 ∧ (c.x = 2 * k.x ∨ c.x = 2 * k.x + 1) ∧ (c.y = 2 * k.y ∨ c.y = 2 * k.y + 1) ∧
    (c.z = 2 * k.z ∨ c.z = 2 * k.z + 1)

instance (k : VoxelKey) : Decidable (Valid k) := by unfold Valid; infer_instance
instance (k : VoxelKey) : Decidable (InOctree k) := by unfold InOctree; infer_instance

end Copc.Spec
