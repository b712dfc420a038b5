import Verif.Base.Res
/-!
# Model of `VoxelKey`  (`cpp/include/copc-lib/hierarchy/key.hpp`, `cpp/src/hierarchy/key.cpp`)

Fields are mathematical integers; `VoxelKey.InRange` says that they are `int32_t` values, and every
operation which can overflow goes through `chk32`.
-/
namespace Copc

/-- `key.hpp:25-101`, the four `int32_t` fields. -/
structure VoxelKey where
  d : Int
  x : Int
  y : Int
  z : Int
  deriving DecidableEq, Repr

namespace VoxelKey

/-- All four fields are `int32_t` values (`key.hpp:80-83`). -/
def InRange (k : VoxelKey) : Prop := InI32 k.d ∧ InI32 k.x ∧ InI32 k.y ∧ InI32 k.z

instance (k : VoxelKey) : Decidable k.InRange := by unfold InRange; infer_instance

/-- `VoxelKey::VoxelKey()`, `key.hpp:29`, and `InvalidKey`, `key.hpp:40`. -/
def invalid : VoxelKey := ⟨-1, -1, -1, -1⟩

/-- `VoxelKey::RootKey`, `key.hpp:41`. -/
def root : VoxelKey := ⟨0, 0, 0, 0⟩

/-- `VoxelKey::VoxelKey(const std::vector<int32_t> &)`, `key.hpp:30-38`. -/
def ofVec : List Int → Res VoxelKey
  | [d, x, y, z] => .ok ⟨d, x, y, z⟩
  | _ => .throw .vectorSize

/-- `VoxelKey::IsValid`, `key.hpp:43`. -/
def isValid (k : VoxelKey) : Bool := decide (0 ≤ k.d ∧ 0 ≤ k.x ∧ 0 ≤ k.y ∧ 0 ≤ k.z)

/-- The lambda `step` of `Bisect`, `key.cpp:19-26`, on one coordinate: `v *= 2;` then `++v` when bit
`i` of `direction` is set. Both operations can overflow. -/
def bisectCoord (v : Int) (direction : Nat) (i : Nat) : Res Int :=
  (chk32 (v * 2)).bind fun w => if direction.testBit i then chk32 (w + 1) else .ok w

/-- `VoxelKey::Bisect`, `key.cpp:14-32`. `++key.d` first, then the steps for x, y, z. -/
def bisect (k : VoxelKey) (direction : Nat) : Res VoxelKey :=
  (chk32 (k.d + 1)).bind fun d =>
  (bisectCoord k.x direction 0).bind fun x =>
  (bisectCoord k.y direction 1).bind fun y =>
  (bisectCoord k.z direction 2).bind fun z => .ok ⟨d, x, y, z⟩

/-- `VoxelKey::GetChildren`, `key.cpp:34-40`. -/
def getChildren (k : VoxelKey) : Res (List VoxelKey) := Res.mapL k.bisect [0, 1, 2, 3, 4, 5, 6, 7]

/-- `VoxelKey::GetParent`, `key.cpp:42-49`. C++ integer division truncates. -/
def getParent (k : VoxelKey) : VoxelKey :=
  if k.isValid then ⟨k.d - 1, k.x.tdiv 2, k.y.tdiv 2, k.z.tdiv 2⟩ else invalid

/-- `(int)std::pow(2, n)`, `key.cpp:58`: `pow` is exact for these arguments, the conversion of a
value over `INT_MAX` is undefined behaviour. `n` is never negative at the call. -/
def powInt (n : Int) : Res Int := if n ≤ 30 then .ok (2 ^ n.toNat) else .ub

/-- `VoxelKey::GetParentAtDepth`, `key.cpp:51-60`. -/
def getParentAtDepth (k : VoxelKey) (depth : Int) : Res VoxelKey :=
  if !k.isValid then .ok invalid
  else if depth < 0 ∨ depth > k.d then .throw .parentDepth
  else (powInt (k.d - depth)).bind fun r => .ok ⟨depth, k.x.tdiv r, k.y.tdiv r, k.z.tdiv r⟩

/-- The `while (parentKey.IsValid())` loop of `GetParents`, `key.cpp:71-76`. Lean accepts the
definition only because it terminates: the depth decreases. -/
def parentsLoop (k : VoxelKey) : List VoxelKey :=
  if k.isValid then k :: parentsLoop k.getParent else []
termination_by (k.d + 1).toNat
decreasing_by
  rename_i h
  simp only [getParent, h, if_true]
  simp only [isValid, decide_eq_true_eq] at h
  omega

/-- `VoxelKey::GetParents`, `key.cpp:62-79`. -/
def getParents (k : VoxelKey) (includeSelf : Bool) : List VoxelKey :=
  if !k.isValid then []
  else (if includeSelf then [k] else []) ++ parentsLoop k.getParent

/-- `VoxelKey::ChildOf`, `key.cpp:81-89`. -/
def childOf (k parent : VoxelKey) : Bool := (k.getParents true).any fun p => decide (p = parent)

end VoxelKey
end Copc
