import Verif.Model.Key
import Verif.Base.Flt
/-!
# Model of `Vector3`, `Box` and the spatial predicates of keys
(`cpp/include/copc-lib/geometry/*.hpp`, `cpp/src/geometry/box.cpp`, `cpp/src/hierarchy/key.cpp:91-114`)

The functions are written over an abstract numeric type `CxxNum` with two instances: IEEE doubles
(the code) and exact rationals (`Verif/Lemmas/RatNum.lean`, to separate what rounding breaks from
what the formula itself gives).
-/
namespace Copc

/-- The operations on `double` used by the geometry code. -/
class CxxNum (α : Type) where
  add : α → α → α
  sub : α → α → α
  mul : α → α → α
  div : α → α → α
  /-- C++ `<` -/
  lt : α → α → Bool
  /-- C++ `<=` -/
  le : α → α → Bool
  /-- conversion of an `int` -/
  ofInt : Int → α
  /-- `std::pow(2, n)` -/
  pow2 : Int → α

instance {m e : Nat} : CxxNum (Flt m e) where
  add := Flt.add
  sub := Flt.sub
  mul := Flt.mul
  div := Flt.div
  lt := Flt.lt'
  le := Flt.le'
  ofInt := Flt.ofInt
  pow2 := Flt.pow2

/-- `vector3.hpp:12-57` -/
structure Vec3 (α : Type) where
  x : α
  y : α
  z : α
  deriving DecidableEq, Repr

/-- `box.hpp:51-56`; field order as in the constructor. -/
structure Box (α : Type) where
  xMin : α
  yMin : α
  zMin : α
  xMax : α
  yMax : α
  zMax : α
  deriving DecidableEq, Repr

section
variable {α : Type} [CxxNum α]
open CxxNum

namespace Vec3
/-- `Vector3::Vector3(const std::vector<double> &)`, `vector3.hpp:19-26`. -/
def ofVec : List α → Res (Vec3 α)
  | [x, y, z] => .ok ⟨x, y, z⟩
  | _ => .throw .vectorSize

/-- `operator*`, `operator/`, `operator+`, `operator-` with a vector, `vector3.hpp:33-36`. -/
def vmul (a b : Vec3 α) : Vec3 α := ⟨mul a.x b.x, mul a.y b.y, mul a.z b.z⟩
def vdiv (a b : Vec3 α) : Vec3 α := ⟨div a.x b.x, div a.y b.y, div a.z b.z⟩
def vadd (a b : Vec3 α) : Vec3 α := ⟨add a.x b.x, add a.y b.y, add a.z b.z⟩
def vsub (a b : Vec3 α) : Vec3 α := ⟨sub a.x b.x, sub a.y b.y, sub a.z b.z⟩
end Vec3

/-- `std::max({a, b, c})` (`header.hpp:100`): the first largest with respect to `<`. -/
def max3 (a b c : α) : α :=
  let l := if lt a b then b else a
  if lt l c then c else l

/-- `LasHeader::Span`, `header.hpp:100`, as a function of the header bounds. -/
def span (mn mx : Vec3 α) : α := max3 (sub mx.x mn.x) (sub mx.y mn.y) (sub mx.z mn.z)

namespace Box

/-- 3D constructor, `box.cpp:9-14`; also `Box(Vector3, Vector3)`, `box.cpp:23`. -/
def make (xMin yMin zMin xMax yMax zMax : α) : Res (Box α) :=
  if lt xMax xMin || lt yMax yMin || lt zMax zMin then .throw .boxOrder
  else .ok ⟨xMin, yMin, zMin, xMax, yMax, zMax⟩

/-- `Box(Vector3 min, Vector3 max)`, `box.cpp:23`; `LasHeader::Bounds()` is `Box(min, max)`,
`header.cpp:29`. -/
def ofCorners (mn mx : Vec3 α) : Res (Box α) := make mn.x mn.y mn.z mx.x mx.y mx.z

/-- `step` of `Box(VoxelKey, LasHeader)`, `box.cpp:59`. -/
def nodeStep (d : Int) (mn mx : Vec3 α) : α := div (span mn mx) (pow2 d)

/-- Low corner of a node along one axis, `box.cpp:61-63`. -/
def nodeLow (step : α) (v : Int) (lo : α) : α := add (mul step (ofInt v)) lo

/-- `Box(const VoxelKey &, const LasHeader &)`, `box.cpp:55-67`; only `header.min` and `header.max`
are used. This constructor performs no order check. -/
def ofNode (key : VoxelKey) (mn mx : Vec3 α) : Box α :=
  let step := nodeStep key.d mn mx
  let xMin := nodeLow step key.x mn.x
  let yMin := nodeLow step key.y mn.y
  let zMin := nodeLow step key.z mn.z
  ⟨xMin, yMin, zMin, add xMin step, add yMin step, add zMin step⟩

/-- `Box::Intersects`, `box.cpp:76-80` (`a >= b` is `b <= a`). -/
def intersects (b o : Box α) : Bool :=
  le o.xMin b.xMax && le b.xMin o.xMax && le o.yMin b.yMax && le b.yMin o.yMax &&
    le o.zMin b.zMax && le b.zMin o.zMax

/-- `Box::Contains(const Box &)`, `box.cpp:81-85`. -/
def containsBox (b o : Box α) : Bool :=
  le o.xMax b.xMax && le b.xMin o.xMin && le o.yMax b.yMax && le b.yMin o.yMin &&
    le o.zMax b.zMax && le b.zMin o.zMin

/-- `Box::Contains(const Vector3 &)`, `box.cpp:86-89`. -/
def containsPoint (b : Box α) (v : Vec3 α) : Bool :=
  le v.x b.xMax && le b.xMin v.x && le v.y b.yMax && le b.yMin v.y && le v.z b.zMax && le b.zMin v.z

/-- `Box::Within`, `box.cpp:90`. -/
def within (b o : Box α) : Bool := o.containsBox b

end Box

namespace VoxelKey

/-- `VoxelKey::Intersects`, `key.cpp:101-104`. -/
def intersects (k : VoxelKey) (mn mx : Vec3 α) (box : Box α) : Bool :=
  (Box.ofNode k mn mx).intersects box
/-- `VoxelKey::Contains(Box)`, `key.cpp:105`. -/
def containsBox (k : VoxelKey) (mn mx : Vec3 α) (box : Box α) : Bool :=
  (Box.ofNode k mn mx).containsBox box
/-- `VoxelKey::Contains(Vector3)`, `key.cpp:106-109`. -/
def containsPoint (k : VoxelKey) (mn mx : Vec3 α) (p : Vec3 α) : Bool :=
  (Box.ofNode k mn mx).containsPoint p
/-- `VoxelKey::Within`, `key.cpp:110`. -/
def within (k : VoxelKey) (mn mx : Vec3 α) (box : Box α) : Bool :=
  (Box.ofNode k mn mx).within box
/-- `VoxelKey::Crosses`, `key.cpp:111-114`. -/
def crosses (k : VoxelKey) (mn mx : Vec3 α) (box : Box α) : Bool :=
  (Box.ofNode k mn mx).intersects box && !(Box.ofNode k mn mx).within box
/-- `VoxelKey::Resolution`, `key.cpp:91-94` (the header argument is unused). -/
def resolution (k : VoxelKey) (spacing : α) : α := div spacing (pow2 k.d)

end VoxelKey
end

namespace Box
/-- 2D constructor, `box.cpp:17-20`. -/
def make2D (xMin yMin xMax yMax : Dbl) : Res (Box Dbl) :=
  make xMin yMin (Flt.maxFinite true) xMax yMax (Flt.maxFinite false)

/-- `Box(const std::vector<double> &)`, `box.cpp:26-52`. -/
def ofVec : List Dbl → Res (Box Dbl)
  | [a, b, c, d] => make2D a b c d
  | [a, b, c, d, e, f] => make a b c d e f
  | _ => .throw .vectorSize

/-- `Box::MaxBox`, `box.cpp:69-74`. -/
def maxBox : Res (Box Dbl) :=
  make (Flt.maxFinite true) (Flt.maxFinite true) (Flt.maxFinite true)
    (Flt.maxFinite false) (Flt.maxFinite false) (Flt.maxFinite false)

/-- `Box::EmptyBox`, `box.hpp:36`: all zero. -/
def emptyBox : Box Dbl := ⟨Flt.zero, Flt.zero, Flt.zero, Flt.zero, Flt.zero, Flt.zero⟩
end Box

end Copc
