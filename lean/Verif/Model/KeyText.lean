import Verif.Model.Entry
import Verif.Model.Vlr
import Verif.Model.Extents
/-!
# Texts, equality and hashes
(`key.cpp:6-11`, `key.hpp:103-126`, `entry.hpp:76-79`, `node.hpp:20`, `page.cpp:6`, `vlr.hpp:69-76`)
-/
namespace Copc

/-- `operator<<` of a stream in the default locale for a non-negative integer: decimal digits. -/
def decNat (n : Nat) : List Nat := if n < 10 then [48 + n] else decNat (n / 10) ++ [48 + n % 10]

/-- `operator<<` of a stream for an `int32_t`. -/
def decInt (i : Int) : List Nat := if i < 0 then 45 :: decNat (-i).toNat else decNat i.toNat

namespace VoxelKey

/-- `VoxelKey::ToString`, `key.cpp:6-11`, also `str(key)` and `repr(key)` in Python (`bindings.cpp:75-76`): the
characters of `"(d, x, y, z)"`. -/
def text (k : VoxelKey) : List Nat :=
  40 :: (decInt k.d ++ 44 :: 32 :: (decInt k.x ++ 44 :: 32 :: (decInt k.y ++ 44 :: 32 :: (decInt k.z ++ [41]))))

/-- `operator==`, `key.hpp:104-107`. -/
def eqOp (a b : VoxelKey) : Bool := decide (a.d = b.d) && decide (a.x = b.x) && decide (a.y = b.y) && decide (a.z = b.z)

/-- An `int32_t` converted to `uint64_t`: sign extension. -/
def toU64 (i : Int) : Nat := (i % 18446744073709551616).toNat

/-- `std::hash<VoxelKey>`, `key.hpp:113-125`, over `std::hash<uint64_t>`, which is the library's. -/
def hash (h : Nat → Nat) (k : VoxelKey) : Nat :=
  let k1 := (toU64 k.d * 4294967296) % 18446744073709551616 ||| toU64 k.x
  let k2 := (toU64 k.y * 4294967296) % 18446744073709551616 ||| toU64 k.z
  h k1 ^^^ (h k2 * 2 % 18446744073709551616)

end VoxelKey

/-- `Entry::IsEqual`, `entry.hpp:76-79`. -/
def Entry.isEqual (a b : Entry) : Bool :=
  decide (a.offset = b.offset) && decide (a.byteSize = b.byteSize) && decide (a.pointCount = b.pointCount) &&
    a.key.eqOp b.key

/-- `Node::operator==`, `node.hpp:20`: the page key is not compared. -/
def Node.eqOp (a b : Node) : Bool := a.entry.isEqual b.entry

/-- `Vector3::operator==`, `vector3.hpp:51`. -/
def Vec3.eqOp (a b : Vec3 Dbl) : Bool := Flt.eq' a.x b.x && Flt.eq' a.y b.y && Flt.eq' a.z b.z

/-- `CopcExtent::operator==`, `extents.hpp:46-49`. -/
def Extent.eqOp (a b : Extent) : Bool :=
  Flt.eq' a.minimum b.minimum && Flt.eq' a.maximum b.maximum && Flt.eq' a.mean b.mean && Flt.eq' a.var b.var

/-- `std::memcmp(a, b, 3) == 0` on arrays of three doubles: three bytes are compared, the low mantissa bytes of the
first double (the platform is little-endian). -/
def memcmp3 (a b : Vec3 Dbl) : Bool := decide (a.x.toBits % 16777216 = b.x.toBits % 16777216)

/-- `operator==` of descriptors, `vlr.hpp:70-76`. -/
def EbField.eqOp (a b : EbField) : Bool :=
  decide (a.reserved.take 2 = b.reserved.take 2) && decide (a.dataType = b.dataType) &&
    decide (a.options = b.options) && decide (a.name = b.name) && memcmp3 a.noData b.noData &&
    memcmp3 a.minval b.minval && memcmp3 a.maxval b.maxval && memcmp3 a.scale b.scale && memcmp3 a.offset b.offset &&
    decide (a.description = b.description)

end Copc
