import Verif.Model.Key
import Verif.Base.Bytes
/-!
# Model of `Entry`, `Node` and of reading a hierarchy page
(`cpp/include/copc-lib/hierarchy/entry.hpp`, `node.hpp`, `cpp/src/io/copc_reader.cpp:70-92`)
-/
namespace Copc

/-- `entry.hpp:14-82`: key, `uint64_t offset`, `int32_t byte_size`, `int32_t point_count`. -/
structure Entry where
  key : VoxelKey
  offset : Nat
  byteSize : Int
  pointCount : Int
  deriving DecidableEq, Repr

namespace Entry

/-- The fields hold values of their C++ types (`entry.hpp:69-72`). -/
def InRange (e : Entry) : Prop :=
  e.key.InRange ∧ e.offset < 2 ^ 64 ∧ InI32 e.byteSize ∧ InI32 e.pointCount

instance (e : Entry) : Decidable e.InRange := by unfold InRange; infer_instance

/-- `Entry::Entry()`, `entry.hpp:19`: `offset(-1)` on a `uint64_t`. -/
def empty : Entry := ⟨VoxelKey.invalid, 2 ^ 64 - 1, -1, -1⟩

/-- `Entry::IsValid`, `entry.hpp:23`. `offset >= 0` on a `uint64_t` is always true. -/
def isValid (e : Entry) : Bool := decide (0 ≤ e.byteSize) && e.key.isValid

/-- `Entry::IsPage`, `entry.hpp:24`. -/
def isPage (e : Entry) : Bool := e.isValid && decide (e.pointCount = -1)

/-- `Entry::Pack`, `entry.hpp:39-49`. -/
def pack (e : Entry) : Bytes :=
  leI 4 e.key.d ++ leI 4 e.key.x ++ leI 4 e.key.y ++ leI 4 e.key.z ++
    leN 8 e.offset ++ leI 4 e.byteSize ++ leI 4 e.pointCount

/-- `in.read((char*)&v, 4)` into an `int32_t` holding `-1` (`entry.hpp:53-57`, `key` is
default-constructed): bytes not read keep the value `0xff`. -/
def readKeyField (s : IStream) : Int × IStream :=
  let (bs, s') := s.read 4
  (unLeI 4 (bs ++ List.replicate (4 - bs.length) 255), s')

/-- `in.read((char*)&v, k)` into an uninitialised variable (`entry.hpp:59-64`): `none` when some of
its bytes stay indeterminate. -/
def readRaw (s : IStream) (k : Nat) : Option Nat × IStream :=
  let (bs, s') := s.read k
  (if bs.length = k then some (unLe bs) else none, s')

/-- Result of `Entry::Unpack`: the key is always initialised, the rest may be indeterminate. -/
structure Raw where
  key : VoxelKey
  offset : Option Nat
  byteSize : Option Nat
  pointCount : Option Nat

/-- `Entry::Unpack`, `entry.hpp:51-67`. -/
def unpackRaw (s : IStream) : Raw × IStream :=
  let (d, s) := readKeyField s
  let (x, s) := readKeyField s
  let (y, s) := readKeyField s
  let (z, s) := readKeyField s
  let (o, s) := readRaw s 8
  let (b, s) := readRaw s 4
  let (c, s) := readRaw s 4
  (⟨⟨d, x, y, z⟩, o, b, c⟩, s)

/-- `Entry::Unpack` as a value: undefined behaviour when a member is indeterminate. -/
def unpack (s : IStream) : Res Entry × IStream :=
  let (r, s') := unpackRaw s
  (match r.offset, r.byteSize, r.pointCount with
    | some o, some b, some c => .ok ⟨r.key, o, signed 4 b, signed 4 c⟩
    | _, _, _ => .ub, s')

/-- `Entry::Unpack` followed by the `IsValid` test of the caller (`copc_reader.cpp:83-85`).
An invalid key makes `IsValid` false whatever the indeterminate members hold, so the code throws;
otherwise using an indeterminate member is undefined behaviour. -/
def unpackValid (s : IStream) : Res Entry × IStream :=
  let (r, s') := unpackRaw s
  (if r.key.isValid = false then .throw .invalidEntry
   else match r.offset, r.byteSize, r.pointCount with
    | some o, some b, some c =>
      let e : Entry := ⟨r.key, o, signed 4 b, signed 4 c⟩
      if e.isValid then .ok e else .throw .invalidEntry
    | _, _, _ => .ub, s')

/-- The loop of `Reader::ReadPage`, `copc_reader.cpp:80-88`, `n` entries. -/
def readEntries : Nat → IStream → Res (List Entry) × IStream
  | 0, s => (.ok [], s)
  | n + 1, s =>
    match unpackValid s with
    | (.ok e, s') =>
      match readEntries n s' with
      | (.ok es, s'') => (.ok (e :: es), s'')
      | r => r
    | (.throw x, s') => (.throw x, s')
    | (.ub, s') => (.ub, s')

end Entry

/-- `node.hpp:14-22`. -/
structure Node where
  entry : Entry
  pageKey : VoxelKey
  deriving DecidableEq, Repr

namespace Node
/-- `Node::Node()`, `node.hpp:18`. -/
def empty : Node := ⟨Entry.empty, VoxelKey.invalid⟩
/-- `Entry::IsValid` inherited (`entry.hpp:23`). -/
def isValid (n : Node) : Bool := n.entry.isValid
def key (n : Node) : VoxelKey := n.entry.key
end Node

/-- `Reader::ReadPage`, `copc_reader.cpp:70-92`, for a page at `offset` of `byteSize` bytes;
`valid` is `page->IsValid()` (`page.hpp:22`). The update `page->loaded = true` is made by the caller
in the model when the result is `ok`. -/
def readPage (s : IStream) (valid : Bool) (offset : Nat) (byteSize : Int) :
    Res (List Entry) × IStream :=
  if valid = false then (.throw .invalidPage, s)
  else Entry.readEntries (byteSize.tdiv 32).toNat (s.seekg offset)

end Copc
