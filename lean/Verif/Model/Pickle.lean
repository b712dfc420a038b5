import Verif.Model.PyPoints
import Verif.Model.Header
import Verif.Model.Entry
/-!
# Pickling (`python/bindings.cpp:35-46, 77-93, 133-150, 203-209, 506-540`)

`__getstate__` turns an object into a tuple of Python values, `__setstate__` builds an object from the tuple. Between
them the `pickle` module carries the tuple over unchanged (trusted, as are pybind11's conversions of numbers,
strings, bytes and sequences and CPython's strict UTF-8 codec, modelled here from their documentation).
-/
namespace Copc

/-! ### UTF-8 (CPython's strict codec) -/

/-- UTF-8 bytes of a code point. -/
def utf8Char (c : Nat) : List Nat :=
  if c < 0x80 then [c]
  else if c < 0x800 then [0xC0 + c / 64, 0x80 + c % 64]
  else if c < 0x10000 then [0xE0 + c / 4096, 0x80 + c / 64 % 64, 0x80 + c % 64]
  else [0xF0 + c / 262144, 0x80 + c / 4096 % 64, 0x80 + c / 64 % 64, 0x80 + c % 64]

/-- A continuation byte. -/
def isCont (b : Nat) : Bool := decide (0x80 ≤ b ∧ b ≤ 0xBF)

/-- Strict decoding: shortest forms only, no surrogates, at most U+10FFFF. -/
def utf8Dec : List Nat → Option (List Nat)
  | [] => some []
  | a :: t =>
    if a < 0x80 then (utf8Dec t).map (a :: ·)
    else match t with
      | [] => none
      | b :: t1 =>
        if 0xC2 ≤ a ∧ a ≤ 0xDF then
          if isCont b then (utf8Dec t1).map (((a - 0xC0) * 64 + (b - 0x80)) :: ·) else none
        else match t1 with
          | [] => none
          | c :: t2 =>
            if 0xE0 ≤ a ∧ a ≤ 0xEF then
              if isCont b ∧ isCont c ∧ (a = 0xE0 → 0xA0 ≤ b) ∧ (a = 0xED → b ≤ 0x9F) then
                (utf8Dec t2).map (((a - 0xE0) * 4096 + (b - 0x80) * 64 + (c - 0x80)) :: ·)
              else none
            else match t2 with
              | [] => none
              | d :: t3 =>
                if 0xF0 ≤ a ∧ a ≤ 0xF4 then
                  if isCont b ∧ isCont c ∧ isCont d ∧ (a = 0xF0 → 0x90 ≤ b) ∧ (a = 0xF4 → b ≤ 0x8F) then
                    (utf8Dec t3).map
                      (((a - 0xF0) * 262144 + (b - 0x80) * 4096 + (c - 0x80) * 64 + (d - 0x80)) :: ·)
                  else none
                else none

/-! ### Python values -/

/-- The Python values that occur in the tuples; a `str` is its code points. -/
inductive PyVal where
  | int (i : Int)
  | float (x : Dbl)
  | bool (b : Bool)
  | str (s : List Nat)
  | bytes (b : Bytes)
  | tuple (l : List PyVal)
  | list (l : List PyVal)
  /-- an instance of the class of that name, by its own state -/
  | obj (name : String) (state : PyVal)

namespace PyRes

/-- Exceptions propagate. -/
def bind {α β : Type} (x : PyRes α) (f : α → PyRes β) : PyRes β :=
  match x with
  | .ok a => f a
  | .raise e => .raise e
  | .ub => .ub

instance : Monad PyRes where
  pure := .ok
  bind := bind

end PyRes

namespace PyVal

/-- `std::string` to `str`: invalid UTF-8 raises `UnicodeDecodeError` (a `ValueError`). -/
def ofString (s : Bytes) : PyRes PyVal :=
  match utf8Dec (s.map (·.toNat)) with
  | some l => .ok (.str l)
  | none => .raise .value

/-- `cast<std::string>()`: the UTF-8 bytes of a `str`, or the bytes of a `bytes` object. -/
def toString : PyVal → PyRes Bytes
  | .str l => .ok ((l.flatMap utf8Char).map UInt8.ofNat)
  | .bytes b => .ok b
  | _ => .raise .type

/-- `cast<...>()` to an integer type with values from `lo` to `hi`. -/
def toInt (lo hi : Int) : PyVal → PyRes Int
  | .int i => if lo ≤ i ∧ i ≤ hi then .ok i else .raise .type
  | _ => .raise .type

def toI32 (v : PyVal) : PyRes Int := v.toInt (-2147483648) 2147483647
def toI8 (v : PyVal) : PyRes Int := v.toInt (-128) 127
def toU16 (v : PyVal) : PyRes UInt16 := (v.toInt 0 65535).bind fun i => .ok (UInt16.ofNat i.toNat)
def toU32 (v : PyVal) : PyRes UInt32 := (v.toInt 0 4294967295).bind fun i => .ok (UInt32.ofNat i.toNat)
def toU64 (v : PyVal) : PyRes UInt64 :=
  (v.toInt 0 18446744073709551615).bind fun i => .ok (UInt64.ofNat i.toNat)

/-- `cast<double>()`. -/
def toDbl : PyVal → PyRes Dbl
  | .float x => .ok x
  | _ => .raise .type

/-- `cast<bool>()`. -/
def toBool : PyVal → PyRes Bool
  | .bool b => .ok b
  | _ => .raise .type

/-- `cast<std::array<uint64_t, 15>>()`: a sequence of exactly 15 integers. -/
def toArr15 : PyVal → PyRes (List UInt64)
  | .list l => if l.length = 15 then go l else .raise .type
  | _ => .raise .type
where
  go : List PyVal → PyRes (List UInt64)
    | [] => .ok []
    | v :: l => v.toU64.bind fun a => (go l).bind fun as => .ok (a :: as)

/-- `t[i]` on the state tuple. -/
def item (v : PyVal) (i : Nat) : PyRes PyVal :=
  match v with
  | .tuple l => match l[i]? with
    | some x => .ok x
    | none => .raise .index
  | _ => .raise .type

/-- `t.size()`. -/
def size : PyVal → Nat
  | .tuple l => l.length
  | _ => 0

end PyVal

/-! ### The classes -/

/-- `VectorChar.__getstate__`, `bindings.cpp:36-39`. -/
def VectorChar.getState (v : Bytes) : PyRes PyVal := .ok (.tuple [.bytes v])
/-- `VectorChar.__setstate__`, `bindings.cpp:40-44`. -/
def VectorChar.setState (t : PyVal) : PyRes Bytes := do
  let s ← t.item 0
  s.toString

/-- `VoxelKey.__getstate__`, `bindings.cpp:78-81`. -/
def VoxelKey.getState (k : VoxelKey) : PyRes PyVal := .ok (.tuple [.int k.d, .int k.x, .int k.y, .int k.z])
/-- `VoxelKey.__setstate__`, `bindings.cpp:82-93`. -/
def VoxelKey.setState (t : PyVal) : PyRes VoxelKey := do
  if t.size ≠ 4 then .raise .value
  else do
    let d ← (← t.item 0).toI32
    let x ← (← t.item 1).toI32
    let y ← (← t.item 2).toI32
    let z ← (← t.item 3).toI32
    pure ⟨d, x, y, z⟩

/-- A `VoxelKey` object inside another tuple, pickled by its own state. -/
def VoxelKey.toPy (k : VoxelKey) : PyRes PyVal := do
  let s ← k.getState
  pure (.obj "VoxelKey" s)
/-- `cast<VoxelKey>()`. -/
def VoxelKey.ofPy : PyVal → PyRes VoxelKey
  | .obj n s => if n = "VoxelKey" then VoxelKey.setState s else .raise .type
  | _ => .raise .type

/-- `Node.__getstate__`, `bindings.cpp:134-137`. -/
def Node.getState (n : Node) : PyRes PyVal := do
  let k ← n.entry.key.toPy
  let p ← n.pageKey.toPy
  pure (.tuple [k, .int n.entry.offset, .int n.entry.byteSize, .int n.entry.pointCount, p])
/-- `Node.__setstate__`, `bindings.cpp:138-150`. -/
def Node.setState (t : PyVal) : PyRes Node := do
  if t.size ≠ 5 then .raise .value
  else do
    let k ← VoxelKey.ofPy (← t.item 0)
    let o ← (← t.item 1).toU64
    let b ← (← t.item 2).toI32
    let c ← (← t.item 3).toI32
    let p ← VoxelKey.ofPy (← t.item 4)
    pure ⟨⟨k, o.toNat, b, c⟩, p⟩

/-- `Vector3.__getstate__`, `bindings.cpp:204-206`. -/
def Vec3.getState (v : Vec3 Dbl) : PyRes PyVal := .ok (.tuple [.float v.x, .float v.y, .float v.z])
/-- `Vector3.__setstate__`, `bindings.cpp:207-209`. -/
def Vec3.setState (t : PyVal) : PyRes (Vec3 Dbl) := do
  let x ← (← t.item 0).toDbl
  let y ← (← t.item 1).toDbl
  let z ← (← t.item 2).toDbl
  pure ⟨x, y, z⟩
/-- A `Vector3` object inside another tuple. -/
def Vec3.toPy (v : Vec3 Dbl) : PyRes PyVal := do
  let s ← v.getState
  pure (.obj "Vector3" s)
/-- `cast<Vector3>()`. -/
def Vec3.ofPy : PyVal → PyRes (Vec3 Dbl)
  | .obj n s => if n = "Vector3" then Vec3.setState s else .raise .type
  | _ => .raise .type

namespace LasHeader

/-- `LasHeader.__getstate__`, `bindings.cpp:507-515`. -/
def getState (h : LasHeader) : PyRes PyVal := do
  let guid ← PyVal.ofString h.guid
  let sys ← PyVal.ofString h.systemIdentifier
  let gen ← PyVal.ofString h.generatingSoftware
  let scale ← h.scale.toPy
  let offset ← h.offset.toPy
  let mx ← h.max.toPy
  let mn ← h.min.toPy
  pure (.tuple [.int h.fileSourceId.toNat, .int h.globalEncoding.toNat, guid, sys, gen, .int h.creationDay.toNat,
    .int h.creationYear.toNat, .int h.pointOffset.toNat, .int h.vlrCount.toNat, .int h.fmt, .int h.recLen.toNat,
    scale, offset, mx, mn, .int h.evlrOffset.toNat, .int h.evlrCount.toNat, .int h.pointCount.toNat,
    .list (h.pointsByReturn.map fun n => .int n.toNat), .bool h.copcFlag])

/-- The constructor for pickling, `header.hpp:37-42`. -/
def ofPickle (fmt : Int) (recLen : UInt16) (pointOffset : UInt32) (pointCount : UInt64) (vlrCount : UInt32)
    (scale offset : Vec3 Dbl) (evlrOffset : UInt64) (evlrCount : UInt32) (copc : Bool) : LasHeader :=
  { default with
    fmt := fmt
    recLen := recLen
    pointOffset := pointOffset
    pointCount := pointCount
    vlrCount := vlrCount
    scale := scale
    offset := offset
    evlrOffset := evlrOffset
    evlrCount := evlrCount
    copcFlag := copc }

/-- `LasHeader.__setstate__`, `bindings.cpp:516-540`. Simplification: the conversions are made in the order of the
constructor's arguments (their order is unspecified in C++; none has an effect other than raising). -/
def setState (t : PyVal) : PyRes LasHeader := do
  if t.size ≠ 20 then .raise .value
  else do
    let fmt ← (← t.item 9).toI8
    let recLen ← (← t.item 10).toU16
    let pointOffset ← (← t.item 7).toU32
    let pointCount ← (← t.item 17).toU64
    let vlrCount ← (← t.item 8).toU32
    let scale ← Vec3.ofPy (← t.item 11)
    let offset ← Vec3.ofPy (← t.item 12)
    let evlrOffset ← (← t.item 15).toU64
    let evlrCount ← (← t.item 16).toU32
    let copc ← (← t.item 19).toBool
    let h0 := ofPickle fmt recLen pointOffset pointCount vlrCount scale offset evlrOffset evlrCount copc
    let fs ← (← t.item 0).toU16
    let ge ← (← t.item 1).toU16
    let h1 ← PyRes.ofRes (setGuid { h0 with fileSourceId := fs, globalEncoding := ge } (← (← t.item 2).toString))
    let h2 ← PyRes.ofRes (setSystemIdentifier h1 (← (← t.item 3).toString))
    let h3 ← PyRes.ofRes (setGeneratingSoftware h2 (← (← t.item 4).toString))
    let day ← (← t.item 5).toU16
    let year ← (← t.item 6).toU16
    let mx ← Vec3.ofPy (← t.item 13)
    let mn ← Vec3.ofPy (← t.item 14)
    let pbr ← (← t.item 18).toArr15
    pure { h3 with creationDay := day, creationYear := year, max := mx, min := mn, pointsByReturn := pbr }

end LasHeader

end Copc
