import Verif.Model.Header
/-!
# Model of `CopcExtent`, `CopcExtents` (`cpp/include/copc-lib/copc/extents.hpp`,
`cpp/src/copc/extents.cpp`) and of the extents VLR (`cpp/src/las/vlr.cpp:59-113`)

Extents are held by `shared_ptr`; the model holds values (two extents of one object, or of a copy
made by a copy constructor, are never the same object unless a user assigns the same pointer twice,
which is not modelled).
-/
namespace Copc

/-- `CopcExtent`, `extents.hpp:25-28`. -/
structure Extent where
  minimum : Dbl
  maximum : Dbl
  mean : Dbl
  var : Dbl
  deriving DecidableEq

namespace Extent

/-- The double `1`. -/
def one : Dbl := dbl 0x3FF0000000000000

/-- `CopcExtent()`, `extents.hpp:30`. -/
def default : Extent := ⟨Flt.zero, Flt.zero, Flt.zero, one⟩

/-- `CopcExtent(minimum, maximum, mean, var)`, `extents.cpp:8-15`. -/
def make (mn mx mean var : Dbl) : Res Extent :=
  if Flt.lt' mx mn then .throw .extentOrder
  else if Flt.lt' var Flt.zero then .throw .extentOrder
  else .ok ⟨mn, mx, mean, var⟩

/-- `CopcExtent(minimum, maximum)` with the default arguments of `extents.hpp:32`. -/
def make2 (mn mx : Dbl) : Res Extent := make mn mx Flt.zero one

/-- `CopcExtent(vector)`, `extents.cpp:17-32`. The variance of a 4-vector is not checked. -/
def ofVec : List Dbl → Res Extent
  | [a, b] => if Flt.lt' b a then .throw .extentOrder else .ok ⟨a, b, Flt.zero, one⟩
  | [a, b, c, d] => if Flt.lt' b a then .throw .extentOrder else .ok ⟨a, b, c, d⟩
  | _ => .throw .vectorSize

/-- Copy constructor, `extents.cpp:34-41`. -/
def copy (o : Extent) : Res Extent :=
  if Flt.lt' o.maximum o.minimum then .throw .extentOrder
  else if Flt.lt' o.var Flt.zero then .throw .extentOrder
  else .ok o

end Extent

/-- `CopcExtents`, `extents.hpp:223-225`. -/
structure Extents where
  fmt : Int
  extStats : Bool
  extents : List Extent
  deriving DecidableEq

/-- `dst[i + k] = src[j + k]` for `k < n` (the copying loops of `extents.cpp:76-102`); an index out of
range is undefined behaviour. -/
def copyRange {α : Type} (dst src : List α) (i j : Nat) : Nat → Res (List α)
  | 0 => .ok dst
  | n + 1 => match src[j]? with
    | none => .ub
    | some a => if i < dst.length then copyRange (dst.set i a) src (i + 1) (j + 1) n else .ub

namespace Extents

/-- `CopcExtents::NumberOfExtents(fmt, n)`, `extents.cpp:154-157`, and `PointBaseNumberExtents`,
`extents.cpp:198-201`. -/
def number (fmt : Int) (n : Nat) : Res Nat := (pointBaseNumberDimensions fmt).bind fun b => .ok (b + n)

/-- `CopcExtents(fmt, num_eb_items, has_extended_stats)`, `extents.cpp:51-60`; `n < 65536`. -/
def make (fmt : Int) (n : Nat) (ext : Bool) : Res Extents :=
  if fmt < 6 ∨ fmt > 8 then .throw .badFormat
  else (number fmt n).bind fun k => .ok ⟨fmt, ext, List.replicate k Extent.default⟩

/-- Copy constructor, `extents.cpp:63-69`. -/
def copy (o : Extents) : Res Extents :=
  (Res.mapL Extent.copy o.extents).bind fun l => .ok ⟨o.fmt, o.extStats, l⟩

/-- Constructor with another format, `extents.cpp:71-103`. -/
def reformat (o : Extents) (fmt : Int) (n : Nat) (ext : Bool) : Res Extents :=
  (make fmt n ext).bind fun e =>
  (copyRange e.extents o.extents 0 0 14).bind fun l =>
  (if fmt > 6 ∧ o.fmt > 6 then copyRange l o.extents 14 14 3 else .ok l).bind fun l =>
  (if fmt = 8 ∧ o.fmt = 8 then copyRange l o.extents 17 17 1 else .ok l).bind fun l =>
  (pointBaseNumberDimensions o.fmt).bind fun ob =>
  (if (n : Int) ≠ (o.extents.length : Int) - ob then .ok l
   else (pointBaseNumberDimensions fmt).bind fun b => copyRange l o.extents b ob n).bind fun l =>
  .ok { e with extents := l }

/-- VLR constructor, `extents.cpp:106-120`; `items` are the pairs of the VLR. -/
def ofVlr (items : List (Dbl × Dbl)) (fmt : Int) (n : Nat) (ext : Bool) : Res Extents :=
  if fmt < 6 ∨ fmt > 8 then .throw .badFormat
  else (number fmt n).bind fun k =>
    if items.length ≠ k then .throw .extentsSize
    else (Res.mapL (fun i : Dbl × Dbl => Extent.make2 i.1 i.2) items).bind fun l => .ok ⟨fmt, ext, l⟩

/-- `CopcExtents::ToLazPerf`, `extents.cpp:122-130` (the arguments `x`, `y`, `z` are not used; the
caller's construction of them is modelled in `Verif/Model/Writer.lean`). -/
def toVlr (e : Extents) : List (Dbl × Dbl) := e.extents.map fun x => (x.minimum, x.maximum)

/-- `CopcExtents::ToLazPerfExtended`, `extents.cpp:132-139`. -/
def toVlrExtended (e : Extents) : List (Dbl × Dbl) := e.extents.map fun x => (x.mean, x.var)

/-- `CopcExtents::SetExtendedStats`, `extents.cpp:141-152`. -/
def setExtendedStats (e : Extents) (items : List (Dbl × Dbl)) : Res Extents :=
  if e.extStats = false then .throw .extentsAttr
  else if items.length ≠ e.extents.length then .throw .extentsSize
  else .ok { e with extents := (e.extents.zip items).map fun (x, i) => { x with
    mean := i.1
    var := i.2 } }

/-- `CopcExtents::ByteSize`, `extents.cpp:159-162`. -/
def byteSize (fmt : Int) (n : Nat) : Res Nat :=
  (make fmt n false).bind fun e => .ok (e.toVlr.length * 16)

/-- `extents_[i]` of the accessors `X` .. `GpsTime`, `extents.hpp:87-100`. -/
def at' (e : Extents) (i : Nat) : Res Extent :=
  match e.extents[i]? with
  | some x => .ok x
  | none => .ub

def getX (e : Extents) : Res Extent := e.at' 0
def getY (e : Extents) : Res Extent := e.at' 1
def getZ (e : Extents) : Res Extent := e.at' 2
def getIntensity (e : Extents) : Res Extent := e.at' 3
def getReturnNumber (e : Extents) : Res Extent := e.at' 4
def getNumberOfReturns (e : Extents) : Res Extent := e.at' 5
def getScannerChannel (e : Extents) : Res Extent := e.at' 6
def getScanDirectionFlag (e : Extents) : Res Extent := e.at' 7
def getEdgeOfFlightLine (e : Extents) : Res Extent := e.at' 8
def getClassification (e : Extents) : Res Extent := e.at' 9
def getUserData (e : Extents) : Res Extent := e.at' 10
def getScanAngle (e : Extents) : Res Extent := e.at' 11
def getPointSourceId (e : Extents) : Res Extent := e.at' 12
def getGpsTime (e : Extents) : Res Extent := e.at' 13
/-- `extents.hpp:102-130`. -/
def getRed (e : Extents) : Res Extent := if e.fmt > 6 then e.at' 14 else .throw .noRgb
def getGreen (e : Extents) : Res Extent := if e.fmt > 6 then e.at' 15 else .throw .noRgb
def getBlue (e : Extents) : Res Extent := if e.fmt > 6 then e.at' 16 else .throw .noRgb
def getNir (e : Extents) : Res Extent := if e.fmt = 8 then e.at' 17 else .throw .noNir
/-- `ExtraBytes()`, `extents.hpp:132-138`. -/
def getExtraBytes (e : Extents) : Res (List Extent) :=
  (pointBaseNumberDimensions e.fmt).bind fun b => .ok (e.extents.drop b)

/-- `extents_[i] = x` of the setters, `extents.hpp:141-160`. -/
def setAt (e : Extents) (i : Nat) (x : Extent) : Res Extents :=
  if i < e.extents.length then .ok { e with extents := e.extents.set i x } else .ub

/-- `ExtraBytes(vector)`, `extents.hpp:191-196`. -/
def setExtraBytes (e : Extents) (l : List Extent) : Res Extents :=
  (number e.fmt 0).bind fun b =>
    if (l.length : Int) ≠ (e.extents.length : Int) - b then .throw .extentsSize
    else .ok { e with extents := e.extents.take b ++ l }

/-! ### The VLR payload -/

/-- `CopcExtentsVlr::write`, `vlr.cpp:94-101`. -/
def putItems (l : List (Dbl × Dbl)) : Bytes := l.flatMap fun i => putD i.1 ++ putD i.2

/-- `CopcExtentsVlr::read`, `vlr.cpp:78-92`, on the bytes that follow in the stream. Reading past the
end leaves stale or indeterminate values: `ub`. `byteSize` is the VLR's data length. -/
def getItems (byteSize : Nat) (bs : Bytes) : Res (List (Dbl × Dbl)) :=
  let n := byteSize / 16
  if bs.length < 16 * n then .ub
  else .ok (getMany (fun bs => let (a, bs) := getD bs; let (b, bs) := getD bs; ((a, b), bs)) n bs).1

end Extents
end Copc
