import Verif.Model.Scale
import Verif.Base.Bytes
/-!
# Model of `las::Point` and `las::Points`
(`cpp/include/copc-lib/las/point.hpp`, `cpp/src/las/point.cpp`, `cpp/include/copc-lib/las/points.hpp`,
`cpp/src/las/points.cpp`, `cpp/src/las/utils.cpp`)
-/
namespace Copc

/-- `PointBaseByteSize`, `cpp/src/las/utils.cpp:6-19`. -/
def pointBaseByteSize (fmt : Int) : Res Nat :=
  if fmt = 6 then .ok 30 else if fmt = 7 then .ok 36 else if fmt = 8 then .ok 38
  else .throw .badFormat

/-- `PointBaseNumberDimensions`, `cpp/src/las/utils.cpp:21-34`. -/
def pointBaseNumberDimensions (fmt : Int) : Res Nat :=
  if fmt = 6 then .ok 14 else if fmt = 7 then .ok 17 else if fmt = 8 then .ok 18
  else .throw .badFormat

/-- `FormatHasRgb`, `cpp/src/las/utils.cpp:36-48` (the `int8_t` is converted to `uint8_t`; negative
values then hit the default case just as here). -/
def formatHasRgb (fmt : Int) : Res Bool :=
  if fmt = 6 then .ok false else if fmt = 7 ∨ fmt = 8 then .ok true else .throw .badFormat

/-- `FormatHasNir`, `cpp/src/las/utils.cpp:50-62`. -/
def formatHasNir (fmt : Int) : Res Bool :=
  if fmt = 6 ∨ fmt = 7 then .ok false else if fmt = 8 then .ok true else .throw .badFormat

/-- `EbByteSize`, `cpp/src/las/utils.cpp:64-67`: 32-bit unsigned subtraction truncated to 16 bits. -/
def ebByteSize (fmt : Int) (recLen : Nat) : Res Nat :=
  (pointBaseByteSize fmt).bind fun b => .ok ((recLen + 65536 - b) % 65536)

/-- `PointByteSize`, `cpp/src/las/utils.cpp:69-72`: truncated to 16 bits. -/
def pointByteSize (fmt : Int) (eb : Nat) : Res Nat :=
  (pointBaseByteSize fmt).bind fun b => .ok ((b + eb) % 65536)

/-- Members of `las::Point`, `point.hpp:230-252`. -/
structure Point where
  x : Dbl
  y : Dbl
  z : Dbl
  intensity : UInt16
  returns : UInt8
  flags : UInt8
  classification : UInt8
  scanAngle : Int16
  userData : UInt8
  pointSourceId : UInt16
  gpsTime : Dbl
  red : UInt16
  green : UInt16
  blue : UInt16
  nir : UInt16
  hasRgb : Bool
  hasNir : Bool
  extra : Bytes
  /-- `point_record_length_` (`uint32_t`) -/
  recLen : Nat
  /-- `point_format_id_` (`int8_t`) -/
  fmt : Int
  deriving DecidableEq

namespace Point

/-- `Point::Point(point_format_id, eb_byte_size)`, `point.cpp:6-17`; `eb < 65536`. -/
def make (fmt : Int) (eb : Nat) : Res Point :=
  if fmt < 6 ∨ fmt > 8 then .throw .badFormat
  else (pointBaseByteSize fmt).bind fun b =>
    (formatHasRgb fmt).bind fun r => (formatHasNir fmt).bind fun n =>
    .ok { x := Flt.zero, y := Flt.zero, z := Flt.zero, intensity := 0, returns := 0, flags := 0,
          classification := 0, scanAngle := 0, userData := 0, pointSourceId := 0,
          gpsTime := Flt.zero, red := 0, green := 0, blue := 0, nir := 0, hasRgb := r, hasNir := n,
          extra := List.replicate eb 0, recLen := b + eb, fmt := fmt }

/-- `Point::EbByteSize`, `point.cpp:50`. -/
def ebByteSize (p : Point) : Res Nat :=
  (pointBaseByteSize p.fmt).bind fun b => .ok ((p.recLen + 65536 - b) % 65536)

/-- Copy constructor, `point.cpp:21-48`. -/
def copy (o : Point) : Res Point :=
  o.ebByteSize.bind fun eb => (make o.fmt eb).bind fun p =>
    let p1 : Point := { p with
      x := o.x, y := o.y, z := o.z, intensity := o.intensity,
      returns := o.returns, flags := o.flags, classification := o.classification,
      scanAngle := o.scanAngle, userData := o.userData, pointSourceId := o.pointSourceId,
      gpsTime := o.gpsTime }
    let p2 : Point := if o.hasRgb then { p1 with red := o.red, green := o.green, blue := o.blue }
      else p1
    let p3 : Point := if p2.hasNir then { p2 with nir := o.nir } else p2
    .ok { p3 with extra := o.extra }

/-! ### Attributes, `point.hpp:24-203` -/

def setX (p : Point) (v : Dbl) : Point := { p with x := v }
def setY (p : Point) (v : Dbl) : Point := { p with y := v }
def setZ (p : Point) (v : Dbl) : Point := { p with z := v }
def setIntensity (p : Point) (v : UInt16) : Point := { p with intensity := v }
def setClassification (p : Point) (v : UInt8) : Point := { p with classification := v }
def setScanAngle (p : Point) (v : Int16) : Point := { p with scanAngle := v }
def setUserData (p : Point) (v : UInt8) : Point := { p with userData := v }
def setPointSourceId (p : Point) (v : UInt16) : Point := { p with pointSourceId := v }
def setGpsTime (p : Point) (v : Dbl) : Point := { p with gpsTime := v }
def setReturnsBitField (p : Point) (v : UInt8) : Point := { p with returns := v }
def setFlagsBitField (p : Point) (v : UInt8) : Point := { p with flags := v }

/-- `point.hpp:38` -/
def returnNumber (p : Point) : UInt8 := p.returns &&& 0xF
/-- `point.hpp:39-44` -/
def setReturnNumber (p : Point) (v : UInt8) : Res Point :=
  if v > 15 then .throw .attrRange else .ok { p with returns := v ||| (p.returns &&& 0xF0) }
/-- `point.hpp:46` -/
def numberOfReturns (p : Point) : UInt8 := p.returns >>> (4 : UInt8)
/-- `point.hpp:47-52` -/
def setNumberOfReturns (p : Point) (v : UInt8) : Res Point :=
  if v > 15 then .throw .attrRange else .ok { p with returns := (v <<< (4 : UInt8)) ||| (p.returns &&& 0xF) }
/-- `point.hpp:79` -/
def synthetic (p : Point) : Bool := (p.flags &&& 0x1) != 0
/-- `point.hpp:80` -/
def setSynthetic (p : Point) (v : Bool) : Point :=
  { p with flags := (p.flags &&& 0xFE) ||| v.toUInt8 }
/-- `point.hpp:82` -/
def keyPoint (p : Point) : Bool := ((p.flags >>> (1 : UInt8)) &&& 0x1) != 0
/-- `point.hpp:83` -/
def setKeyPoint (p : Point) (v : Bool) : Point :=
  { p with flags := (p.flags &&& 0xFD) ||| (v.toUInt8 <<< (1 : UInt8)) }
/-- `point.hpp:85` -/
def withheld (p : Point) : Bool := ((p.flags >>> (2 : UInt8)) &&& 0x1) != 0
/-- `point.hpp:86` -/
def setWithheld (p : Point) (v : Bool) : Point :=
  { p with flags := (p.flags &&& 0xFB) ||| (v.toUInt8 <<< (2 : UInt8)) }
/-- `point.hpp:88` -/
def overlap (p : Point) : Bool := ((p.flags >>> (3 : UInt8)) &&& 0x1) != 0
/-- `point.hpp:89` -/
def setOverlap (p : Point) (v : Bool) : Point :=
  { p with flags := (p.flags &&& 0xF7) ||| (v.toUInt8 <<< (3 : UInt8)) }
/-- `point.hpp:91` -/
def scannerChannel (p : Point) : UInt8 := (p.flags >>> (4 : UInt8)) &&& 0x03
/-- `point.hpp:92-97` -/
def setScannerChannel (p : Point) (v : UInt8) : Res Point :=
  if v > 3 then .throw .attrRange else .ok { p with flags := (p.flags &&& 0xCF) ||| (v <<< (4 : UInt8)) }
/-- `point.hpp:99` -/
def scanDirectionFlag (p : Point) : Bool := ((p.flags >>> (6 : UInt8)) &&& 0x1) != 0
/-- `point.hpp:100` -/
def setScanDirectionFlag (p : Point) (v : Bool) : Point :=
  { p with flags := (p.flags &&& 0xBF) ||| (v.toUInt8 <<< (6 : UInt8)) }
/-- `point.hpp:102` -/
def edgeOfFlightLineFlag (p : Point) : Bool := (p.flags >>> (7 : UInt8)) != 0
/-- `point.hpp:103-106` -/
def setEdgeOfFlightLineFlag (p : Point) (v : Bool) : Point :=
  { p with flags := (p.flags &&& 0x7F) ||| (v.toUInt8 <<< (7 : UInt8)) }

/-- `point.hpp:131-136`, `144-149`, `157-162` -/
def getRed (p : Point) : Res UInt16 := if p.hasRgb then .ok p.red else .throw .noRgb
def getGreen (p : Point) : Res UInt16 := if p.hasRgb then .ok p.green else .throw .noRgb
def getBlue (p : Point) : Res UInt16 := if p.hasRgb then .ok p.blue else .throw .noRgb
/-- `point.hpp:137-142`, `150-155`, `163-168` -/
def setRed (p : Point) (v : UInt16) : Res Point :=
  if p.hasRgb then .ok { p with red := v } else .throw .noRgb
def setGreen (p : Point) (v : UInt16) : Res Point :=
  if p.hasRgb then .ok { p with green := v } else .throw .noRgb
def setBlue (p : Point) (v : UInt16) : Res Point :=
  if p.hasRgb then .ok { p with blue := v } else .throw .noRgb
/-- `Rgb(vector)`, `point.hpp:110-120` -/
def setRgb (p : Point) (v : List UInt16) : Res Point :=
  if p.hasRgb then
    match v with
    | [r, g, b] => .ok { p with red := r, green := g, blue := b }
    | _ => .throw .vectorSize
  else .throw .noRgb
/-- `point.hpp:174-185` -/
def getNir (p : Point) : Res UInt16 := if p.hasNir then .ok p.nir else .throw .noNir
def setNir (p : Point) (v : UInt16) : Res Point :=
  if p.hasNir then .ok { p with nir := v } else .throw .noNir
/-- `ExtraBytes(vector)`, `point.hpp:188-194` -/
def setExtraBytes (p : Point) (v : Bytes) : Res Point :=
  p.ebByteSize.bind fun eb => if v.length ≠ eb then .throw .arraySize else .ok { p with extra := v }

/-- `0.006f` -/
def degreeStep : Sgl := Flt.ofBits 0x3BC49BA6
/-- `ScanAngleDegrees()`, `point.hpp:67`: single precision product. -/
def scanAngleDegrees (p : Point) : Sgl := Flt.mul degreeStep (Flt.ofInt p.scanAngle.toInt)
/-- `ScanAngleDegrees(float)`, `point.hpp:69`: truncating conversion, undefined outside `int16_t`. -/
def setScanAngleDegrees (p : Point) (v : Sgl) : Res Point :=
  match Flt.trunc (Flt.div v degreeStep) with
  | some n => if -32768 ≤ n ∧ n ≤ 32767 then .ok { p with scanAngle := Int16.ofInt n } else .ub
  | none => .ub

/-- `AreClose`, `cpp/include/copc-lib/utils.hpp:8-11`: `fabs(x - y) < epsilon`. -/
def areClose (x y : Dbl) : Bool := Flt.lt' (Flt.abs (Flt.sub x y)) (dbl 0x3EB0C6F7A0B5ED8D)

/-- `operator==`, `point.cpp:52-76` (the `Red()`, `Nir()` calls on `other` cannot throw: formats are
equal at that point). -/
def eq (p o : Point) : Bool :=
  decide (p.fmt = o.fmt) && decide (p.recLen = o.recLen) &&
  areClose p.x o.x && areClose p.y o.y && areClose p.z o.z && decide (p.intensity = o.intensity) &&
  decide (p.returns = o.returns) && decide (p.flags = o.flags) &&
  decide (p.classification = o.classification) && decide (p.scanAngle = o.scanAngle) &&
  decide (p.userData = o.userData) && decide (p.pointSourceId = o.pointSourceId) &&
  decide (p.extra = o.extra) && Flt.eq' p.gpsTime o.gpsTime &&
  (!p.hasRgb || decide (p.red = o.red ∧ p.green = o.green ∧ p.blue = o.blue)) &&
  (!p.hasNir || decide (p.nir = o.nir))

/-- `Point::Within`, `point.cpp:78`. -/
def within (p : Point) (b : Box Dbl) : Bool := b.containsPoint ⟨p.x, p.y, p.z⟩

/-- `Point::ToPointFormat`, `point.cpp:142-151`. -/
def toPointFormat (p : Point) (fmt : Int) : Res Point :=
  if fmt < 6 ∨ fmt > 8 then .throw .badFormat
  else (formatHasRgb fmt).bind fun r => (formatHasNir fmt).bind fun n =>
    (pointBaseByteSize fmt).bind fun b =>
    .ok { p with hasRgb := r, hasNir := n, recLen := b + p.extra.length, fmt := fmt }

/-! ### Packing -/

/-- The bytes `Point::Pack` writes after the coordinates have been converted, `point.cpp:117-139`. -/
def recordBytes (X Y Z : Int) (p : Point) : Bytes :=
  leI 4 X ++ (leI 4 Y ++ (leI 4 Z ++ (leN 2 p.intensity.toNat ++ (leN 1 p.returns.toNat ++
  (leN 1 p.flags.toNat ++ (leN 1 p.classification.toNat ++ (leN 1 p.userData.toNat ++
  (leN 2 p.scanAngle.toUInt16.toNat ++ (leN 2 p.pointSourceId.toNat ++ (leN 8 p.gpsTime.toBits ++
  ((if p.hasRgb then leN 2 p.red.toNat ++ (leN 2 p.green.toNat ++ leN 2 p.blue.toNat) else []) ++
  ((if p.hasNir then leN 2 p.nir.toNat else []) ++ p.extra))))))))))))

/-- `Point::Pack`, `point.cpp:114-140`. Simplification: on an exception the bytes already written to
the stream are dropped (the vector returning overloads of `Points::Pack` drop them too). -/
def pack (p : Point) (scale offset : Vec3 Dbl) : Res Bytes :=
  (removeScale p.x scale.x offset.x).bind fun X =>
  (removeScale p.y scale.y offset.y).bind fun Y =>
  (removeScale p.z scale.z offset.z).bind fun Z =>
  .ok (recordBytes X Y Z p)

/-- `unpack<T>`, `utils.hpp:31-36`, on the remaining bytes of the stream: a short read leaves the
variable indeterminate. -/
def rd (k : Nat) (bs : Bytes) : Res (Nat × Bytes) :=
  if bs.length < k then .ub else .ok (unLe (bs.take k), bs.drop k)

/-- `Point::Unpack`, `point.cpp:80-112`, on the remaining bytes of the stream. -/
def unpack (fmt : Int) (scale offset : Vec3 Dbl) (eb : Nat) (bs : Bytes) : Res (Point × Bytes) :=
  (make fmt eb).bind fun p =>
  (rd 4 bs).bind fun (X, bs) => (rd 4 bs).bind fun (Y, bs) => (rd 4 bs).bind fun (Z, bs) =>
  (rd 2 bs).bind fun (int, bs) => (rd 1 bs).bind fun (ret, bs) => (rd 1 bs).bind fun (fl, bs) =>
  (rd 1 bs).bind fun (cl, bs) => (rd 1 bs).bind fun (ud, bs) => (rd 2 bs).bind fun (sa, bs) =>
  (rd 2 bs).bind fun (ps, bs) => (rd 8 bs).bind fun (gps, bs) =>
  (if p.hasRgb then (rd 2 bs).bind fun (r, bs) => (rd 2 bs).bind fun (g, bs) =>
      (rd 2 bs).bind fun (b, bs) => .ok ((r, g, b), bs)
    else .ok ((0, 0, 0), bs)).bind fun (rgb, bs) =>
  (if p.hasNir then rd 2 bs else .ok (0, bs)).bind fun (nir, bs) =>
  if bs.length < eb then .ub else
  .ok ({ p with
    x := applyScale (signed 4 X) scale.x offset.x
    y := applyScale (signed 4 Y) scale.y offset.y
    z := applyScale (signed 4 Z) scale.z offset.z
    intensity := UInt16.ofNat int
    returns := UInt8.ofNat ret
    flags := UInt8.ofNat fl
    classification := UInt8.ofNat cl
    userData := UInt8.ofNat ud
    scanAngle := (UInt16.ofNat sa).toInt16
    pointSourceId := UInt16.ofNat ps
    gpsTime := Flt.ofBits gps
    red := UInt16.ofNat rgb.1
    green := UInt16.ofNat rgb.2.1
    blue := UInt16.ofNat rgb.2.2
    nir := UInt16.ofNat nir
    extra := bs.take eb }, bs.drop eb)

end Point

/-- `Points::Pack` to a vector, `points.cpp:105-119`. -/
def packPoints (ps : List Point) (scale offset : Vec3 Dbl) : Res Bytes :=
  (Res.mapL (fun p => Point.pack p scale offset) ps).bind fun l => .ok l.flatten

/-- The unpacking loop, `points.cpp:91-95`: `n` points. -/
def unpackLoop (fmt : Int) (scale offset : Vec3 Dbl) (eb recLen : Nat) :
    Nat → Bytes → Res (List Point)
  | 0, _ => .ok []
  | n + 1, bs => (Point.unpack fmt scale offset eb bs).bind fun (p, rest) =>
      -- `AddPoint`, `points.cpp:42-48`
      if p.fmt = fmt ∧ p.recLen = recLen then
        (unpackLoop fmt scale offset eb recLen n rest).bind fun ps => .ok (p :: ps)
      else .throw .pointsMismatch

/-- `Points::Unpack`, `points.cpp:75-98`: the points of the new collection. A record length of zero
makes `%` undefined, and more than `INT_MAX` points overflow the loop counter. The result is the list
of new points; format and record length of the collection are `fmt` and `pointByteSize fmt eb`. -/
def unpackPoints (data : Bytes) (fmt : Int) (eb : Nat) (scale offset : Vec3 Dbl) :
    Res (List Point) :=
  (pointByteSize fmt eb).bind fun len =>
    if len = 0 then .ub
    else if data.length % len ≠ 0 then .throw .unpackSize
    else if data.length / len ≥ 2147483648 then .ub
    else unpackLoop fmt scale offset eb len (data.length / len) data

end Copc
