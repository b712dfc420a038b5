import Verif.Model.Point
/-! # What a user may do with a point, and the LAS 1.4 record layout -/
namespace Copc.Spec
open Copc

/-- `q` is `p` after a successful call of one of the attribute setters. -/
inductive Setter : Point → Point → Prop
  | setX (p v) : Setter p (p.setX v)
  | setY (p v) : Setter p (p.setY v)
  | setZ (p v) : Setter p (p.setZ v)
  | setIntensity (p v) : Setter p (p.setIntensity v)
  | setClassification (p v) : Setter p (p.setClassification v)
  | setScanAngle (p v) : Setter p (p.setScanAngle v)
  | setUserData (p v) : Setter p (p.setUserData v)
  | setPointSourceId (p v) : Setter p (p.setPointSourceId v)
  | setGpsTime (p v) : Setter p (p.setGpsTime v)
  | setReturnsBitField (p v) : Setter p (p.setReturnsBitField v)
  | setFlagsBitField (p v) : Setter p (p.setFlagsBitField v)
  | setReturnNumber {p q} (v) : p.setReturnNumber v = .ok q → Setter p q
  | setNumberOfReturns {p q} (v) : p.setNumberOfReturns v = .ok q → Setter p q
  | setSynthetic (p v) : Setter p (p.setSynthetic v)
  | setKeyPoint (p v) : Setter p (p.setKeyPoint v)
  | setWithheld (p v) : Setter p (p.setWithheld v)
  | setOverlap (p v) : Setter p (p.setOverlap v)
  | setScannerChannel {p q} (v) : p.setScannerChannel v = .ok q → Setter p q
  | setScanDirectionFlag (p v) : Setter p (p.setScanDirectionFlag v)
  | setEdgeOfFlightLineFlag (p v) : Setter p (p.setEdgeOfFlightLineFlag v)
  | setRed {p q} (v) : p.setRed v = .ok q → Setter p q
  | setGreen {p q} (v) : p.setGreen v = .ok q → Setter p q
  | setBlue {p q} (v) : p.setBlue v = .ok q → Setter p q
  | setRgb {p q} (v) : p.setRgb v = .ok q → Setter p q
  | setNir {p q} (v) : p.setNir v = .ok q → Setter p q
  | setExtraBytes {p q} (v) : p.setExtraBytes v = .ok q → Setter p q
  | setScanAngleDegrees {p q} (v) : p.setScanAngleDegrees v = .ok q → Setter p q

/-- Points that can be obtained through the public interface: constructed, copied, unpacked from
bytes, converted, or changed by a setter. -/
inductive Reach : Point → Prop
  | make {fmt eb p} : eb < 65536 → Point.make fmt eb = .ok p → Reach p
  | copy {o p} : Reach o → Point.copy o = .ok p → Reach p
  | unpack {fmt scale offset eb bs p rest} : eb < 65536 →
      Point.unpack fmt scale offset eb bs = .ok (p, rest) → Reach p
  | toPointFormat {p q fmt} : Reach p → p.toPointFormat fmt = .ok q → Reach q
  | setter {p q} : Reach p → Setter p q → Reach q

/-- Base record sizes of the LAS 1.4 formats 6, 7 and 8. -/
def baseSize (fmt : Int) : Nat := if fmt = 6 then 30 else if fmt = 7 then 36 else 38

/-- `len` bytes of a record at byte offset `off`. -/
def field (bs : Bytes) (off len : Nat) : Bytes := (bs.drop off).take len

/-- Unsigned and signed integers of a record. -/
def uField (bs : Bytes) (off len : Nat) : Nat := unLe (field bs off len)
def sField (bs : Bytes) (off len : Nat) : Int := unLeI len (field bs off len)

/-- LAS 1.4 R15, tables 15-17 (formats 6, 7, 8): position of every field of a point record. -/
structure LasRecord (bs : Bytes) (X Y Z : Int) (p : Point) : Prop where
  x : sField bs 0 4 = X
  y : sField bs 4 4 = Y
  z : sField bs 8 4 = Z
  intensity : uField bs 12 2 = p.intensity.toNat
  returns : uField bs 14 1 = p.returns.toNat
  flags : uField bs 15 1 = p.flags.toNat
  classification : uField bs 16 1 = p.classification.toNat
  userData : uField bs 17 1 = p.userData.toNat
  scanAngle : sField bs 18 2 = p.scanAngle.toInt
  pointSourceId : uField bs 20 2 = p.pointSourceId.toNat
  gpsTime : uField bs 22 8 = p.gpsTime.toBits
  red : p.fmt ≠ 6 → uField bs 30 2 = p.red.toNat
  green : p.fmt ≠ 6 → uField bs 32 2 = p.green.toNat
  blue : p.fmt ≠ 6 → uField bs 34 2 = p.blue.toNat
  nir : p.fmt = 8 → uField bs 36 2 = p.nir.toNat
  extra : bs.drop (baseSize p.fmt) = p.extra

/-- `q` is what reading back a stored record of `p` must give: the coordinates are the stored integers
scaled back, everything else the format stores is identical. -/
structure ReadBack (scale offset : Vec3 Dbl) (p q : Point) : Prop where
  x : ∃ X, removeScale p.x scale.x offset.x = .ok X ∧ q.x = applyScale X scale.x offset.x
  y : ∃ Y, removeScale p.y scale.y offset.y = .ok Y ∧ q.y = applyScale Y scale.y offset.y
  z : ∃ Z, removeScale p.z scale.z offset.z = .ok Z ∧ q.z = applyScale Z scale.z offset.z
  intensity : q.intensity = p.intensity
  returns : q.returns = p.returns
  flags : q.flags = p.flags
  classification : q.classification = p.classification
  scanAngle : q.scanAngle = p.scanAngle
  userData : q.userData = p.userData
  pointSourceId : q.pointSourceId = p.pointSourceId
  gpsTime : q.gpsTime = p.gpsTime
  red : q.getRed = p.getRed
  green : q.getGreen = p.getGreen
  blue : q.getBlue = p.getBlue
  nir : q.getNir = p.getNir
  extra : q.extra = p.extra
  fmt : q.fmt = p.fmt
  recLen : q.recLen = p.recLen

end Copc.Spec
