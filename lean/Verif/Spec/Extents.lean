import Verif.Model.Extents
import Verif.Spec.Geometry
/-! # The dimensions whose extents a COPC file records -/
namespace Copc.Spec
open Copc

/-- Dimensions of the LAS 1.4 point formats 6-8. -/
inductive Dim
  | x | y | z | intensity | returnNumber | numberOfReturns | scannerChannel | scanDirectionFlag
  | edgeOfFlightLine | classification | userData | scanAngle | pointSourceId | gpsTime
  | red | green | blue | nir
  deriving DecidableEq

/-- The accessor of a dimension. -/
def Dim.get (e : Extents) : Dim → Res Extent
  | .x => e.getX | .y => e.getY | .z => e.getZ | .intensity => e.getIntensity
  | .returnNumber => e.getReturnNumber | .numberOfReturns => e.getNumberOfReturns
  | .scannerChannel => e.getScannerChannel | .scanDirectionFlag => e.getScanDirectionFlag
  | .edgeOfFlightLine => e.getEdgeOfFlightLine | .classification => e.getClassification
  | .userData => e.getUserData | .scanAngle => e.getScanAngle
  | .pointSourceId => e.getPointSourceId | .gpsTime => e.getGpsTime
  | .red => e.getRed | .green => e.getGreen | .blue => e.getBlue | .nir => e.getNir

/-- Whether a point format has the dimension. -/
def Dim.inFormat (fmt : Int) : Dim → Prop
  | .red | .green | .blue => fmt = 7 ∨ fmt = 8
  | .nir => fmt = 8
  | _ => True

/-- Number of dimensions of a format. -/
def baseDims (fmt : Int) : Nat := if fmt = 6 then 14 else if fmt = 7 then 17 else 18

/-- Extents as every constructor makes them: one per dimension and extra-byte item. -/
structure GoodExtents (e : Extents) (n : Nat) : Prop where
  fmt : e.fmt = 6 ∨ e.fmt = 7 ∨ e.fmt = 8
  number : e.extents.length = baseDims e.fmt + n

/-- `minimum <= maximum`, unless one is NaN. -/
def Ordered (x : Extent) : Prop :=
  x.minimum.isNaN = true ∨ x.maximum.isNaN = true ∨ ext x.minimum ≤ ext x.maximum
/-- `variance >= 0`, unless NaN. -/
def VarOk (x : Extent) : Prop := x.var.isNaN = true ∨ (0 : WithBot (WithTop ℚ)) ≤ ext x.var

end Copc.Spec
