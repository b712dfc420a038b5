import Verif.Base.Flt
import Verif.Base.Res
import Verif.Model.Geometry
/-! # Model of the coordinate scaling functions (`cpp/include/copc-lib/las/utils.hpp:17-29`,
`cpp/include/copc-lib/las/header.hpp:109-126`)

IEEE double arithmetic, each operation rounded separately (no fused multiply-add). -/
namespace Copc
open Flt

/-- `ApplyScale<int32_t>`, `utils.hpp:17`. -/
def applyScale (v : Int) (scale offset : Dbl) : Dbl := add (mul (ofInt v) scale) offset

/-- `RemoveScale<int32_t>`, `utils.hpp:18-29`. The conversion of a value outside `int32_t` (only NaN
gets there) is undefined behaviour. -/
def removeScale (value scale offset : Dbl) : Res Int :=
  let val := round (div (sub value offset) scale)
  if lt' val (ofInt (-2147483648)) || lt' (ofInt 2147483647) val then .throw .scaleRange
  else match trunc val with
    | some n => chk32 n
    | none => .ub

/-- `LasHeader::ApplyScale`, `header.hpp:110`. -/
def headerApplyScale {α : Type} [CxxNum α] (scale offset v : Vec3 α) : Vec3 α :=
  (v.vmul scale).vadd offset

/-- `LasHeader::ApplyInverseScale`, `header.hpp:111`. -/
def headerApplyInverseScale {α : Type} [CxxNum α] (scale offset v : Vec3 α) : Vec3 α :=
  (v.vdiv scale).vsub offset

/-- `LasHeader::RemoveScaleX/Y/Z`, `header.hpp:115-126`: no range check, so out of range values are
undefined behaviour. -/
def headerRemoveScale (value scale offset : Dbl) : Res Int :=
  match trunc (round (div (sub value offset) scale)) with
  | some n => chk32 n
  | none => .ub

end Copc
