import Verif.Model.Geometry
import Verif.Lemmas.FltVal
/-!
# What a box is

Numbers are compared through their extended rational value; NaN compares with nothing.
-/
namespace Copc.Spec
open Copc

/-- Extended rational value of a floating-point number (meaningless for NaN). -/
def ext {m e : Nat} (x : Flt m e) : WithBot (WithTop ℚ) :=
  if x.isInf then (if x.neg then ⊥ else ((⊤ : WithTop ℚ) : WithBot (WithTop ℚ)))
  else ((x.val : WithTop ℚ) : WithBot (WithTop ℚ))

/-- `lo ≤ v ≤ hi` for three numbers none of which is NaN. -/
def Between {m e : Nat} (lo v hi : Flt m e) : Prop :=
  lo.isNaN = false ∧ v.isNaN = false ∧ hi.isNaN = false ∧ ext lo ≤ ext v ∧ ext v ≤ ext hi

/-- The point lies in the (closed) box. -/
def InBox (b : Box Dbl) (p : Vec3 Dbl) : Prop :=
  Between b.xMin p.x b.xMax ∧ Between b.yMin p.y b.yMax ∧ Between b.zMin p.z b.zMax

/-- No NaN among the corners. -/
def NoNaN (b : Box Dbl) : Prop :=
  b.xMin.isNaN = false ∧ b.yMin.isNaN = false ∧ b.zMin.isNaN = false ∧
  b.xMax.isNaN = false ∧ b.yMax.isNaN = false ∧ b.zMax.isNaN = false

end Copc.Spec
