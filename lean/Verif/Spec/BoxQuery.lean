import Verif.Spec.Resolution
import Verif.Model.Reader
/-!
# The points of a file

The points of a node are those `GetPoints(node)` returns on a reader that has just opened the file.
-/
namespace Copc.Spec
open Copc

/-- On the reader `r`, `GetPoints(n)` returns `ps`. -/
def PointsOf (L : Lazperf) (r : Reader) (n : Node) (ps : List Point) : Prop :=
  ∃ r', Reader.getPoints L n r = (.ok ps, r')

/-- The point lies in the box. -/
def Lies (b : Box Dbl) (p : Point) : Prop := InBox b ⟨p.x, p.y, p.z⟩

/-- The box of a node of the file read by `r`: with `s` the largest side of the header bounds divided by
`2^d`, the cube of side `s` whose low corner is at `(x, y, z)` times `s` from the low corner of the bounds
(in double arithmetic; the largest side is the first largest of the three differences). -/
def boxOf (r : Reader) (n : Node) : Box Dbl :=
  let lo := r.cfg.header.min
  let hi := r.cfg.header.max
  let dx := Flt.sub hi.x lo.x
  let dy := Flt.sub hi.y lo.y
  let dz := Flt.sub hi.z lo.z
  let m := if Flt.lt' dx dy then dy else dx
  let s := Flt.div (if Flt.lt' m dz then dz else m) (Flt.pow2 n.key.d)
  let x := Flt.add (Flt.mul s (Flt.ofInt n.key.x)) lo.x
  let y := Flt.add (Flt.mul s (Flt.ofInt n.key.y)) lo.y
  let z := Flt.add (Flt.mul s (Flt.ofInt n.key.z)) lo.z
  ⟨x, y, z, Flt.add x s, Flt.add y s, Flt.add z s⟩

/-- The points of `l` in the box, in order, as often as they occur. -/
noncomputable def within (b : Box Dbl) (l : List Point) : List Point :=
  open Classical in l.filter fun p => decide (Lies b p)

end Copc.Spec
