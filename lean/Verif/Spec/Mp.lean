import Verif.Spec.BoxQuery
import Verif.Spec.RoundTrip
/-! # What a transform of a file should write -/
namespace Copc.Spec
open Copc

/-- What becomes of the node `n` of the file read by `r`: its points, transformed, are `qs`; the LAZ compression
of their records with the header `hd` is `blob`. There are as many records as points and they have at most
2^31 - 1 bytes. -/
structure Becomes (L : Lazperf) (r : Reader) (f : Node → List Point → Res (List Point)) (hd : LasHeader) (n : Node)
    (qs : List Point) (blob : Bytes) : Prop where
  read : ∃ ps, PointsOf L r n ps ∧ f n ps = .ok qs
  stored : (Op.addPoints n.entry.key hd.fmt hd.recLen.toNat qs n.pageKey).Stores L hd blob qs.length
  small : (blob.length ≤ 2147483647 ∧ qs.length * hd.recLen.toNat ≤ 2147483647) ∧ 0 < hd.recLen.toNat

/-- A key that can be added to a page. -/
def Addable (key page : VoxelKey) : Prop := Valid key ∧ Valid page ∧ Below key page

/-- `v` is the least number of the list. -/
def Least (v : Dbl) (l : List Dbl) : Prop := v.isNaN = false ∧ (∀ x ∈ l, ext v ≤ ext x) ∧ ∃ x ∈ l, ext v = ext x
/-- `v` is the greatest number of the list. -/
def Greatest (v : Dbl) (l : List Dbl) : Prop := v.isNaN = false ∧ (∀ x ∈ l, ext x ≤ ext v) ∧ ∃ x ∈ l, ext v = ext x

/-- `mn` and `mx` are the corners of the smallest box that has all the points. -/
def Bounds (ps : List Point) (mn mx : Vec3 Dbl) : Prop :=
  Least mn.x (ps.map (·.x)) ∧ Least mn.y (ps.map (·.y)) ∧ Least mn.z (ps.map (·.z)) ∧
  Greatest mx.x (ps.map (·.x)) ∧ Greatest mx.y (ps.map (·.y)) ∧ Greatest mx.z (ps.map (·.z))

/-- No coordinate is NaN. -/
def Numbers (ps : List Point) : Prop := ∀ p ∈ ps, p.x.isNaN = false ∧ p.y.isNaN = false ∧ p.z.isNaN = false

/-- The classification of the point is among the limits, or there are no limits. -/
def Allowed (limits : List UInt8) (p : Point) : Prop := limits = [] ∨ p.classification ∈ limits

instance (limits : List UInt8) (p : Point) : Decidable (Allowed limits p) := by unfold Allowed; infer_instance

/-- The coordinates of the allowed points, in order. -/
def coordsOf (limits : List UInt8) (ps : List Point) : List (Vec3 Dbl) :=
  (ps.filter (Allowed limits)).map fun p => ⟨p.x, p.y, p.z⟩

end Copc.Spec
