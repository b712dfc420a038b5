import Verif.Spec.GoodUse
import Verif.Spec.Geometry
/-! # A program that writes points -/
namespace Copc
open Spec

/-- A coordinate that the scale and offset can store: the quotient, as computed, rounds to a 32-bit integer. -/
def CoordFits (v scale offset : Dbl) : Prop :=
  let q := Flt.div (Flt.sub v offset) scale
  q.isFinite = true ∧ -2147483648 - 1 / 2 < q.val ∧ q.val < 2147483647 + 1 / 2

/-- The points to be added under a key, to a page. -/
structure NodePoints where
  key : VoxelKey
  page : VoxelKey
  points : List Point

/-- Points that a program can add to a file with header `hd`: a valid key at or below a page of the octree, at least one
point, points of the format and record length of the file with coordinates that fit, and at most 2^31 - 1 bytes before
and after compression. -/
structure GoodNode (L : Lazperf) (hd : LasHeader) (n : NodePoints) : Prop where
  validKey : Valid n.key
  validPage : Valid n.page
  below : Below n.key n.page
  octree : InOctree n.page
  range : n.key.InRange
  some : n.points ≠ []
  same : ∀ p ∈ n.points, Reach p ∧ p.fmt = hd.fmt ∧ p.recLen = hd.recLen.toNat
  coords : ∀ p ∈ n.points, CoordFits p.x hd.scale.x hd.offset.x ∧ CoordFits p.y hd.scale.y hd.offset.y ∧
    CoordFits p.z hd.scale.z hd.offset.z
  raw : n.points.length * hd.recLen.toNat ≤ 2147483647
  compressed : ∀ eb recs, hd.ebSize = .ok eb → packPoints n.points hd.scale hd.offset = .ok recs.flatten →
    (∀ r ∈ recs, r.length = hd.recLen.toNat) → (L.compress hd.fmt eb recs).length ≤ 2147483647

/-- The nodes a program adds: good ones with distinct keys, fewer than 2^25. -/
structure GoodProgram (L : Lazperf) (hd : LasHeader) (ns : List NodePoints) : Prop where
  good : ∀ n ∈ ns, GoodNode L hd n
  distinct : (ns.map (·.key)).Nodup
  few : ns.length < 2 ^ 25

/-- A collection of points that a program can write to a LAZ file with header `hd` (it may be empty). -/
structure GoodPoints (L : Lazperf) (hd : LasHeader) (ps : List Point) : Prop where
  same : ∀ p ∈ ps, Reach p ∧ p.fmt = hd.fmt ∧ p.recLen = hd.recLen.toNat
  coords : ∀ p ∈ ps, CoordFits p.x hd.scale.x hd.offset.x ∧ CoordFits p.y hd.scale.y hd.offset.y ∧
    CoordFits p.z hd.scale.z hd.offset.z
  raw : ps.length * hd.recLen.toNat ≤ 2147483647
  compressed : ∀ eb recs, hd.ebSize = .ok eb → packPoints ps hd.scale hd.offset = .ok recs.flatten →
    (∀ r ∈ recs, r.length = hd.recLen.toNat) → (L.compress hd.fmt eb recs).length ≤ 2147483647

end Copc
