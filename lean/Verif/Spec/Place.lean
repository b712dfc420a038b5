import Verif.Spec.Program
import Verif.Spec.Map
/-! # Programs that distribute points over the nodes of a COPC file -/
namespace Copc
open Spec VoxelKey

/-- The nodes of a program that gives every point a place (a key): under each of the keys, in their order, the points whose place it is,
with the page that the program chooses for the key; nothing for a key without points.

    for (const auto &key : keys) {
        las::Points points(...);
        for (const auto &p : reader.GetPoints()) if (place(p) == key) points.AddPoint(p);
        if (points.Size() > 0) writer.AddNode(key, points, page(key));
    } -/
def placed (place : Point → VoxelKey) (page : VoxelKey → VoxelKey) (keys : List VoxelKey) (pts : List Point) : List NodePoints :=
  (keys.map fun k => ⟨k, page k, pts.filter fun p => place p = k⟩).filter fun n => n.points ≠ []

/-- What the program must meet: its keys are distinct valid keys, at or below their pages, pages in the octree; every point has its
place among them; the points of a key have at most 2^31 - 1 bytes, as records of length `len` and format `f`, before and after
compression. -/
structure GoodPlaces (L : Lazperf) (f : Int) (len : Nat) (place : Point → VoxelKey) (page : VoxelKey → VoxelKey)
    (keys : List VoxelKey) (pts : List Point) : Prop where
  distinct : keys.Nodup
  few : keys.length < 2 ^ 25
  every : ∀ p ∈ pts, place p ∈ keys
  valid : ∀ k ∈ keys, Valid k ∧ k.InRange
  pages : ∀ k ∈ keys, Valid (page k) ∧ Below k (page k) ∧ InOctree (page k)
  raw : ∀ k ∈ keys, (pts.filter fun p => place p = k).length * len ≤ 2147483647
  compressed : ∀ k ∈ keys, ∀ (eb : Nat) (recs : List Bytes), recs.length = (pts.filter fun p => place p = k).length →
    (∀ x ∈ recs, x.length = len) → (L.compress f eb recs).length ≤ 2147483647

/-- The extra-byte descriptors of a LAZ file fit its records: types of LAS 1.4 that take space, texts without a zero byte, and a record
has the size of the point format and of the items. -/
structure LazItemsFit (c : LazConfig) : Prop where
  types : ∀ f ∈ c.eb, f.dataType ≤ 30 ∧ 0 < lasItemSize f
  texts : ∀ f ∈ c.eb, NoNul f.name ∧ NoNul f.description
  record : c.header.recLen.toNat = lasBaseSize c.header.fmt + (c.eb.map lasItemSize).sum

end Copc
