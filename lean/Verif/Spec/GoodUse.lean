import Verif.Spec.Accept
import Verif.Spec.Octree
import Verif.Spec.LazReader
import Verif.Spec.Point
import Verif.Spec.Metadata
import Verif.Spec.Extents
/-! # A plan of good additions -/
namespace Copc
open Spec

/-- An addition and what it is to store: under which key and in which page, the bytes and the number of points. -/
structure Addition where
  op : Op
  key : VoxelKey
  page : VoxelKey
  blob : Bytes
  count : Int

/-- A plan of additions that a program can make with a writer of a file with header `hd`: each is good in itself, with
32-bit numbers and a page of the octree, the keys are distinct, and they are fewer than 2^25. -/
structure GoodPlan (L : Lazperf) (hd : LasHeader) (plan : List Addition) : Prop where
  good : ∀ a ∈ plan, GoodAdd L hd a.op a.key a.page a.blob a.count
  octree : ∀ a ∈ plan, InOctree a.page
  range : ∀ a ∈ plan, a.key.InRange
  count : ∀ a ∈ plan, 0 < a.count ∧ a.count < 2 ^ 31
  distinct : (plan.map (·.key)).Nodup
  few : plan.length < 2 ^ 25

/-- The header bounds are not in the wrong order. -/
def BoundsInOrder (hd : LasHeader) : Prop :=
  Flt.lt' hd.max.x hd.min.x = false ∧ Flt.lt' hd.max.y hd.min.y = false ∧ Flt.lt' hd.max.z hd.min.z = false

/-- Extra-byte items and a WKT string that a file can hold. -/
structure GoodArgs (f : Int) (s : Bytes) (eb : List EbField) : Prop where
  fmt : f = 6 ∨ f = 7 ∨ f = 8
  types : ∀ f ∈ eb, f.dataType ≤ 30 ∧ 0 < lasItemSize f ∧ EbOk f
  few : eb.length ≤ 341
  len : lasBaseSize f + (eb.map lasItemSize).sum < 65536
  wkt : s.length < 2 ^ 31

/-- What the edits of a configuration must keep: identifiers that fit their fields, extents and bounds in order. -/
structure GoodEdits (c : CopcConfig) : Prop where
  guid : Fits c.header.guid 16
  sys : Fits c.header.systemIdentifier 32
  gen : Fits c.header.generatingSoftware 32
  ordered : ∀ x ∈ c.extents.extents, Ordered x ∧ VarOk x
  bounds : BoundsInOrder c.header

/-- A collection of points that a program can give to a LAZ writer of a file with header `hd`: points of the format and
record length of the file, whose records are at most 2^31 - 1 bytes before and after compression. The coordinates are
in the range of the scale and offset, as `Stores` asks for a result of packing. -/
structure GoodBatch (L : Lazperf) (hd : LasHeader) (ps : List Point) : Prop where
  points : ∀ p ∈ ps, Reach p ∧ p.fmt = hd.fmt ∧ p.recLen = hd.recLen.toNat
  stores : ∃ n blob, (LazOp.points hd.fmt hd.recLen.toNat ps).Stores L hd (n, blob) ∧ blob.length ≤ 2147483647 ∧
    n * hd.recLen.toNat ≤ 2147483647

end Copc
