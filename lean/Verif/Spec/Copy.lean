import Verif.Spec.Writer
import Verif.Model.Reader
import Verif.Model.Compress
/-!
# Copying a file node by node

The loop of `example/example-writer.cpp:30-54` and `example/example_writer.py:26-38`: every node of a reader is
given to a writer as it is.

    for (const auto &node : reader.GetAllNodes())
        writer.AddNodeCompressed(node.key, reader.GetPointDataCompressed(node), node.point_count, node.page_key);
-/
namespace Copc

/-- The reader and the writer of a copy. -/
abbrev Copier := Reader × Writer

/-- The body of the loop. -/
def copyNode (L : Lazperf) (ord : Order) (n : Node) : Act Copier Unit := do
  let data ← Act.zoom Prod.fst (fun r s => (r, s.2)) (Reader.getPointDataCompressed n)
  let _ ← Act.zoom Prod.snd (fun w s => (s.1, w))
    ((Op.addCompressed n.entry.key data n.entry.pointCount n.pageKey).run L ord)
  pure ()

/-- The loop over the nodes. -/
def copyNodes (L : Lazperf) (ord : Order) (ns : List Node) : Act Copier Unit := Act.forEach (copyNode L ord) ns

/-- The body of the loop in `example/example-writer.cpp:43-51`, which decompresses and compresses the points:

    std::vector<char> uncompressed_points = reader.GetPointData(node);
    std::vector<char> compressed_points =
        laz::Compressor::CompressBytes(uncompressed_points, *writer.CopcConfig()->LasHeader());
    writer.AddNodeCompressed(node.key, compressed_points, node.point_count, node.page_key);
-/
def recompressNode (L : Lazperf) (ord : Order) (n : Node) : Act Copier Unit := do
  let points ← Act.zoom Prod.fst (fun r s => (r, s.2)) (Reader.getPointData L n)
  let hd ← Act.gets fun s : Copier => s.2.cfg.header
  let data ← Act.lift (compressVectorH L points hd)
  let _ ← Act.zoom Prod.snd (fun w s => (s.1, w))
    ((Op.addCompressed n.entry.key data n.entry.pointCount n.pageKey).run L ord)
  pure ()

/-- The loop over the nodes. -/
def recompressNodes (L : Lazperf) (ord : Order) (ns : List Node) : Act Copier Unit :=
  Act.forEach (recompressNode L ord) ns

/-- The bytes of the node `n` in the file are the compression of the records `recs`. -/
def HoldsRecords (L : Lazperf) (hd : LasHeader) (data : Bytes) (n : Node) (recs : List Bytes) : Prop :=
  ∃ eb, hd.ebSize = .ok eb ∧ (∀ x ∈ recs, x.length = hd.recLen.toNat) ∧
    slice data n.entry.offset n.entry.byteSize.toNat = L.compress hd.fmt eb recs ∧ n.entry.pointCount = recs.length

end Copc
