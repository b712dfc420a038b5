import Verif.Spec.LazWriter
import Verif.Model.Reader
/-!
# Converting a COPC file to a LAZ file

The loop of a program that writes the points of every node of a reader to a LAZ writer:

    laz::LazWriter writer(out, las::LazConfigWriter(reader.CopcConfig()));
    for (const auto &node : reader.GetAllNodes())
        writer.WritePointsCompressed(reader.GetPointDataCompressed(node), node.point_count);
    writer.Close();
-/
namespace Copc

/-- The reader and the writer of a conversion. -/
abbrev Converter := Reader × LazWriter

/-- The body of the loop. -/
def toLazNode (L : Lazperf) (n : Node) : Act Converter Unit := do
  let data ← Act.zoom Prod.fst (fun r s => (r, s.2)) (Reader.getPointDataCompressed n)
  Act.zoom Prod.snd (fun w s => (s.1, w)) (LazWriter.writePointsCompressed L data n.entry.pointCount)

/-- The loop over the nodes. -/
def toLaz (L : Lazperf) (ns : List Node) : Act Converter Unit := Act.forEach (toLazNode L) ns

end Copc
