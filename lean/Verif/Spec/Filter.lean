import Verif.Spec.Copy
/-!
# Filtering the points of a file

Programs that go over the nodes of a reader and give a writer those points of each that they want to keep.
-/
namespace Copc

/-- The points of the node that `keep` accepts, added to the writer unless there are none:

    std::vector<std::shared_ptr<las::Point>> kept;
    for (const auto &point : reader.GetPoints(node)) if (keep(*point)) kept.push_back(point);
    if (!kept.empty()) writer.AddNode(node.key, las::Points(kept), node.page_key);

`las::Points(vector)` takes its format and record length from the first point (`points.cpp:20-29`). -/
def filterNode (L : Lazperf) (ord : Order) (keep : Point → Bool) (n : Node) : Act Copier Unit := do
  let ps ← Act.zoom Prod.fst (fun r s => (r, s.2)) (Reader.getPoints L n)
  match ps.filter keep with
  | [] => pure ()
  | p :: qs => do
    let _ ← Act.zoom Prod.snd (fun w s => (s.1, w))
      ((Op.addPoints n.entry.key p.fmt p.recLen (p :: qs) n.pageKey).run L ord)
    pure ()

/-- The loop over the nodes. -/
def filterNodes (L : Lazperf) (ord : Order) (keep : Point → Bool) (ns : List Node) : Act Copier Unit :=
  Act.forEach (filterNode L ord keep) ns

/-- The body of the loop of `BoundsTrimFileExample`, `example/example-writer.cpp:100-118`, with a writer of the same
point format and a check that some point is left: a node within the box is copied as it is, one that only meets
the box is filtered (`GetWithin`, `points.hpp:217-228`), any other is left out. `hd` is the header of the reader. -/
def trimNode (L : Lazperf) (ord : Order) (hd : LasHeader) (box : Box Dbl) (n : Node) : Act Copier Unit :=
  if n.entry.key.within hd.min hd.max box then copyNode L ord n
  else if n.entry.key.intersects hd.min hd.max box then filterNode L ord (fun p => p.within box) n
  else pure ()

/-- The loop over the nodes. -/
def trimNodes (L : Lazperf) (ord : Order) (hd : LasHeader) (box : Box Dbl) (ns : List Node) : Act Copier Unit :=
  Act.forEach (trimNode L ord hd box) ns

/-- The branch of the example as it is, `example/example-writer.cpp:108-117`: `las::Points(point_vector)` without a
check that a point is left. -/
def trimNodeUnchecked (L : Lazperf) (ord : Order) (hd : LasHeader) (box : Box Dbl) (n : Node) : Act Copier Unit :=
  if n.entry.key.within hd.min hd.max box then copyNode L ord n
  else if n.entry.key.intersects hd.min hd.max box then do
    let ps ← Act.zoom Prod.fst (fun r s => (r, s.2)) (Reader.getPoints L n)
    match ps.filter fun p => p.within box with
    | [] => fun s => (.throw .emptyData, s)
    | p :: qs => do
      let _ ← Act.zoom Prod.snd (fun w s => (s.1, w))
        ((Op.addPoints n.entry.key p.fmt p.recLen (p :: qs) n.pageKey).run L ord)
      pure ()
  else pure ()

end Copc
