import Verif.Spec.Filter
import Verif.Spec.Conforming
import Verif.Spec.Point
/-! # Programs that compute new points from the points of a file -/
namespace Copc
open Spec

/-- The points that `g` makes of the points of a node, added to the writer unless there are none:

    std::vector<std::shared_ptr<las::Point>> made = g(node, reader.GetPoints(node));
    if (!made.empty()) writer.AddNode(node.key, las::Points(made), node.page_key);

`las::Points(vector)` takes its format and record length from the first point (`points.cpp:20-29`). `filterNode` is the case of a
`g` that drops points. -/
def mapNode (L : Lazperf) (ord : Order) (g : Node → List Point → List Point) (n : Node) : Act Copier Unit := do
  let ps ← Act.zoom Prod.fst (fun r s => (r, s.2)) (Reader.getPoints L n)
  match g n ps with
  | [] => pure ()
  | p :: qs => do
    let _ ← Act.zoom Prod.snd (fun w s => (s.1, w))
      ((Op.addPoints n.entry.key p.fmt p.recLen (p :: qs) n.pageKey).run L ord)
    pure ()

/-- The loop over the nodes. -/
def mapNodes (L : Lazperf) (ord : Order) (g : Node → List Point → List Point) (ns : List Node) : Act Copier Unit :=
  Act.forEach (mapNode L ord g) ns

/-- What any point is that was read from the file with the bytes `data` (`Point::Unpack`): of the format and record length of the file,
and the colours that the format does not have are zero. -/
structure Format.AsRead (data : Bytes) (p : Point) : Prop where
  reach : Spec.Reach p
  fmt : p.fmt = (Format.num data 1 104 : Int) - 128
  recLen : p.recLen = Format.num data 2 105
  noRgb : p.fmt = 6 → p.red = 0 ∧ p.green = 0 ∧ p.blue = 0
  noNir : p.fmt ≠ 8 → p.nir = 0

/-- `Point::ToPointFormat` of every point of a node; no points if it fails. -/
def convertPoints (f : Int) (ps : List Point) : List Point :=
  match Res.mapL (fun p : Point => p.toPointFormat f) ps with
  | .ok qs => qs
  | _ => []

/-- `q` is `p` in format `f`: the same coordinates, attributes and extra bytes; a colour that `f` has is that of `p`, or zero if the
format of `p` does not have it. -/
structure Converted (f : Int) (p q : Point) : Prop where
  x : q.x = p.x
  y : q.y = p.y
  z : q.z = p.z
  intensity : q.intensity = p.intensity
  returns : q.returns = p.returns
  flags : q.flags = p.flags
  classification : q.classification = p.classification
  scanAngle : q.scanAngle = p.scanAngle
  userData : q.userData = p.userData
  pointSourceId : q.pointSourceId = p.pointSourceId
  gpsTime : q.gpsTime = p.gpsTime
  rgb : f ≠ 6 → p.fmt ≠ 6 → q.getRed = p.getRed ∧ q.getGreen = p.getGreen ∧ q.getBlue = p.getBlue
  newRgb : f ≠ 6 → p.fmt = 6 → q.getRed = .ok 0 ∧ q.getGreen = .ok 0 ∧ q.getBlue = .ok 0
  nir : f = 8 → p.fmt = 8 → q.getNir = p.getNir
  newNir : f = 8 → p.fmt ≠ 8 → q.getNir = .ok 0
  extra : q.extra = p.extra
  fmt : q.fmt = f
  recLen : q.recLen = baseSize f + p.extra.length

end Copc
