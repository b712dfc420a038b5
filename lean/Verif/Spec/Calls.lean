import Verif.Model.Reader
/-! # The calls of a `Reader` -/
namespace Copc

/-- The queries about the hierarchy. -/
inductive HierarchyCall : {α : Type} → (Nat → Run Reader α) → Prop
  | findNode (key : VoxelKey) : HierarchyCall fun k => Reader.findNode k key
  | children (ord : ROrder) (key : VoxelKey) : HierarchyCall fun k => Reader.getAllChildrenOfPage ord k key
  | allNodes (ord : ROrder) : HierarchyCall fun k => Reader.getAllNodes ord k
  | pageList (ord : ROrder) : HierarchyCall fun k => Reader.getPageList ord k
  | depth (ord : ROrder) (res : Dbl) : HierarchyCall fun k => Reader.getDepthAtResolution ord k res
  | maxDepth (ord : ROrder) : HierarchyCall fun k => Reader.getMaxDepth ord k
  | nodesAt (ord : ROrder) (res : Dbl) : HierarchyCall fun k => Reader.getNodesAtResolution ord k res
  | nodesUpTo (ord : ROrder) (res : Dbl) : HierarchyCall fun k => Reader.getNodesWithinResolution ord k res
  | nodesWithin (ord : ROrder) (box : Box Dbl) (res : Dbl) :
      HierarchyCall fun k => Reader.getNodesWithinBox ord k box res
  | nodesIntersect (ord : ROrder) (box : Box Dbl) (res : Dbl) :
      HierarchyCall fun k => Reader.getNodesIntersectBox ord k box res

/-- The calls of a `Reader` that return points, point data or a verdict on them. -/
inductive PointCall (L : Lazperf) : {α : Type} → (Nat → Run Reader α) → Prop
  | pointData (n : Node) : PointCall L fun _ => Run.ofAct (Reader.getPointData L n)
  | pointDataAt (key : VoxelKey) : PointCall L fun k => Reader.getPointDataAt L k key
  | points (n : Node) : PointCall L fun _ => Run.ofAct (Reader.getPoints L n)
  | pointsAt (key : VoxelKey) : PointCall L fun k => Reader.getPointsAt L k key
  | allPoints (ord : ROrder) (res : Dbl) : PointCall L fun k => Reader.getAllPoints L ord k res
  | pointsWithin (ord : ROrder) (box : Box Dbl) (res : Dbl) :
      PointCall L fun k => Reader.getPointsWithinBox L ord k box res
  | validate (ord : ROrder) (verbose : Bool) : PointCall L fun k => Reader.validateSpatialBounds L ord k verbose

end Copc
