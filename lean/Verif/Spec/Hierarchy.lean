import Verif.Spec.Layout
/-!
# What a reader should say about the hierarchy of a file

Only the data types `VoxelKey`, `Entry`, `Node` (with the default node `Node.empty`) are taken from the
model.
-/
namespace Copc.Spec
open Copc

/-- A file with a good hierarchy: its pages form a tree (`PageTree`), node entries have a usable key,
a size and a number of points, lie at or below their page in the octree, and no key is used twice. All
numbers fit their fields. -/
structure GoodHierarchy (data : Bytes) (ps : List FPage) : Prop extends PageTree data ps where
  pageRange : ∀ p ∈ ps, p.key.InRange ∧ p.offset < 2 ^ 63 ∧ p.size < 2 ^ 31
  entries : ∀ p ∈ ps, ∀ e ∈ p.nodes, e.InRange ∧ Valid e.key ∧ 0 ≤ e.byteSize ∧ e.pointCount ≠ -1 ∧
    Below e.key p.key
  nodesDistinct : (ps.flatMap fun p => p.nodes.map (·.key)).Nodup

/-- The nodes of a page as a reader should report them. -/
def FPage.nodeList (p : FPage) : List Node := p.nodes.map fun e => ⟨e, p.key⟩

/-- `n` is what a reader should report for one of the node entries of the file. -/
def NodeOf (ps : List FPage) (n : Node) : Prop := ∃ p ∈ ps, n ∈ p.nodeList

/-- The right answer to the lookup of a key: the node with that key, the default node if there is none. -/
def Answer (ps : List FPage) (key : VoxelKey) (n : Node) : Prop :=
  (NodeOf ps n ∧ n.key = key) ∨ ((∀ m, NodeOf ps m → m.key ≠ key) ∧ n = Node.empty)

/-- `l` lists the nodes of the pages at or below `key`, each once. -/
def ListsPage (ps : List FPage) (key : VoxelKey) (l : List Node) : Prop :=
  l.Nodup ∧ ∀ m, m ∈ l ↔ ∃ q ∈ ps, Below q.key key ∧ m ∈ q.nodeList

/-- `l` holds the node with key `key` alone, nothing if there is none. -/
def ListsNode (ps : List FPage) (key : VoxelKey) (l : List Node) : Prop :=
  (∃ m, NodeOf ps m ∧ m.key = key ∧ l = [m]) ∨ ((∀ m, NodeOf ps m → m.key ≠ key) ∧ l = [])

/-- `l` lists the nodes of the file, each once. -/
def ListsAll (ps : List FPage) (l : List Node) : Prop := l.Nodup ∧ ∀ m, m ∈ l ↔ NodeOf ps m

end Copc.Spec
