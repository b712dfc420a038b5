import Verif.Base.Run
import Verif.Base.AList
import Verif.Model.Entry
/-!
# Model of the hierarchy of a reader
(`cpp/include/copc-lib/hierarchy/internal/hierarchy.hpp`, `internal/page.hpp`,
`cpp/src/io/copc_base_io.cpp`, `cpp/src/io/copc_reader.cpp`)

`PageInternal` objects are shared by pointer (`seen_pages_`, `sub_pages`). The model keeps the page
objects in a heap, a list indexed by object number; objects are never destroyed.
-/
namespace Copc

/-- `Internal::PageInternal`, `internal/page.hpp:14-23`: the fields of `Entry` without the point count
(always -1), `loaded` (`page.hpp:25`), the numbers of the sub pages and the nodes. -/
structure RPage where
  key : VoxelKey
  offset : Nat
  byteSize : Int
  loaded : Bool
  subs : List Nat
  nodes : List (VoxelKey × Node)

namespace RPage

/-- `PageInternal(Entry)`, `internal/page.hpp:17`. -/
def ofEntry (e : Entry) : RPage := ⟨e.key, e.offset, e.byteSize, false, [], []⟩

/-- `Page::IsValid`, `page.hpp:22`; `offset >= 0` on a `uint64_t` is always true. -/
def isValid (p : RPage) : Bool := (p.loaded || decide (0 ≤ p.byteSize)) && p.key.isValid

end RPage

/-- `Internal::Hierarchy`, `internal/hierarchy.hpp:46-47`, and the page objects. -/
structure RHier where
  heap : List RPage
  seen : List (VoxelKey × Nat)
  nodes : List (VoxelKey × Node)

namespace RHier

/-- `Hierarchy(int64_t, int32_t)`, `internal/hierarchy.hpp:25-30`, called with two `uint64_t`
(`copc_reader.cpp:28`): the offset comes back to `uint64_t` in `Entry` (`hierarchy/page.hpp:18`), the size is
narrowed to 32 bits. -/
def make (rootOffset rootSize : UInt64) : RHier :=
  ⟨[⟨VoxelKey.root, rootOffset.toNat, signed 4 (rootSize.toNat % 256 ^ 4), false, [], []⟩],
    [(VoxelKey.root, 0)], []⟩

/-- One entry of a page read, `copc_base_io.cpp:55-69`. -/
def addEntry (id : Nat) (h : RHier) (e : Entry) : RHier :=
  if e.isPage then
    { heap := (h.heap.modify id fun p => { p with subs := p.subs ++ [h.heap.length] }) ++ [RPage.ofEntry e]
      seen := AList.put e.key h.heap.length h.seen
      nodes := h.nodes }
  else
    { heap := h.heap.modify id fun p =>
        { p with nodes := AList.put e.key ⟨e, p.key⟩ p.nodes }
      seen := h.seen
      nodes := AList.put e.key ⟨e, ((h.heap[id]?).map (·.key)).getD VoxelKey.invalid⟩ h.nodes }

/-- `PageExists`, `internal/hierarchy.hpp:43`. -/
def pageExists (h : RHier) (k : VoxelKey) : Bool := (AList.get k h.seen).isSome

/-- `NearestLoadedPage`, `internal/hierarchy.hpp:33-41`. -/
def nearest (h : RHier) (parents : List VoxelKey) : Option Nat :=
  parents.findSome? fun k => AList.get k h.seen

end RHier

/-- The part of a `Reader` that the hierarchy functions use: `in_stream_` and `hierarchy_`. -/
structure HReader where
  str : IStream
  hier : RHier

/-- Iteration order of `std::set<shared_ptr>` (by address) and of `std::unordered_map`: any
rearrangement. -/
structure ROrder where
  subs : List Nat → List Nat
  nodes : List (VoxelKey × Node) → List (VoxelKey × Node)
  seen : List (VoxelKey × Nat) → List (VoxelKey × Nat)
  subs_perm : ∀ l, (subs l).Perm l
  nodes_perm : ∀ l, (nodes l).Perm l
  seen_perm : ∀ l, (seen l).Perm l

/-- An order: that of insertion. -/
def ROrder.plain : ROrder := ⟨id, id, id, fun l => .refl l, fun l => .refl l, fun l => .refl l⟩

namespace HReader

/-- `BaseIO::ReadAndParsePage`, `copc_base_io.cpp:52-70`, with `Reader::ReadPage`,
`copc_reader.cpp:70-92` (which sets `loaded` when all entries have been read). An object number
without object (null pointer) is undefined behaviour. -/
def readAndParsePage (id : Nat) : Act HReader Unit := fun s =>
  match s.hier.heap[id]? with
  | none => (.ub, s)
  | some p =>
    match readPage s.str p.isValid p.offset p.byteSize with
    | (.ok es, str') =>
      (.ok (), { str := str'
                 hier := es.foldl (RHier.addEntry id)
                  { s.hier with heap := s.hier.heap.modify id fun p => { p with loaded := true } } })
    | (.throw e, str') => (.throw e, { s with str := str' })
    | (.ub, str') => (.ub, { s with str := str' })

/-- `BaseIO::FindNode`, `copc_base_io.cpp:9-32`, with at most `fuel` nested calls. -/
def findNode : Nat → VoxelKey → Run HReader Node
  | 0, _ => fun _ => none
  | fuel + 1, key => fun s =>
    match AList.get key s.hier.nodes with
    | some n => some (.ok n, s)
    | none =>
      match s.hier.nearest (key.getParents true) with
      | none => some (.ok Node.empty, s)
      | some id =>
        match s.hier.heap[id]? with
        | none => some (.ub, s)
        | some p =>
          if p.loaded then some (.ok Node.empty, s)
          else (Run.ofAct (readAndParsePage id) >>= fun _ => findNode fuel key) s

/-- `if (!page->loaded) ReadAndParsePage(page);`, `copc_base_io.cpp:39-40`. -/
def ensureLoaded (id : Nat) (p : RPage) : Act HReader Unit := fun s =>
  if p.loaded then (.ok (), s) else readAndParsePage id s

/-- `BaseIO::LoadPageHierarchy`, `copc_base_io.cpp:34-50`, with at most `fuel` nested calls: the nodes
appended to `loaded_nodes`. A loaded page is never changed again, so its sub pages and nodes are those
it has when the loops start. -/
def loadPageHierarchy (ord : ROrder) : Nat → Nat → Run HReader (List Node)
  | 0, _ => fun _ => none
  | fuel + 1, id => fun s =>
    match s.hier.heap[id]? with
    | none => some (.ub, s)
    | some p =>
      if p.isValid = false then some (.ok [], s)
      else (Run.ofAct (ensureLoaded id p) >>= fun _ =>
        Run.gets (fun s => s.hier.heap[id]?) >>= fun q =>
        match q with
        | none => Run.lift .ub
        | some q => Run.collect (loadPageHierarchy ord fuel) (ord.subs q.subs) >>= fun l =>
          pure (l ++ (ord.nodes q.nodes).map (·.2))) s

/-- The end of `GetAllChildrenOfPage`, `copc_reader.cpp:170-179`. -/
def childrenFrom (ord : ROrder) (fuel : Nat) (key : VoxelKey) (node : Node) :
    Run HReader (List Node) := fun s =>
  match AList.get key s.hier.seen with
  | none => some (.ok (if node.isValid then [node] else []), s)
  | some id => loadPageHierarchy ord fuel id s

/-- `Reader::GetAllChildrenOfPage`, `copc_reader.cpp:161-180`. -/
def getAllChildrenOfPage (ord : ROrder) (fuel : Nat) (key : VoxelKey) : Run HReader (List Node) :=
  if key.isValid = false then pure []
  else findNode fuel key >>= fun node => childrenFrom ord fuel key node

/-- `Reader::GetAllNodes`, `copc_reader.hpp:44`. -/
def getAllNodes (ord : ROrder) (fuel : Nat) : Run HReader (List Node) :=
  getAllChildrenOfPage ord fuel VoxelKey.root

/-- `Reader::GetPageList`, `copc_reader.cpp:182-195`. -/
def getPageList (ord : ROrder) (fuel : Nat) : Run HReader (List VoxelKey) :=
  getAllNodes ord fuel >>= fun _ =>
  Run.gets (fun s => (ord.seen s.hier.seen).filterMap fun e => (s.hier.heap[e.2]?).map (·.key))

end HReader
end Copc
