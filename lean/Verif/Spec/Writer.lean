import Verif.Model.Writer
import Verif.Spec.Pages
import Verif.Spec.Config
/-!
# Histories of a COPC writer

What a program can do with a `copc::Writer`: public calls, whose exceptions it may catch and go on,
and edits of the configuration object it shares with the writer.
-/
namespace Copc

/-- A new output stream (no size limit). -/
def OStream.fresh : OStream := ⟨[], 0, false, none⟩

/-- Public calls on a `Writer`. -/
inductive Op where
  /-- `AddNode(key, data, page)` -/
  | add (key : VoxelKey) (bs : Bytes) (page : VoxelKey)
  /-- `AddNode(key, points, page)` for a collection with format `fmt` and record length `recLen` -/
  | addPoints (key : VoxelKey) (fmt : Int) (recLen : Nat) (ps : List Point) (page : VoxelKey)
  /-- `AddNodeCompressed(key, data, count, page)` -/
  | addCompressed (key : VoxelKey) (bs : Bytes) (count : Int) (page : VoxelKey)
  /-- `ChangeNodePage(key, page)` -/
  | move (key page : VoxelKey)
  /-- `Close()` -/
  | close

/-- The call, returning the new node if it is an addition. -/
def Op.run (L : Lazperf) (ord : Order) : Op → Act Writer (Option Node)
  | add k bs p => do
    let n ← Writer.addNode L k bs p
    pure (some n)
  | addPoints k fmt len ps p => do
    let n ← Writer.addNodePoints L k fmt len ps p
    pure (some n)
  | addCompressed k bs c p => do
    let n ← Writer.addNodeCompressed L k bs c p
    pure (some n)
  | move k p => do
    Writer.changeNodePage k p
    pure none
  | close => do
    Writer.close L ord
    pure none

/-- Key and page of an addition. -/
def Op.target : Op → Option (VoxelKey × VoxelKey)
  | add k _ p => some (k, p)
  | addPoints k _ _ _ p => some (k, p)
  | addCompressed k _ _ p => some (k, p)
  | _ => none

/-- Edits of the shared configuration (`Writer::CopcConfig()`, `copc_config.hpp:73-80`): the public
members and setters of the LAS header, COPC info and extents. The format, record length, scale, offset,
COPC flag, WKT, extra bytes and the number and kind of extents cannot be changed
(`header.hpp:64-73`, `laz_config.hpp:29-33`, `extents.hpp:87-196`); strings have a maximal length
(`header.hpp:75-96`), `points_by_return` is an array of 15. -/
structure PublicEdit (c c' : CopcConfig) : Prop where
  fmt : c'.header.fmt = c.header.fmt
  recLen : c'.header.recLen = c.header.recLen
  scale : c'.header.scale = c.header.scale
  offset : c'.header.offset = c.header.offset
  copcFlag : c'.header.copcFlag = c.header.copcFlag
  wkt : c'.wkt = c.wkt
  eb : c'.eb = c.eb
  extFmt : c'.extents.fmt = c.extents.fmt
  extStats : c'.extents.extStats = c.extents.extStats
  extLen : c'.extents.extents.length = c.extents.extents.length
  returns : c'.header.pointsByReturn.length = c.header.pointsByReturn.length

/-- A history: the calls with their outcomes, in order, leading from `w0` to `w`. Undefined behaviour
ends a program. -/
inductive History (L : Lazperf) (ord : Order) (w0 : Writer) :
    List (Op × Res (Option Node)) → Writer → Prop
  | start : History L ord w0 [] w0
  | call {h w} (op : Op) : History L ord w0 h w → (op.run L ord w).1 ≠ .ub →
      History L ord w0 (h ++ [(op, (op.run L ord w).1)]) (op.run L ord w).2
  | edit {h w c} : History L ord w0 h w → PublicEdit w.cfg c → History L ord w0 h { w with cfg := c }

/-- No `Close` in the history. -/
def Unclosed (h : List (Op × Res (Option Node))) : Prop := ∀ x ∈ h, x.1 ≠ .close

/-- The bytes and the number of points a call stores for a node, when the header is `hd`: compressed
data as given, else the LAZ compression of the records that make up the data. -/
def Op.Stores (L : Lazperf) (hd : LasHeader) : Op → Bytes → Int → Prop
  | addCompressed _ bs c _, blob, n => blob = bs ∧ n = c
  | add _ bs _, blob, n => ∃ eb recs, hd.ebSize = .ok eb ∧ recs.flatten = bs ∧
      (∀ r ∈ recs, r.length = hd.recLen.toNat) ∧ blob = L.compress hd.fmt eb recs ∧
      n = ((recs.length : Nat) : Int)
  | addPoints _ _ _ ps _, blob, n => ∃ bs eb recs, packPoints ps hd.scale hd.offset = .ok bs ∧
      hd.ebSize = .ok eb ∧ recs.flatten = bs ∧
      (∀ r ∈ recs, r.length = hd.recLen.toNat) ∧ blob = L.compress hd.fmt eb recs ∧
      n = ((recs.length : Nat) : Int)
  | _, _, _ => False

/-- `len` bytes of a file from `pos`. -/
def slice (data : Bytes) (pos len : Nat) : Bytes := (data.drop pos).take len

/-- The file `data` has, at the offset and size of the node `n` that a call returned, what the call was
to store, and the node has the key, page and number of points of the call. -/
def NodeStored (L : Lazperf) (hd : LasHeader) (data : Bytes) (op : Op) (n : Node) : Prop :=
  op.target = some (n.entry.key, n.pageKey) ∧
  ∃ blob, op.Stores L hd blob n.entry.pointCount ∧ n.entry.byteSize = blob.length ∧
    n.entry.offset + blob.length ≤ data.length ∧ slice data n.entry.offset blob.length = blob

/-- The nodes returned by the calls of a history, in order. -/
def addedNodes (h : List (Op × Res (Option Node))) : List Node :=
  h.filterMap fun x => match x.2 with
    | .ok r => r
    | _ => none

/-- No call of the history failed because a chunk was larger than 2^31 - 1 bytes. -/
def NoneTooLarge (h : List (Op × Res (Option Node))) : Prop := ∀ x ∈ h, x.2 ≠ .throw .chunkTooLarge

open Spec in
/-- Additions that must be rejected by a writer with header `hd`. -/
inductive BadAdd (hd : LasHeader) : Op → Prop
  /-- a key or page key with a negative field -/
  | invalid {op k p} : op.target = some (k, p) → (¬ Valid k ∨ ¬ Valid p) → BadAdd hd op
  /-- a key that is not at or below its page -/
  | outside {op k p} : op.target = some (k, p) → ¬ Below k p → BadAdd hd op
  | noData {k p} : BadAdd hd (.add k [] p)
  | noPoints {k fmt len p} : BadAdd hd (.addPoints k fmt len [] p)
  /-- not a whole number of records -/
  | misaligned {k bs p} : bs.length % hd.recLen.toNat ≠ 0 → BadAdd hd (.add k bs p)
  | mismatch {k fmt len ps p} : (fmt ≠ hd.fmt ∨ len ≠ hd.recLen.toNat) → BadAdd hd (.addPoints k fmt len ps p)
  | noCount {k bs p} : BadAdd hd (.addCompressed k bs 0 p)

/-- The node that page `p` of the writer lists under key `k`. -/
def Writer.listing (w : Writer) (p k : VoxelKey) : Option Node := (AList.get p w.pages).bind (AList.get k)

/-- Targets of the `ChangeNodePage(k, _)` calls of the history that returned, in order. -/
def movedTo (h : List (Op × Res (Option Node))) (k : VoxelKey) : List VoxelKey :=
  h.filterMap fun x => match x with
    | (.move k' p, .ok _) => if k' = k then some p else none
    | _ => none

/-- The page a node should be in: where it was last moved to, or where it was added. -/
def finalPage (h : List (Op × Res (Option Node))) (n : Node) : VoxelKey :=
  ((movedTo h n.entry.key).getLast?).getD n.pageKey

/-- No two additions returned nodes with the same key. -/
def DistinctKeys (h : List (Op × Res (Option Node))) : Prop := ((addedNodes h).map (·.entry.key)).Nodup

/-- No node is moved more than once. -/
def MovedOnce (h : List (Op × Res (Option Node))) : Prop := ∀ k, (movedTo h k).length ≤ 1

end Copc
