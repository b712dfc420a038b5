import Verif.Model.Lazperf
import Verif.Model.Points
import Verif.Model.Entry
import Verif.Base.Act
import Verif.Base.AList
/-!
# Model of the LAZ and COPC writers
(`cpp/src/io/laz_base_writer.cpp`, `cpp/src/io/laz_writer.cpp`, `cpp/src/io/copc_writer_internal.cpp`,
`cpp/src/io/copc_writer_public.cpp`, `cpp/include/copc-lib/laz/compressor.hpp`,
`cpp/include/copc-lib/hierarchy/internal/hierarchy.hpp`)

The configuration is shared with the caller (`Writer::CopcConfig()`); the state of the model holds its
current value and `Verif/Spec/Writer.lean` says what a caller may change. Configurations are passed as
arguments to the functions of the base writer.
-/
namespace Copc

/-- Members of `laz::BaseWriter`, `laz_base_writer.hpp:49-54` (without the configuration). -/
structure BaseW where
  out : OStream
  /-- `lazperf::chunk{count, offset}`, both `uint64_t` -/
  chunks : List (Nat × Nat)
  /-- `uint64_t` -/
  pointCount : Nat
  /-- `uint64_t` -/
  evlrOffset : Nat
  /-- `uint32_t` -/
  evlrCount : Nat
  open_ : Bool
  deriving DecidableEq

/-- `uint64_t` value of a signed integer. -/
def u64 (v : Int) : Nat := (v % 2 ^ 64).toNat

namespace BaseW

/-- `BaseWriter(out_stream, config)`, `laz_base_writer.hpp:26-29`, and the reservation of `n` bytes,
`laz_writer.cpp:13`, `copc_writer_internal.cpp:42`. -/
def init (out : OStream) (n : Nat) : BaseW := ⟨out.write (List.replicate n 0), [], 0, 0, 0, true⟩

/-- `out_stream_.write(...)`, `seekp`, ... -/
def onOut (f : OStream → OStream) : Act BaseW Unit := Act.modify fun b => { b with out := f b.out }

/-- Writes bytes to the output stream. -/
def emit (bs : Bytes) : Act BaseW Unit := onOut fun o => o.write bs

/-- `OffsetToPointData` of the base writer, `laz_base_writer.cpp:11-25`. `eb_vlr::size()` is 192 bytes
per item. -/
def offsetToPointData (c : LazConfig) : Res Nat :=
  (c.header.ebSize).bind fun eb =>
    .ok (375 + (if 192 * c.eb.length > 0 then 192 * c.eb.length + 54 else 0) +
      (34 + 6 * lazItems c.header.fmt eb + 54))

/-- `in` cut into records of `k` bytes, the loop of `compressor.hpp:37-42`. -/
def cut (k : Nat) : Nat → Bytes → List Bytes
  | 0, _ => []
  | n + 1, bs => bs.take k :: cut k n (bs.drop k)

/-- `Compressor::CompressBytes(out_stream, header, in)`, `compressor.hpp:22-50`. A point size of zero
makes `%` undefined. Simplification: lazperf emits the bytes in several writes, here in one. -/
def compressBytes (L : Lazperf) (h : LasHeader) (bs : Bytes) : Act BaseW Int := do
  let eb ← Act.lift h.ebSize
  let size ← Act.lift (pointByteSize h.fmt eb)
  if size = 0 then Act.undef
  else do
    Act.throwIf (bs.length % size ≠ 0) .compressSize
    Act.throwIf (bs.length > 2147483647) .compressSize
    emit (L.compress h.fmt eb (cut size (bs.length / size) bs))
    pure ((bs.length / size : Nat) : Int)

/-- The end of `WriteChunk`, `laz_base_writer.cpp:126-141`, after the data has been written. The last
check of the code, on an `int32_t` exceeding its maximum, cannot fire. -/
def finishChunk (start : Nat) (count : Int) : Act BaseW (Nat × Int × Int) := do
  Act.modify fun b => { b with pointCount := (b.pointCount + u64 count) % 2 ^ 64 }
  let endpos ← Act.gets fun b => b.out.tellp
  Act.throwIf (endpos ≤ 0) .chunkError
  Act.modify fun b => { b with chunks := b.chunks ++ [(u64 count, endpos)] }
  let size : Nat := (endpos + 2 ^ 64 - start) % 2 ^ 64
  Act.throwIf (size > 2147483647) .chunkTooLarge
  pure (start, (size : Int), count)

/-- `WriteChunk`, `laz_base_writer.cpp:112-142`: offset, byte size and point count of the chunk. -/
def writeChunk (L : Lazperf) (h : LasHeader) (bs : Bytes) (count : Int) (compressed : Bool) :
    Act BaseW (Nat × Int × Int) := do
  let start ← Act.gets fun b => b.out.tellp
  Act.throwIf (start ≤ 0) .chunkError
  if compressed then do
    emit bs
    finishChunk start count
  else do
    let n ← compressBytes L h bs
    finishChunk start n

/-- The loop making offsets relative, `laz_base_writer.cpp:75-81` (`uint64_t` subtraction). -/
def relative : Nat → List (Nat × Nat) → List (Nat × Nat)
  | _, [] => []
  | prev, (n, o) :: l => (n, (o + 2 ^ 64 - prev) % 2 ^ 64) :: relative o l

/-- `WriteChunkTable`, `laz_base_writer.cpp:66-98`. -/
def writeChunkTable (L : Lazperf) (otpd : Nat) : Act BaseW Unit := do
  onOut OStream.seekEnd
  let off ← Act.gets fun b => b.out.tellp
  Act.modify fun b => { b with chunks := relative (otpd + 8) b.chunks }
  emit (leN 4 0)
  let n ← Act.gets fun b => b.chunks.length
  Act.throwIf (n > 4294967295) .tooManyChunks
  emit (leN 4 n)
  let t ← Act.gets fun b => b.chunks
  emit (L.table t)
  onOut fun o => o.seekp otpd
  emit (leN 8 off)

/-- The EVLR of the WKT string (`lazperf::wkt_vlr`, external). -/
def wktEvlr (wkt : Bytes) : Bytes :=
  VlrHeader.encodeE ⟨0, idProj, 2112, UInt64.ofNat wkt.length, [], true⟩ ++ wkt

/-- `WriteWKT`, `laz_base_writer.cpp:100-110`. -/
def writeWkt (wkt : Bytes) : Act BaseW Unit :=
  if wkt = [] then pure ()
  else do
    Act.modify fun b => { b with evlrCount := (b.evlrCount + 1) % 2 ^ 32 }
    emit (wktEvlr wkt)

/-- `WriteLasHeader`, `laz_base_writer.cpp:27-34`. -/
def writeLasHeader (h : LasHeader) (otpd : Nat) (ext : Bool) : Act BaseW Unit := do
  let eb ← Act.lift h.ebSize
  let b ← Act.gets id
  let h14 ← Act.lift (h.toLazPerf (UInt32.ofNat otpd) (UInt64.ofNat b.pointCount)
    (UInt64.ofNat b.evlrOffset) (UInt32.ofNat b.evlrCount) (eb ≠ 0) ext)
  onOut fun o => o.seekp 0
  emit h14.encode

/-- A VLR: header and payload. The `uint16_t` data length is the payload size modulo 2^16. -/
def vlrBytes (user : Bytes) (id : UInt16) (desc payload : Bytes) : Bytes :=
  VlrHeader.encode ⟨0, user, id, UInt64.ofNat payload.length, desc, false⟩ ++ payload

/-- "lazperf variant" -/
def descLaz : Bytes := [108, 97, 122, 112, 101, 114, 102, 32, 118, 97, 114, 105, 97, 110, 116]
/-- "COPC info VLR" -/
def descInfo : Bytes := [67, 79, 80, 67, 32, 105, 110, 102, 111, 32, 86, 76, 82]
/-- "COPC extents" -/
def descExtents : Bytes := [67, 79, 80, 67, 32, 101, 120, 116, 101, 110, 116, 115]
/-- "COPC extended stats" -/
def descStats : Bytes :=
  [67, 79, 80, 67, 32, 101, 120, 116, 101, 110, 100, 101, 100, 32, 115, 116, 97, 116, 115]

/-- `WriteLazAndEbVlrs`, `laz_base_writer.cpp:36-52`. -/
def writeLazAndEbVlrs (L : Lazperf) (c : LazConfig) : Act BaseW Unit := do
  let eb ← Act.lift c.header.ebSize
  if eb > 0 then emit (vlrBytes idSpec 4 [] (putEb c.eb)) else pure ()
  emit (vlrBytes idLaz 22204 descLaz (L.lazVlr c.header.fmt eb))

/-- The final check of `WriteHeader`, `laz_base_writer.cpp:62-63`, `copc_writer_internal.cpp:105-106`:
the position (`-1` on a failed stream) is compared as an unsigned number. -/
def checkHeaderSize (otpd : Nat) : Act BaseW Unit := do
  let p ← Act.gets fun b => b.out.tellp
  Act.throwIf (p > otpd) .headerTooBig

/-- `BaseWriter::WriteHeader`, `laz_base_writer.cpp:55-64`. -/
def writeHeader (L : Lazperf) (c : LazConfig) : Act BaseW Unit := do
  let otpd ← Act.lift (offsetToPointData c)
  writeLasHeader c.header otpd false
  writeLazAndEbVlrs L c
  checkHeaderSize otpd

/-- `BaseWriter::Close`, `laz_base_writer.cpp:144-160`. -/
def close (L : Lazperf) (c : LazConfig) : Act BaseW Unit := do
  let o ← Act.gets fun b => b.open_
  if o = false then pure ()
  else do
    let otpd ← Act.lift (offsetToPointData c)
    writeChunkTable L otpd
    onOut OStream.seekEnd
    Act.modify fun b => { b with evlrOffset := b.out.tellp }
    writeWkt c.wkt
    writeHeader L c
    Act.modify fun b => { b with open_ := false }

end BaseW

/-- `laz::LazWriter`: the base writer and its configuration. -/
structure LazWriter where
  base : BaseW
  cfg : LazConfig
  deriving DecidableEq

namespace LazWriter

def onBase {α : Type} (x : Act BaseW α) : Act LazWriter α :=
  Act.zoom (·.base) (fun b w => { w with base := b }) x

/-- `LazWriter(out_stream, config)`, `laz_writer.cpp:8-14`. -/
def make (out : OStream) (c : LazConfig) : Res LazWriter :=
  (BaseW.offsetToPointData c.forWriter).bind fun n => .ok ⟨BaseW.init out (n + 8), c.forWriter⟩

/-- `WritePoints`, `laz_writer.cpp:17-27`. -/
def writePoints (L : Lazperf) (fmt : Int) (recLen : Nat) (ps : List Point) : Act LazWriter Unit := do
  let c ← Act.gets (·.cfg)
  if ps = [] then pure ()
  else do
    Act.throwIf (fmt ≠ c.header.fmt ∨ recLen ≠ c.header.recLen.toNat) .wrongFormat
    let bs ← Act.lift (packPoints ps c.header.scale c.header.offset)
    let _ ← onBase (BaseW.writeChunk L c.header bs 0 false)
    pure ()

/-- `WritePointsCompressed`, `laz_writer.cpp:30-36`. -/
def writePointsCompressed (L : Lazperf) (bs : Bytes) (count : Int) : Act LazWriter Unit := do
  let c ← Act.gets (·.cfg)
  Act.throwIf (count = 0) .zeroCount
  let _ ← onBase (BaseW.writeChunk L c.header bs count true)
  pure ()

/-- `BaseWriter::Close` of this writer (`laz_base_writer.cpp:144-160`); also what its destructor does
(`laz_base_writer.hpp:44`). -/
def close (L : Lazperf) : Act LazWriter Unit := do
  let c ← Act.gets (·.cfg)
  onBase (BaseW.close L c)

end LazWriter

/-- `Internal::PageInternal` of a writer, `internal/page.hpp:14-23`: the nodes of the page by key.
Offset, size and sub-pages are only set and used within `Close`. -/
abbrev WPage := List (VoxelKey × Node)

/-- `copc::Writer` with its `WriterInternal` and `Hierarchy`. -/
structure Writer where
  base : BaseW
  cfg : CopcConfig
  /-- `loaded_nodes_`, `hierarchy.hpp:47` -/
  nodes : List (VoxelKey × Node)
  /-- `seen_pages_`, `hierarchy.hpp:46` -/
  pages : List (VoxelKey × WPage)
  deriving DecidableEq

/-- Orders in which a run iterates over the containers: `unordered_map` (nodes of a page) and a set of
pointers (sub-pages of a page). Theorems hold for every such choice. -/
structure Order where
  nodes : VoxelKey → List (VoxelKey × Node) → List (VoxelKey × Node)
  subs : VoxelKey → List VoxelKey → List VoxelKey
  nodes_perm : ∀ k l, (nodes k l).Perm l
  subs_perm : ∀ k l, (subs k l).Perm l

/-- Insertion order. -/
def Order.plain : Order := ⟨fun _ l => l, fun _ l => l, fun _ _ => .refl _, fun _ _ => .refl _⟩

namespace Writer

def onBase {α : Type} (x : Act BaseW α) : Act Writer α :=
  Act.zoom (·.base) (fun b w => { w with base := b }) x

/-- `WriterInternal::OffsetToPointData`, `copc_writer_internal.cpp:18-34`. The number of items is
converted to `uint16_t` by `ByteSize`. -/
def offsetToPointData (c : CopcConfig) : Res Nat :=
  (BaseW.offsetToPointData c.toLazConfig).bind fun base =>
  (Extents.byteSize c.header.fmt (c.eb.length % 65536)).bind fun e =>
  .ok (base + (54 + 160) + (if c.extents.extStats then (e + 54) * 2 else e + 54))

/-- Optional overrides of `Writer(...)`, `copc_writer.hpp:29-32`. -/
structure Overrides where
  fmt : Option Int := none
  scale : Option (Vec3 Dbl) := none
  offset : Option (Vec3 Dbl) := none
  wkt : Option Bytes := none
  eb : Option (List EbField) := none
  ext : Option Bool := none

/-- Whether some override is given, the condition of `copc_writer_public.cpp:17`. -/
def Overrides.any (o : Overrides) : Bool :=
  o.fmt.isSome || o.scale.isSome || o.offset.isSome || o.wkt.isSome || o.eb.isSome || o.ext.isSome

/-- The configuration part of `InitWriter`, `copc_writer_public.cpp:17-61`. -/
def initConfig (c : CopcConfig) (o : Overrides) : Res CopcConfig :=
  if o.any then
    let fmt := o.fmt.getD c.header.fmt
    let eb := o.eb.getD c.eb
    (recordLength fmt eb).bind fun len =>
    (Extents.reformat c.extents fmt (eb.length % 65536) (o.ext.getD c.extents.extStats)).bind fun ex =>
    (CopcConfig.ofParts
      (c.header.withFormat fmt len (o.scale.getD c.header.scale) (o.offset.getD c.header.offset))
      c.info ex (o.wkt.getD c.wkt) eb).bind fun c' => c'.copy
  else c.copy

/-- `Writer(out_stream, config, overrides)`, `copc_writer_public.cpp:11-64`,
`copc_writer_internal.cpp:36-43`, `hierarchy.hpp:17-23`. -/
def make (out : OStream) (c : CopcConfig) (o : Overrides) : Res Writer :=
  (initConfig c o).bind fun c' => (offsetToPointData c').bind fun n =>
    .ok ⟨BaseW.init out (n + 8), c', [], [(VoxelKey.root, [])]⟩

/-- `PageExists`, `hierarchy.hpp:43`. -/
def pageExists (w : Writer) (k : VoxelKey) : Bool := (AList.get k w.pages).isSome

/-- `BaseIO::FindNode` of a writer, `copc_base_io.cpp:9-34`: all pages of a writer are loaded, so a
key that is not among the loaded nodes gives the invalid node. -/
def findNode (w : Writer) (k : VoxelKey) : Node := (AList.get k w.nodes).getD Node.empty

/-- `seen_pages_[page_key]` created when missing, `copc_writer_public.cpp:91-96`, `155-160`. -/
def ensurePage (k : VoxelKey) : Act Writer Unit := Act.modify fun w =>
  if w.pageExists k then w else { w with pages := AList.put k [] w.pages }

/-- `seen_pages_[page_key]->nodes[key] = node`, `copc_writer_public.cpp:98`, `163`. -/
def addToPage (page key : VoxelKey) (n : Node) : Act Writer Unit := Act.modify fun w =>
  { w with pages := AList.put page (AList.put key n ((AList.get page w.pages).getD [])) w.pages }

/-- `DoAddNode`, `copc_writer_public.cpp:75-100`, with `WriteNode`,
`copc_writer_internal.cpp:110-117`. -/
def doAddNode (L : Lazperf) (key : VoxelKey) (bs : Bytes) (count : Int) (compressed : Bool)
    (page : VoxelKey) : Act Writer Node := do
  Act.throwIf (page.isValid = false ∨ key.isValid = false) .invalidKey
  Act.throwIf (key.childOf page = false) .notChild
  let c ← Act.gets (·.cfg)
  let r ← onBase (BaseW.writeChunk L c.header bs count compressed)
  let n : Node := ⟨⟨key, r.1, r.2.1, r.2.2⟩, page⟩
  Act.modify fun w => { w with nodes := AList.put key n w.nodes }
  ensurePage page
  addToPage page key n
  pure n

/-- `AddNode(key, data, page_key)`, `copc_writer_public.cpp:114-124`. -/
def addNode (L : Lazperf) (key : VoxelKey) (bs : Bytes) (page : VoxelKey) : Act Writer Node := do
  let c ← Act.gets (·.cfg)
  Act.throwIf (bs = []) .emptyData
  if c.header.recLen.toNat = 0 then Act.undef
  else do
    Act.throwIf (bs.length % c.header.recLen.toNat ≠ 0) .misaligned
    doAddNode L key bs 0 false page

/-- `AddNode(key, points, page_key)`, `copc_writer_public.cpp:102-112`; `fmt` and `recLen` are those
of the collection. -/
def addNodePoints (L : Lazperf) (key : VoxelKey) (fmt : Int) (recLen : Nat) (ps : List Point)
    (page : VoxelKey) : Act Writer Node := do
  let c ← Act.gets (·.cfg)
  Act.throwIf (ps = []) .emptyData
  Act.throwIf (fmt ≠ c.header.fmt ∨ recLen ≠ c.header.recLen.toNat) .wrongFormat
  let bs ← Act.lift (packPoints ps c.header.scale c.header.offset)
  addNode L key bs page

/-- `AddNodeCompressed`, `copc_writer_public.cpp:126-133`. -/
def addNodeCompressed (L : Lazperf) (key : VoxelKey) (bs : Bytes) (count : Int) (page : VoxelKey) :
    Act Writer Node := do
  Act.throwIf (count = 0) .zeroCount
  doAddNode L key bs count true page

/-- The end of `ChangeNodePage`, `copc_writer_public.cpp:165-170`: the node is erased from the page
recorded in it. `seen_pages_[page_key]` of a page that no longer exists is a null pointer. -/
def leavePage (old key : VoxelKey) : Act Writer Unit := fun w =>
  match AList.get old w.pages with
  | none => (.ub, w)
  | some ns =>
    let ns' := AList.del key ns
    if old ≠ VoxelKey.root ∧ ns' = [] then (.ok (), { w with pages := AList.del old w.pages })
    else (.ok (), { w with pages := AList.put old ns' w.pages })

/-- `ChangeNodePage`, `copc_writer_public.cpp:135-171`. `node->page_key` is never changed. -/
def changeNodePage (key page : VoxelKey) : Act Writer Unit := do
  Act.throwIf (key.isValid = false) .invalidKey
  Act.throwIf (page.isValid = false) .invalidKey
  let w ← Act.gets id
  match AList.get key w.nodes with
  | none => Act.raise .unknownNode
  | some n => do
    Act.throwIf (key.childOf page = false) .notChild
    if n.pageKey = page then pure ()
    else do
      ensurePage page
      addToPage page key n
      leavePage n.pageKey key

/-! ### Closing -/

/-- The `while` loop of `ComputePageHierarchy`, `copc_writer_internal.cpp:157-162`: `k` is the
candidate parent. `fuel` bounds the number of iterations; the caller gives more than there can be. -/
def parentLoop (pages : List (VoxelKey × WPage)) : Nat → VoxelKey → Res VoxelKey
  | 0, _ => .ub
  | fuel + 1, k =>
    if (AList.get k pages).isSome then .ok k
    else if k.getParent.isValid = false then .throw .noParentPage
    else parentLoop pages fuel k.getParent

/-- Parent page of a page, `copc_writer_internal.cpp:156-163`. -/
def parentPage (pages : List (VoxelKey × WPage)) (k : VoxelKey) : Res VoxelKey :=
  parentLoop pages (k.d.toNat + 2) k.getParent

/-- `ComputePageHierarchy`, `copc_writer_internal.cpp:149-166`: pairs (page, parent) for all pages but
the root. Simplification: `sub_pages` filled before an exception are dropped (a second `Close` would
insert the same ones again). -/
def computePageHierarchy (pages : List (VoxelKey × WPage)) : Res (List (VoxelKey × VoxelKey)) :=
  Res.mapL (fun k => (parentPage pages k).bind fun p => .ok (k, p))
    ((AList.keys pages).filter fun k => !decide (k = VoxelKey.root))

/-- `sub_pages` of a page after `ComputePageHierarchy`. -/
def subPages (hier : List (VoxelKey × VoxelKey)) (k : VoxelKey) : List VoxelKey :=
  (hier.filter fun q => decide (q.2 = k)).map (·.1)

/-- The order in which `WritePageTree`, `copc_writer_internal.cpp:169-183`, visits the pages: children
first. `fuel` bounds the depth of the recursion; the caller gives more than there can be. -/
def visit (ord : Order) (hier : List (VoxelKey × VoxelKey)) : Nat → VoxelKey → List VoxelKey
  | 0, _ => []
  | fuel + 1, k => (ord.subs k (subPages hier k)).flatMap (visit ord hier fuel) ++ [k]

/-- Decimal digits of an `int32_t` as characters. -/
def decimal (v : Int) : Bytes :=
  (if v < 0 then [45] else []) ++ (Nat.toDigits 10 v.natAbs).map fun c => UInt8.ofNat c.toNat

/-- `VoxelKey::ToString`, `key.cpp:7-12`: "(d, x, y, z)". -/
def keyString (k : VoxelKey) : Bytes :=
  [40] ++ decimal k.d ++ [44, 32] ++ decimal k.x ++ [44, 32] ++ decimal k.y ++ [44, 32] ++
    decimal k.z ++ [41]

/-- Bytes of the EVLR header of a page, `copc_writer_internal.cpp:124`. -/
def pageHeader (k : VoxelKey) (size : Nat) : Bytes :=
  VlrHeader.encodeE ⟨0, idCopc, 1000, UInt64.ofNat size, keyString k, true⟩

/-- State while pages are written: the writer and the offset and size of the pages written so far
(`page->offset`, `page->byte_size`). -/
structure PageW where
  w : Writer
  placed : List (VoxelKey × (Nat × Nat))

/-- Entry of a written page (`Page(key, offset, byte_size)`, `hierarchy/page.hpp:18`). A page not yet written has
offset and size -1. -/
def pageEntry (placed : List (VoxelKey × (Nat × Nat))) (k : VoxelKey) : Entry :=
  match AList.get k placed with
  | some (o, s) => ⟨k, o, s, -1⟩
  | none => ⟨k, 2 ^ 64 - 1, -1, -1⟩

/-- `WritePage`, `copc_writer_internal.cpp:119-147`. -/
def writePage (ord : Order) (hier : List (VoxelKey × VoxelKey)) (k : VoxelKey) : Act PageW Unit := do
  let ns ← Act.gets fun s => (AList.get k s.w.pages).getD []
  let subs := subPages hier k
  let size := ns.length * 32 + subs.length * 32
  let onOut := fun (f : OStream → OStream) => (Act.modify fun s : PageW =>
    { s with w := { s.w with base := { s.w.base with out := f s.w.base.out } } } : Act PageW Unit)
  onOut OStream.seekEnd
  onOut fun o => o.write (pageHeader k size)
  let off ← Act.gets fun s => s.w.base.out.tellp
  Act.throwIf (size > 2147483647) .pageTooLarge
  Act.modify fun s => { s with placed := AList.put k (off, size) s.placed }
  if k = VoxelKey.root then
    Act.modify fun s => { s with w := { s.w with cfg := { s.w.cfg with info := { s.w.cfg.info with
      rootHierOffset := UInt64.ofNat off
      rootHierSize := UInt64.ofNat size } } } }
  else pure ()
  onOut fun o => (ord.nodes k ns).foldl (fun o p => o.write p.2.entry.pack) o
  let placed ← Act.gets (·.placed)
  onOut fun o => (ord.subs k subs).foldl (fun o q => o.write (pageEntry placed q).pack) o

/-- More levels than the page tree has. -/
def levels (pages : List (VoxelKey × WPage)) : Nat :=
  (pages.map fun p => p.1.d.toNat).foldr max 0 + 1

/-- `ComputePageHierarchy()` and `WritePageTree(root)`, `copc_writer_internal.cpp:58-61`. -/
def writePages (ord : Order) : Act Writer Unit := fun w =>
  match computePageHierarchy w.pages with
  | .ok hier =>
    let r := Act.forEach (writePage ord hier) (visit ord hier (levels w.pages) VoxelKey.root) ⟨w, []⟩
    (r.1, r.2.w)
  | .throw e => (.throw e, w)
  | .ub => (.ub, w)

/-- `CopcExtent{min, max}` of the three header bounds, arguments of `ToLazPerf`,
`copc_writer_internal.cpp:82-84`. -/
def boundsExtents (h : LasHeader) : Res Unit :=
  (Extent.make2 h.min.x h.max.x).bind fun _ => (Extent.make2 h.min.y h.max.y).bind fun _ =>
    (Extent.make2 h.min.z h.max.z).bind fun _ => .ok ()

/-- `WriterInternal::WriteHeader`, `copc_writer_internal.cpp:71-107`. -/
def writeHeader (L : Lazperf) : Act Writer Unit := do
  let c ← Act.gets (·.cfg)
  let otpd ← Act.lift (offsetToPointData c)
  onBase (BaseW.writeLasHeader c.header otpd c.extents.extStats)
  let gps ← Act.lift c.extents.getGpsTime
  onBase (BaseW.emit (BaseW.vlrBytes idCopc 1 BaseW.descInfo (c.info.encode gps)))
  Act.lift (boundsExtents c.header)
  onBase (BaseW.emit (BaseW.vlrBytes idCopc 10000 BaseW.descExtents (Extents.putItems c.extents.toVlr)))
  if c.extents.extStats then
    onBase (BaseW.emit
      (BaseW.vlrBytes idRock 10001 BaseW.descStats (Extents.putItems c.extents.toVlrExtended)))
  else pure ()
  onBase (BaseW.writeLazAndEbVlrs L c.toLazConfig)
  onBase (BaseW.checkHeaderSize otpd)

/-- `WriterInternal::Close`, `copc_writer_internal.cpp:45-68`; `Writer::Close`,
`copc_writer_public.cpp:66-70`, and the destructors do the same. -/
def close (L : Lazperf) (ord : Order) : Act Writer Unit := do
  let o ← Act.gets fun w => w.base.open_
  if o = false then pure ()
  else do
    let c ← Act.gets (·.cfg)
    let otpd ← Act.lift (offsetToPointData c)
    onBase (BaseW.writeChunkTable L otpd)
    onBase (BaseW.onOut OStream.seekEnd)
    let n ← Act.gets fun w => w.pages.length
    onBase (Act.modify fun b => { b with
      evlrOffset := b.out.tellp
      evlrCount := (b.evlrCount + n) % 2 ^ 32 })
    writePages ord
    onBase (BaseW.writeWkt c.wkt)
    writeHeader L
    onBase (Act.modify fun b => { b with open_ := false })

end Writer
end Copc
