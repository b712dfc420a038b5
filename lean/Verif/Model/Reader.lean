import Verif.Model.ReaderHier
import Verif.Model.Lazperf
import Verif.Model.Points
/-!
# Model of `BaseReader` and `Reader`
(`cpp/src/io/base_reader.cpp`, `cpp/src/io/copc_reader.cpp`, `cpp/include/copc-lib/io/copc_reader.hpp`,
`cpp/include/copc-lib/laz/decompressor.hpp`)
-/
namespace Copc

namespace IStream

/-- `seekg(n, std::ios::cur)` with a `uint64_t` converted to `streamoff`: values from `2^63` are
negative; a negative position fails. -/
def skip64 (s : IStream) (n : UInt64) : IStream :=
  if n.toNat < 2 ^ 63 then s.seekg (s.pos + n.toNat)
  else if s.fail then s
  else if 2 ^ 64 ≤ s.pos + n.toNat then { s with pos := s.pos + n.toNat - 2 ^ 64 }
  else { s with fail := true }

/-- What lazperf's readers of fixed structures do (external): the bytes are read into a zero-filled
buffer of `n` bytes. -/
def readFilled (s : IStream) (n : Nat) : Bytes × IStream :=
  let (bs, s') := s.read n
  (padTo n bs, s')

end IStream

/-- `BaseReader`, `base_reader.hpp:26-31`: `in_stream_`, the header held by `reader_`, `vlrs_` (a
`std::map`, so ordered by position), `las_config_`. -/
structure BaseReader where
  str : IStream
  h14 : Header14
  vlrs : List (Nat × VlrHeader)
  las : LazConfig

namespace BaseReader

/-- `out.insert({cur_pos, h})`, `base_reader.cpp:46,59`: no effect if the position is there already. -/
def insertVlr (p : Nat) (h : VlrHeader) : List (Nat × VlrHeader) → List (Nat × VlrHeader)
  | [] => [(p, h)]
  | (q, g) :: l =>
    if p < q then (p, h) :: (q, g) :: l
    else if p = q then (q, g) :: l
    else (q, g) :: insertVlr p h l

/-- The first loop of `ReadVlrHeaders`, `base_reader.cpp:42-49`. -/
def vlrLoop : Nat → IStream → List (Nat × VlrHeader) → List (Nat × VlrHeader) × IStream
  | 0, s, out => (out, s)
  | n + 1, s, out =>
    let (bs, s') := s.readFilled 54
    let h := VlrHeader.decode bs
    vlrLoop n (s'.skip64 h.dataLength) (insertVlr s.tellg h out)

/-- The second loop of `ReadVlrHeaders`, `base_reader.cpp:55-62`. -/
def evlrLoop : Nat → IStream → List (Nat × VlrHeader) → List (Nat × VlrHeader) × IStream
  | 0, s, out => (out, s)
  | n + 1, s, out =>
    let (bs, s') := s.readFilled 60
    let h := VlrHeader.decodeE bs
    evlrLoop n (s'.skip64 h.dataLength) (insertVlr s.tellg h out)

/-- `ReadVlrHeaders`, `base_reader.cpp:34-65`. The loop counter is an `int`: from `2^31` extended VLRs
on it overflows. -/
def readVlrHeaders (h : Header14) (s : IStream) : Res (List (Nat × VlrHeader)) × IStream :=
  let (out, s) := vlrLoop h.vlrCount.toNat (s.seekg h.headerSize.toNat) []
  if 2 ^ 31 ≤ h.evlrCount.toNat then (.ub, s)
  else
    let (out, s) := evlrLoop h.evlrCount.toNat (s.seekg h.evlrOffset.toNat) out
    (.ok out, s)

/-- `FetchVlr`, `base_reader.cpp:88-97`; zero when there is none. -/
def fetchVlr (vlrs : List (Nat × VlrHeader)) (userId : Bytes) (recordId : UInt16) : Nat :=
  match vlrs.find? fun v => decide (v.2.userId = userId) && decide (v.2.recordId = recordId) with
  | some v => v.1
  | none => 0

/-- `static_cast<int>(vlrs[offset].data_length)`. -/
def lengthAt (vlrs : List (Nat × VlrHeader)) (offset : Nat) : Int :=
  signed 4 ((((AList.get offset vlrs).map (·.dataLength.toNat)).getD 0) % 256 ^ 4)

/-- A payload of `n` bytes read into a zero-filled buffer (external, `wkt_vlr::create`,
`eb_vlr::create`); a negative length makes `std::vector` throw. -/
def readPayload (s : IStream) (n : Int) : Res Bytes × IStream :=
  if n < 0 then (.throw .lazperf, s)
  else
    let (bs, s) := s.readFilled n.toNat
    (.ok bs, s)

/-- `ReadWktVlr`, `base_reader.cpp:66-75`: the payload is looked for 60 bytes after the position, also
when it is a VLR with a 54 byte header. -/
def readWkt (vlrs : List (Nat × VlrHeader)) (s : IStream) : Res Bytes × IStream :=
  let offset := fetchVlr vlrs idProj 2112
  if offset ≠ 0 then readPayload (s.seekg (offset + 60)) (lengthAt vlrs offset)
  else (.ok [], s)

/-- `ReadExtraBytesVlr`, `base_reader.cpp:77-86`: the payload is looked for 54 bytes after the
position. -/
def readEb (vlrs : List (Nat × VlrHeader)) (s : IStream) : Res (List EbField) × IStream :=
  let offset := fetchVlr vlrs idSpec 4
  if offset ≠ 0 then
    let n := lengthAt vlrs offset
    let (r, s) := readPayload (s.seekg (offset + 54)) n
    (r.bind fun bs => .ok (getEb n.toNat bs), s)
  else (.ok [], s)

/-- `lazperf::reader::generic_file` (external): reads the 375 byte header at the start of the stream.
Simplification: its other checks are not modelled; it leaves a good stream. -/
def readHeader (s : IStream) : Res Header14 :=
  if s.data.length < 375 then .throw .lazperf
  else .ok (stripFormat (Header14.decode (s.data.take 375)))

/-- `InitReader`, `base_reader.cpp:17-32`. -/
def init (s : IStream) : Res BaseReader :=
  if s.fail then .throw .badStream
  else (readHeader s).bind fun h14 =>
  (LasHeader.fromLazPerf h14).bind fun header =>
  let (vlrs, s) := readVlrHeaders h14 s
  vlrs.bind fun vlrs =>
  let (wkt, s) := readWkt vlrs s
  wkt.bind fun wkt =>
  let (eb, s) := readEb vlrs s
  eb.bind fun eb =>
  .ok ⟨s, h14, vlrs, ⟨header, wkt, eb⟩⟩

end BaseReader

/-- `Reader`, `copc_reader.hpp:74`: the base reader, `hierarchy_` and `config_`. The stream is kept
with the hierarchy. -/
structure Reader where
  h : HReader
  vlrs : List (Nat × VlrHeader)
  cfg : CopcConfig

namespace Reader

/-- `ReadCopcInfoVlr`, `copc_reader.cpp:31-42`. -/
def readInfo (vlrs : List (Nat × VlrHeader)) (s : IStream) : Res CopcInfo × IStream :=
  let offset := BaseReader.fetchVlr vlrs idCopc 1
  if offset = 0 then (.throw .missingVlr, s)
  else if offset ≠ 375 then (.throw .infoPosition, s)
  else
    let (bs, s) := (s.seekg (offset + 54)).readFilled 160
    (.ok (CopcInfo.decode bs), s)

/-- `CopcExtentsVlr::create` on the payload 54 bytes after the position, `copc_reader.cpp:50-51,58-60`
and `vlr.cpp:72-92`. Every `read` of a double past the end leaves the previous or an indeterminate
value (`ub`). -/
def readExtentItems (vlrs : List (Nat × VlrHeader)) (offset : Nat) (s : IStream) :
    Res (List (Dbl × Dbl)) × IStream :=
  let n := (BaseReader.lengthAt vlrs offset).toNat
  let (bs, s) := (s.seekg (offset + 54)).read (16 * (n / 16))
  (Extents.getItems n bs, s)

/-- `ReadCopcExtentsVlr`, `copc_reader.cpp:44-68`. -/
def readExtents (fmt : Int) (vlrs : List (Nat × VlrHeader)) (eb : List EbField) (s : IStream) :
    Res Extents × IStream :=
  let offset := BaseReader.fetchVlr vlrs idCopc 10000
  let ext := BaseReader.fetchVlr vlrs idRock 10001
  if offset ≠ 0 then
    let (items, s) := readExtentItems vlrs offset s
    match items.bind fun i => Extents.ofVlr i fmt (eb.length % 65536) (decide (ext ≠ 0)) with
    | .ok e =>
      if ext ≠ 0 then
        let (items, s) := readExtentItems vlrs ext s
        (items.bind fun i => e.setExtendedStats i, s)
      else (.ok e, s)
    | .throw x => (.throw x, s)
    | .ub => (.ub, s)
  else (Extents.make fmt 0 false, s)

/-- `InitCopcReader`, `copc_reader.cpp:17-29`. -/
def initCopc (b : BaseReader) : Res Reader :=
  if BaseReader.fetchVlr b.vlrs idCopc 1 = 0 ∨ BaseReader.fetchVlr b.vlrs idCopc 1000 = 0 then
    .throw .missingVlr
  else
  let (info, s) := readInfo b.vlrs b.str
  info.bind fun info =>
  let (ex, s) := readExtents b.las.header.fmt b.vlrs b.las.eb s
  ex.bind fun ex =>
  (CopcConfig.ofParts b.las.header info ex b.las.wkt b.las.eb).bind fun cfg =>
  .ok ⟨⟨s, RHier.make info.rootHierOffset info.rootHierSize⟩, b.vlrs, cfg⟩

/-- `Reader(std::istream *)`, `copc_reader.hpp:26` and `base_reader.hpp:21`. -/
def init (s : IStream) : Res Reader := (BaseReader.init s).bind initCopc

/-- `Decompressor::DecompressBytes(stream, fmt, eb, point_count)`, `decompressor.hpp:22-40`. lazperf puts
`lazBase fmt + eb` bytes per record into a buffer of 255: a longer record overruns it (`ub`, here before the
first record). `PointByteSize` bytes of it are copied; without an overrun that is the whole record. On success
the stream is cleared; when lazperf throws (end of data) the stream is left failed. Simplification: the
position where the stream ends up is not modelled, every later access seeks first; `build_las_decompressor`
accepts the formats 6 to 8. -/
def decompressStream (L : Lazperf) (fmt : Int) (eb : Nat) (n : Int) : Act IStream Bytes := fun s =>
  match pointByteSize fmt eb with
  | .ok size =>
    if n ≤ 0 then (.ok [], { s with fail := false })
    else if 255 < lazBase fmt + eb then (.ub, s)
    else match L.decompress fmt eb n.toNat (if s.fail then [] else s.data.drop s.pos) with
      | some recs => (.ok (recs.map (·.take size)).flatten, { s with fail := false })
      | none => (.throw .lazperf, { s with fail := true })
  | .throw e => (.throw e, s)
  | .ub => (.ub, s)

/-- `Decompressor::DecompressBytes(stream, header, point_count)`, `decompressor.hpp:42-46`. -/
def decompressBytes (L : Lazperf) (hd : LasHeader) (n : Int) : Act IStream Bytes := fun s =>
  match hd.ebSize with
  | .ok eb => decompressStream L hd.fmt eb n s
  | .throw e => (.throw e, s)
  | .ub => (.ub, s)

/-- `Decompressor::DecompressBytes(compressed_data, fmt, eb, point_count)`, `decompressor.hpp:48-53`. -/
def decompressVector (L : Lazperf) (bs : Bytes) (fmt : Int) (eb : Nat) (n : Int) : Res Bytes :=
  (decompressStream L fmt eb n ⟨bs, 0, false⟩).1

/-- A function that only uses the stream. -/
def onStream {α : Type} (x : Act IStream α) : Act Reader α :=
  Act.zoom (fun r => r.h.str) (fun s r => { r with h := { r.h with str := s } }) x

/-- A function of the hierarchy part. -/
def onHier {α : Type} (x : Run HReader α) : Run Reader α :=
  Run.zoom (fun r => r.h) (fun h r => { r with h := h }) x

/-- `GetPointData(Node)`, `copc_reader.cpp:110-120`. -/
def getPointData (L : Lazperf) (node : Node) : Act Reader Bytes := do
  Act.throwIf (node.isValid = false) .invalidNode
  onStream (Act.modify fun s => s.seekg node.entry.offset)
  let hd ← Act.gets fun r => r.cfg.header
  onStream (decompressBytes L hd node.entry.pointCount)

/-- `GetPointDataCompressed(Node)`, `copc_reader.cpp:135-146`: a short read leaves zeros and sets the
stream's failure. -/
def getPointDataCompressed (node : Node) : Act Reader Bytes := do
  Act.throwIf (node.isValid = false) .invalidNode
  onStream (Act.modify fun s => s.seekg node.entry.offset)
  onStream fun s => (.ok (s.readFilled node.entry.byteSize.toNat).1, (s.readFilled node.entry.byteSize.toNat).2)

/-- `Points::Unpack(data, header)`, `points.cpp:70-73`: the points. -/
def unpackWith (hd : LasHeader) (data : Bytes) : Res (List Point) :=
  hd.ebSize.bind fun eb => unpackPoints data hd.fmt eb hd.scale hd.offset

/-- `GetPoints(Node)`, `copc_reader.cpp:94-98`. -/
def getPoints (L : Lazperf) (node : Node) : Act Reader (List Point) := do
  let data ← getPointData L node
  let hd ← Act.gets fun r => r.cfg.header
  Act.lift (unpackWith hd data)

/-- `FindNode`. -/
def findNode (fuel : Nat) (key : VoxelKey) : Run Reader Node := onHier (HReader.findNode fuel key)

/-- `GetPointData(VoxelKey)`, `copc_reader.cpp:122-133`. -/
def getPointDataAt (L : Lazperf) (fuel : Nat) (key : VoxelKey) : Run Reader Bytes :=
  if key.isValid = false then pure []
  else findNode fuel key >>= fun node =>
    if node.isValid = false then pure [] else Run.ofAct (getPointData L node)

/-- `GetPointDataCompressed(VoxelKey)`, `copc_reader.cpp:148-159`. -/
def getPointDataCompressedAt (fuel : Nat) (key : VoxelKey) : Run Reader Bytes :=
  if key.isValid = false then pure []
  else findNode fuel key >>= fun node =>
    if node.isValid = false then pure [] else Run.ofAct (getPointDataCompressed node)

/-- `GetPoints(VoxelKey)`, `copc_reader.cpp:100-108`. An empty collection for empty data (`Points(header)`
checks the format). -/
def getPointsAt (L : Lazperf) (fuel : Nat) (key : VoxelKey) : Run Reader (List Point) :=
  getPointDataAt L fuel key >>= fun data =>
  Run.gets (fun r => r.cfg.header) >>= fun hd =>
  if data = [] then Run.lift (hd.ebSize.bind fun eb => (Coll.make hd.fmt eb).bind fun _ => .ok [])
  else Run.lift (unpackWith hd data)

/-- `GetAllChildrenOfPage`, `copc_reader.cpp:161-180`. -/
def getAllChildrenOfPage (ord : ROrder) (fuel : Nat) (key : VoxelKey) : Run Reader (List Node) :=
  onHier (HReader.getAllChildrenOfPage ord fuel key)

/-- `GetAllNodes`, `copc_reader.hpp:44`. -/
def getAllNodes (ord : ROrder) (fuel : Nat) : Run Reader (List Node) :=
  onHier (HReader.getAllNodes ord fuel)

/-- `GetPageList`, `copc_reader.cpp:182-195`. -/
def getPageList (ord : ROrder) (fuel : Nat) : Run Reader (List VoxelKey) :=
  onHier (HReader.getPageList ord fuel)

/-- The maximum of `copc_reader.cpp:270-277`. -/
def maxDepth (nodes : List Node) : Int :=
  nodes.foldl (fun m n => if n.key.d > m then n.key.d else m) (-1)

/-- The loop of `copc_reader.cpp:285-290`: depths `i`, ..., with `n` steps left. -/
def depthLoop (resolution : Dbl) : Nat → Int → Dbl → Option Int
  | 0, _, _ => none
  | n + 1, i, cur =>
    if Flt.le' cur resolution then some i else depthLoop resolution n (i + 1) (Flt.div cur (Flt.ofInt 2))

/-- The value that `GetDepthAtResolution` computes from the nodes, `copc_reader.cpp:270-291`. -/
def depthAt (nodes : List Node) (spacing resolution : Dbl) : Int :=
  let m := maxDepth nodes
  if Flt.le' resolution Flt.zero then m
  else (depthLoop resolution (m + 1).toNat 0 spacing).getD m

/-- `GetDepthAtResolution`, `copc_reader.cpp:268-292`. -/
def getDepthAtResolution (ord : ROrder) (fuel : Nat) (resolution : Dbl) : Run Reader Int :=
  getAllNodes ord fuel >>= fun nodes =>
  Run.gets fun r => depthAt nodes r.cfg.info.spacing resolution

/-- `GetMaxDepth`, `copc_reader.cpp:294`. -/
def getMaxDepth (ord : ROrder) (fuel : Nat) : Run Reader Int :=
  getDepthAtResolution ord fuel (Flt.ofInt (-1))

/-- The node queries: the depth for the resolution, then a filter over all nodes. -/
def filterNodes (ord : ROrder) (fuel : Nat) (resolution : Dbl) (keep : LasHeader → Int → Node → Bool) :
    Run Reader (List Node) :=
  getDepthAtResolution ord fuel resolution >>= fun depth =>
  getAllNodes ord fuel >>= fun nodes =>
  Run.gets fun r => nodes.filter (keep r.cfg.header depth)

/-- `GetNodesAtResolution`, `copc_reader.cpp:296-309`. -/
def getNodesAtResolution (ord : ROrder) (fuel : Nat) (resolution : Dbl) : Run Reader (List Node) :=
  filterNodes ord fuel resolution fun _ depth n => decide (n.key.d = depth)

/-- `GetNodesWithinResolution`, `copc_reader.cpp:311-324`. -/
def getNodesWithinResolution (ord : ROrder) (fuel : Nat) (resolution : Dbl) : Run Reader (List Node) :=
  filterNodes ord fuel resolution fun _ depth n => decide (n.key.d ≤ depth)

/-- `GetNodesWithinBox`, `copc_reader.cpp:210-223`. -/
def getNodesWithinBox (ord : ROrder) (fuel : Nat) (box : Box Dbl) (resolution : Dbl) : Run Reader (List Node) :=
  filterNodes ord fuel resolution fun h depth n =>
    n.key.within h.min h.max box && decide (n.key.d ≤ depth)

/-- `GetNodesIntersectBox`, `copc_reader.cpp:225-239`. -/
def getNodesIntersectBox (ord : ROrder) (fuel : Nat) (box : Box Dbl) (resolution : Dbl) :
    Run Reader (List Node) :=
  filterNodes ord fuel resolution fun h depth n =>
    n.key.intersects h.min h.max box && decide (n.key.d ≤ depth)

/-- `GetAllPoints`, `copc_reader.cpp:197-208`. `AddPoints` compares the format and record length of two
collections made from the same header, `points.cpp:50-57`: it cannot throw. -/
def getAllPoints (L : Lazperf) (ord : ROrder) (fuel : Nat) (resolution : Dbl) : Run Reader (List Point) :=
  getDepthAtResolution ord fuel resolution >>= fun depth =>
  getAllNodes ord fuel >>= fun nodes =>
  Run.collect (fun n => if n.key.d ≤ depth then Run.ofAct (getPoints L n) else pure []) nodes

/-- One node in `GetPointsWithinBox`, `copc_reader.cpp:249-263`. -/
def boxPoints (L : Lazperf) (box : Box Dbl) (depth : Int) (n : Node) : Run Reader (List Point) :=
  Run.gets (fun r => r.cfg.header) >>= fun h =>
  if n.key.d ≤ depth then
    if n.key.within h.min h.max box then Run.ofAct (getPoints L n)
    else if n.key.intersects h.min h.max box then
      Run.ofAct (getPoints L n) >>= fun ps => pure (ps.filter fun p => p.within box)
    else pure []
  else pure []

/-- `GetPointsWithinBox`, `copc_reader.cpp:241-266`. -/
def getPointsWithinBox (L : Lazperf) (ord : ROrder) (fuel : Nat) (box : Box Dbl) (resolution : Dbl) :
    Run Reader (List Point) :=
  getDepthAtResolution ord fuel resolution >>= fun depth =>
  getAllNodes ord fuel >>= fun nodes =>
  Run.collect (boxPoints L box depth) nodes

/-- One node of `ValidateSpatialBounds(false)`, `copc_reader.cpp:351-395`: whether it passes.
`Bounds()` throws when the header's corners are in the wrong order. -/
def nodeValid (L : Lazperf) (n : Node) : Act Reader Bool := do
  let h ← Act.gets fun r => r.cfg.header
  let bounds ← Act.lift h.bounds
  if (Box.ofNode n.key h.min h.max).intersects bounds = false then pure false
  else do
    let points ← getPoints L n
    pure (((Box.ofNode n.key h.min h.max).within bounds || points.all fun p => p.within bounds) &&
      points.all fun p => p.within (Box.ofNode n.key h.min h.max))

/-- The loop of `ValidateSpatialBounds(false)`: it ends at the first node that fails. -/
def validateLoop (L : Lazperf) : List Node → Act Reader Bool
  | [] => pure true
  | n :: l => nodeValid L n >>= fun b => if b then validateLoop L l else pure false

/-- One node of `ValidateSpatialBounds(true)`, `copc_reader.cpp:351-395`, with the running verdict and the
two counters of type `int`. The increments by one (lines 380, 391) are added up: the counter overflows on the
way exactly when the sum does. Simplification: the printed text is not modelled. -/
def verboseNode (L : Lazperf) (n : Node) (t : Bool × Int × Int) : Act Reader (Bool × Int × Int) := do
  let h ← Act.gets fun r => r.cfg.header
  let bounds ← Act.lift h.bounds
  if (Box.ofNode n.key h.min h.max).intersects bounds = false then do
    let a ← Act.lift (chk32 (t.2.1 + n.entry.pointCount))
    pure (false, a, t.2.2)
  else do
    let points ← getPoints L n
    let out := if (Box.ofNode n.key h.min h.max).within bounds then []
      else points.filter fun p => !p.within bounds
    let outNode := points.filter fun p => !p.within (Box.ofNode n.key h.min h.max)
    let a ← Act.lift (chk32 (t.2.1 + out.length))
    let b ← Act.lift (chk32 (t.2.2 + outNode.length))
    pure (t.1 && out.isEmpty && outNode.isEmpty, a, b)

/-- The loop of `ValidateSpatialBounds(true)`: it goes through all nodes. -/
def verboseLoop (L : Lazperf) : List Node → Bool × Int × Int → Act Reader (Bool × Int × Int)
  | [], t => pure t
  | n :: l, t => verboseNode L n t >>= fun t => verboseLoop L l t

/-- `ValidateSpatialBounds(verbose)`, `copc_reader.cpp:326-409`. -/
def validateSpatialBounds (L : Lazperf) (ord : ROrder) (fuel : Nat) (verbose : Bool) : Run Reader Bool :=
  getAllNodes ord fuel >>= fun nodes =>
  if verbose then Run.ofAct (verboseLoop L nodes (true, 0, 0)) >>= fun t => pure t.1
  else Run.ofAct (validateLoop L nodes)

end Reader
end Copc
