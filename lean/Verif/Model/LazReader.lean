import Verif.Model.Reader
/-!
# Model of `LazReader` (`cpp/src/io/laz_reader.cpp`, `cpp/include/copc-lib/io/laz_reader.hpp`)

`GetPointData` reads point after point through lazperf's file reader, which decompresses chunk after chunk
(external). The model covers the first call on a newly opened reader: on later calls lazperf continues where
it was, whatever position copc-lib seeks to.
-/
namespace Copc

/-- `LazReader`, `laz_reader.hpp:9-21`: the base reader, and the point counts of lazperf's chunk table. -/
structure LazReader where
  base : BaseReader
  chunks : List Nat

namespace LazReader

/-- The chunk size in the LASzip VLR, which lazperf reads when it opens the file (external); a file without one is refused.
Simplification: its other values are not looked at. -/
def chunkSize (vlrs : List (Nat × VlrHeader)) (data : Bytes) : Res Nat :=
  let o := BaseReader.fetchVlr vlrs idLaz 22204
  if o = 0 then .throw .lazperf else .ok (getN 4 (data.drop (o + 54 + 12)))

/-- lazperf's `parseChunkTable` (external): the offset of the table is at the offset to point data; version,
number of chunks, compressed counts and sizes (the sizes only if the chunk size is fixed: then the count of each chunk is the
chunk size). Reading beyond the end of the file and an unknown version throw.
Simplification: the offset -1 (table offset at the end of the file) is not supported. -/
def chunkTable (L : Lazperf) (size : Nat) (h14 : Header14) (data : Bytes) : Res (List Nat) :=
  let at0 := data.drop h14.pointOffset.toNat
  if at0.length < 8 then .throw .lazperf
  else
    let table := data.drop (getN 8 at0)
    if table.length < 8 then .throw .lazperf
    else if getN 4 table ≠ 0 then .throw .lazperf
    else if size = 4294967295 then .ok ((L.readTable (getN 4 (table.drop 4)) (table.drop 8)).map (·.1))
    else .ok (List.replicate (getN 4 (table.drop 4)) size)

/-- `LazReader(std::istream *)`, `laz_reader.hpp:12` and `InitReader`, `base_reader.cpp:17-32`. Simplification:
lazperf parses the chunk table when it opens the file, before the other steps of `InitReader`; here after
them, so that of two failures another one may be reported. -/
def init (L : Lazperf) (s : IStream) : Res LazReader :=
  (BaseReader.init s).bind fun b => (chunkSize b.vlrs s.data).bind fun c => (chunkTable L c b.h14 s.data).bind fun t => .ok ⟨b, t⟩

/-- `n` calls of lazperf's `readPoint` (external): when there is no decompressor or the points of the chunk
are used up, a new decompressor is made for the next chunk. A chunk with a count of 0 is never used up. Going past
the last chunk is undefined. -/
def readRecords (L : Lazperf) (fmt : Int) (eb : Nat) : List Nat → Nat → Bytes → Res (List Bytes)
  | _, 0, _ => .ok []
  | [], _ + 1, _ => .ub
  | c :: cs, n + 1, ahead =>
    let k := if c = 0 then n + 1 else min c (n + 1)
    match L.decompress fmt eb k ahead with
    | none => .throw .lazperf
    | some recs => (readRecords L fmt eb cs (n + 1 - k) (ahead.drop (L.consumed fmt eb k ahead))).bind fun l =>
      .ok (recs ++ l)

/-- `GetPointData`, `laz_reader.cpp:5-21`, first call: the points are read from 8 bytes after the offset to
point data; each goes through a buffer of 255 bytes (a longer record overruns it), of which `PointByteSize`
bytes are copied. -/
def getPointData (L : Lazperf) (r : LazReader) : Res Bytes :=
  let hd := r.base.las.header
  hd.ebSize.bind fun eb =>
  (pointByteSize hd.fmt eb).bind fun size =>
  let s := r.base.str.seekg (hd.pointOffset.toNat + 8)
  if hd.pointCount.toNat ≠ 0 ∧ 255 < lazBase hd.fmt + eb then .ub
  else (readRecords L hd.fmt eb r.chunks hd.pointCount.toNat (if s.fail then [] else s.data.drop s.pos)).bind fun recs =>
    .ok (recs.map (·.take size)).flatten

/-- `GetPoints`, `laz_reader.cpp:23-31`, first call: an empty collection for empty data (`Points(header)` checks
the format). -/
def getPoints (L : Lazperf) (r : LazReader) : Res (List Point) :=
  let hd := r.base.las.header
  (getPointData L r).bind fun data =>
  if data = [] then hd.ebSize.bind fun eb => (Coll.make hd.fmt eb).bind fun _ => .ok []
  else Reader.unpackWith hd data

end LazReader
end Copc
