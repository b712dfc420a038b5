import Verif.Model.LazReader
/-!
# Model of repeated calls of a `LazReader`

`GetPointData` seeks the stream to the points but goes on with the same lazperf reader (`base_reader.hpp`, `reader_`),
whose place in the chunk table no call of copc-lib resets (`laz_reader.cpp:9`, `16`).
-/
namespace Copc.LazReader

/-- The call number `k` (from 0) of `GetPointData`, `laz_reader.cpp:5-21`, on a reader: the records that lazperf's
`readPoint` gives after those of the earlier calls. Simplification: lazperf buffers the stream, so that the seek of a
later call has an effect only when the buffer ends; the model has no effect of the seek. For the statements made
(whether a call goes past the chunk table) the bytes do not matter. -/
def getPointDataNth (L : Lazperf) (r : LazReader) (k : Nat) : Res Bytes :=
  let hd := r.base.las.header
  hd.ebSize.bind fun eb =>
  (pointByteSize hd.fmt eb).bind fun size =>
  let s := r.base.str.seekg (hd.pointOffset.toNat + 8)
  let n := hd.pointCount.toNat
  if n ≠ 0 ∧ 255 < lazBase hd.fmt + eb then .ub
  else (readRecords L hd.fmt eb r.chunks ((k + 1) * n) (if s.fail then [] else s.data.drop s.pos)).bind fun recs =>
    .ok ((recs.drop (k * n)).map (·.take size)).flatten

/-- `GetPoints`, `laz_reader.cpp:23-31`, as call number `k`. -/
def getPointsNth (L : Lazperf) (r : LazReader) (k : Nat) : Res (List Point) :=
  let hd := r.base.las.header
  (getPointDataNth L r k).bind fun data =>
  if data = [] then hd.ebSize.bind fun eb => (Coll.make hd.fmt eb).bind fun _ => .ok []
  else Reader.unpackWith hd data

end Copc.LazReader
