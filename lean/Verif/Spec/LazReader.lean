import Verif.Spec.LazWriter
import Verif.Spec.Metadata
/-!
# What a reader should find in a LAZ file
-/
namespace Copc

/-- The records a call gives to the file, when the header is `hd`: the packed points, or the records of which
the data is the LAZ compression, their number being announced correctly. At least one record and less than 2^32. -/
def LazOp.Gives (L : Lazperf) (hd : LasHeader) (op : LazOp) (recs : List Bytes) : Prop :=
  recs ≠ [] ∧ recs.length < 2 ^ 32 ∧ (∀ r ∈ recs, r.length = hd.recLen.toNat) ∧
  match op with
  | .points _ _ ps => packPoints ps hd.scale hd.offset = .ok recs.flatten
  | .compressed data c => (c = recs.length) ∧ ∃ eb, hd.ebSize = .ok eb ∧ data = L.compress hd.fmt eb recs
  | .close => False

/-- All points given to a history of calls, in order. -/
def givenPoints (h : List (LazOp × Res Unit)) : List Point :=
  (chunkCalls h).flatMap fun op => match op with
    | .points _ _ ps => ps
    | _ => []

end Copc

namespace Copc.Spec
open Copc

/-- A consistent LAZ configuration all of whose parts fit their place in the file. -/
structure LazStorable (c : LazConfig) : Prop extends LazConsistent c where
  header : GoodHeader c.header
  few : c.eb.length ≤ 341
  descriptors : ∀ f ∈ c.eb, EbOk f
  wktLen : c.wkt.length < 2 ^ 31

/-- `r` has the attributes of `c` that do not depend on what was written: all of the LAS header but the
counts and places filled in at the end (and with the WKT bit set), the WKT string and the extra-byte
descriptors. -/
structure SameLazMetadata (c r : LazConfig) : Prop where
  fileSourceId : r.header.fileSourceId = c.header.fileSourceId
  globalEncoding : r.header.globalEncoding = c.header.globalEncoding ||| 16
  creationDay : r.header.creationDay = c.header.creationDay
  creationYear : r.header.creationYear = c.header.creationYear
  max : r.header.max = c.header.max
  min : r.header.min = c.header.min
  pointsByReturn : r.header.pointsByReturn = c.header.pointsByReturn
  scale : r.header.scale = c.header.scale
  offset : r.header.offset = c.header.offset
  fmt : r.header.fmt = c.header.fmt
  recLen : r.header.recLen = c.header.recLen
  guid : r.header.guid = c.header.guid
  systemIdentifier : r.header.systemIdentifier = c.header.systemIdentifier
  generatingSoftware : r.header.generatingSoftware = c.header.generatingSoftware
  wkt : r.wkt = c.wkt
  eb : r.eb = c.eb

end Copc.Spec

namespace Copc

/-- The file `data` is what a LAZ writer starting as `w0` wrote by the history `h`, ending as `w`, and a `Close`
that returned; no call failed for the size of its chunk, and everything fits its field. -/
structure LazWritten (L : Lazperf) (w0 w : LazWriter) (h : List (LazOp × Res Unit)) (data : Bytes) : Prop where
  made : ∃ c, LazWriter.make OStream.fresh c = .ok w0
  history : LazHistory L w0 h w
  unclosed : LazUnclosed h
  noneTooLarge : LazNoneTooLarge h
  closed : ∃ w', LazWriter.close L w = (.ok (), w') ∧ w'.base.out.data = data
  storable : Spec.LazStorable w.cfg
  size : data.length < 2 ^ 63

end Copc
