import Verif.Model.Writer
import Verif.Spec.HeaderArea
/-! # What a writer made with overrides should hold -/
namespace Copc.Spec
open Copc

/-- `r` is `c` with the given overrides: the overridden parameters are the given ones, all others those of `c`;
the record length fits the format and the extra-byte items; the extents of the dimensions of both formats and,
if the number of items is the same, those of the items, are kept, and new ones have the default. -/
structure Overridden (c r : CopcConfig) (o : Writer.Overrides) : Prop where
  fmt : r.header.fmt = o.fmt.getD c.header.fmt
  scale : r.header.scale = o.scale.getD c.header.scale
  offset : r.header.offset = o.offset.getD c.header.offset
  wkt : r.wkt = o.wkt.getD c.wkt
  eb : r.eb = o.eb.getD c.eb
  extStats : r.extents.extStats = o.ext.getD c.extents.extStats
  recLen : r.header.recLen.toNat = (lasBaseSize r.header.fmt + (r.eb.map lasItemSize).sum) % 65536
  copcFlag : r.header.copcFlag = true
  fileSourceId : r.header.fileSourceId = c.header.fileSourceId
  globalEncoding : r.header.globalEncoding = c.header.globalEncoding
  creationDay : r.header.creationDay = c.header.creationDay
  creationYear : r.header.creationYear = c.header.creationYear
  max : r.header.max = c.header.max
  min : r.header.min = c.header.min
  pointsByReturn : r.header.pointsByReturn = c.header.pointsByReturn
  pointCount : r.header.pointCount = c.header.pointCount
  pointOffset : r.header.pointOffset = c.header.pointOffset
  vlrCount : r.header.vlrCount = c.header.vlrCount
  evlrOffset : r.header.evlrOffset = c.header.evlrOffset
  evlrCount : r.header.evlrCount = c.header.evlrCount
  guid : r.header.guid = c.header.guid
  systemIdentifier : r.header.systemIdentifier = c.header.systemIdentifier
  generatingSoftware : r.header.generatingSoftware = c.header.generatingSoftware
  info : r.info = c.info
  extFmt : r.extents.fmt = r.header.fmt
  extNumber : r.extents.extents.length = baseDims r.header.fmt + r.eb.length
  kept : ∀ d : Dim, d.inFormat r.header.fmt → d.inFormat c.header.fmt → d.get r.extents = d.get c.extents
  fresh : ∀ d : Dim, d.inFormat r.header.fmt → ¬ d.inFormat c.header.fmt → d.get r.extents = .ok Extent.default
  keptItems : r.eb.length = c.eb.length → r.extents.getExtraBytes = c.extents.getExtraBytes
  freshItems : r.eb.length ≠ c.eb.length →
    r.extents.getExtraBytes = .ok (List.replicate r.eb.length Extent.default)
  extentsFrom : ∀ x ∈ r.extents.extents, x = Extent.default ∨ x ∈ c.extents.extents

end Copc.Spec
