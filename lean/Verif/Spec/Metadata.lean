import Verif.Spec.HeaderArea
import Verif.Spec.Header
/-! # Configurations that a file can hold, and what should come back -/
namespace Copc.Spec
open Copc

/-- An extra-byte descriptor whose fields have the sizes of the LAS record. -/
structure EbOk (f : EbField) : Prop where
  reserved : f.reserved.length = 2
  unused : f.unused.length = 4
  name : NoNul f.name ∧ f.name.length ≤ 32
  description : NoNul f.description ∧ f.description.length ≤ 32

/-- A consistent configuration all of whose parts fit their place in the file. -/
structure Storable (c : CopcConfig) : Prop extends Consistent c where
  header : GoodHeader c.header
  extentsFmt : c.extents.fmt = c.header.fmt
  ordered : ∀ x ∈ c.extents.extents, Ordered x ∧ VarOk x
  few : c.eb.length ≤ 341
  descriptors : ∀ f ∈ c.eb, EbOk f
  wktLen : c.wkt.length < 2 ^ 31

/-- `r` has the attributes of `c` that do not depend on what was added: all of the LAS header but the
counts and places filled in at the end (and with the WKT bit set), the COPC info but the place of the
root page, the WKT string, the extra-byte descriptors, and the extents: minimum and maximum, and also
mean and variance if `c` stores them. -/
structure SameMetadata (c r : CopcConfig) : Prop where
  fileSourceId : r.header.fileSourceId = c.header.fileSourceId
  globalEncoding : r.header.globalEncoding = c.header.globalEncoding ||| 16
  creationDay : r.header.creationDay = c.header.creationDay
  creationYear : r.header.creationYear = c.header.creationYear
  max : r.header.max = c.header.max
  min : r.header.min = c.header.min
  pointsByReturn : r.header.pointsByReturn = c.header.pointsByReturn
  scale : r.header.scale = c.header.scale
  offset : r.header.offset = c.header.offset
  fmt : r.header.fmt = c.header.fmt
  recLen : r.header.recLen = c.header.recLen
  guid : r.header.guid = c.header.guid
  systemIdentifier : r.header.systemIdentifier = c.header.systemIdentifier
  generatingSoftware : r.header.generatingSoftware = c.header.generatingSoftware
  center : r.info.centerX = c.info.centerX ∧ r.info.centerY = c.info.centerY ∧ r.info.centerZ = c.info.centerZ
  halfsize : r.info.halfsize = c.info.halfsize
  spacing : r.info.spacing = c.info.spacing
  wkt : r.wkt = c.wkt
  eb : r.eb = c.eb
  extFmt : r.extents.fmt = c.extents.fmt
  extStats : r.extents.extStats = c.extents.extStats
  minmax : r.extents.extents.map (fun x => (x.minimum, x.maximum)) =
    c.extents.extents.map (fun x => (x.minimum, x.maximum))
  stats : c.extents.extStats = true → r.extents.extents = c.extents.extents

end Copc.Spec
