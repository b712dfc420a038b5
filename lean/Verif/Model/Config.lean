import Verif.Model.Vlr
/-!
# Model of `LazConfig`, `CopcConfig` and their writer variants
(`cpp/src/las/laz_config.cpp`, `cpp/include/copc-lib/las/laz_config.hpp`,
`cpp/src/copc/copc_config.cpp`, `cpp/include/copc-lib/copc/copc_config.hpp`)
-/
namespace Copc

/-- `LazConfig`, `laz_config.hpp:44-46`. -/
structure LazConfig where
  header : LasHeader
  wkt : Bytes
  eb : List EbField
  deriving DecidableEq

/-- `CopcConfig`, `copc_config.hpp:41-42`. -/
structure CopcConfig extends LazConfig where
  info : CopcInfo
  extents : Extents
  deriving DecidableEq

/-- The record length computed from the items, converted to `uint16_t`
(`laz_config.cpp:17`, `copc_writer_public.cpp:45-46`). -/
def recordLength (fmt : Int) (eb : List EbField) : Res UInt16 :=
  (pointBaseByteSize fmt).bind fun b => (numBytesFromExtraBytes eb).bind fun n =>
    .ok (UInt16.ofNat (b + n))

/-- `LazConfig(fmt, scale, offset, wkt, eb, copc_flag)`, `laz_config.cpp:10-20`; also
`LazConfigWriter(...)`, `laz_config.cpp:38-44`, with `copc = false`. -/
def LazConfig.make (fmt : Int) (scale offset : Vec3 Dbl) (wkt : Bytes) (eb : List EbField)
    (copc : Bool) : Res LazConfig :=
  if fmt < 6 ∨ fmt > 8 then .throw .badFormat
  else (recordLength fmt eb).bind fun l => .ok ⟨LasHeader.make fmt l scale offset copc, wkt, eb⟩

/-- `LazConfigWriter(const LazConfig &)`, `laz_config.hpp:56-59`. -/
def LazConfig.forWriter (c : LazConfig) : LazConfig := { c with header := c.header.withCopc false }

/-- `LazConfig(const CopcConfig &)`, `laz_config.cpp:22-28`, and binding a `CopcConfig` as the `LazConfig` it
extends (`copc_config.hpp:17`): the parts both have. -/
def LazConfig.ofCopc (c : CopcConfig) : LazConfig := ⟨c.header, c.wkt, c.eb⟩

/-- `CopcConfigWriter(fmt, scale, offset, wkt, eb, ext)`, `copc_config.cpp:7-22`. -/
def CopcConfig.make (fmt : Int) (scale offset : Vec3 Dbl) (wkt : Bytes) (eb : List EbField)
    (ext : Bool) : Res CopcConfig :=
  (LazConfig.make fmt scale offset wkt eb true).bind fun l =>
  (Extents.make fmt (eb.length % 65536) ext).bind fun e =>
  .ok { l with
    info := CopcInfo.default
    extents := e }

/-- `CopcConfig(header, info, extents, wkt, eb)`, `copc_config.hpp:22-26`; the copy constructors
`copc_config.hpp:53-71` are this with the parts of the source. The extents are copied by their
checking copy constructor. Simplification: the two or three successive copies that passing the extents
by value makes are one check. -/
def CopcConfig.ofParts (h : LasHeader) (info : CopcInfo) (ex : Extents) (wkt : Bytes)
    (eb : List EbField) : Res CopcConfig :=
  ex.copy.bind fun e => .ok { header := h.withCopc true, wkt := wkt, eb := eb, info := info, extents := e }

/-- Copy of a configuration. -/
def CopcConfig.copy (c : CopcConfig) : Res CopcConfig :=
  CopcConfig.ofParts c.header c.info c.extents c.wkt c.eb

end Copc
