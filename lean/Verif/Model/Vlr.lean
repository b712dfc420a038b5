import Verif.Model.Extents
/-!
# Model of VLR headers, extra-byte descriptors, COPC info
(`cpp/include/copc-lib/las/vlr.hpp`, `cpp/src/las/vlr.cpp`, `cpp/src/copc/info.cpp`)

The byte layouts are those of lazperf's `vlr_header`, `evlr_header`, `eb_vlr`, `copc_info_vlr`
(external): LAS 1.4 R15 and COPC 1.0.
-/
namespace Copc

/-- `VlrHeader` (`vlr.hpp:22-34`), a `lazperf::evlr_header` with a flag. Strings are without trailing
NULs. -/
structure VlrHeader where
  reserved : UInt16
  userId : Bytes
  recordId : UInt16
  dataLength : UInt64
  description : Bytes
  evlr : Bool
  deriving DecidableEq

namespace VlrHeader

/-- `lazperf::vlr_header::write` (external): 54 bytes; the data length is a `uint16_t`. -/
def encode (h : VlrHeader) : Bytes :=
  putU16 h.reserved ++ (padTo 16 h.userId ++ (putU16 h.recordId ++
    (putU16 (UInt16.ofNat h.dataLength.toNat) ++ padTo 32 h.description)))

/-- `lazperf::evlr_header::write` (external): 60 bytes. -/
def encodeE (h : VlrHeader) : Bytes :=
  putU16 h.reserved ++ (padTo 16 h.userId ++ (putU16 h.recordId ++
    (putU64 h.dataLength ++ padTo 32 h.description)))

/-- `lazperf::vlr_header::create` on its (zero filled) 54 bytes, then `VlrHeader(vlr_header)`,
`vlr.cpp:23-30`. -/
def decode (bs : Bytes) : VlrHeader :=
  let (reserved, bs) := getU16 bs
  let (userId, bs) := getRaw 16 bs
  let (recordId, bs) := getU16 bs
  let (len, bs) := getU16 bs
  let (desc, _) := getRaw 32 bs
  ⟨reserved, trimNul userId, recordId, UInt64.ofNat len.toNat, trimNul desc, false⟩

/-- `lazperf::evlr_header::create` on its (zero filled) 60 bytes, then `VlrHeader(evlr_header)`,
`vlr.hpp:28`. -/
def decodeE (bs : Bytes) : VlrHeader :=
  let (reserved, bs) := getU16 bs
  let (userId, bs) := getRaw 16 bs
  let (recordId, bs) := getU16 bs
  let (len, bs) := getU64 bs
  let (desc, _) := getRaw 32 bs
  ⟨reserved, trimNul userId, recordId, len, trimNul desc, true⟩

end VlrHeader

/-! User ids -/
/-- "copc" -/
def idCopc : Bytes := [99, 111, 112, 99]
/-- "rock_robotic" -/
def idRock : Bytes := [114, 111, 99, 107, 95, 114, 111, 98, 111, 116, 105, 99]
/-- "LASF_Spec" -/
def idSpec : Bytes := [76, 65, 83, 70, 95, 83, 112, 101, 99]
/-- "LASF_Projection" -/
def idProj : Bytes := [76, 65, 83, 70, 95, 80, 114, 111, 106, 101, 99, 116, 105, 111, 110]
/-- "laszip encoded" -/
def idLaz : Bytes := [108, 97, 115, 122, 105, 112, 32, 101, 110, 99, 111, 100, 101, 100]

/-- `lazperf::eb_vlr::ebfield` (external): one extra-byte descriptor, 192 bytes. -/
structure EbField where
  /-- 2 bytes -/
  reserved : Bytes
  dataType : UInt8
  options : UInt8
  name : Bytes
  /-- 4 bytes -/
  unused : Bytes
  noData : Vec3 Dbl
  minval : Vec3 Dbl
  maxval : Vec3 Dbl
  scale : Vec3 Dbl
  offset : Vec3 Dbl
  description : Bytes
  deriving DecidableEq

namespace EbField

/-- `lazperf::eb_vlr::write` (external), one descriptor. -/
def encode (f : EbField) : Bytes :=
  padTo 2 f.reserved ++ (putU8 f.dataType ++ (putU8 f.options ++ (padTo 32 f.name ++
  (padTo 4 f.unused ++ (putV f.noData ++ (putV f.minval ++ (putV f.maxval ++ (putV f.scale ++
  (putV f.offset ++ padTo 32 f.description)))))))))

/-- `lazperf::eb_vlr::read` (external), one descriptor. -/
def decode (bs : Bytes) : EbField × Bytes :=
  let (reserved, bs) := getRaw 2 bs
  let (dataType, bs) := getU8 bs
  let (options, bs) := getU8 bs
  let (name, bs) := getRaw 32 bs
  let (unused, bs) := getRaw 4 bs
  let (noData, bs) := getV bs
  let (minval, bs) := getV bs
  let (maxval, bs) := getV bs
  let (scale, bs) := getV bs
  let (offset, bs) := getV bs
  let (desc, bs) := getRaw 32 bs
  (⟨reserved, dataType, options, trimNul name, unused, noData, minval, maxval, scale, offset,
    trimNul desc⟩, bs)

/-- A descriptor with a given type, options and name; everything else empty. -/
def simple (ty opt : UInt8) (name : Bytes) : EbField :=
  ⟨[0, 0], ty, opt, name, [0, 0, 0, 0], Vec3.zero, Vec3.zero, Vec3.zero, Vec3.zero, Vec3.zero, []⟩

end EbField

/-- `EXTRA_BYTE_DATA_TYPE`, `vlr.cpp:7-8`. -/
def ebTypeTable : List Nat :=
  [0, 1, 1, 2, 2, 4, 4, 8, 8, 4, 8, 2, 2, 4, 4, 8, 8, 16, 16, 8, 16, 3, 3, 6, 6, 12, 12, 24, 24, 12, 24]

/-- One step of the loop of `NumBytesFromExtraBytes`, `vlr.cpp:13-19`: the table has 31 entries,
indexing past it is undefined behaviour. -/
def ebFieldSize (f : EbField) : Res Nat :=
  if f.dataType = 0 then .ok f.options.toNat
  else match ebTypeTable[f.dataType.toNat]? with
    | some n => .ok n
    | none => .ub

/-- `NumBytesFromExtraBytes`, `vlr.cpp:10-21`. -/
def numBytesFromExtraBytes : List EbField → Res Nat
  | [] => .ok 0
  | f :: fs => (ebFieldSize f).bind fun a => (numBytesFromExtraBytes fs).bind fun b => .ok (a + b)

/-- `eb_vlr::write` (external). -/
def putEb (l : List EbField) : Bytes := l.flatMap EbField.encode

/-- `eb_vlr::create(in, byteSize)` (external): the payload is read into a zero-filled buffer of
`byteSize` bytes; `byteSize / 192` descriptors. -/
def getEb (byteSize : Nat) (bs : Bytes) : List EbField :=
  (getMany EbField.decode (byteSize / 192) (bs.take byteSize)).1

/-- `CopcInfo`, `info.hpp:30-36`. -/
structure CopcInfo where
  centerX : Dbl
  centerY : Dbl
  centerZ : Dbl
  halfsize : Dbl
  spacing : Dbl
  rootHierOffset : UInt64
  rootHierSize : UInt64
  deriving DecidableEq

namespace CopcInfo

/-- `CopcInfo()`, `info.hpp:30-36`. -/
def default : CopcInfo := ⟨Flt.zero, Flt.zero, Flt.zero, Flt.zero, Flt.zero, 0, 0⟩

/-- `CopcInfo::ToLazPerf`, `info.cpp:18-33` followed by `copc_info_vlr::write` (external, COPC 1.0
layout, 160 bytes). -/
def encode (i : CopcInfo) (gps : Extent) : Bytes :=
  putD i.centerX ++ (putD i.centerY ++ (putD i.centerZ ++ (putD i.halfsize ++ (putD i.spacing ++
  (putU64 i.rootHierOffset ++ (putU64 i.rootHierSize ++ (putD gps.minimum ++ (putD gps.maximum ++
  List.replicate 88 0))))))))

/-- `copc_info_vlr::create` (external) and `CopcInfo(copc_info_vlr)`, `info.cpp:7-16`. -/
def decode (bs : Bytes) : CopcInfo :=
  let (cx, bs) := getD bs
  let (cy, bs) := getD bs
  let (cz, bs) := getD bs
  let (hs, bs) := getD bs
  let (sp, bs) := getD bs
  let (ro, bs) := getU64 bs
  let (rs, _) := getU64 bs
  ⟨cx, cy, cz, hs, sp, ro, rs⟩

end CopcInfo
end Copc
