import Verif.Base.Parse
import Verif.Model.Point
/-!
# Model of `las::LasHeader` (`cpp/include/copc-lib/las/header.hpp`, `cpp/src/las/header.cpp`) and of
the 375-byte LAS 1.4 header record of lazperf (`lazperf::header14`)
-/
namespace Copc

/-- `lazperf::header14`: the fields of the LAS 1.4 public header block, in file order. Character
arrays are byte strings of fixed length. -/
structure Header14 where
  magic : Bytes
  fileSourceId : UInt16
  globalEncoding : UInt16
  guid : Bytes
  versionMajor : UInt8
  versionMinor : UInt8
  systemIdentifier : Bytes
  generatingSoftware : Bytes
  creationDay : UInt16
  creationYear : UInt16
  headerSize : UInt16
  pointOffset : UInt32
  vlrCount : UInt32
  pointFormatId : UInt8
  pointRecordLength : UInt16
  pointCount : UInt32
  pointsByReturn : List UInt32
  scale : Vec3 Dbl
  offset : Vec3 Dbl
  maxx : Dbl
  minx : Dbl
  maxy : Dbl
  miny : Dbl
  maxz : Dbl
  minz : Dbl
  waveOffset : UInt64
  evlrOffset : UInt64
  evlrCount : UInt32
  pointCount14 : UInt64
  pointsByReturn14 : List UInt64
  deriving DecidableEq

/-- Three doubles one after the other. -/
def putV (v : Vec3 Dbl) : Bytes := putD v.x ++ (putD v.y ++ putD v.z)
def getV (bs : Bytes) : Vec3 Dbl × Bytes :=
  let (x, bs) := getD bs
  let (y, bs) := getD bs
  let (z, bs) := getD bs
  (⟨x, y, z⟩, bs)

namespace Header14

/-- The array fields have their C++ length. -/
def Sized (h : Header14) : Prop :=
  h.magic.length = 4 ∧ h.guid.length = 16 ∧ h.systemIdentifier.length = 32 ∧
  h.generatingSoftware.length = 32 ∧ h.pointsByReturn.length = 5 ∧ h.pointsByReturn14.length = 15

/-- `lazperf::header14::write` (external; LAS 1.4 R15 table 3 layout), 375 bytes. -/
def encode (h : Header14) : Bytes :=
  h.magic ++ (putU16 h.fileSourceId ++ (putU16 h.globalEncoding ++ (h.guid ++
  (putU8 h.versionMajor ++ (putU8 h.versionMinor ++ (h.systemIdentifier ++ (h.generatingSoftware ++
  (putU16 h.creationDay ++ (putU16 h.creationYear ++ (putU16 h.headerSize ++
  (putU32 h.pointOffset ++ (putU32 h.vlrCount ++ (putU8 h.pointFormatId ++
  (putU16 h.pointRecordLength ++ (putU32 h.pointCount ++ (h.pointsByReturn.flatMap putU32 ++
  (putV h.scale ++ (putV h.offset ++ (putD h.maxx ++ (putD h.minx ++ (putD h.maxy ++ (putD h.miny ++
  (putD h.maxz ++ (putD h.minz ++ (putU64 h.waveOffset ++ (putU64 h.evlrOffset ++
  (putU32 h.evlrCount ++ (putU64 h.pointCount14 ++
  h.pointsByReturn14.flatMap putU64))))))))))))))))))))))))))))

/-- `lazperf::header14::read` (external): the inverse layout, on the bytes of the file. -/
def decode (bs : Bytes) : Header14 :=
  let (magic, bs) := getRaw 4 bs
  let (fileSourceId, bs) := getU16 bs
  let (globalEncoding, bs) := getU16 bs
  let (guid, bs) := getRaw 16 bs
  let (versionMajor, bs) := getU8 bs
  let (versionMinor, bs) := getU8 bs
  let (systemIdentifier, bs) := getRaw 32 bs
  let (generatingSoftware, bs) := getRaw 32 bs
  let (creationDay, bs) := getU16 bs
  let (creationYear, bs) := getU16 bs
  let (headerSize, bs) := getU16 bs
  let (pointOffset, bs) := getU32 bs
  let (vlrCount, bs) := getU32 bs
  let (pointFormatId, bs) := getU8 bs
  let (pointRecordLength, bs) := getU16 bs
  let (pointCount, bs) := getU32 bs
  let (pointsByReturn, bs) := getMany getU32 5 bs
  let (scale, bs) := getV bs
  let (offset, bs) := getV bs
  let (maxx, bs) := getD bs
  let (minx, bs) := getD bs
  let (maxy, bs) := getD bs
  let (miny, bs) := getD bs
  let (maxz, bs) := getD bs
  let (minz, bs) := getD bs
  let (waveOffset, bs) := getU64 bs
  let (evlrOffset, bs) := getU64 bs
  let (evlrCount, bs) := getU32 bs
  let (pointCount14, bs) := getU64 bs
  let (pointsByReturn14, _) := getMany getU64 15 bs
  { magic, fileSourceId, globalEncoding, guid, versionMajor, versionMinor, systemIdentifier,
    generatingSoftware, creationDay, creationYear, headerSize, pointOffset, vlrCount, pointFormatId,
    pointRecordLength, pointCount, pointsByReturn, scale, offset, maxx, minx, maxy, miny, maxz, minz,
    waveOffset, evlrOffset, evlrCount, pointCount14, pointsByReturn14 }

end Header14

/-- Members of `las::LasHeader`, `header.hpp:128-163` (the version constants are `1.4`). -/
structure LasHeader where
  fileSourceId : UInt16
  globalEncoding : UInt16
  creationDay : UInt16
  creationYear : UInt16
  max : Vec3 Dbl
  min : Vec3 Dbl
  /-- `std::array<uint64_t, 15>` -/
  pointsByReturn : List UInt64
  scale : Vec3 Dbl
  offset : Vec3 Dbl
  /-- `int8_t` -/
  fmt : Int
  /-- `uint16_t` -/
  recLen : UInt16
  pointCount : UInt64
  pointOffset : UInt32
  vlrCount : UInt32
  evlrOffset : UInt64
  evlrCount : UInt32
  guid : Bytes
  systemIdentifier : Bytes
  generatingSoftware : Bytes
  copcFlag : Bool
  deriving DecidableEq

/-- `Vector3()`, `vector3.hpp:14`. -/
def Vec3.zero : Vec3 Dbl := ⟨Flt.zero, Flt.zero, Flt.zero⟩

/-- `DEFAULT_SCALE`, `vector3.hpp:11`: `0.01`. -/
def defaultScale : Vec3 Dbl :=
  ⟨dbl 0x3F847AE147AE147B, dbl 0x3F847AE147AE147B, dbl 0x3F847AE147AE147B⟩

namespace LasHeader

/-- `LasHeader()`, default member values, `header.hpp:128-163`. -/
def default : LasHeader where
  fileSourceId := 0
  globalEncoding := 0
  creationDay := 0
  creationYear := 0
  max := Vec3.zero
  min := Vec3.zero
  pointsByReturn := List.replicate 15 0
  scale := defaultScale
  offset := Vec3.zero
  fmt := 6
  recLen := 0
  pointCount := 0
  pointOffset := 0
  vlrCount := 0
  evlrOffset := 0
  evlrCount := 0
  guid := []
  systemIdentifier := []
  generatingSoftware := []
  copcFlag := true

/-- `LasHeader(point_format_id, point_record_length, scale, offset, copc_flag)`, `header.hpp:30-33`. -/
def make (fmt : Int) (recLen : UInt16) (scale offset : Vec3 Dbl) (copc : Bool) : LasHeader :=
  { default with
    fmt := fmt
    recLen := recLen
    scale := scale
    offset := offset
    copcFlag := copc }

/-- `LasHeader(header, point_format_id, point_record_length, scale, offset)`, `header.cpp:17-25`. -/
def withFormat (h : LasHeader) (fmt : Int) (recLen : UInt16) (scale offset : Vec3 Dbl) : LasHeader :=
  { h with
    fmt := fmt
    recLen := recLen
    scale := scale
    offset := offset }

/-- `LasHeader(header, is_copc)`, `header.cpp:27`. -/
def withCopc (h : LasHeader) (b : Bool) : LasHeader := { h with copcFlag := b }

/-- `GUID(string)`, `header.hpp:75-80`. -/
def setGuid (h : LasHeader) (s : Bytes) : Res LasHeader :=
  if s.length > 16 then .throw .headerCheck else .ok { h with guid := s }
/-- `SystemIdentifier(string)`, `header.hpp:83-88`. -/
def setSystemIdentifier (h : LasHeader) (s : Bytes) : Res LasHeader :=
  if s.length > 32 then .throw .headerCheck else .ok { h with systemIdentifier := s }
/-- `GeneratingSoftware(string)`, `header.hpp:91-96`. -/
def setGeneratingSoftware (h : LasHeader) (s : Bytes) : Res LasHeader :=
  if s.length > 32 then .throw .headerCheck else .ok { h with generatingSoftware := s }

/-- `LasHeader::EbByteSize`, `header.cpp:51`. -/
def ebSize (h : LasHeader) : Res Nat := ebByteSize h.fmt h.recLen.toNat

/-- `LasHeader::Bounds`, `header.cpp:29`. -/
def bounds (h : LasHeader) : Res (Box Dbl) := Box.ofCorners h.min h.max

/-- `LasHeader::SetGpsTimeBit`, `header.cpp:49`. -/
def setGpsTimeBit (h : LasHeader) : LasHeader := { h with globalEncoding := h.globalEncoding ||| 1 }

/-- One axis of `LasHeader::CheckAndUpdateBounds`, `header.cpp:33-36`. -/
def updAxis (mn mx v : Dbl) : Dbl × Dbl :=
  (if Flt.lt' v mn then v else mn, if Flt.lt' mx v then v else mx)

/-- `LasHeader::CheckAndUpdateBounds`, `header.cpp:31-47`. -/
def checkAndUpdateBounds (h : LasHeader) (p : Point) : LasHeader :=
  let x := updAxis h.min.x h.max.x p.x
  let y := updAxis h.min.y h.max.y p.y
  let z := updAxis h.min.z h.max.z p.z
  { h with
    min := ⟨x.1, y.1, z.1⟩
    max := ⟨x.2, y.2, z.2⟩ }

/-- `std::strncpy(dst, s.c_str(), k)` into a field of `k` bytes, `header.cpp:105,108,109`. -/
def strncpy (k : Nat) (s : Bytes) : Bytes := padTo k (cstr s)

/-- `LasHeader::ToLazPerf`, `header.cpp:98-160`. -/
def toLazPerf (h : LasHeader) (pointOffset : UInt32) (pointCount : UInt64) (evlrOffset : UInt64)
    (evlrCount : UInt32) (ebFlag extStats : Bool) : Res Header14 :=
  if extStats && !h.copcFlag then .throw .extStatsNotCopc
  else .ok {
    -- "LASF", default member value of `lazperf::header14`
    magic := [76, 65, 83, 70]
    fileSourceId := h.fileSourceId
    globalEncoding := h.globalEncoding ||| (0x10 : UInt16)
    guid := strncpy 16 h.guid
    versionMajor := 1
    versionMinor := 4
    systemIdentifier := strncpy 32 h.systemIdentifier
    generatingSoftware := strncpy 32 h.generatingSoftware
    creationDay := h.creationDay
    creationYear := h.creationYear
    headerSize := 375
    pointOffset := pointOffset
    vlrCount := 1 + (if ebFlag then 1 else 0) + (if h.copcFlag then 2 else 0) +
      (if extStats then 1 else 0)
    pointFormatId := UInt8.ofNat (h.fmt % 256).toNat ||| (0x80 : UInt8)
    pointRecordLength := h.recLen
    pointCount := if pointCount.toNat > 4294967295 then 0 else UInt32.ofNat pointCount.toNat
    pointsByReturn := List.replicate 5 0
    scale := h.scale
    offset := h.offset
    maxx := h.max.x
    minx := h.min.x
    maxy := h.max.y
    miny := h.min.y
    maxz := h.max.z
    minz := h.min.z
    -- default member value of `lazperf::header14`
    waveOffset := 0
    evlrOffset := evlrOffset
    evlrCount := evlrCount
    pointCount14 := pointCount
    pointsByReturn14 := h.pointsByReturn }

/-- `std::string = char array` (`header.cpp:61,64,65`): reads up to the first NUL. An array without
NUL is read past its end (undefined behaviour). -/
def ofCharArray (a : Bytes) : Res Bytes := if 0 ∈ a then .ok (cstr a) else .ub

/-- `LasHeader::FromLazPerf`, `header.cpp:53-97`. `int8_t` conversion of the format cannot wrap in
the accepted range. The new header has the default COPC flag. -/
def fromLazPerf (r : Header14) : Res LasHeader :=
  if r.globalEncoding &&& 0x10 = 0 then .throw .headerCheck
  else (ofCharArray r.guid).bind fun guid =>
  if r.versionMajor ≠ 1 ∨ r.versionMinor ≠ 4 then .throw .headerCheck
  else (ofCharArray r.systemIdentifier).bind fun sys =>
  (ofCharArray r.generatingSoftware).bind fun gen =>
  if r.headerSize ≠ 375 then .throw .headerCheck
  else if r.pointFormatId < 6 ∨ r.pointFormatId > 8 then .throw .badFormat
  else .ok {
    fileSourceId := r.fileSourceId
    globalEncoding := r.globalEncoding
    creationDay := r.creationDay
    creationYear := r.creationYear
    max := ⟨r.maxx, r.maxy, r.maxz⟩
    min := ⟨r.minx, r.miny, r.minz⟩
    pointsByReturn := r.pointsByReturn14
    scale := r.scale
    offset := r.offset
    fmt := r.pointFormatId.toNat
    recLen := r.pointRecordLength
    pointCount := r.pointCount14
    pointOffset := r.pointOffset
    vlrCount := r.vlrCount
    evlrOffset := r.evlrOffset
    evlrCount := r.evlrCount
    guid := guid
    systemIdentifier := sys
    generatingSoftware := gen
    copcFlag := true }

end LasHeader

/-- What `lazperf::reader::generic_file` does to the header it has read (external): the two
compression bits of the point format are removed. -/
def stripFormat (r : Header14) : Header14 := { r with pointFormatId := r.pointFormatId &&& 0x3F }

end Copc
