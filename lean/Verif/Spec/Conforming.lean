import Verif.Spec.FormatHeader
import Verif.Model.Config
/-!
# Files of any program that follow the formats

LAS 1.4 R15 and COPC 1.0, by positions (`Verif/Spec/Format.lean`). Only the data types of what a `Reader` gives
(`LasHeader`, `EbField`, `Extent`, `CopcConfig`) and the order of doubles are taken from the model.
-/
namespace Copc.Format
open Copc

/-- "copc" -/
def uCopc : Bytes := [99, 111, 112, 99]
/-- "LASF_Projection" -/
def uProj : Bytes := [76, 65, 83, 70, 95, 80, 114, 111, 106, 101, 99, 116, 105, 111, 110]
/-- "LASF_Spec" -/
def uSpec : Bytes := [76, 65, 83, 70, 95, 83, 112, 101, 99]
/-- "rock_robotic" -/
def uRock : Bytes := [114, 111, 99, 107, 95, 114, 111, 98, 111, 116, 105, 99]

/-- The first VLR or extended VLR with the ids (the formats allow one). -/
def found (data : Bytes) (user : Bytes) (id : Nat) : Option Record :=
  (vlrs data ++ evlrs data).find? fun r => decide (r.user = user) && decide (r.id = id)

/-- The number of extra-byte descriptors (192 bytes each). -/
def ebCount (data : Bytes) : Nat := ((found data uSpec 4).map fun r => r.size / 192).getD 0

/-- The number of dimensions of point format 6, 7, 8 (marked as compressed by 128), without the extra bytes. -/
def dims (data : Bytes) : Nat := if num data 1 104 = 134 then 14 else if num data 1 104 = 135 then 17 else 18

/-- The file follows LAS 1.4 and COPC 1.0, as far as its header and its VLRs go. -/
structure Conforms (data : Bytes) : Prop where
  fits : data.length < 2 ^ 63
  full : 375 ≤ data.length
  signature : text data 4 0 = [76, 65, 83, 70]
  version : num data 1 24 = 1 ∧ num data 1 25 = 4
  /-- bit 4 of the global encoding: the coordinate system is given as WKT -/
  wktBit : num data 2 6 / 16 % 2 = 1
  header : num data 2 94 = 375
  format : num data 1 104 = 134 ∨ num data 1 104 = 135 ∨ num data 1 104 = 136
  /-- header, VLRs, points, extended VLRs follow each other -/
  vlrsEnd : ∀ r ∈ vlrs data, r.offset + r.size ≤ num data 4 96
  points : num data 4 96 ≤ num data 8 235
  evlrsEnd : ∀ r ∈ evlrs data, r.offset + r.size ≤ data.length
  /-- user ids are filled up with zeros -/
  vlrUser : ∀ r ∈ vlrs data, Holds data 16 (r.offset - 52) r.user
  evlrUser : ∀ r ∈ evlrs data, Holds data 16 (r.offset - 58) r.user
  /-- the first VLR is the info VLR of COPC -/
  info : (vlrs data).head? = some ⟨uCopc, 1, 429, 160⟩
  /-- there is a hierarchy -/
  hierarchy : ∃ r ∈ evlrs data, r.user = uCopc ∧ r.id = 1000
  /-- the extents VLR, if there is one, has a pair for each dimension, lower bound first -/
  extents : ∀ r, found data uCopc 10000 = some r → r.size = 16 * (dims data + ebCount data) ∧
    ∀ i < r.size / 16, Flt.lt' (dbl data (r.offset + 16 * i + 8)) (dbl data (r.offset + 16 * i)) = false
  /-- so has the VLR with means and variances, which are not negative -/
  stats : ∀ r, found data uRock 10001 = some r → r.size = 16 * (dims data + ebCount data) ∧
    ∀ i < r.size / 16, Flt.lt' (dbl data (r.offset + 16 * i + 8)) Flt.zero = false

/-- The file follows LAS 1.4 (with a format that COPC knows, compressed), as far as its header and its VLRs go. -/
structure Las (data : Bytes) : Prop where
  fits : data.length < 2 ^ 63
  full : 375 ≤ data.length
  signature : text data 4 0 = [76, 65, 83, 70]
  version : num data 1 24 = 1 ∧ num data 1 25 = 4
  /-- bit 4 of the global encoding: the coordinate system is given as WKT -/
  wktBit : num data 2 6 / 16 % 2 = 1
  header : num data 2 94 = 375
  format : num data 1 104 = 134 ∨ num data 1 104 = 135 ∨ num data 1 104 = 136
  /-- header, VLRs, points, extended VLRs (if there are any) follow each other -/
  vlrsEnd : ∀ r ∈ vlrs data, r.offset + r.size ≤ num data 4 96
  pointsFrom : 375 ≤ num data 4 96 ∧ num data 4 96 ≤ data.length
  evlrsFrom : num data 8 235 ≤ data.length ∧ (num data 4 243 ≠ 0 → num data 4 96 ≤ num data 8 235)
  evlrsEnd : ∀ r ∈ evlrs data, r.offset + r.size ≤ data.length
  /-- user ids are filled up with zeros -/
  vlrUser : ∀ r ∈ vlrs data, Holds data 16 (r.offset - 52) r.user
  evlrUser : ∀ r ∈ evlrs data, Holds data 16 (r.offset - 58) r.user

/-- What `LazReader` needs beyond that: text fields of the header have a terminating zero; the WKT is an extended VLR, the
extra-byte descriptors are in a VLR; the size of the WKT and the number of extended VLRs fit an `int`. -/
structure SuitsLas (data : Bytes) : Prop where
  guid : 0 ∈ text data 16 8
  system : 0 ∈ text data 32 26
  software : 0 ∈ text data 32 58
  wkt : ∀ r ∈ vlrs data, ¬(r.user = uProj ∧ r.id = 2112)
  ebs : ∀ r ∈ evlrs data, ¬(r.user = uSpec ∧ r.id = 4)
  wktSize : ∀ r, found data uProj 2112 = some r → r.size < 2 ^ 31
  few : num data 4 243 < 2 ^ 31

/-- What `Reader` needs beyond that: text fields of the header have a terminating zero; the WKT is an extended VLR, the other
records that it looks for are VLRs; the sizes and numbers fit an `int`. -/
structure Suits (data : Bytes) : Prop where
  guid : 0 ∈ text data 16 8
  system : 0 ∈ text data 32 26
  software : 0 ∈ text data 32 58
  wkt : ∀ r ∈ vlrs data, ¬(r.user = uProj ∧ r.id = 2112)
  others : ∀ r ∈ evlrs data, ¬(r.user = uSpec ∧ r.id = 4) ∧ ¬(r.user = uCopc ∧ r.id = 10000) ∧
    ¬(r.user = uRock ∧ r.id = 10001)
  wktSize : ∀ r, found data uProj 2112 = some r → r.size < 2 ^ 31
  few : num data 4 243 < 2 ^ 31

/-- The header, as given to a program. -/
structure HeaderIs (data : Bytes) (hd : LasHeader) : Prop where
  source : hd.fileSourceId.toNat = num data 2 4
  encoding : hd.globalEncoding.toNat = num data 2 6
  guid : hd.guid = (text data 16 8).takeWhile (· ≠ 0)
  system : hd.systemIdentifier = (text data 32 26).takeWhile (· ≠ 0)
  software : hd.generatingSoftware = (text data 32 58).takeWhile (· ≠ 0)
  created : hd.creationDay.toNat = num data 2 90 ∧ hd.creationYear.toNat = num data 2 92
  pointOffset : hd.pointOffset.toNat = num data 4 96
  vlrCount : hd.vlrCount.toNat = num data 4 100
  format : hd.fmt + 128 = (num data 1 104 : Int)
  record : hd.recLen.toNat = num data 2 105
  scale : hd.scale = ⟨dbl data 131, dbl data 139, dbl data 147⟩
  offset : hd.offset = ⟨dbl data 155, dbl data 163, dbl data 171⟩
  max : hd.max = ⟨dbl data 179, dbl data 195, dbl data 211⟩
  min : hd.min = ⟨dbl data 187, dbl data 203, dbl data 219⟩
  evlrOffset : hd.evlrOffset.toNat = num data 8 235
  evlrCount : hd.evlrCount.toNat = num data 4 243
  pointCount : hd.pointCount.toNat = num data 8 247
  returns : hd.pointsByReturn.map (·.toNat) = (List.range 15).map fun i => num data 8 (255 + 8 * i)

/-- The info VLR, as given to a program. -/
structure InfoIs (data : Bytes) (i : CopcInfo) : Prop where
  center : i.centerX = dbl data 429 ∧ i.centerY = dbl data 437 ∧ i.centerZ = dbl data 445
  halfsize : i.halfsize = dbl data 453
  spacing : i.spacing = dbl data 461
  rootOffset : i.rootHierOffset.toNat = num data 8 469
  rootSize : i.rootHierSize.toNat = num data 8 477

/-- The extra-byte descriptor at `p`. -/
structure EbIs (data : Bytes) (p : Nat) (f : EbField) : Prop where
  reserved : f.reserved = text data 2 p
  dataType : f.dataType.toNat = num data 1 (p + 2)
  options : f.options.toNat = num data 1 (p + 3)
  name : Holds data 32 (p + 4) f.name
  unused : f.unused = text data 4 (p + 36)
  noData : f.noData = ⟨dbl data (p + 40), dbl data (p + 48), dbl data (p + 56)⟩
  minval : f.minval = ⟨dbl data (p + 64), dbl data (p + 72), dbl data (p + 80)⟩
  maxval : f.maxval = ⟨dbl data (p + 88), dbl data (p + 96), dbl data (p + 104)⟩
  scale : f.scale = ⟨dbl data (p + 112), dbl data (p + 120), dbl data (p + 128)⟩
  offset : f.offset = ⟨dbl data (p + 136), dbl data (p + 144), dbl data (p + 152)⟩
  description : Holds data 32 (p + 160) f.description

/-- Mean and variance of a dimension: from the VLR with them if there is one, else zero and one. -/
def statOf (data : Bytes) (i : Nat) : Dbl × Dbl :=
  match found data uRock 10001 with
  | some r => (dbl data (r.offset + 16 * i), dbl data (r.offset + 16 * i + 8))
  | none => (Flt.zero, Flt.ofBits 0x3FF0000000000000)

/-- The extents, as given to a program. Without an extents VLR there is an extent from zero to zero (mean zero, variance one)
for each dimension of the point format. -/
def ExtentsAre (data : Bytes) (l : List Extent) : Prop :=
  match found data uCopc 10000 with
  | some r => l = (List.range (dims data + ebCount data)).map fun i =>
      ⟨dbl data (r.offset + 16 * i), dbl data (r.offset + 16 * i + 8), (statOf data i).1, (statOf data i).2⟩
  | none => l = List.replicate (dims data) ⟨Flt.zero, Flt.zero, Flt.zero, Flt.ofBits 0x3FF0000000000000⟩

/-- What a program gets from the configuration of a `LazReader` is what the file has. -/
structure ReadAsLas (data : Bytes) (c : LazConfig) : Prop where
  header : HeaderIs data c.header
  wkt : c.wkt = ((found data uProj 2112).map fun r => text data r.size r.offset).getD []
  ebLength : c.eb.length = ebCount data
  eb : ∀ r, found data uSpec 4 = some r → ∀ i f, c.eb[i]? = some f → EbIs data (r.offset + 192 * i) f

/-- What a program gets from the configuration of a `Reader` is what the file has. -/
structure ReadAs (data : Bytes) (c : CopcConfig) : Prop where
  header : HeaderIs data c.header
  info : InfoIs data c.info
  wkt : c.wkt = ((found data uProj 2112).map fun r => text data r.size r.offset).getD []
  ebLength : c.eb.length = ebCount data
  eb : ∀ r, found data uSpec 4 = some r → ∀ i f, c.eb[i]? = some f → EbIs data (r.offset + 192 * i) f
  extentsFormat : c.extents.fmt = c.header.fmt
  extents : ExtentsAre data c.extents.extents
  statsFlag : c.extents.extStats = ((found data uCopc 10000).isSome && (found data uRock 10001).isSome)

end Copc.Format
