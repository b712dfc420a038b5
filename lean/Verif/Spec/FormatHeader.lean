import Verif.Spec.Format
import Verif.Model.Header
import Verif.Model.Vlr
import Verif.Model.Entry
/-!
# The header and the info VLR of a COPC file, by positions

LAS 1.4 R15, table 3 (positions of the fields of the header), and COPC 1.0, info VLR. Only the data types `LasHeader`,
`CopcInfo` (what a program sets) and `Flt.ofBits` (the double with given bits) are taken from the model.
-/
namespace Copc.Format
open Copc

/-- The double at `p`. -/
def dbl (data : Bytes) (p : Nat) : Dbl := Flt.ofBits (num data 8 p)

/-- A field of `k` bytes holds a string: the string followed by zeros. -/
def Holds (data : Bytes) (k p : Nat) (s : Bytes) : Prop := text data k p = s ++ List.replicate (k - s.length) 0

/-- The header of the file says what was set. The point format is marked as compressed (bit 7). -/
structure HeaderSays (data : Bytes) (hd : LasHeader) : Prop where
  /-- "LASF" -/
  signature : text data 4 0 = [76, 65, 83, 70]
  source : num data 2 4 = hd.fileSourceId.toNat
  /-- the set bits and bit 4: the coordinate system is given as WKT -/
  encoding : num data 2 6 = (hd.globalEncoding ||| 16).toNat
  guid : Holds data 16 8 hd.guid
  version : num data 1 24 = 1 ∧ num data 1 25 = 4
  system : Holds data 32 26 hd.systemIdentifier
  software : Holds data 32 58 hd.generatingSoftware
  created : num data 2 90 = hd.creationDay.toNat ∧ num data 2 92 = hd.creationYear.toNat
  size : num data 2 94 = 375
  format : (num data 1 104 : Int) = hd.fmt + 128
  record : num data 2 105 = hd.recLen.toNat
  scale : (⟨dbl data 131, dbl data 139, dbl data 147⟩ : Vec3 Dbl) = hd.scale
  offset : (⟨dbl data 155, dbl data 163, dbl data 171⟩ : Vec3 Dbl) = hd.offset
  max : (⟨dbl data 179, dbl data 195, dbl data 211⟩ : Vec3 Dbl) = hd.max
  min : (⟨dbl data 187, dbl data 203, dbl data 219⟩ : Vec3 Dbl) = hd.min
  /-- no waveform data -/
  wave : num data 8 227 = 0
  returns : ∀ i < 15, num data 8 (255 + 8 * i) = (hd.pointsByReturn.getD i 0).toNat

/-- The first VLR is the info VLR of COPC and says what was set. -/
structure InfoSays (data : Bytes) (i : CopcInfo) : Prop where
  /-- "copc" -/
  user : Holds data 16 377 [99, 111, 112, 99]
  id : num data 2 393 = 1
  length : num data 2 395 = 160
  center : (⟨dbl data 429, dbl data 437, dbl data 445⟩ : Vec3 Dbl) = ⟨i.centerX, i.centerY, i.centerZ⟩
  halfsize : dbl data 453 = i.halfsize
  spacing : dbl data 461 = i.spacing
  reserved : text data 88 501 = List.replicate 88 0

end Copc.Format

namespace Copc

/-- An entry as the format has it. -/
def Entry.raw (e : Entry) : Format.HEntry := ⟨e.key.d, e.key.x, e.key.y, e.key.z, e.offset, e.byteSize, e.pointCount⟩

end Copc
