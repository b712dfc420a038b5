import Verif.Spec.Conforming
/-!
# What a file must have to be opened
-/
namespace Copc.Format
open Copc

/-- "laszip encoded" -/
def uLaszip : Bytes := [108, 97, 115, 122, 105, 112, 32, 101, 110, 99, 111, 100, 101, 100]

/-- The header is one of LAS 1.4 with a coordinate system given as WKT and point format 6, 7 or 8 (the two high bits of the
format are flags of the compression). -/
structure LasHeaded (data : Bytes) : Prop where
  full : 375 ≤ data.length
  version : num data 1 24 = 1 ∧ num data 1 25 = 4
  wktBit : num data 2 6 / 16 % 2 = 1
  header : num data 2 94 = 375
  format : num data 1 104 % 64 = 6 ∨ num data 1 104 % 64 = 7 ∨ num data 1 104 % 64 = 8

/-- There is a record with these ids at `p`: its user id from `p + 2` (16 bytes), its record id from `p + 18`. -/
def RecordAt (data : Bytes) (p : Nat) (user : Bytes) (id : Nat) : Prop := Holds data 16 (p + 2) user ∧ num data 2 (p + 18) = id

end Copc.Format
