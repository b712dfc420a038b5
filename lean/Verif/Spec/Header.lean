import Verif.Model.Header
import Verif.Spec.Geometry
/-! # What a LAS header is expected to carry -/
namespace Copc.Spec
open Copc

/-- `r` is the least / greatest of the listed numbers. -/
def IsLow (r : Dbl) (l : List Dbl) : Prop := r ∈ l ∧ ∀ v ∈ l, ext r ≤ ext v
def IsHigh (r : Dbl) (l : List Dbl) : Prop := r ∈ l ∧ ∀ v ∈ l, ext v ≤ ext r

/-- A string that fits its header field with room for a terminating NUL. -/
def Fits (s : Bytes) (k : Nat) : Prop := s.length < k ∧ NoNul s

/-- A header that a program can build for a supported format, with its strings short of their
fields. -/
structure GoodHeader (h : LasHeader) : Prop where
  fmt : h.fmt = 6 ∨ h.fmt = 7 ∨ h.fmt = 8
  byReturn : h.pointsByReturn.length = 15
  guid : Fits h.guid 16
  sys : Fits h.systemIdentifier 32
  gen : Fits h.generatingSoftware 32

end Copc.Spec
