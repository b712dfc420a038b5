import Verif.Model.Geometry
import Mathlib.Data.Rat.Cast.Order
import Mathlib.Tactic.Linarith
import Mathlib.Tactic.Ring
import Mathlib.Tactic.FieldSimp
import Mathlib.Tactic.Positivity
/-! # The geometry code in exact arithmetic -/
namespace Copc

/-- Exact rational arithmetic for the geometry code: the code without rounding. -/
instance : CxxNum ℚ where
  add := (· + ·)
  sub := (· - ·)
  mul := (· * ·)
  div := (· / ·)
  lt a b := decide (a < b)
  le a b := decide (a ≤ b)
  ofInt n := (n : ℚ)
  pow2 n := (2 : ℚ) ^ n

end Copc
