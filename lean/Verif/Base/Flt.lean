/-!
# IEEE-754 binary floating point

`Flt m e` is a binary format with `m` fraction bits and `e` exponent bits: `Flt 52 11` is `double`,
`Flt 23 8` is `float`. A value is a sign and a magnitude word `mag` (exponent and fraction bits), so
that the order of magnitudes is the order of the words. Arithmetic is round-to-nearest,
ties-to-even.  Everything is computed with natural numbers: finite values are integer multiples of
the smallest subnormal.
-/
namespace Copc

/-- Sign bit and the remaining `m + e` bits. -/
structure Flt (m e : Nat) where
  neg : Bool
  mag : Nat
  lt : mag < 2 ^ (m + e)
  deriving DecidableEq, Repr

/-- C++ `double`. -/
abbrev Dbl := Flt 52 11
/-- C++ `float`. -/
abbrev Sgl := Flt 23 8

namespace Flt

/-- Magnitude word of infinity: all exponent bits set, no fraction bits. -/
def infMag (m e : Nat) : Nat := (2 ^ e - 1) * 2 ^ m

/-- Number of smallest subnormals in `1.0`. -/
def unit (m e : Nat) : Nat := 2 ^ (2 ^ (e - 1) - 2 + m)

/-- The magnitude as a multiple of the smallest subnormal. -/
def sig (m : Nat) (mag : Nat) : Nat :=
  if mag < 2 ^ m then mag else (2 ^ m + mag % 2 ^ m) * 2 ^ (mag / 2 ^ m - 1)

/-- Integer nearest to `p / d`, ties to even. -/
def rneDiv (p d : Nat) : Nat :=
  let f := p / d
  let r := p % d
  if 2 * r < d then f else if d < 2 * r then f + 1 else if f % 2 = 0 then f else f + 1

/-- Scale at which `p / d` (in units of the smallest subnormal) is rounded: `2^lev`. -/
def lev (m : Nat) (p d : Nat) : Nat := Nat.log2 (p / d) - m

/-- Magnitude word nearest to `p / d` units (ties to even, overflow to infinity). -/
def roundMag (m e : Nat) (p d : Nat) : Nat :=
  min (lev m p d * 2 ^ m + rneDiv p (d * 2 ^ lev m p d)) (infMag m e)

theorem infMag_lt (m e : Nat) : infMag m e < 2 ^ (m + e) := by
  unfold infMag
  rw [Nat.pow_add, Nat.mul_comm (2 ^ m)]
  apply Nat.mul_lt_mul_of_pos_right
  · have : 0 < 2 ^ e := Nat.pow_pos (by decide)
    omega
  · exact Nat.pow_pos (by decide)

variable {m e : Nat}

def isNaN (x : Flt m e) : Bool := decide (infMag m e < x.mag)
def isInf (x : Flt m e) : Bool := decide (x.mag = infMag m e)
def isFinite (x : Flt m e) : Bool := decide (x.mag < infMag m e)

/-- Integer whose order is the order of non-NaN values (both zeros have key 0). -/
def key (x : Flt m e) : Int := if x.neg then -(x.mag : Int) else x.mag

/-- C++ `<`. -/
def lt' (x y : Flt m e) : Bool := !x.isNaN && !y.isNaN && decide (x.key < y.key)
/-- C++ `<=`. -/
def le' (x y : Flt m e) : Bool := !x.isNaN && !y.isNaN && decide (x.key ≤ y.key)
/-- C++ `==`. -/
def eq' (x y : Flt m e) : Bool := !x.isNaN && !y.isNaN && decide (x.key = y.key)

def zero : Flt m e := ⟨false, 0, Nat.pow_pos (by decide)⟩
def inf (neg : Bool) : Flt m e := ⟨neg, infMag m e, infMag_lt m e⟩
/-- The (quiet) NaN produced by invalid operations. -/
def nan : Flt m e := ⟨false, min (infMag m e + 2 ^ (m - 1)) (2 ^ (m + e) - 1), by
  have : 0 < 2 ^ (m + e) := Nat.pow_pos (by decide)
  omega⟩
/-- Largest finite magnitude, `std::numeric_limits<double>::max()`. -/
def maxFinite (neg : Bool) : Flt m e := ⟨neg, infMag m e - 1, by have := infMag_lt m e; omega⟩

/-- Value with sign `neg` nearest to `p / d` units. -/
def mkRound (neg : Bool) (p d : Nat) : Flt m e :=
  ⟨neg, roundMag m e p d, Nat.lt_of_le_of_lt (Nat.min_le_right _ _) (infMag_lt m e)⟩

/-- Negation flips the sign bit (also of NaN). -/
def neg' (x : Flt m e) : Flt m e := ⟨!x.neg, x.mag, x.lt⟩

/-- `fabs`. -/
def abs (x : Flt m e) : Flt m e := ⟨false, x.mag, x.lt⟩

/-- Signed multiple of the smallest subnormal. -/
def sval (x : Flt m e) : Int := if x.neg then -(sig m x.mag : Int) else sig m x.mag

/-- Addition. -/
def add (x y : Flt m e) : Flt m e :=
  if x.isNaN || y.isNaN then nan
  else if x.isInf then (if y.isInf && (x.neg != y.neg) then nan else x)
  else if y.isInf then y
  else
    let s := x.sval + y.sval
    if s = 0 then ⟨x.neg && y.neg, 0, Nat.pow_pos (by decide)⟩
    else mkRound (decide (s < 0)) s.natAbs 1

/-- Subtraction is addition of the opposite. -/
def sub (x y : Flt m e) : Flt m e := add x y.neg'

/-- Multiplication. -/
def mul (x y : Flt m e) : Flt m e :=
  let s := x.neg != y.neg
  if x.isNaN || y.isNaN then nan
  else if x.isInf then (if y.mag = 0 then nan else inf s)
  else if y.isInf then (if x.mag = 0 then nan else inf s)
  else mkRound s (sig m x.mag * sig m y.mag) (unit m e)

/-- Division. -/
def div (x y : Flt m e) : Flt m e :=
  let s := x.neg != y.neg
  if x.isNaN || y.isNaN then nan
  else if x.isInf then (if y.isInf then nan else inf s)
  else if y.isInf then ⟨s, 0, Nat.pow_pos (by decide)⟩
  else if y.mag = 0 then (if x.mag = 0 then nan else inf s)
  else mkRound s (sig m x.mag * unit m e) (sig m y.mag)

/-- Conversion from an integer. -/
def ofInt (n : Int) : Flt m e := mkRound (decide (n < 0)) (n.natAbs * unit m e) 1

/-- `std::round`: nearest integer, halves away from zero (identity on infinities and NaN). -/
def round (x : Flt m e) : Flt m e :=
  if x.isFinite then
    mkRound x.neg ((2 * sig m x.mag + unit m e) / (2 * unit m e) * unit m e) 1
  else x

/-- Conversion of a finite value to an integer, truncating (`static_cast<int>`); `none` when not
finite. -/
def trunc (x : Flt m e) : Option Int :=
  if x.isFinite then
    let n := sig m x.mag / unit m e
    some (if x.neg then -(n : Int) else n)
  else none

/-- `std::pow(2, n)`, exact unless it over- or underflows. -/
def pow2 (n : Int) : Flt m e :=
  if 0 ≤ n then mkRound false (2 ^ (min n.toNat (2 ^ e)) * unit m e) 1
  else mkRound false (unit m e) (2 ^ (min (-n).toNat (2 ^ e + m)))

/-- Conversion between formats. -/
def conv {m' e' : Nat} (x : Flt m e) : Flt m' e' :=
  if x.isNaN then nan
  else if x.isInf then inf x.neg
  else mkRound x.neg (sig m x.mag * unit m' e') (unit m e)

/-- The bits as an unsigned integer. -/
def toBits (x : Flt m e) : Nat := (if x.neg then 2 ^ (m + e) else 0) + x.mag

/-- From bits (higher bits dropped). -/
def ofBits (n : Nat) : Flt m e :=
  ⟨decide (n / 2 ^ (m + e) % 2 = 1), n % 2 ^ (m + e), Nat.mod_lt _ (Nat.pow_pos (by decide))⟩

theorem toBits_lt (x : Flt m e) : x.toBits < 2 ^ (m + e + 1) := by
  have := x.lt
  rw [Nat.pow_succ]
  unfold toBits
  split <;> omega

theorem ofBits_toBits (x : Flt m e) : ofBits x.toBits = x := by
  obtain ⟨n, g, h⟩ := x
  have hp : 0 < 2 ^ (m + e) := Nat.pow_pos (by decide)
  cases n
  · simp [ofBits, toBits, Nat.mod_eq_of_lt h, Nat.div_eq_of_lt h]
  · simp [ofBits, toBits, Nat.add_mod_left, Nat.mod_eq_of_lt h]
    rw [Nat.add_div_left _ hp, Nat.div_eq_of_lt h]

theorem toBits_ofBits {n : Nat} (h : n < 2 ^ (m + e + 1)) : (ofBits n : Flt m e).toBits = n := by
  have hp : 0 < 2 ^ (m + e) := Nat.pow_pos (by decide)
  have hq : n / 2 ^ (m + e) < 2 := by
    rw [Nat.div_lt_iff_lt_mul hp]; rw [Nat.pow_succ] at h; omega
  have hd := Nat.div_add_mod n (2 ^ (m + e))
  simp only [ofBits, toBits, decide_eq_true_eq]
  have : n / 2 ^ (m + e) = 0 ∨ n / 2 ^ (m + e) = 1 := by
    generalize n / 2 ^ (m + e) = q at hq
    omega
  rcases this with h0 | h1
  · rw [h0] at hd ⊢; simp at hd ⊢; omega
  · rw [h1] at hd ⊢; simp at hd ⊢; omega

theorem toBits_inj {x y : Flt m e} (h : x.toBits = y.toBits) : x = y := by
  rw [← ofBits_toBits x, h, ofBits_toBits]

end Flt

/-- A double from its bit pattern. -/
def dbl (bits : Nat) : Dbl := Flt.ofBits bits

end Copc
