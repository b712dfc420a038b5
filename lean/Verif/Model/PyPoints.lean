import Verif.Model.Points
/-!
# The Python sequence interface of `Points` (`python/bindings.cpp:282-383`)

Python integers are unbounded. What CPython does with slices (`PySlice_Unpack`, `PySlice_AdjustIndices` of
CPython 3, called by pybind11's `slice::compute`) is modelled from its documentation and source; it is not in
`/repo`. Sizes of collections are below `2^63`, so that conversions between `size_t` and `ssize_t` of an
index keep its value.
-/
namespace Copc

/-- Exceptions a Python caller sees. -/
inductive PyExc where
  /-- `IndexError`, `bindings.cpp:288` -/
  | index
  /-- an `int` that does not fit the C++ parameter: pybind11 raises `TypeError` -/
  | type
  /-- `ValueError`: slice step zero -/
  | value
  /-- `RuntimeError` of `bindings.cpp:373` -/
  | sliceSize
  /-- a translated C++ exception -/
  | cxx (e : Exc)
  deriving DecidableEq

/-- Result of a call from Python. -/
inductive PyRes (α : Type) where
  | ok (a : α)
  | raise (e : PyExc)
  /-- undefined behaviour of the C++ side -/
  | ub
  deriving DecidableEq

/-- A C++ outcome seen from Python. -/
def PyRes.ofRes {α : Type} : Res α → PyRes α
  | .ok a => .ok a
  | .throw e => .raise (.cxx e)
  | .ub => .ub

/-- A slice object: `start:stop:step`, each possibly `None`. -/
structure PySlice where
  start : Option Int
  stop : Option Int
  step : Option Int

namespace PySlice

/-- `PY_SSIZE_T_MAX`. -/
def maxIdx : Int := 9223372036854775807

/-- `_PyEval_SliceIndex`: integers are clipped to the range of `Py_ssize_t`. -/
def clip (i : Int) : Int := max (-maxIdx - 1) (min i maxIdx)

/-- `PySlice_Unpack`: the step, at least `-PY_SSIZE_T_MAX`. -/
def stepOf : Option Int → Int
  | none => 1
  | some k => max (-maxIdx) (clip k)

/-- `PySlice_Unpack`: the start; the default depends on the sign of the step. -/
def startOf (step : Int) : Option Int → Int
  | none => if step < 0 then maxIdx else 0
  | some i => clip i

/-- `PySlice_Unpack`: the stop. -/
def stopOf (step : Int) : Option Int → Int
  | none => if step < 0 then -maxIdx - 1 else maxIdx
  | some i => clip i

/-- One bound in `PySlice_AdjustIndices`. -/
def adjust (n : Int) (step i : Int) : Int :=
  if i < 0 then
    if i + n < 0 then (if step < 0 then -1 else 0) else i + n
  else if n ≤ i then (if step < 0 then n - 1 else n) else i

/-- `PySlice_AdjustIndices`: start, step and number of items; C++ `/` truncates and both operands are
non-negative here. -/
def compute (s : PySlice) (n : Nat) : PyRes (Int × Int × Nat) :=
  let k := stepOf s.step
  if k = 0 then .raise .value
  else
    let a := adjust n k (startOf k s.start)
    let b := adjust n k (stopOf k s.stop)
    .ok (a, k, if k < 0 then (if b < a then ((a - b - 1) / (-k) + 1).toNat else 0)
      else if a < b then ((b - a - 1) / k + 1).toNat else 0)

end PySlice

namespace Coll

/-- `wrap_i`, `bindings.cpp:283-290`; an `int` outside `ssize_t` does not reach it. -/
def wrapI (i : Int) (n : Nat) : PyRes Nat :=
  if i < -PySlice.maxIdx - 1 ∨ PySlice.maxIdx < i then .raise .type
  else
    let i := if i < 0 then i + n else i
    if i < 0 ∨ (n : Int) ≤ i then .raise .index else .ok i.toNat

/-- The read of `points_[i]`, `points.hpp:42`: unchecked. -/
def at_ (c : Coll) (i : Nat) : PyRes Nat :=
  match c.pts[i]? with
  | some p => .ok p
  | none => .ub

/-- `points[i]`, `bindings.cpp:330-334`. -/
def pyGet (c : Coll) (i : Int) : PyRes Nat :=
  match wrapI i c.pts.length with
  | .ok i => c.at_ i
  | .raise e => .raise e
  | .ub => .ub

/-- `points[i] = v`, `bindings.cpp:335-339`: no check of the point. -/
def pySet (c : Coll) (i : Int) (v : Nat) : PyRes Coll :=
  match wrapI i c.pts.length with
  | .ok i => .ok { c with pts := c.pts.set i v }
  | .raise e => .raise e
  | .ub => .ub

/-- The loop of `bindings.cpp:357-361`: `k` items, `start` wraps in `size_t`. -/
def gather (c : Coll) : Nat → Int → Int → PyRes (List Nat)
  | 0, _, _ => .ok []
  | k + 1, start, step => match c.at_ (start % 18446744073709551616).toNat with
    | .ok p => match gather c k (start + step) step with
      | .ok l => .ok (p :: l)
      | .raise e => .raise e
      | .ub => .ub
    | .raise e => .raise e
    | .ub => .ub

/-- `points[start:stop:step]`, `bindings.cpp:348-365`. -/
def pySlice (h : Heap) (c : Coll) (s : PySlice) : PyRes Coll :=
  match s.compute c.pts.length with
  | .ok (start, step, k) => match c.gather k start step with
    | .ok is => .ofRes (ofVector h is)
    | .raise e => .raise e
    | .ub => .ub
  | .raise e => .raise e
  | .ub => .ub

/-- The loop of `bindings.cpp:375-379`, with the points of `value` still to be stored; a position outside the
collection is undefined. -/
def scatter : List Nat → Int → Int → List Nat → PyRes (List Nat)
  | [], _, _, pts => .ok pts
  | v :: vs, start, step, pts =>
    if (start % 18446744073709551616).toNat < pts.length then
      scatter vs (start + step) step (pts.set (start % 18446744073709551616).toNat v)
    else .ub

/-- `points[start:stop:step] = value`, `bindings.cpp:366-380`. Simplification: `value` is another object than
the collection. -/
def pySetSlice (c : Coll) (s : PySlice) (value : Coll) : PyRes Coll :=
  match s.compute c.pts.length with
  | .ok (start, step, k) =>
    if k ≠ value.pts.length then .raise .sliceSize
    else match scatter value.pts start step c.pts with
      | .ok l => .ok { c with pts := l }
      | .raise e => .raise e
      | .ub => .ub
  | .raise e => .raise e
  | .ub => .ub

/-- `point in points`, `bindings.cpp:346-347`: `std::find` on shared pointers, so by identity. -/
def pyContains (c : Coll) (p : Nat) : Bool := c.pts.contains p

end Coll
end Copc
