import Verif.Model.Point
/-!
# Model of the `las::Points` collection with shared points

`Points` holds `std::shared_ptr<Point>`s (`points.hpp:231`): the same point object can be in several
collections, or twice in one. The model keeps the point objects in a heap (a list indexed by object
number) and a collection holds object numbers.
-/
namespace Copc

/-- Members of `las::Points`, `points.hpp:231-233`. -/
structure Coll where
  pts : List Nat
  fmt : Int
  recLen : Nat
  deriving DecidableEq

/-- The point objects alive. -/
abbrev Heap := List Point

namespace Coll

/-- `Points(point_format_id, eb_byte_size)`, `points.cpp:10-16`. -/
def make (fmt : Int) (eb : Nat) : Res Coll :=
  if fmt < 0 ∨ fmt > 10 then .throw .badFormat
  else (pointByteSize fmt eb).bind fun l => .ok ⟨[], fmt, l⟩

/-- The check of `AddPoint`, `points.cpp:44` and `AddPoints`, `points.cpp:63`. A dangling number is
undefined behaviour (null pointer). -/
def fits (h : Heap) (c : Coll) (i : Nat) : Res Bool :=
  match h[i]? with
  | none => .ub
  | some p => .ok (decide (p.fmt = c.fmt) && decide (p.recLen = c.recLen))

/-- `AddPoint`, `points.cpp:42-48`. -/
def addPoint (h : Heap) (c : Coll) (i : Nat) : Res Coll :=
  (fits h c i).bind fun b => if b then .ok { c with pts := c.pts ++ [i] } else .throw .pointsMismatch

/-- `AddPoints(vector)`, `points.cpp:59-68`: all checks come before the insertion. -/
def addPoints (h : Heap) (c : Coll) (is : List Nat) : Res Coll :=
  (Res.mapL (fun i => (fits h c i).bind fun b =>
    if b then Res.ok () else .throw .pointsMismatch) is).bind fun _ =>
    .ok { c with pts := c.pts ++ is }

/-- `AddPoints(Points)`, `points.cpp:50-57`. -/
def addColl (c o : Coll) : Res Coll :=
  if o.fmt ≠ c.fmt ∨ o.recLen ≠ c.recLen then .throw .pointsMismatch
  else .ok { c with pts := c.pts ++ o.pts }

/-- `Points(vector)`, `points.cpp:20-29`. -/
def ofVector (h : Heap) (is : List Nat) : Res Coll :=
  match is with
  | [] => .throw .emptyData
  | i :: _ => match h[i]? with
    | none => .ub
    | some p => addPoints h ⟨[], p.fmt, p.recLen⟩ is

/-- `CreatePoint`, `points.hpp:56`: the new object, added to the heap but not to the collection. -/
def createPoint (c : Coll) : Res Point :=
  (ebByteSize c.fmt c.recLen).bind fun eb => Point.make c.fmt eb

/-- Conversion of the listed objects one after the other, `points.cpp:35-36`. -/
def convertAll (fmt : Int) : Heap → List Nat → Res Heap
  | h, [] => .ok h
  | h, i :: is => match h[i]? with
    | none => .ub
    | some p => (p.toPointFormat fmt).bind fun q => convertAll fmt (h.set i q) is

/-- `ToPointFormat`, `points.cpp:31-40`; the subtraction in `points.cpp:37` is 32-bit unsigned and
`PointByteSize` takes and returns 16-bit values. -/
def toPointFormat (h : Heap) (c : Coll) (fmt : Int) : Res (Heap × Coll) :=
  if fmt < 6 ∨ fmt > 8 then .throw .badFormat
  else (convertAll fmt h c.pts).bind fun h' =>
    (pointBaseByteSize c.fmt).bind fun b =>
    (pointByteSize fmt ((c.recLen + 65536 - b) % 65536)).bind fun l =>
    .ok (h', { c with fmt := fmt, recLen := l })

/-- The loop of the array setters, `points.hpp:96-97` and its like. -/
def setAll {α : Type} (set : Point → α → Res Point) : Heap → List (Nat × α) → Res Unit × Heap
  | h, [] => (.ok (), h)
  | h, (i, a) :: l => match h[i]? with
    | none => (.ub, h)
    | some p => match set p a with
      | .ok q => setAll set (h.set i q) l
      | .throw e => (.throw e, h)
      | .ub => (.ub, h)

/-- Array setters `X`, `Y`, `Z`, `Classification`, `PointSourceId`, `Red`, `Green`, `Blue`,
`points.hpp:77-203`. -/
def arraySet {α : Type} (set : Point → α → Res Point) (h : Heap) (c : Coll) (v : List α) :
    Res Unit × Heap :=
  if v.length ≠ c.pts.length then (.throw .arraySize, h) else setAll set h (c.pts.zip v)

/-- Array getters, `points.hpp:69-195`. -/
def arrayGet {α : Type} (get : Point → Res α) (h : Heap) (c : Coll) : Res (List α) :=
  Res.mapL (fun i => match h[i]? with
    | none => Res.ub
    | some p => get p) c.pts

/-- `Points::PointSourceId()`, `points.hpp:137-144`: the values are narrowed to `uint8_t`. -/
def getPointSourceIds (h : Heap) (c : Coll) : Res (List UInt8) :=
  arrayGet (fun p => .ok p.pointSourceId.toUInt8) h c

/-- `Points::PointSourceId(vector<uint8_t>)`, `points.hpp:145-152`. -/
def setPointSourceIds (h : Heap) (c : Coll) (v : List UInt8) : Res Unit × Heap :=
  arraySet (fun p a => .ok (p.setPointSourceId a.toUInt16)) h c v

/-- `Points::Within`, `points.hpp:206-214`. -/
def within (h : Heap) (c : Coll) (b : Box Dbl) : Bool :=
  c.pts.all fun i => match h[i]? with
    | none => false
    | some p => p.within b

/-- `Points::GetWithin`, `points.hpp:217-228`. -/
def getWithin (h : Heap) (c : Coll) (b : Box Dbl) : List Nat :=
  c.pts.filter fun i => match h[i]? with
    | none => false
    | some p => p.within b

end Coll
end Copc
