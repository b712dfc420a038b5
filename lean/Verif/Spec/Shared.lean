import Verif.Model.Shared
/-! # Objects as values

What a program observes if every configuration and every writer is an object of its own: an action adds an object or
changes the one object it is given. -/
namespace Copc

namespace Worth

/-- The header of the configuration. -/
def header : Worth → LasHeader
  | copcConfig c => c.header
  | lazConfig c => c.header
  | writer w => w.cfg.header
  | lazWriter w => w.cfg.header

def withHeader (h : LasHeader) : Worth → Worth
  | copcConfig c => copcConfig { c with header := h }
  | lazConfig c => lazConfig { c with header := h }
  | writer w => writer { w with cfg := { w.cfg with header := h } }
  | lazWriter w => lazWriter { w with cfg := { w.cfg with header := h } }

/-- The COPC configuration. -/
def copc : Worth → Option CopcConfig
  | copcConfig c => some c
  | writer w => some w.cfg
  | _ => none

def withCopc (c : CopcConfig) : Worth → Worth
  | copcConfig _ => copcConfig c
  | writer w => writer { w with cfg := c }
  | x => x

end Worth

/-- The configuration with the extent number `k` replaced. -/
def CopcConfig.withExtent (v : CopcConfig) (k : Nat) (e : Extent) : CopcConfig :=
  { v with extents := { v.extents with extents := v.extents.extents.set k e } }

namespace Spec

/-- A constructor: a new object, or an exception. -/
def made {α : Type} (vs : List Worth) (x : Res α) (f : α → Worth) : Option (List Worth) := match x with
  | .ok a => some (vs ++ [f a])
  | .throw _ => some vs
  | .ub => none

/-- What an action does to the values of the objects. -/
def act (L : Lazperf) (ord : Order) (vs : List Worth) : Action → Option (List Worth)
  | .newCopc fmt sc off wkt eb ext => made vs (CopcConfig.make fmt sc off wkt eb ext) .copcConfig
  | .copcOf c => made vs c.copy .copcConfig
  | .copyCopc o => match vs[o]? with
    | some (.copcConfig c) => made vs c.copy .copcConfig
    | _ => none
  | .newLaz fmt sc off wkt eb => made vs (LazConfig.make fmt sc off wkt eb false) .lazConfig
  | .lazOf c => some (vs ++ [.lazConfig c.forWriter])
  | .lazOfCopc o => match vs[o]? with
    | some (.copcConfig c) => some (vs ++ [.lazConfig (LazConfig.ofCopc c).forWriter])
    | _ => none
  | .copyLaz o => match vs[o]? with
    | some (.lazConfig c) => some (vs ++ [.lazConfig c])
    | _ => none
  | .newWriter out o ov => match vs[o]? with
    | some (.copcConfig c) => made vs (Writer.make out c ov) .writer
    | _ => none
  | .newLazWriter out o => match vs[o]? with
    | some (.lazConfig c) => made vs (LazWriter.make out c) .lazWriter
    | _ => none
  | .setHeader o h => match vs[o]? with
    | some v => if HeaderEdit v.header h then some (vs.set o (v.withHeader h)) else none
    | none => none
  | .setInfo o i => match vs[o]? with
    | some v => match v.copc with
      | some c => some (vs.set o (v.withCopc { c with info := i }))
      | none => none
    | none => none
  | .setExtent o k e => match vs[o]? with
    | some v => match v.copc with
      | some c => if k < c.extents.extents.length then some (vs.set o (v.withCopc (c.withExtent k e))) else none
      | none => none
    | none => none
  | .putExtent o k e => match vs[o]? with
    | some v => match v.copc with
      | some c => if k < c.extents.extents.length then some (vs.set o (v.withCopc (c.withExtent k e))) else none
      | none => none
    | none => none
  | .call o op => match vs[o]? with
    | some (.writer w) => match op.run L ord w with
      | (.ub, _) => none
      | (_, w') => some (vs.set o (.writer w'))
    | _ => none
  | .lazCall o op => match vs[o]? with
    | some (.lazWriter w) => match op.run L w with
      | (.ub, _) => none
      | (_, w') => some (vs.set o (.lazWriter w'))
    | _ => none

/-- A whole program. -/
def acts (L : Lazperf) (ord : Order) : List Worth → List Action → Option (List Worth)
  | vs, [] => some vs
  | vs, a :: l => (act L ord vs a).bind fun vs' => acts L ord vs' l

end Spec

/-- A whole program. -/
def World.steps (L : Lazperf) (ord : Order) : World → List Action → Option World
  | W, [] => some W
  | W, a :: l => (W.step L ord a).bind fun W' => W'.steps L ord l

/-- The objects of the program have these values. -/
def World.Means (W : World) (vs : List Worth) : Prop := ∀ o, W.worth o = vs[o]?

/-- The action is an edit of the header of a `LazConfigWriter` or of a `LazWriter`. -/
def Action.editsLaz (vs : List Worth) : Action → Prop
  | .setHeader o _ => ∃ v, vs[o]? = some v ∧ v.copc = none
  | _ => False

/-- The action copies a `LazConfigWriter`, or makes a `LazWriter` of one. -/
def Action.sharesLaz : Action → Bool
  | .copyLaz _ => true
  | .newLazWriter _ _ => true
  | _ => false

/-- The header object of a LAZ object, which tells which objects have it in common. -/
def World.family (W : World) (o : Nat) : Option Nat := match W.things[o]? with
  | some t => match t.copc with
    | some _ => none
    | none => some t.header
  | none => none

/-- No action in the list edits the header of a LAZ object. -/
def Spec.Quiet (L : Lazperf) (ord : Order) : List Worth → List Action → Prop
  | _, [] => True
  | vs, a :: l => ¬ a.editsLaz vs ∧ ∀ vs', act L ord vs a = some vs' → Quiet L ord vs' l

end Copc
