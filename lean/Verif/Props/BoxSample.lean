import Verif.Lemmas.SampleFile
import Verif.Props.BoxQuery
/-! # C40, C42: a file to which the theorems apply, and one where the verbose validation overflows -/
namespace Copc
open Spec VoxelKey

/-- A cube of side 8. -/
def eight : Vec3 Dbl := ⟨Flt.ofInt 8, Flt.ofInt 8, Flt.ofInt 8⟩

/-- The configuration of the sample with bounds 0 to `mx`. -/
def boxCfg (mx : Vec3 Dbl) : CopcConfig :=
  { Sample.cfg with header := { Sample.cfg.header with min := Sample.zero, max := mx } }

/-- A record of 31 bytes at the given coordinates (scale 1, offset 0). -/
def recAt (x y z : UInt8) : Bytes :=
  [x, 0, 0, 0, y, 0, 0, 0, z, 0, 0, 0] ++ List.replicate 19 0

namespace BoxFile

def w0 : Writer := Sample.getOk (Writer.make OStream.fresh (boxCfg eight) {})
def ops : List Op := [.add VoxelKey.root (recAt 1 2 3 ++ recAt 7 0 8) VoxelKey.root,
  .add Sample.kA (recAt 5 1 6 ++ (recAt 6 4 4 ++ recAt 8 0 8)) Sample.kA]
def outs : List (Res (Option Node)) := [.ok (some ⟨⟨VoxelKey.root, 1531, 62, 2⟩, VoxelKey.root⟩),
  .ok (some ⟨⟨Sample.kA, 1593, 93, 3⟩, Sample.kA⟩)]
def hist : List (Op × Res (Option Node)) := (Sample.run Sample.L Sample.ord ops w0 []).1
def w : Writer := (Sample.run Sample.L Sample.ord ops w0 []).2
def data : Bytes := (Writer.close Sample.L Sample.ord w).2.base.out.data

theorem hist_eq : (Sample.run Sample.L Sample.ord ops w0 []).1 = hist := by rw [hist]
theorem w_eq : (Sample.run Sample.L Sample.ord ops w0 []).2 = w := by rw [w]
theorem data_eq : (Writer.close Sample.L Sample.ord w).2.base.out.data = data := by rw [data]

theorem made : Writer.make OStream.fresh (boxCfg eight) {} = .ok w0 := make_of_ok (by decide +kernel)
theorem outcomes : hist.map (·.2) = outs := by decide +kernel
theorem closes : (Writer.close Sample.L Sample.ord w).1 = .ok () := by decide +kernel

theorem storable : Storable w.cfg := by
  refine ⟨⟨by decide +kernel, by decide +kernel, by decide +kernel, by decide +kernel⟩, ⟨by decide +kernel,
    by decide +kernel, ⟨by decide +kernel, ?_⟩, ⟨by decide +kernel, ?_⟩, ⟨by decide +kernel, ?_⟩⟩,
    by decide +kernel, ?_, by decide +kernel, ?_, by decide +kernel⟩
  · have : w.cfg.header.guid = [] := by decide +kernel
    rw [this]; decide
  · have : w.cfg.header.systemIdentifier = [] := by decide +kernel
    rw [this]; decide
  · have : w.cfg.header.generatingSoftware = [] := by decide +kernel
    rw [this]; decide
  · have : ∀ x ∈ w.cfg.extents.extents, Flt.lt' x.maximum x.minimum = false ∧
        Flt.lt' x.var Flt.zero = false := by decide +kernel
    intro x hx
    exact ⟨(ordered_iff x).2 (this x hx).1, (varOk_iff x).2 (this x hx).2⟩
  · have : w.cfg.eb = [EbField.simple 1 0 []] := by decide +kernel
    rw [this]
    intro f hf
    obtain rfl := List.mem_singleton.1 hf
    exact ⟨by decide, by decide, ⟨by decide, by decide⟩, ⟨by decide, by decide⟩⟩

theorem adds : ∀ op ∈ ops, op.isAdd = true := by
  intro op h
  simp only [ops, List.mem_cons, List.not_mem_nil, or_false] at h
  rcases h with rfl | rfl <;> rfl
theorem oks : ∀ x ∈ outs, x.isOk = true := by decide
theorem distinct : ((gotNodes outs).map (·.entry.key)).Nodup := by decide
theorem counted : ∀ n ∈ gotNodes outs, n.entry.key.InRange ∧ 0 < n.entry.pointCount ∧ n.entry.pointCount < 2 ^ 31 := by
  decide
theorem size : data.length < 2 ^ 63 := by decide +kernel
theorem few : w.pages.length + 1 < 2 ^ 31 := by decide +kernel

theorem written : Written Sample.L Sample.ord w0 w hist data ∧ addedNodes hist = gotNodes outs ∧
    ∀ k, movedTo hist k = [] :=
  written_of made adds hist_eq w_eq data_eq outcomes oks closes distinct counted storable size few

/-- The reader, and what `GetPoints` returns on it. -/
def reader : Option Reader := match Reader.init ⟨data, 0, false⟩ with
  | .ok r => some r
  | _ => none

def root : Node := ⟨⟨VoxelKey.root, 1531, 62, 2⟩, VoxelKey.root⟩
def child : Node := ⟨⟨Sample.kA, 1593, 93, 3⟩, Sample.kA⟩

/-- Coordinates of points are all that matters here. -/
def coords (x : Res (List Point) × Reader) : Option (List (Vec3 Dbl)) := match x.1 with
  | .ok l => some (l.map fun p => ⟨p.x, p.y, p.z⟩)
  | _ => none

def at' (x y z : Int) : Vec3 Dbl := ⟨Flt.ofInt x, Flt.ofInt y, Flt.ofInt z⟩

theorem readable : reader.map (fun r => (coords (Reader.getPoints Sample.L root r), coords (Reader.getPoints Sample.L child r))) =
    some (some [at' 1 2 3, at' 7 0 8], some [at' 5 1 6, at' 6 4 4, at' 8 0 8]) := by decide +kernel

theorem bounds : reader.map (fun r => (r.cfg.header.min, r.cfg.header.max)) = some (Sample.zero, eight) := by decide +kernel

theorem coords_some {x : Res (List Point) × Reader} {l : List (Vec3 Dbl)} (h : coords x = some l) :
    ∃ ps, x = (.ok ps, x.2) ∧ ps.map (fun p => (⟨p.x, p.y, p.z⟩ : Vec3 Dbl)) = l := by
  obtain ⟨r, s⟩ := x
  cases r with
  | ok ps => exact ⟨ps, rfl, Option.some.inj h⟩
  | throw e => cases h
  | ub => cases h

theorem inside : ∀ v ∈ [at' 1 2 3, at' 7 0 8],
    (Box.ofNode VoxelKey.root Sample.zero eight).containsPoint v = true := by decide +kernel
theorem inside' : ∀ v ∈ [at' 5 1 6, at' 6 4 4, at' 8 0 8],
    (Box.ofNode Sample.kA Sample.zero eight).containsPoint v = true := by decide +kernel

theorem lies_of {b : Box Dbl} {ps : List Point} {l : List (Vec3 Dbl)} (h : ps.map (fun p => (⟨p.x, p.y, p.z⟩ : Vec3 Dbl)) = l)
    (hl : ∀ v ∈ l, b.containsPoint v = true) : ∀ p ∈ ps, Lies b p := fun p hp =>
  (C08_contains_point b _).1 (hl _ (by rw [← h]; exact List.mem_map_of_mem hp))

end BoxFile

/-- The theorems on `GetPointsWithinBox` and `ValidateSpatialBounds` apply to a file written by the library
with two pages, two nodes and five points. -/
theorem boxFile_ok : ∃ (ps : List FPage) (r : Reader) (pts : Node → List Point), GoodHierarchy BoxFile.data ps ∧ Opened BoxFile.data ps r ∧
    (∀ n, NodeOf ps n ↔ n = BoxFile.root ∨ n = BoxFile.child) ∧
    (∀ n, NodeOf ps n → PointsOf Sample.L r n (pts n)) ∧ (pts BoxFile.root).length = 2 ∧
    (pts BoxFile.child).length = 3 ∧ (∀ n, NodeOf ps n → ∀ p ∈ pts n, Lies (boxOf r n) p) ∧
    r.cfg.header.bounds = .ok ⟨Flt.ofInt 0, Flt.ofInt 0, Flt.ofInt 0, Flt.ofInt 8, Flt.ofInt 8, Flt.ofInt 8⟩ ∧
    ListsAll ps [BoxFile.root, BoxFile.child] := by
  obtain ⟨hw, hadd, hmov⟩ := BoxFile.written
  obtain ⟨ps, r, g1, g2, _, g4, _⟩ := hw.facts
  have hr : BoxFile.reader = some r := by unfold BoxFile.reader; rw [g4.init]
  have hnode : ∀ n, NodeOf ps n ↔ n = BoxFile.root ∨ n = BoxFile.child := by
    intro n
    rw [g2, hadd]
    have hrep : ∀ m : Node, reported BoxFile.hist m = m := by
      intro m
      unfold reported finalPage
      rw [hmov]
      rfl
    simp only [hrep]
    have : gotNodes BoxFile.outs = [BoxFile.root, BoxFile.child] := rfl
    rw [this]
    simp
  have h1 := BoxFile.readable
  have h2 := BoxFile.bounds
  rw [hr] at h1 h2
  obtain ⟨ha, hb⟩ := Prod.mk.inj (Option.some.inj h1)
  obtain ⟨hmn, hmx⟩ := Prod.mk.inj (Option.some.inj h2)
  obtain ⟨p1, e1, c1⟩ := BoxFile.coords_some ha
  obtain ⟨p2, e2, c2⟩ := BoxFile.coords_some hb
  refine ⟨ps, r, fun n => if n = BoxFile.root then p1 else p2, g1, g4, hnode, ?_, ?_, ?_, ?_, ?_, ?_⟩
  · intro n hn
    rcases (hnode n).1 hn with rfl | rfl
    · exact ⟨_, e1⟩
    · exact ⟨_, e2⟩
  · have := congrArg List.length c1
    simpa using this
  · have := congrArg List.length c2
    show (if BoxFile.child = BoxFile.root then p1 else p2).length = 3
    rw [if_neg (by decide)]
    simpa using this
  · intro n hn
    rcases (hnode n).1 hn with rfl | rfl
    · show ∀ p ∈ (if BoxFile.root = BoxFile.root then p1 else p2), _
      rw [if_pos rfl]
      rw [boxOf_eq]
      rw [hmn, hmx]
      exact BoxFile.lies_of c1 BoxFile.inside
    · show ∀ p ∈ (if BoxFile.child = BoxFile.root then p1 else p2), _
      rw [if_neg (by decide)]
      rw [boxOf_eq]
      rw [hmn, hmx]
      exact BoxFile.lies_of c2 BoxFile.inside'
  · unfold LasHeader.bounds
    rw [hmn, hmx]
    decide +kernel
  · exact ⟨by decide, fun n => by rw [hnode]; simp⟩

/-! ### The verbose variant overflows -/

namespace FlatFile

/-- Bounds of height 0; two nodes in the upper half of the cube, with counts as large as can be. -/
def w0 : Writer := Sample.getOk (Writer.make OStream.fresh (boxCfg ⟨Flt.ofInt 8, Flt.ofInt 8, Flt.ofInt 0⟩) {})
def ops : List Op := [.addCompressed ⟨1, 0, 0, 1⟩ [1] 2147483647 VoxelKey.root,
  .addCompressed ⟨1, 1, 0, 1⟩ [2] 2147483647 VoxelKey.root]
def w : Writer := (Sample.run Sample.L Sample.ord ops w0 []).2
def data : Bytes := (Writer.close Sample.L Sample.ord w).2.base.out.data
def reader : Option Reader := match Reader.init ⟨data, 0, false⟩ with
  | .ok r => some r
  | _ => none

theorem made : (Writer.make OStream.fresh (boxCfg ⟨Flt.ofInt 8, Flt.ofInt 8, Flt.ofInt 0⟩) {}).isOk = true := by decide +kernel
theorem closes : (Writer.close Sample.L Sample.ord w).1 = .ok () := by decide +kernel
theorem outcomes : ((Sample.run Sample.L Sample.ord ops w0 []).1.map (·.2.isOk)) = [true, true] := by decide +kernel

theorem quiet : reader.map (fun r => (Reader.validateSpatialBounds Sample.L ROrder.plain 10 false r).map (·.1)) =
    some (some (.ok false)) := by decide +kernel
theorem verbose : reader.map (fun r => (Reader.validateSpatialBounds Sample.L ROrder.plain 10 true r).map (·.1)) =
    some (some .ub) := by decide +kernel

end FlatFile

theorem map_fst {α β : Type} {x : Option (α × β)} {a : α} (h : x.map (·.1) = some a) : ∃ b, x = some (a, b) := by
  cases x with
  | none => cases h
  | some p => exact ⟨p.2, by rw [← Option.some.inj h]⟩

/-- There is a file written by the library for which `ValidateSpatialBounds(false)` returns `false` and
`ValidateSpatialBounds(true)` overflows a signed counter. -/
theorem C42_verbose_violated : ∃ r, Reader.init ⟨FlatFile.data, 0, false⟩ = .ok r ∧
    (∃ r2, Run.Ends (fun k => Reader.validateSpatialBounds Sample.L ROrder.plain k false) r (.ok false, r2)) ∧
    (∃ r2, Run.Ends (fun k => Reader.validateSpatialBounds Sample.L ROrder.plain k true) r (.ub, r2)) := by
  have h1 := FlatFile.quiet
  have h2 := FlatFile.verbose
  unfold FlatFile.reader at h1 h2
  cases hr : Reader.init ⟨FlatFile.data, 0, false⟩ with
  | throw e => rw [hr] at h1; cases h1
  | ub => rw [hr] at h1; cases h1
  | ok r =>
    rw [hr] at h1 h2
    obtain ⟨r1, e1⟩ := map_fst (Option.some.inj h1)
    obtain ⟨r2, e2⟩ := map_fst (Option.some.inj h2)
    exact ⟨r, rfl, ⟨r1, Reader.validate_ends e1⟩, ⟨r2, Reader.validate_ends e2⟩⟩

end Copc
