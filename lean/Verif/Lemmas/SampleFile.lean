import Verif.Props.RoundTrip
import Verif.Lemmas.ReaderFuel
/-! # Concrete files, used to show that hypotheses can be met and that properties fail -/
namespace Copc
open Spec

/-- The call adds a node. -/
def Op.isAdd : Op → Bool
  | .add .. => true
  | .addPoints .. => true
  | .addCompressed .. => true
  | _ => false

/-- The nodes that were added, from the outcomes. -/
def gotNodes (outs : List (Res (Option Node))) : List Node := outs.filterMap fun x => match x with
  | .ok r => r
  | _ => none

theorem run_ops (L : Lazperf) (ord : Order) : ∀ (l : List Op) (w : Writer) (h),
    (Sample.run L ord l w h).1.map (·.1) = h.map (·.1) ++ l
  | [], w, h => by simp [Sample.run]
  | op :: l, w, h => by rw [Sample.run, run_ops L ord l]; simp

theorem added_of_outcomes (h : List (Op × Res (Option Node))) : addedNodes h = gotNodes (h.map (·.2)) := by
  unfold addedNodes gotNodes
  rw [List.filterMap_map]
  rfl

theorem unmoved_of_adds {h : List (Op × Res (Option Node))} (ha : ∀ x ∈ h, x.1.isAdd = true) (k : VoxelKey) :
    movedTo h k = [] := by
  unfold movedTo
  rw [List.filterMap_eq_nil_iff]
  intro x hx
  have := ha x hx
  obtain ⟨op, r⟩ := x
  cases op with
  | move k p => cases this
  | add => rfl
  | addPoints => rfl
  | addCompressed => rfl
  | close => rfl

/-- A file written by a concrete list of additions. -/
theorem written_of {L : Lazperf} {ord : Order} {c : CopcConfig} {o : Writer.Overrides} {w0 : Writer}
    (hm : Writer.make OStream.fresh c o = .ok w0)
    {ops : List Op} (hops : ∀ op ∈ ops, op.isAdd = true) {h : List (Op × Res (Option Node))} {w : Writer} {data : Bytes}
    (hh : (Sample.run L ord ops w0 []).1 = h) (hw : (Sample.run L ord ops w0 []).2 = w)
    (hdata : (Writer.close L ord w).2.base.out.data = data) {outs : List (Res (Option Node))}
    (houts : h.map (·.2) = outs) (hub : ∀ x ∈ outs, x.isOk = true)
    (hcl : (Writer.close L ord w).1 = .ok ())
    (hd : ((gotNodes outs).map (·.entry.key)).Nodup)
    (hc : ∀ n ∈ gotNodes outs, n.entry.key.InRange ∧ 0 < n.entry.pointCount ∧ n.entry.pointCount < 2 ^ 31)
    (hs : Storable w.cfg) (hsize : data.length < 2 ^ 63) (hfew : w.pages.length + 1 < 2 ^ 31) :
    Written L ord w0 w h data ∧ addedNodes h = gotNodes outs ∧ ∀ k, movedTo h k = [] := by
  have hadd : addedNodes h = gotNodes outs := by rw [added_of_outcomes, houts]
  have hall : ∀ x ∈ h, x.1.isAdd = true := by
    intro x hx
    have : x.1 ∈ (Sample.run L ord ops w0 []).1.map (·.1) := by rw [hh]; exact List.mem_map_of_mem hx
    rw [run_ops] at this
    exact hops _ this
  refine ⟨⟨⟨c, o, hm⟩, ?_, ?_, ⟨_, Prod.ext hcl rfl, hdata⟩, ?_, ?_, ?_, hs, hsize, hfew⟩,
    hadd, unmoved_of_adds hall⟩
  · rw [← hh, ← hw]
    refine Sample.run_history ops w0 [] .start ?_
    rw [hh]
    intro x hx he
    have : x.2 ∈ h.map (·.2) := List.mem_map_of_mem hx
    rw [houts, he] at this
    exact absurd (hub _ this) (by simp [Res.isOk])
  · intro x hx he
    have := hall x hx
    rw [he] at this
    cases this
  · unfold DistinctKeys; rw [hadd]; exact hd
  · intro k; rw [unmoved_of_adds hall]; simp
  · unfold Counted; rw [hadd]; exact hc

theorem make_of_ok {c : CopcConfig} {o : Writer.Overrides} (h : (Writer.make OStream.fresh c o).isOk = true) :
    Writer.make OStream.fresh c o = .ok (Sample.getOk (Writer.make OStream.fresh c o)) := by
  cases hm : Writer.make OStream.fresh c o with
  | ok a => rfl
  | throw e => rw [hm] at h; cases h
  | ub => rw [hm] at h; cases h

theorem init_of_ok {data : Bytes} [Inhabited Reader] (h : (Reader.init ⟨data, 0, false⟩).isOk = true) :
    Reader.init ⟨data, 0, false⟩ = .ok (Sample.getOk (Reader.init ⟨data, 0, false⟩)) := by
  cases hm : Reader.init ⟨data, 0, false⟩ with
  | ok a => rfl
  | throw e => rw [hm] at h; cases h
  | ub => rw [hm] at h; cases h

theorem Reader.allNodes_ends {ord : ROrder} {n : Nat} {r : Reader} {p : Res (List Node) × Reader}
    (h : Reader.getAllNodes ord n r = some p) : Run.Ends (fun k => Reader.getAllNodes ord k) r p :=
  Reader.children_ends h

theorem Reader.validate_ends {L : Lazperf} {ord : ROrder} {v : Bool} {n : Nat} {r : Reader} {p : Res Bool × Reader}
    (h : Reader.validateSpatialBounds L ord n v r = some p) :
    Run.Ends (fun k => Reader.validateSpatialBounds L ord k v) r p :=
  Run.ends_of (fun k => ((HReader.children_succ ord VoxelKey.root k).onHier).bind fun _ => Run.Le.refl _) h

end Copc
