import Verif.Model.FileReader
import Verif.Lemmas.ReaderCalls
/-! # Queries that need no stream: those of a hierarchy that is completely loaded -/
namespace Copc
variable {α β : Type}

/-- All pages known are loaded. -/
def AllLoaded (h : RHier) : Prop := ∀ p ∈ h.heap, p.loaded = true

/-- With the hierarchy `h`, the call does not look at or change the stream, nor change the hierarchy. -/
def HSteady (h : RHier) (x : Run HReader α) : Prop :=
  ∃ o : Option (Res α), ∀ s, x ⟨s, h⟩ = o.map fun a => (a, ⟨s, h⟩)

theorem hSteady_bind {h : RHier} {x : Run HReader α} {g : α → Run HReader β} (hx : HSteady h x)
    (hg : ∀ a, HSteady h (g a)) : HSteady h (x >>= g) := by
  obtain ⟨o, ho⟩ := hx
  cases o with
  | none => exact ⟨none, fun s => Run.bind_none (ho s)⟩
  | some r =>
    cases r with
    | ok a =>
      obtain ⟨o', ho'⟩ := hg a
      exact ⟨o', fun s => (Run.bind_ok (ho s)).trans (ho' s)⟩
    | throw e => exact ⟨some (.throw e), fun s => Run.bind_throw (ho s)⟩
    | ub => exact ⟨some .ub, fun s => Run.bind_ub (ho s)⟩

theorem hSteady_pure (h : RHier) (a : α) : HSteady h (pure a : Run HReader α) := ⟨some (.ok a), fun _ => rfl⟩
theorem hSteady_none (h : RHier) : HSteady h (fun _ => none : Run HReader α) := ⟨none, fun _ => rfl⟩

theorem hSteady_collect {h : RHier} {f : β → Run HReader (List α)} (hf : ∀ b, HSteady h (f b)) (l : List β) :
    HSteady h (Run.collect f l) := by
  induction l with
  | nil => exact hSteady_pure h _
  | cons b l ih => exact hSteady_bind (hf b) fun x => hSteady_bind ih fun y => hSteady_pure h _

theorem hSteady_findNode {h : RHier} (hl : AllLoaded h) (fuel : Nat) (key : VoxelKey) :
    HSteady h (HReader.findNode fuel key) := by
  cases fuel with
  | zero => exact hSteady_none h
  | succ k =>
    cases h1 : AList.get key h.nodes with
    | some n => exact ⟨some (.ok n), fun s => by unfold HReader.findNode; simp only [h1]; rfl⟩
    | none =>
      cases h2 : h.nearest (key.getParents true) with
      | none => exact ⟨some (.ok Node.empty), fun s => by unfold HReader.findNode; simp only [h1, h2]; rfl⟩
      | some id =>
        cases h3 : h.heap[id]? with
        | none => exact ⟨some .ub, fun s => by unfold HReader.findNode; simp only [h1, h2, h3]; rfl⟩
        | some p =>
          have := hl p (List.mem_of_getElem? h3)
          exact ⟨some (.ok Node.empty), fun s => by
            unfold HReader.findNode; simp only [h1, h2, h3]; rw [if_pos this]; rfl⟩

theorem hSteady_load {h : RHier} (hl : AllLoaded h) (ord : ROrder) : ∀ (fuel id : Nat),
    HSteady h (HReader.loadPageHierarchy ord fuel id) := by
  intro fuel
  induction fuel with
  | zero => exact fun id => hSteady_none h
  | succ k ih =>
    intro id
    cases h3 : h.heap[id]? with
    | none => exact ⟨some .ub, fun s => by unfold HReader.loadPageHierarchy; simp only [h3]; rfl⟩
    | some p =>
      by_cases hv : p.isValid = false
      · exact ⟨some (.ok []), fun s => by
          unfold HReader.loadPageHierarchy; simp only [h3]; rw [if_pos hv]; rfl⟩
      · have hp := hl p (List.mem_of_getElem? h3)
        have key : HSteady h (Run.ofAct (HReader.ensureLoaded id p) >>= fun _ =>
            Run.gets (fun s => s.hier.heap[id]?) >>= fun q => (match q with
              | none => Run.lift .ub
              | some q => Run.collect (HReader.loadPageHierarchy ord k) (ord.subs q.subs) >>= fun l =>
                pure (l ++ (ord.nodes q.nodes).map (·.2)) : Run HReader (List Node))) := by
          refine hSteady_bind ⟨some (.ok ()), fun s => ?_⟩ fun _ =>
            hSteady_bind ⟨some (.ok (h.heap[id]?)), fun s => rfl⟩ fun q => ?_
          · show some (HReader.ensureLoaded id p ⟨s, h⟩) = _
            unfold HReader.ensureLoaded
            rw [if_pos hp]
            rfl
          · cases q with
            | none => exact ⟨some .ub, fun _ => rfl⟩
            | some q => exact hSteady_bind (hSteady_collect ih _) fun l => hSteady_pure h _
        obtain ⟨o, ho⟩ := key
        refine ⟨o, fun s => ?_⟩
        rw [← ho s]
        conv_lhs => unfold HReader.loadPageHierarchy
        simp only [h3]
        rw [if_neg hv]
        rfl

theorem hSteady_children {h : RHier} (hl : AllLoaded h) (ord : ROrder) (fuel : Nat) (key : VoxelKey) :
    HSteady h (HReader.getAllChildrenOfPage ord fuel key) := by
  unfold HReader.getAllChildrenOfPage
  split
  · exact hSteady_pure h _
  · refine hSteady_bind (hSteady_findNode hl fuel key) fun node => ?_
    cases h1 : AList.get key h.seen with
    | none => exact ⟨some (.ok (if node.isValid then [node] else [])), fun s => by
        unfold HReader.childrenFrom; simp only [h1]; rfl⟩
    | some id =>
      obtain ⟨o, ho⟩ := hSteady_load hl ord fuel id
      exact ⟨o, fun s => by unfold HReader.childrenFrom; simp only [h1]; exact ho s⟩

theorem hSteady_pages {h : RHier} (hl : AllLoaded h) (ord : ROrder) (fuel : Nat) :
    HSteady h (HReader.getPageList ord fuel) :=
  hSteady_bind (hSteady_children hl ord fuel _) fun _ => ⟨some (.ok ((ord.seen h.seen).filterMap fun e => (h.heap[e.2]?).map (·.key))), fun _ => rfl⟩

/-- The same for a `Reader`. -/
def Steady (r : Reader) (x : Run Reader α) : Prop :=
  ∃ o : Option (Res α), ∀ s, x (r.onto s) = o.map fun a => (a, r.onto s)

theorem steady_bind {r : Reader} {x : Run Reader α} {g : α → Run Reader β} (hx : Steady r x)
    (hg : ∀ a, Steady r (g a)) : Steady r (x >>= g) := by
  obtain ⟨o, ho⟩ := hx
  cases o with
  | none => exact ⟨none, fun s => Run.bind_none (ho s)⟩
  | some c =>
    cases c with
    | ok a =>
      obtain ⟨o', ho'⟩ := hg a
      exact ⟨o', fun s => (Run.bind_ok (ho s)).trans (ho' s)⟩
    | throw e => exact ⟨some (.throw e), fun s => Run.bind_throw (ho s)⟩
    | ub => exact ⟨some .ub, fun s => Run.bind_ub (ho s)⟩

theorem steady_hier {r : Reader} {x : Run HReader α} (h : HSteady r.h.hier x) : Steady r (Reader.onHier x) := by
  obtain ⟨o, ho⟩ := h
  refine ⟨o, fun s => ?_⟩
  unfold Reader.onHier Run.zoom
  have := ho s
  rw [show ((fun r : Reader => r.h) (r.onto s)) = ⟨s, r.h.hier⟩ from rfl, this]
  cases o <;> rfl

theorem Steady.offline {r : Reader} {x : Run Reader α} (h : Steady r x) : Reader.Offline x r := by
  obtain ⟨o, ho⟩ := h
  intro s
  have h0 : x r = o.map fun a => (a, r) := ho r.h.str
  rw [ho s, h0]
  cases o <;> rfl

theorem Steady.same {r r' : Reader} {x : Run Reader α} (h : Steady r x) {a : Res α} (hx : x r = some (a, r')) :
    r' = r := by
  obtain ⟨o, ho⟩ := h
  have h0 : x r = o.map fun a => (a, r) := ho r.h.str
  rw [hx] at h0
  cases o with
  | none => cases h0
  | some b => injection h0 with h0; injection h0

end Copc
