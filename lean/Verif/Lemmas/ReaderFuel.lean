import Verif.Model.Reader
/-! # More nested calls do not change a result -/
namespace Copc

/-- `y` returns what `x` returns, if it returns. -/
def Run.Le {σ α : Type} (x y : Run σ α) : Prop := ∀ s r, x s = some r → y s = some r

theorem Run.Le.refl {σ α : Type} (x : Run σ α) : Run.Le x x := fun _ _ h => h

theorem Run.Le.bind {σ α β : Type} {x y : Run σ α} {f g : α → Run σ β} (h : Run.Le x y)
    (hf : ∀ a, Run.Le (f a) (g a)) : Run.Le (x >>= f) (y >>= g) := by
  intro s r hr
  rw [Run.bind_apply] at hr ⊢
  cases hx : x s with
  | none => rw [hx] at hr; cases hr
  | some p =>
    obtain ⟨a, s'⟩ := p
    rw [hx] at hr
    rw [h s _ hx]
    cases a with
    | ok a => exact hf a s' r hr
    | throw e => exact hr
    | ub => exact hr

theorem Run.Le.collect {σ α β : Type} {f g : α → Run σ (List β)} (hf : ∀ a, Run.Le (f a) (g a)) :
    ∀ l, Run.Le (Run.collect f l) (Run.collect g l)
  | [] => Run.Le.refl _
  | a :: l => by
    rw [Run.collect_cons, Run.collect_cons]
    exact (hf a).bind fun _ => (Run.Le.collect hf l).bind fun _ => Run.Le.refl _

namespace HReader

theorem findNode_succ (key : VoxelKey) : ∀ n, Run.Le (findNode n key) (findNode (n + 1) key)
  | 0 => fun s r h => by rw [findNode] at h; cases h
  | n + 1 => fun s r h => by
    rw [findNode] at h ⊢
    simp only at h ⊢
    split at h
    · exact h
    · split at h
      · exact h
      · split at h
        · exact h
        · split at h
          · rename_i hl; rw [if_pos hl]; exact h
          · rename_i hl
            rw [if_neg hl]
            exact (Run.Le.refl _).bind (fun _ => findNode_succ key n) s r h

theorem load_succ (ord : ROrder) : ∀ n id, Run.Le (loadPageHierarchy ord n id) (loadPageHierarchy ord (n + 1) id)
  | 0, _ => fun s r h => by rw [loadPageHierarchy] at h; cases h
  | n + 1, id => fun s r h => by
    rw [loadPageHierarchy] at h ⊢
    simp only at h ⊢
    split at h
    · exact h
    · split at h
      · rename_i hl; rw [if_pos hl]; exact h
      · rename_i hl
        rw [if_neg hl]
        refine (Run.Le.refl _).bind (fun _ => (Run.Le.refl _).bind fun q => ?_) s r h
        cases q with
        | none => exact Run.Le.refl _
        | some q => exact (Run.Le.collect (load_succ ord n) _).bind fun _ => Run.Le.refl _

theorem children_succ (ord : ROrder) (key : VoxelKey) (n : Nat) :
    Run.Le (getAllChildrenOfPage ord n key) (getAllChildrenOfPage ord (n + 1) key) := by
  unfold getAllChildrenOfPage
  split
  · exact Run.Le.refl _
  · refine (findNode_succ key n).bind fun node s r h => ?_
    unfold childrenFrom at h ⊢
    split at h
    · exact h
    · exact load_succ ord n _ s r h

end HReader

theorem Run.Le.onHier {α : Type} {x y : Run HReader α} (h : Run.Le x y) : Run.Le (Reader.onHier x) (Reader.onHier y) := by
  intro r p hp
  change (x r.h).map _ = _ at hp
  show (y r.h).map _ = _
  cases hx : x r.h with
  | none => rw [hx] at hp; cases hp
  | some q => rw [hx] at hp; rw [h _ _ hx]; exact hp

/-- A result found with some number of nested calls is the result. -/
theorem Run.ends_of {σ α : Type} {x : Nat → Run σ α} (hs : ∀ n, Run.Le (x n) (x (n + 1))) {n : Nat} {s : σ}
    {r : Res α × σ} (h : x n s = some r) : Run.Ends x s r := by
  refine ⟨n, fun m hm => ?_⟩
  obtain ⟨k, rfl⟩ := Nat.exists_eq_add_of_le hm
  clear hm
  induction k with
  | zero => exact h
  | succ k ih => exact hs _ _ _ ih

theorem Reader.children_ends {ord : ROrder} {key : VoxelKey} {n : Nat} {r : Reader} {p : Res (List Node) × Reader}
    (h : Reader.getAllChildrenOfPage ord n key r = some p) :
    Run.Ends (fun k => Reader.getAllChildrenOfPage ord k key) r p :=
  Run.ends_of (fun k => (HReader.children_succ ord key k).onHier) h

theorem Reader.findNode_ends {key : VoxelKey} {n : Nat} {r : Reader} {p : Res Node × Reader}
    (h : Reader.findNode n key r = some p) : Run.Ends (fun k => Reader.findNode k key) r p :=
  Run.ends_of (fun k => (HReader.findNode_succ key k).onHier) h

end Copc
