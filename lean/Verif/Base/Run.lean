import Verif.Base.Act
/-!
# Calls that may not return

`BaseIO::FindNode` and `BaseIO::LoadPageHierarchy` call themselves without a bound. Their models take
the number of nested calls allowed; `none` means that this number was not enough.
-/
namespace Copc

/-- A member function of an object in state `σ` which may not return. -/
def Run (σ : Type) (α : Type) := σ → Option (Res α × σ)

namespace Run
variable {σ τ α β : Type}

@[inline] protected def pure (a : α) : Run σ α := fun s => some (.ok a, s)

/-- Sequencing: an exception or undefined behaviour ends the call, a call that does not return keeps
the whole from returning. -/
@[inline] protected def bind (x : Run σ α) (f : α → Run σ β) : Run σ β := fun s =>
  match x s with
  | some (.ok a, s') => f a s'
  | some (.throw e, s') => some (.throw e, s')
  | some (.ub, s') => some (.ub, s')
  | none => none

instance : Monad (Run σ) where
  pure := Run.pure
  bind := Run.bind

/-- A call that always returns. -/
def ofAct (x : Act σ α) : Run σ α := fun s => some (x s)
/-- A computation that does not touch the object. -/
def lift (r : Res α) : Run σ α := fun s => some (r, s)
/-- Read a member. -/
def gets (f : σ → α) : Run σ α := fun s => some (.ok (f s), s)

/-- `for (auto &a : l) append(out, f(a));` -/
def collect (f : α → Run σ (List β)) : List α → Run σ (List β)
  | [] => Run.pure []
  | a :: l => Run.bind (f a) fun x => Run.bind (collect f l) fun y => Run.pure (x ++ y)

/-- A member function of a base class or of a member object. -/
def zoom (get : σ → τ) (set : τ → σ → σ) (x : Run τ α) : Run σ α := fun s =>
  (x (get s)).map fun r => (r.1, set r.2 s)

@[simp] theorem pure_apply (a : α) (s : σ) : (pure a : Run σ α) s = some (.ok a, s) := rfl
theorem bind_apply (x : Run σ α) (f : α → Run σ β) (s : σ) : (x >>= f) s =
    match x s with
    | some (.ok a, s') => f a s'
    | some (.throw e, s') => some (.throw e, s')
    | some (.ub, s') => some (.ub, s')
    | none => none := rfl
theorem bind_ok {x : Run σ α} {f : α → Run σ β} {s s' : σ} {a : α} (h : x s = some (.ok a, s')) :
    (x >>= f) s = f a s' := by rw [bind_apply, h]
theorem bind_throw {x : Run σ α} {f : α → Run σ β} {s s' : σ} {e : Exc}
    (h : x s = some (.throw e, s')) : (x >>= f) s = some (.throw e, s') := by rw [bind_apply, h]
theorem bind_ub {x : Run σ α} {f : α → Run σ β} {s s' : σ}
    (h : x s = some (.ub, s')) : (x >>= f) s = some (.ub, s') := by rw [bind_apply, h]
theorem bind_none {x : Run σ α} {f : α → Run σ β} {s : σ}
    (h : x s = none) : (x >>= f) s = none := by rw [bind_apply, h]
@[simp] theorem ofAct_apply (x : Act σ α) (s : σ) : ofAct x s = some (x s) := rfl
@[simp] theorem lift_apply (r : Res α) (s : σ) : (lift r : Run σ α) s = some (r, s) := rfl
@[simp] theorem gets_apply (f : σ → α) (s : σ) : gets f s = some (.ok (f s), s) := rfl
@[simp] theorem collect_nil (f : α → Run σ (List β)) (s : σ) : collect f [] s = some (.ok [], s) := rfl
theorem collect_cons (f : α → Run σ (List β)) (a : α) (l : List α) :
    collect f (a :: l) = (f a >>= fun x => collect f l >>= fun y => pure (x ++ y)) := rfl

/-- `x`, given more and more nested calls, returns `r` in the end. -/
def Ends (x : Nat → Run σ α) (s : σ) (r : Res α × σ) : Prop := ∃ n, ∀ m, n ≤ m → x m s = some r

/-- However many nested calls are allowed, `x` does not return. -/
def Diverges (x : Nat → Run σ α) (s : σ) : Prop := ∀ n, x n s = none

/-- A call has one result. -/
theorem Ends.unique {x : Nat → Run σ α} {s : σ} {r r' : Res α × σ} (h : Ends x s r)
    (h' : Ends x s r') : r = r' := by
  obtain ⟨n, hn⟩ := h
  obtain ⟨m, hm⟩ := h'
  have e1 := hn (max n m) (Nat.le_max_left ..)
  have e2 := hm (max n m) (Nat.le_max_right ..)
  rw [e1] at e2
  exact Option.some.inj e2

theorem Ends.not_diverges {x : Nat → Run σ α} {s : σ} {r : Res α × σ} (h : Ends x s r) :
    ¬Diverges x s := by
  obtain ⟨n, hn⟩ := h
  intro hd
  have e := hn n (Nat.le_refl n)
  rw [hd n] at e
  cases e

theorem Ends.bind {x : Nat → Run σ α} {f : Nat → α → Run σ β} {s s' : σ} {a : α}
    {r : Res β × σ} (h : Ends x s (.ok a, s')) (hf : Ends (fun n => f n a) s' r) :
    Ends (fun n => x n >>= f n) s r := by
  obtain ⟨n, hn⟩ := h
  obtain ⟨m, hm⟩ := hf
  refine ⟨max n m, fun k hk => ?_⟩
  have h1 := hn k (by omega)
  have h2 := hm k (by omega)
  show (x k >>= f k) s = some r
  rw [bind_ok h1]
  exact h2

theorem Ends.const {x : Run σ α} {s : σ} {r : Res α × σ} (h : x s = some r) :
    Ends (fun _ => x) s r := ⟨0, fun _ _ => h⟩

end Run
end Copc
