import Verif.Base.Res
/-!
# Member functions of stateful objects

A call on an object in state `σ` gives an outcome and the new state; after an exception the object
keeps the state it had when the exception left the function.
-/
namespace Copc

/-- A member function returning `α`. -/
def Act (σ : Type) (α : Type) := σ → Res α × σ

namespace Act
variable {σ τ α β : Type}

/-- `return a`. -/
@[inline] protected def pure (a : α) : Act σ α := fun s => (.ok a, s)

/-- Sequencing: an exception or undefined behaviour ends the call. -/
@[inline] protected def bind (x : Act σ α) (f : α → Act σ β) : Act σ β := fun s =>
  match x s with
  | (.ok a, s') => f a s'
  | (.throw e, s') => (.throw e, s')
  | (.ub, s') => (.ub, s')

instance : Monad (Act σ) where
  pure := Act.pure
  bind := Act.bind

/-- `throw`. -/
def raise (e : Exc) : Act σ α := fun s => (.throw e, s)
/-- Undefined behaviour. -/
def undef : Act σ α := fun s => (.ub, s)
/-- A computation that does not touch the object. -/
def lift (r : Res α) : Act σ α := fun s => (r, s)
/-- Read a member. -/
def gets (f : σ → α) : Act σ α := fun s => (.ok (f s), s)
/-- Assign members. -/
def modify (f : σ → σ) : Act σ Unit := fun s => (.ok (), f s)
/-- `if (c) throw e;` -/
def throwIf (c : Prop) [Decidable c] (e : Exc) : Act σ Unit := fun s =>
  if c then (.throw e, s) else (.ok (), s)
/-- `for (auto &a : l) f(a);` -/
def forEach (f : α → Act σ Unit) : List α → Act σ Unit
  | [] => Act.pure ()
  | a :: l => Act.bind (f a) fun _ => forEach f l
/-- A member function of a base class or of a member object. -/
def zoom (get : σ → τ) (set : τ → σ → σ) (x : Act τ α) : Act σ α := fun s =>
  let r := x (get s)
  (r.1, set r.2 s)

@[simp] theorem pure_apply (a : α) (s : σ) : (pure a : Act σ α) s = (.ok a, s) := rfl
theorem bind_apply (x : Act σ α) (f : α → Act σ β) (s : σ) : (x >>= f) s =
    match x s with
    | (.ok a, s') => f a s'
    | (.throw e, s') => (.throw e, s')
    | (.ub, s') => (.ub, s') := rfl
@[simp] theorem raise_apply (e : Exc) (s : σ) : (raise e : Act σ α) s = (.throw e, s) := rfl
@[simp] theorem undef_apply (s : σ) : (undef : Act σ α) s = (.ub, s) := rfl
@[simp] theorem lift_apply (r : Res α) (s : σ) : (lift r : Act σ α) s = (r, s) := rfl
@[simp] theorem gets_apply (f : σ → α) (s : σ) : gets f s = (.ok (f s), s) := rfl
@[simp] theorem modify_apply (f : σ → σ) (s : σ) : modify f s = (.ok (), f s) := rfl
theorem throwIf_apply (c : Prop) [Decidable c] (e : Exc) (s : σ) :
    throwIf c e s = if c then (.throw e, s) else (.ok (), s) := rfl
theorem throwIf_pos {c : Prop} [Decidable c] (h : c) (e : Exc) (s : σ) :
    throwIf c e s = (.throw e, s) := by simp [throwIf, h]
theorem throwIf_neg {c : Prop} [Decidable c] (h : ¬c) (e : Exc) (s : σ) :
    throwIf c e s = (.ok (), s) := by simp [throwIf, h]
@[simp] theorem zoom_apply (get : σ → τ) (set : τ → σ → σ) (x : Act τ α) (s : σ) :
    zoom get set x s = ((x (get s)).1, set (x (get s)).2 s) := rfl
@[simp] theorem forEach_nil (f : α → Act σ Unit) (s : σ) : forEach f [] s = (.ok (), s) := rfl
theorem forEach_cons (f : α → Act σ Unit) (a : α) (l : List α) :
    forEach f (a :: l) = (f a >>= fun _ => forEach f l) := rfl

@[simp] theorem ite_apply' (c : Prop) [Decidable c] (x y : Act σ α) (s : σ) :
    (if c then x else y : Act σ α) s = if c then x s else y s := by split <;> rfl

/-- What a successful sequence of two calls means. -/
theorem bind_eq_ok {x : Act σ α} {f : α → Act σ β} {s s'' : σ} {b : β} :
    (x >>= f) s = (.ok b, s'') ↔ ∃ a s', x s = (.ok a, s') ∧ f a s' = (.ok b, s'') := by
  rw [bind_apply]
  rcases h : x s with ⟨r, s'⟩
  cases r with
  | ok a =>
    constructor
    · intro h2; exact ⟨a, s', rfl, h2⟩
    · rintro ⟨a', s1, h1, h2⟩
      cases h1
      exact h2
  | throw e =>
    constructor
    · intro h2; simp at h2
    · rintro ⟨a', s1, h1, h2⟩; cases h1
  | ub =>
    constructor
    · intro h2; simp at h2
    · rintro ⟨a', s1, h1, h2⟩; cases h1

/-- Sequencing after a successful call. -/
theorem bind_ok {x : Act σ α} {f : α → Act σ β} {s s' : σ} {a : α} (h : x s = (.ok a, s')) :
    (x >>= f) s = f a s' := by rw [bind_apply, h]

theorem bind_throw {x : Act σ α} {f : α → Act σ β} {s s' : σ} {e : Exc}
    (h : x s = (.throw e, s')) : (x >>= f) s = (.throw e, s') := by rw [bind_apply, h]

theorem bind_ub {x : Act σ α} {f : α → Act σ β} {s s' : σ}
    (h : x s = (.ub, s')) : (x >>= f) s = (.ub, s') := by rw [bind_apply, h]

/-- Every call that does not return normally leaves the object as it was. -/
def Pure (x : Act σ α) : Prop := ∀ s, (x s).2 = s

end Act
end Copc
