import Verif.Lemmas.Sample
import Verif.Lemmas.Key
/-!
# C28: rejected additions have no effect
-/
namespace Copc
open Spec VoxelKey

/-- The exceptions of `WriteChunk` about a chunk that may already be in the file. -/
def LateExc (e : Exc) : Prop := e = .chunkTooLarge ∨ e = .chunkError

/-- Calls that leave the object unchanged when they throw (except for late exceptions). -/
def Atomic {σ α : Type} (x : Act σ α) : Prop := ∀ s e, (x s).1 = .throw e → ¬ LateExc e → (x s).2 = s

/-- Calls that throw nothing but late exceptions. -/
def OnlyLate {σ α : Type} (x : Act σ α) : Prop := ∀ s e, (x s).1 = .throw e → LateExc e

section
variable {σ τ α β : Type}

theorem OnlyLate.atomic {x : Act σ α} (h : OnlyLate x) : Atomic x := fun s e h1 h2 => absurd (h s e h1) h2

theorem atomic_bind {x : Act σ α} {f : α → Act σ β} (hx : ∀ s, (x s).2 = s) (hf : ∀ a, Atomic (f a)) :
    Atomic (x >>= f) := by
  intro s e
  rw [Act.bind_apply]
  have h1 := hx s
  generalize x s = p at h1 ⊢
  obtain ⟨r, s'⟩ := p
  obtain rfl : s' = s := h1
  cases r with
  | ok a => exact hf a s' e
  | throw e' => intro _ _; rfl
  | ub => intro h; cases h

theorem atomic_then {x : Act σ α} {f : α → Act σ β} (hx : Atomic x) (hf : ∀ a, OnlyLate (f a)) :
    Atomic (x >>= f) := by
  intro s e
  rw [Act.bind_apply]
  have h1 := hx s
  generalize x s = p at h1 ⊢
  obtain ⟨r, s'⟩ := p
  cases r with
  | ok a => intro h2 h3; exact absurd (hf a s' e h2) h3
  | throw e' =>
    intro h2 h3
    exact h1 e (by injection h2 with h2; rw [h2]) h3
  | ub => intro h; cases h

theorem onlyLate_bind {x : Act σ α} {f : α → Act σ β} (hx : OnlyLate x) (hf : ∀ a, OnlyLate (f a)) :
    OnlyLate (x >>= f) := by
  intro s e
  rw [Act.bind_apply]
  have h1 := hx s
  generalize x s = p at h1 ⊢
  obtain ⟨r, s'⟩ := p
  cases r with
  | ok a => exact hf a s' e
  | throw e' => intro h2; exact h1 e (by injection h2 with h2; rw [h2])
  | ub => intro h; cases h

theorem onlyLate_modify (f : σ → σ) : OnlyLate (Act.modify f) := fun s e h => by cases h
theorem onlyLate_pure (a : α) : OnlyLate (pure a : Act σ α) := fun s e h => by cases h
theorem onlyLate_gets (f : σ → α) : OnlyLate (Act.gets f) := fun s e h => by cases h
theorem onlyLate_throwIf {c : Prop} [Decidable c] {e : Exc} (he : LateExc e) :
    OnlyLate (Act.throwIf c e : Act σ Unit) := by
  intro s e' h
  rw [Act.throwIf_apply] at h
  split at h
  · injection h with h; exact h ▸ he
  · cases h

theorem pure_gets (f : σ → α) (s : σ) : ((Act.gets f : Act σ α) s).2 = s := rfl
theorem pure_lift (r : Res α) (s : σ) : ((Act.lift r : Act σ α) s).2 = s := rfl
theorem pure_throwIf {c : Prop} [Decidable c] {e : Exc} (s : σ) : ((Act.throwIf c e : Act σ Unit) s).2 = s := by
  rw [Act.throwIf_apply]; split <;> rfl
theorem atomic_undef : Atomic (Act.undef : Act σ α) := fun s e h => by cases h

theorem atomic_ite {c : Prop} [Decidable c] {x y : Act σ α} (hx : Atomic x) (hy : Atomic y) :
    Atomic (if c then x else y) := by split <;> assumption
end

theorem atomic_compressBytes (L : Lazperf) (h : LasHeader) (bs : Bytes) :
    Atomic (BaseW.compressBytes L h bs) := by
  unfold BaseW.compressBytes
  refine atomic_bind (pure_lift _) fun eb => atomic_bind (pure_lift _) fun size =>
    atomic_ite atomic_undef ?_
  refine atomic_bind pure_throwIf fun _ => atomic_bind pure_throwIf fun _ => OnlyLate.atomic ?_
  exact onlyLate_bind (onlyLate_modify _) fun _ => onlyLate_pure _

theorem onlyLate_finishChunk (start : Nat) (c : Int) : OnlyLate (BaseW.finishChunk start c) := by
  unfold BaseW.finishChunk
  refine onlyLate_bind (onlyLate_modify _) fun _ => onlyLate_bind (onlyLate_gets _) fun _ =>
    onlyLate_bind (onlyLate_throwIf (.inr rfl)) fun _ => onlyLate_bind (onlyLate_modify _) fun _ => ?_
  exact onlyLate_bind (onlyLate_throwIf (.inl rfl)) fun _ => onlyLate_pure _

theorem atomic_writeChunk (L : Lazperf) (h : LasHeader) (bs : Bytes) (count : Int) (b : Bool) :
    Atomic (BaseW.writeChunk L h bs count b) := by
  unfold BaseW.writeChunk
  refine atomic_bind (pure_gets _) fun start => atomic_bind pure_throwIf fun _ => atomic_ite ?_ ?_
  · exact (onlyLate_bind (onlyLate_modify _) fun _ => onlyLate_finishChunk _ _).atomic
  · exact atomic_then (atomic_compressBytes L h bs) fun _ => onlyLate_finishChunk _ _

theorem atomic_doAddNode (L : Lazperf) (key : VoxelKey) (bs : Bytes) (count : Int) (b : Bool)
    (page : VoxelKey) : Atomic (Writer.doAddNode L key bs count b page) := by
  unfold Writer.doAddNode
  refine atomic_bind pure_throwIf fun _ => atomic_bind pure_throwIf fun _ =>
    atomic_bind (pure_gets _) fun c => atomic_then ?_ fun r => ?_
  · intro s e h1 h2
    have := atomic_writeChunk L c.header bs count b s.base e
    simp only [Writer.onBase, Act.zoom_apply] at h1 ⊢
    rw [this h1 h2]
  · refine onlyLate_bind (onlyLate_modify _) fun _ => onlyLate_bind (onlyLate_modify _) fun _ =>
      onlyLate_bind (onlyLate_modify _) fun _ => onlyLate_pure _

theorem atomic_addNode (L : Lazperf) (key : VoxelKey) (bs : Bytes) (page : VoxelKey) :
    Atomic (Writer.addNode L key bs page) := by
  unfold Writer.addNode
  exact atomic_bind (pure_gets _) fun c => atomic_bind pure_throwIf fun _ =>
    atomic_ite atomic_undef (atomic_bind pure_throwIf fun _ => atomic_doAddNode _ _ _ _ _ _)

/-- An addition that throws leaves the writer, with its stream, as it was, except for the two exceptions
about the chunk itself ("too large", "error"), on any writer whatever its state. -/
theorem C28_unchanged (L : Lazperf) (ord : Order) (op : Op) (w : Writer) (e : Exc)
    (ht : op.target.isSome) (hr : (op.run L ord w).1 = .throw e) (h1 : e ≠ .chunkTooLarge)
    (h2 : e ≠ .chunkError) : (op.run L ord w).2 = w := by
  have hl : ¬ LateExc e := fun h => h.elim h1 h2
  cases op with
  | add k bs p =>
    exact atomic_then (atomic_addNode _ _ _ _) (fun _ => onlyLate_pure _) w e hr hl
  | addPoints k fmt len ps p =>
    refine atomic_then ?_ (fun _ => onlyLate_pure _) w e hr hl
    unfold Writer.addNodePoints
    exact atomic_bind (pure_gets _) fun c => atomic_bind pure_throwIf fun _ =>
      atomic_bind pure_throwIf fun _ => atomic_bind (pure_lift _) fun _ => atomic_addNode _ _ _ _
  | addCompressed k bs c p =>
    refine atomic_then ?_ (fun _ => onlyLate_pure _) w e hr hl
    unfold Writer.addNodeCompressed
    exact atomic_bind pure_throwIf fun _ => atomic_doAddNode _ _ _ _ _ _
  | move k p => simp [Op.target] at ht
  | close => simp [Op.target] at ht

/-- `x` throws and leaves the state (or is undefined) on `s`. -/
def Rejected {σ α : Type} (x : Act σ α) (s : σ) : Prop :=
  (∃ e, x s = (.throw e, s)) ∨ (x s).1 = .ub

theorem rejected_pure {σ α β : Type} {x : Act σ α} {f : α → Act σ β} {s : σ}
    (hx : ∀ s, (x s).2 = s)
    (hf : ∀ a, (x s).1 = .ok a → Rejected (f a) s) : Rejected (x >>= f) s := by
  unfold Rejected
  have h1 := hx s
  rcases hxs : x s with ⟨r, s'⟩
  rw [hxs] at h1 hf
  simp only at h1 hf
  subst h1
  cases r with
  | ok a => rw [Act.bind_ok hxs]; exact hf a rfl
  | throw e => rw [Act.bind_throw hxs]; exact .inl ⟨e, rfl⟩
  | ub => rw [Act.bind_ub hxs]; exact .inr rfl

theorem rejected_throwIf {σ β : Type} {c : Prop} [Decidable c] {e : Exc} {f : Unit → Act σ β} {s : σ}
    (hf : ¬ c → Rejected (f ()) s) : Rejected (Act.throwIf c e >>= f) s := by
  by_cases hc : c
  · exact .inl ⟨e, Act.bind_throw (Act.throwIf_pos hc _ _)⟩
  · unfold Rejected
    rw [Act.bind_ok (Act.throwIf_neg hc _ _)]
    exact hf hc

theorem rejected_first {σ α β : Type} {x : Act σ α} {f : α → Act σ β} {s : σ} (h : Rejected x s) :
    Rejected (x >>= f) s := by
  rcases h with ⟨e, h1⟩ | h
  · exact .inl ⟨e, Act.bind_throw h1⟩
  · right
    rcases hx : x s with ⟨r, s'⟩
    rw [hx] at h
    simp only at h
    subst h
    rw [Act.bind_ub hx]

theorem rejected_doAddNode (L : Lazperf) {key : VoxelKey} {bs : Bytes} {count : Int} {b : Bool}
    {page : VoxelKey} {w : Writer} (h : (¬ Valid key ∨ ¬ Valid page) ∨ ¬ Below key page) :
    Rejected (Writer.doAddNode L key bs count b page) w := by
  unfold Writer.doAddNode
  refine rejected_throwIf fun h1 => ?_
  refine rejected_throwIf fun h2 => ?_
  exfalso
  rw [not_or, isValid_false_iff, isValid_false_iff, not_not, not_not] at h1
  have h2' : key.childOf page = true := by simpa using h2
  rcases h with (h | h) | h
  · exact h h1.2
  · exact h h1.1
  · exact h ((childOf_iff _ _).1 h2').2

theorem rejected_addNode (L : Lazperf) {key : VoxelKey} {bs : Bytes} {page : VoxelKey} {w : Writer}
    (h : ((¬ Valid key ∨ ¬ Valid page) ∨ ¬ Below key page) ∨ bs = [] ∨
      bs.length % w.cfg.header.recLen.toNat ≠ 0) :
    Rejected (Writer.addNode L key bs page) w := by
  unfold Writer.addNode
  refine rejected_pure (pure_gets _) fun c hc => ?_
  have hc : w.cfg = c := by simpa using hc
  subst hc
  refine rejected_throwIf fun h1 => ?_
  split
  · exact .inr rfl
  · refine rejected_throwIf fun h2 => ?_
    rcases h with h | h | h
    · exact rejected_doAddNode L h
    · exact absurd h h1
    · exact absurd h h2

/-- An addition with invalid keys, a key outside its page, no data or points, a partial record, another
format or a zero count is rejected with an exception and changes neither the writer nor its stream. -/
theorem C28_rejected (L : Lazperf) (ord : Order) (op : Op) (w : Writer) (hb : BadAdd w.cfg.header op)
    (hu : (op.run L ord w).1 ≠ .ub) : ∃ e, op.run L ord w = (.throw e, w) := by
  suffices h : Rejected (op.run L ord) w from
    h.elim id fun h => absurd h hu
  have keys : ∀ {k p : VoxelKey}, op.target = some (k, p) →
      ((¬ Valid k ∨ ¬ Valid p) ∨ ¬ Below k p) → Rejected (op.run L ord) w := by
    intro k p ht h
    cases op with
    | add k' bs p' =>
      obtain ⟨rfl, rfl⟩ : k' = k ∧ p' = p := by simpa [Op.target] using ht
      exact rejected_first (rejected_addNode L (.inl h))
    | addPoints k' fmt len ps p' =>
      obtain ⟨rfl, rfl⟩ : k' = k ∧ p' = p := by simpa [Op.target] using ht
      refine rejected_first ?_
      unfold Writer.addNodePoints
      refine rejected_pure (pure_gets _) fun c _ => ?_
      refine rejected_throwIf fun _ => ?_
      refine rejected_throwIf fun _ => ?_
      exact rejected_pure (pure_lift _) fun bs _ => rejected_addNode L (.inl h)
    | addCompressed k' bs c p' =>
      obtain ⟨rfl, rfl⟩ : k' = k ∧ p' = p := by simpa [Op.target] using ht
      refine rejected_first ?_
      unfold Writer.addNodeCompressed
      exact rejected_throwIf fun _ => rejected_doAddNode L h
    | move k p => cases ht
    | close => cases ht
  cases hb with
  | invalid ht h => exact keys ht (.inl h)
  | outside ht h => exact keys ht (.inr h)
  | noData => exact rejected_first (rejected_addNode L (.inr (.inl rfl)))
  | noPoints =>
    refine rejected_first ?_
    unfold Writer.addNodePoints
    refine rejected_pure (pure_gets _) fun c _ => ?_
    exact rejected_throwIf fun h => absurd rfl h
  | misaligned h => exact rejected_first (rejected_addNode L (.inr (.inr h)))
  | mismatch h =>
    refine rejected_first ?_
    unfold Writer.addNodePoints
    refine rejected_pure (pure_gets _) fun c hc => ?_
    have hc : w.cfg = c := by simpa using hc
    subst hc
    refine rejected_throwIf fun _ => ?_
    exact rejected_throwIf fun h' => absurd h h'
  | noCount =>
    refine rejected_first ?_
    unfold Writer.addNodeCompressed
    exact rejected_throwIf fun h => absurd rfl h

/-- Rejected and harmless, also on a writer with nodes: a node outside its page, a negative key, a zero
count, an incomplete record. -/
example : BadAdd Sample.w.cfg.header (.addCompressed Sample.kA [1] 5 Sample.kB) ∧
    BadAdd Sample.w.cfg.header (.add ⟨1, -1, 0, 0⟩ [1] VoxelKey.root) ∧
    BadAdd Sample.w.cfg.header (.addCompressed Sample.kA [1] 0 Sample.kA) ∧
    BadAdd Sample.w.cfg.header (.add Sample.kA (List.replicate 40 0) Sample.kA) := by
  refine ⟨.outside rfl ?_, .invalid rfl (.inl (by decide)), .noCount, .misaligned (by decide +kernel)⟩
  rintro ⟨n, h1, h2⟩
  have : (2 : Int) = 1 - n := congrArg VoxelKey.d h2
  omega

end Copc
