import Verif.Lemmas.Refuse
import Verif.Lemmas.WriterAny
import Verif.Lemmas.WriterHier
/-! # Runs of a writer that end at some byte of the output -/
namespace Copc
open Refuse

/-! ### Streams -/

/-- The stream takes `k` more bytes. -/
def OStream.dies (k : Nat) (o : OStream) : OStream := { o with cap := some (.total k) }

/-- The first `m` bytes are zero (or not there), and nothing more can be written there without a seek. -/
structure Blank (m : Nat) (o : OStream) : Prop where
  zero : ∀ i < m, byteAt o.data i = 0
  past : o.fail = true ∨ m ≤ o.pos ∧ m ≤ o.data.length

theorem patch_before {d : Bytes} {p i : Nat} (bs : Bytes) (h : i < p) : byteAt (OStream.patch d p bs) i = byteAt d i := by
  unfold byteAt OStream.patch
  rw [List.append_assoc, List.append_assoc]
  by_cases hd : i < d.length
  · rw [List.getElem?_append_left (by simp; omega), List.getElem?_take, if_pos h]
  · have hn : d[i]? = none := List.getElem?_eq_none (by omega)
    rw [List.getElem?_append_right (by simp; omega), hn, List.getElem?_append_left (by simp; omega),
      List.getElem?_replicate]
    split <;> rfl

theorem patch_length (d : Bytes) (p : Nat) (bs : Bytes) :
    p + bs.length ≤ (OStream.patch d p bs).length ∧ d.length ≤ (OStream.patch d p bs).length := by
  unfold OStream.patch
  simp only [List.length_append, List.length_take, List.length_replicate, List.length_drop]
  omega

/-- What a write does to a stream. -/
theorem write_cases (o : OStream) (bs : Bytes) :
    (o.fail = true ∧ o.write bs = o) ∨
    (o.fail = false ∧ ∃ j, (o.write bs).data = OStream.patch o.data o.pos (bs.take j) ∧
      ((o.write bs).fail = true ∨ ((o.write bs).pos = o.pos + bs.length ∧ bs.length ≤ j))) := by
  cases hf : o.fail with
  | true => exact .inl ⟨rfl, write_fail hf bs⟩
  | false =>
    right
    refine ⟨rfl, ?_⟩
    unfold OStream.write
    rw [hf]
    simp only [Bool.false_eq_true, if_false]
    split
    · exact ⟨bs.length, by simp, .inr ⟨rfl, le_refl _⟩⟩
    · split
      · exact ⟨bs.length, by simp, .inr ⟨rfl, le_refl _⟩⟩
      · exact ⟨_, rfl, .inl rfl⟩
    · split
      · exact ⟨bs.length, by simp, .inr ⟨rfl, le_refl _⟩⟩
      · exact ⟨_, rfl, .inl rfl⟩

theorem Blank.write {m : Nat} {o : OStream} (h : Blank m o) (bs : Bytes) : Blank m (o.write bs) := by
  rcases write_cases o bs with ⟨_, e⟩ | ⟨hf, j, e, h2⟩
  · rw [e]; exact h
  · have hp : m ≤ o.pos ∧ m ≤ o.data.length := by
      rcases h.past with h | h
      · rw [hf] at h; cases h
      · exact h
    refine ⟨fun i hi => ?_, ?_⟩
    · rw [e, patch_before _ (by omega)]
      exact h.zero i hi
    · rcases h2 with h2 | ⟨h2, _⟩
      · exact .inl h2
      · right
        rw [h2, e]
        have := patch_length o.data o.pos (bs.take j)
        omega

theorem Blank.seekEnd {m : Nat} {o : OStream} (h : Blank m o) : Blank m o.seekEnd := by
  unfold OStream.seekEnd
  cases hf : o.fail with
  | true => exact h
  | false =>
    refine ⟨h.zero, .inr ?_⟩
    rcases h.past with h | h
    · rw [hf] at h; cases h
    · exact ⟨h.2, h.2⟩

theorem Blank.seekp {m p : Nat} {o : OStream} (h : Blank m o) (hp : m ≤ p) : Blank m (o.seekp p) := by
  unfold OStream.seekp
  cases hf : o.fail with
  | true => exact h
  | false =>
    refine ⟨h.zero, .inr ?_⟩
    rcases h.past with h | h
    · rw [hf] at h; cases h
    · exact ⟨hp, h.2⟩

theorem Blank.foldl {α : Type} {m : Nat} (f : α → Bytes) : ∀ (l : List α) {o : OStream}, Blank m o →
    Blank m (l.foldl (fun o a => o.write (f a)) o)
  | [], _, h => h
  | a :: l, _, h => Blank.foldl f l (h.write (f a))

/-- An operation on the stream: it does nothing to a failed stream, leaves the first `m` bytes alone, and
on a stream that is to die it does the same as on a healthy one, or the stream fails. -/
structure Calm (m : Nat) (f : OStream → OStream) : Prop where
  stuck : ∀ o, o.fail = true → f o = o
  blank : ∀ o, Blank m o → Blank m (f o)
  good : ∀ o : OStream, o.Good → (f o).Good
  twin : ∀ (o : OStream) k, o.Good → (∃ k', f (o.dies k) = (f o).dies k') ∨ (f (o.dies k)).fail = true

theorem calm_id (m : Nat) : Calm m fun o => o :=
  ⟨fun _ _ => rfl, fun _ h => h, fun _ h => h, fun _ k _ => .inl ⟨k, rfl⟩⟩

theorem Calm.comp {m : Nat} {f g : OStream → OStream} (hf : Calm m f) (hg : Calm m g) : Calm m fun o => g (f o) where
  stuck o h := by rw [hf.stuck o h, hg.stuck o h]
  blank o h := hg.blank _ (hf.blank _ h)
  good o h := hg.good _ (hf.good _ h)
  twin o k h := by
    rcases hf.twin o k h with ⟨k', e⟩ | e
    · rw [e]
      exact hg.twin _ k' (hf.good _ h)
    · right
      rw [hg.stuck _ e]
      exact e

theorem calm_write (m : Nat) (bs : Bytes) : Calm m fun o => o.write bs where
  stuck o h := write_fail h bs
  blank o h := h.write bs
  good o h := OStream.good_write bs h
  twin o k h := by
    rw [OStream.write_good h]
    unfold OStream.write OStream.dies
    dsimp only
    rw [h.1]
    simp only [Bool.false_eq_true, if_false]
    split
    · left; exact ⟨_, rfl⟩
    · right; rfl

theorem calm_seekEnd (m : Nat) : Calm m OStream.seekEnd where
  stuck o h := by unfold OStream.seekEnd; rw [if_pos h]
  blank o h := h.seekEnd
  good o h := OStream.good_seekEnd h
  twin o k h := by
    left; refine ⟨k, ?_⟩
    unfold OStream.seekEnd OStream.dies
    dsimp only
    rw [h.1]
    rfl

theorem calm_seekp {m p : Nat} (hp : m ≤ p) : Calm m fun o => o.seekp p where
  stuck o h := by unfold OStream.seekp; rw [if_pos h]
  blank o h := h.seekp hp
  good o h := OStream.good_seekp p h
  twin o k h := by
    left; refine ⟨k, ?_⟩
    unfold OStream.seekp OStream.dies
    dsimp only
    rw [h.1]
    rfl

theorem calm_foldl {α : Type} (m : Nat) (f : α → Bytes) : ∀ l : List α,
    Calm m fun o => l.foldl (fun o a => o.write (f a)) o
  | [] => calm_id m
  | a :: l => (calm_write m (f a)).comp (calm_foldl m f l)

/-! ### Programs -/

/-- Objects with an output stream. -/
class HasOut (σ : Type) where
  out : σ → OStream
  set : OStream → σ → σ
  out_set : ∀ o s, out (set o s) = o
  set_set : ∀ o o' s, set o (set o' s) = set o s
  set_out : ∀ s, set (out s) s = s

open HasOut

instance : HasOut BaseW := ⟨(·.out), fun o b => { b with out := o }, fun _ _ => rfl, fun _ _ _ => rfl, fun _ => rfl⟩
instance : HasOut Writer := ⟨(·.base.out), fun o w => { w with base := { w.base with out := o } }, fun _ _ => rfl,
  fun _ _ _ => rfl, fun _ => rfl⟩
instance : HasOut Writer.PageW := ⟨(·.w.base.out), fun o p => { p with w := { p.w with base := { p.w.base with out := o } } },
  fun _ _ => rfl, fun _ _ _ => rfl, fun _ => rfl⟩

/-- The same object, with a stream that takes `k` more bytes. -/
def doomed {σ : Type} [HasOut σ] (k : Nat) (s : σ) : σ := HasOut.set ((out s).dies k) s

section
variable {σ α β : Type} [HasOut σ]

theorem out_doomed (k : Nat) (s : σ) : out (doomed k s) = (out s).dies k := out_set _ _

/-- A call that leaves the first `m` bytes alone. -/
structure Safe (m : Nat) (x : Act σ α) : Prop where
  stuck : ∀ s, (out s).fail = true → out (x s).2 = out s
  blank : ∀ s, Blank m (out s) → Blank m (out (x s).2)
  good : ∀ s, (out s).Good → (out (x s).2).Good
  twin : ∀ s k, (out s).Good → (∃ k', x (doomed k s) = ((x s).1, doomed k' (x s).2)) ∨
    (out (x (doomed k s)).2).fail = true

theorem safe_bind {m : Nat} {x : Act σ α} {f : α → Act σ β} (hx : Safe m x) (hf : ∀ a, Safe m (f a)) :
    Safe m (x >>= f) where
  stuck s h := by
    rw [Act.bind_apply]
    have h1 := hx.stuck s h
    generalize x s = p at h1 ⊢
    obtain ⟨r, s'⟩ := p
    cases r with
    | ok a =>
      dsimp only at h1 ⊢
      rw [(hf a).stuck s' (by rw [h1]; exact h), h1]
    | throw e => exact h1
    | ub => exact h1
  blank s h := by
    rw [Act.bind_apply]
    have h1 := hx.blank s h
    generalize x s = p at h1 ⊢
    obtain ⟨r, s'⟩ := p
    cases r with
    | ok a => exact (hf a).blank s' h1
    | throw e => exact h1
    | ub => exact h1
  good s h := by
    rw [Act.bind_apply]
    have h1 := hx.good s h
    generalize x s = p at h1 ⊢
    obtain ⟨r, s'⟩ := p
    cases r with
    | ok a => exact (hf a).good s' h1
    | throw e => exact h1
    | ub => exact h1
  twin s k h := by
    rcases hx.twin s k h with ⟨k', e⟩ | e
    · have hg := hx.good s h
      rw [Act.bind_apply, Act.bind_apply, e]
      generalize x s = p at hg ⊢
      obtain ⟨r, s'⟩ := p
      cases r with
      | ok a => exact (hf a).twin s' k' hg
      | throw e => exact .inl ⟨k', rfl⟩
      | ub => exact .inl ⟨k', rfl⟩
    · right
      rw [Act.bind_apply]
      generalize x (doomed k s) = p at e ⊢
      obtain ⟨r, s'⟩ := p
      cases r with
      | ok a =>
        dsimp only at e ⊢
        rw [(hf a).stuck s' e]
        exact e
      | throw _ => exact e
      | ub => exact e

theorem safe_gets {m : Nat} {g : σ → α} (h : ∀ s o, (out s).Good → (∃ k, o = (out s).dies k) → g (HasOut.set o s) = g s) :
    Safe m (Act.gets g) where
  stuck _ _ := rfl
  blank _ h := h
  good _ h := h
  twin s k hg := by
    left
    refine ⟨k, ?_⟩
    rw [Act.gets_apply, Act.gets_apply]
    show (Res.ok (g (doomed k s)), doomed k s) = _
    rw [show g (doomed k s) = g s from h s _ hg ⟨k, rfl⟩]

theorem safe_lift {m : Nat} (r : Res α) : Safe m (Act.lift r : Act σ α) :=
  ⟨fun _ _ => rfl, fun _ h => h, fun _ h => h, fun _ k _ => .inl ⟨k, rfl⟩⟩

theorem safe_pure {m : Nat} (a : α) : Safe m (pure a : Act σ α) :=
  ⟨fun _ _ => rfl, fun _ h => h, fun _ h => h, fun _ k _ => .inl ⟨k, rfl⟩⟩

theorem safe_throwIf {m : Nat} {c : Prop} [Decidable c] {e : Exc} : Safe m (Act.throwIf c e : Act σ Unit) := by
  by_cases h : c
  · refine ⟨fun s _ => ?_, fun s hb => ?_, fun s hg => ?_, fun s k _ => .inl ⟨k, ?_⟩⟩ <;> simp only [Act.throwIf_pos h] <;>
      first | rfl | assumption
  · refine ⟨fun s _ => ?_, fun s hb => ?_, fun s hg => ?_, fun s k _ => .inl ⟨k, ?_⟩⟩ <;> simp only [Act.throwIf_neg h] <;>
      first | rfl | assumption

theorem safe_ite {m : Nat} {c : Prop} [Decidable c] {x y : Act σ α} (hx : Safe m x) (hy : Safe m y) :
    Safe m (if c then x else y) := by split <;> assumption

/-- Changing only the stream. -/
theorem safe_stream {m : Nat} {f : OStream → OStream} (hf : Calm m f) :
    Safe m (Act.modify fun s : σ => HasOut.set (f (out s)) s) where
  stuck s h := by
    show out (HasOut.set (f (out s)) s) = out s
    rw [out_set, hf.stuck _ h]
  blank s h := by
    show Blank m (out (HasOut.set (f (out s)) s))
    rw [out_set]; exact hf.blank _ h
  good s h := by
    show (out (HasOut.set (f (out s)) s)).Good
    rw [out_set]; exact hf.good _ h
  twin s k h := by
    rcases hf.twin (out s) k h with ⟨k', e⟩ | e
    · left
      refine ⟨k', ?_⟩
      rw [Act.modify_apply, Act.modify_apply]
      congr 1
      rw [out_doomed, e]
      unfold doomed
      rw [out_set, set_set, set_set]
    · right
      rw [Act.modify_apply]
      dsimp only
      rw [out_set, out_doomed]
      exact e

/-- Changing something else. -/
theorem safe_other {m : Nat} {g : σ → σ} (h1 : ∀ s, out (g s) = out s)
    (h2 : ∀ s k, (out s).Good → g (doomed k s) = doomed k (g s)) : Safe m (Act.modify g) where
  stuck s _ := h1 s
  blank s h := by show Blank m (out (g s)); rw [h1]; exact h
  good s h := by show (out (g s)).Good; rw [h1]; exact h
  twin s k h := .inl ⟨k, by rw [Act.modify_apply, Act.modify_apply, h2 s k h]⟩

theorem safe_forEach {m : Nat} {x : β → Act σ Unit} (h : ∀ b, Safe m (x b)) : ∀ l : List β, Safe m (Act.forEach x l)
  | [] => safe_pure ()
  | b :: l => safe_bind (h b) fun _ => safe_forEach h l

/-- What is left of a run that dies at some point. -/
def AllEnds (Q : Bytes → Prop) (x : Act σ α) (s : σ) : Prop := ∀ k, Q (out (x (doomed k s)).2).data

theorem AllEnds.step {m : Nat} {Q : Bytes → Prop} (hQ : ∀ o : OStream, Blank m o → Q o.data) {x : Act σ α} {f : α → Act σ β}
    (hx : Safe m x) (hf : ∀ a s, (out s).fail = true → out (f a s).2 = out s) {s s' : σ} {a : α} (hs : x s = (.ok a, s'))
    (hg : (out s).Good) (hb : Blank m (out s)) (h : AllEnds Q (f a) s') : AllEnds Q (x >>= f) s := by
  intro k
  rcases hx.twin s k hg with ⟨k', e⟩ | e
  · rw [hs] at e
    rw [Act.bind_ok e]
    exact h k'
  · have hb' : Blank m (out (doomed k s)) := by
      rw [out_doomed]
      exact ⟨hb.zero, hb.past⟩
    have h1 := hQ _ (hx.blank _ hb')
    rw [Act.bind_apply]
    generalize x (doomed k s) = p at e h1 ⊢
    obtain ⟨r, s1⟩ := p
    cases r with
    | ok a =>
      dsimp only at e h1 ⊢
      rw [hf a s1 e]
      exact h1
    | throw _ => exact h1
    | ub => exact h1

end
end Copc
