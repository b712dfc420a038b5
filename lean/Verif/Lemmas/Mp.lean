import Verif.Model.Mp
import Verif.Lemmas.PointQuery
import Mathlib.Data.List.Perm.Basic
/-! # Runs of a worker pool are sequential runs in some order -/
namespace Copc.Mp
open Copc

theorem range_pieces {α : Type} (k : Nat) : ∀ (m : Nat) (l : List α), l.length ≤ m * k →
    ((List.range m).map fun i => (l.drop (i * k)).take k).flatten = l
  | 0, l, h => by
    have : l = [] := List.length_eq_zero_iff.1 (by omega)
    simp [this]
  | m + 1, l, h => by
    have ih := range_pieces k m (l.drop k) (by
      rw [List.length_drop]
      have : (m + 1) * k = m * k + k := by rw [Nat.add_mul, Nat.one_mul]
      omega)
    rw [List.range_succ_eq_map, List.map_cons, List.flatten_cons, List.map_map]
    have hf : ((fun i => (l.drop (i * k)).take k) ∘ Nat.succ) = fun i => ((l.drop k).drop (i * k)).take k := by
      funext i
      simp only [Function.comp, List.drop_drop]
      rw [Nat.succ_mul, Nat.add_comm]
    rw [hf, ih, Nat.zero_mul, List.drop_zero, List.take_append_drop]

/-- The chunks are a partition of the list. -/
theorem chunks_flatten {α : Type} (l : List α) {n : Int} (hn : 0 < n) :
    ∃ cs, chunks l n = some cs ∧ cs.flatten = l := by
  refine ⟨_, by rw [chunks, if_neg (by omega), if_neg (by omega)], range_pieces _ _ _ ?_⟩
  generalize hk : n.toNat = k
  have hk0 : 0 < k := by omega
  have := Nat.div_add_mod (l.length + k - 1) k
  have hm := Nat.mod_lt (l.length + k - 1) hk0
  rw [Nat.mul_comm]
  omega

/-- A list that is a permutation of an image is the image of a permutation. -/
theorem perm_image {α β : Type} (f : α → β) {l m : List β} (h : l.Perm m) : ∀ a : List α, l = a.map f →
    ∃ b : List α, b.Perm a ∧ m = b.map f := by
  induction h with
  | nil =>
    intro a ha
    obtain rfl := List.map_eq_nil_iff.1 ha.symm
    exact ⟨[], .nil, rfl⟩
  | cons x h ih =>
    intro a ha
    cases a with
    | nil => cases ha
    | cons y a =>
      rw [List.map_cons] at ha
      injection ha with h1 h2
      obtain ⟨b, hb, rfl⟩ := ih a h2
      exact ⟨y :: b, hb.cons y, by rw [List.map_cons, h1]⟩
  | swap x y l =>
    intro a ha
    match a, ha with
    | [], ha => cases ha
    | [_], ha => simp at ha
    | u :: v :: a, ha =>
      simp only [List.map_cons, List.cons.injEq] at ha
      obtain ⟨rfl, rfl, rfl⟩ := ha
      exact ⟨v :: u :: a, List.Perm.swap _ _ _, rfl⟩
  | trans _ _ ih1 ih2 =>
    intro a ha
    obtain ⟨b, hb, rfl⟩ := ih1 a ha
    obtain ⟨c, hc, hm⟩ := ih2 b rfl
    exact ⟨c, hc.trans hb, hm⟩

/-- On readers of the file of `r` with a good stream the task returns `g n`, and leaves them so. -/
def Steady {β : Type} (r : Reader) (task : Node → Act Reader β) (n : Node) (b : β) : Prop :=
  ∀ r', Fresh r r' → ∃ r'', task n r' = (.ok b, r'') ∧ Fresh r r''

theorem works_steady {β : Type} {r : Reader} {task : Node → Act Reader β} {g : Node → β} {p p' : Pool}
    {ns : List Node} {rs : List (Res β)} (hw : Works task p ns rs p') (hs : ∀ n ∈ ns, Steady r task n (g n))
    (hp : ∀ i, Fresh r (p i)) : rs = ns.map (fun n => .ok (g n)) ∧ ∀ i, Fresh r (p' i) := by
  induction hw with
  | nil => exact ⟨rfl, hp⟩
  | @step p p' n ns rs i _ ih =>
    obtain ⟨r'', h1, h2⟩ := hs n (by simp) (p i) (hp i)
    obtain ⟨e1, e2⟩ := ih (fun m hm => hs m (by simp [hm])) (by
      intro j
      by_cases hj : j = i
      · subst hj
        rw [Function.update_self, h1]
        exact h2
      · rw [Function.update_of_ne hj]
        exact hp j)
    exact ⟨by rw [e1, h1]; rfl, e2⟩

theorem forEach_ok {β σ : Type} (f : β → Act σ Unit) (g : Node → β) (l : List Node) :
    Act.forEach (fun r => Act.lift r >>= f) (l.map fun n => (.ok (g n) : Res β)) =
      Act.forEach (fun n => f (g n)) l := by
  induction l with
  | nil => rfl
  | cons a l ih =>
    rw [List.map_cons, Act.forEach_cons, Act.forEach_cons, ih]
    rfl

theorem forEach_append {α σ : Type} (f : α → Act σ Unit) (a b : List α) (s : σ) :
    Act.forEach f (a ++ b) s = (Act.forEach f a >>= fun _ => Act.forEach f b) s := by
  induction a generalizing s with
  | nil => rfl
  | cons x a ih =>
    rw [List.cons_append, Act.forEach_cons, Act.forEach_cons, Act.bind_apply, Act.bind_apply, Act.bind_apply]
    rcases f x s with ⟨r, s'⟩
    cases r with
    | ok u => exact ih s'
    | throw e => rfl
    | ub => rfl

/-- Every run of the pool is the run of the main process over the results of all tasks in some order, or, if that
fails, over some of them. -/
theorem poolRun_order {β σ : Type} {r : Reader} {task : Node → Act Reader β} {g : Node → β}
    {absorb : β → Act σ Unit} {p : Pool} {cs : List (List Node)} {s : σ} {out : Res Unit × σ}
    (h : PoolRun task absorb p cs s out) (hs : ∀ n ∈ cs.flatten, Steady r task n (g n)) (hp : ∀ i, Fresh r (p i)) :
    ∃ order rest, (order ++ rest).Perm cs.flatten ∧ Act.forEach (fun n => absorb (g n)) order s = out ∧
      (out.1 = .ok () → rest = []) := by
  induction h with
  | done => exact ⟨[], [], .nil, rfl, fun _ => rfl⟩
  | @chunk p p' c cs completed s s' out hc hf _ ih =>
    obtain ⟨started, results, h1, h2, h3⟩ := hc
    obtain ⟨rfl, hp'⟩ := works_steady h2 (fun n hn => hs n (by
      rw [List.flatten_cons]; exact List.mem_append_left _ (h1.subset hn))) hp
    obtain ⟨first, hfirst, rfl⟩ := perm_image _ h3 started rfl
    rw [forEach_ok] at hf
    obtain ⟨order, rest, e1, e2, e3⟩ := ih (fun n hn => hs n (by
      rw [List.flatten_cons]; exact List.mem_append_right _ hn)) hp'
    refine ⟨first ++ order, rest, ?_, ?_, e3⟩
    · rw [List.flatten_cons, List.append_assoc]
      exact (hfirst.trans h1).append e1
    · rw [forEach_append, Act.bind_ok hf, e2]
  | @fail p p' c cs completed s s' o hc hf hne =>
    obtain ⟨started, results, h1, h2, h3⟩ := hc
    obtain ⟨rfl, hp'⟩ := works_steady h2 (fun n hn => hs n (by
      rw [List.flatten_cons]; exact List.mem_append_left _ (h1.subset hn))) hp
    obtain ⟨first, hfirst, rfl⟩ := perm_image _ h3 started rfl
    rw [forEach_ok] at hf
    refine ⟨first, cs.flatten, ?_, hf, fun e => absurd e hne⟩
    rw [List.flatten_cons]
    exact (hfirst.trans h1).append_right _

/-- Every order is that of some run: one chunk after another, each in the order given, by worker 0. -/
theorem works_exist {β : Type} {r : Reader} {task : Node → Act Reader β} {g : Node → β} : ∀ (ns : List Node) (p : Pool),
    (∀ n ∈ ns, Steady r task n (g n)) → (∀ i, Fresh r (p i)) →
    ∃ p', Works task p ns (ns.map fun n => .ok (g n)) p' ∧ ∀ i, Fresh r (p' i)
  | [], p, _, hp => ⟨p, .nil, hp⟩
  | n :: ns, p, hs, hp => by
    obtain ⟨r'', h1, h2⟩ := hs n (by simp) (p 0) (hp 0)
    obtain ⟨p', h3, h4⟩ := works_exist ns (Function.update p 0 (task n (p 0)).2) (fun m hm => hs m (by simp [hm])) (by
      intro j
      by_cases hj : j = 0
      · subst hj; rw [Function.update_self, h1]; exact h2
      · rw [Function.update_of_ne hj]; exact hp j)
    refine ⟨p', ?_, h4⟩
    have := Works.step (task := task) 0 h3
    rw [h1] at this
    exact this

/-- A run exists, for every chunking, whenever the main process succeeds on the results. -/
theorem poolRun_exists {β σ : Type} {r : Reader} {task : Node → Act Reader β} {g : Node → β} {absorb : β → Act σ Unit} :
    ∀ (cs : List (List Node)) (p : Pool) (s s' : σ), (∀ n ∈ cs.flatten, Steady r task n (g n)) →
    (∀ i, Fresh r (p i)) → Act.forEach (fun n => absorb (g n)) cs.flatten s = (.ok (), s') →
    PoolRun task absorb p cs s (.ok (), s')
  | [], p, s, s', _, _, h => by
    obtain rfl : s = s' := congrArg Prod.snd h
    exact .done
  | c :: cs, p, s, s', hs, hp, h => by
    rw [List.flatten_cons, forEach_append] at h
    obtain ⟨⟨⟩, s1, h1, h2⟩ := Act.bind_eq_ok.1 h
    obtain ⟨p', h3, h4⟩ := works_exist c p (fun n hn => hs n (by
      rw [List.flatten_cons]; exact List.mem_append_left _ hn)) hp
    refine .chunk ⟨c, _, .refl _, h3, .refl _⟩ (by rw [forEach_ok]; exact h1) ?_
    exact poolRun_exists cs p' s1 s' (fun n hn => hs n (by
      rw [List.flatten_cons]; exact List.mem_append_right _ hn)) h4 h2

end Copc.Mp
