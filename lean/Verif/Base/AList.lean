/-!
# Maps with unique keys as association lists

`std::unordered_map` / `std::map` as used by the library: `find`, `m[k] = v`, `erase`. The order of
the list means nothing; where the code iterates, the model takes an arbitrary permutation.
-/
namespace Copc.AList
variable {κ : Type} [DecidableEq κ] {α : Type}

/-- `find(k)`. -/
def get (k : κ) : List (κ × α) → Option α
  | [] => none
  | (k', a) :: l => if k' = k then some a else get k l

/-- `m[k] = a`. -/
def put (k : κ) (a : α) : List (κ × α) → List (κ × α)
  | [] => [(k, a)]
  | (k', a') :: l => if k' = k then (k, a) :: l else (k', a') :: put k a l

/-- `erase(k)`. -/
def del (k : κ) (l : List (κ × α)) : List (κ × α) := l.filter fun p => !decide (p.1 = k)

/-- The keys. -/
def keys (l : List (κ × α)) : List κ := l.map (·.1)

@[simp] theorem keys_nil : keys ([] : List (κ × α)) = [] := rfl
@[simp] theorem keys_cons (p : κ × α) (l) : keys (p :: l) = p.1 :: keys l := rfl

theorem get_eq_none {k : κ} {l : List (κ × α)} : get k l = none ↔ k ∉ keys l := by
  induction l with
  | nil => simp [get]
  | cons p l ih =>
    obtain ⟨k', a⟩ := p
    simp only [get, keys_cons, List.mem_cons, not_or]
    split
    · rename_i h; subst h; simp
    · rename_i h; rw [ih]
      exact ⟨fun h2 => ⟨fun e => h e.symm, h2⟩, fun h2 => h2.2⟩

theorem get_isSome {k : κ} {l : List (κ × α)} : (get k l).isSome = true ↔ k ∈ keys l := by
  have := get_eq_none (k := k) (l := l)
  cases h : get k l with
  | none => simp [this.1 h]
  | some a =>
    simp only [Option.isSome_some, true_iff]
    by_cases hk : k ∈ keys l
    · exact hk
    · rw [this.2 hk] at h; cases h

theorem mem_of_get {k : κ} {a : α} {l : List (κ × α)} (h : get k l = some a) : (k, a) ∈ l := by
  induction l with
  | nil => cases h
  | cons p l ih =>
    obtain ⟨k', a'⟩ := p
    simp only [get] at h
    split at h
    · rename_i e; cases h; subst e; simp
    · exact List.mem_cons_of_mem _ (ih h)

theorem mem_keys {k : κ} {a : α} {l : List (κ × α)} (h : (k, a) ∈ l) : k ∈ keys l :=
  List.mem_map.2 ⟨(k, a), h, rfl⟩

theorem get_of_mem {k : κ} {a : α} {l : List (κ × α)} (hn : (keys l).Nodup) (h : (k, a) ∈ l) :
    get k l = some a := by
  induction l with
  | nil => cases h
  | cons p l ih =>
    obtain ⟨k', a'⟩ := p
    simp only [keys_cons, List.nodup_cons] at hn
    simp only [get]
    rcases List.mem_cons.1 h with e | h'
    · cases e; simp
    · have : k' ≠ k := fun e => hn.1 (e ▸ mem_keys h')
      rw [if_neg this]
      exact ih hn.2 h'

theorem get_iff_mem {k : κ} {a : α} {l : List (κ × α)} (hn : (keys l).Nodup) :
    get k l = some a ↔ (k, a) ∈ l := ⟨mem_of_get, get_of_mem hn⟩

@[simp] theorem get_put (k : κ) (a : α) (k' : κ) (l : List (κ × α)) :
    get k' (put k a l) = if k' = k then some a else get k' l := by
  induction l with
  | nil =>
    simp only [put, get]
    by_cases h : k = k'
    · subst h; simp
    · have h' : k' ≠ k := fun e => h e.symm
      simp [h, h']
  | cons p l ih =>
    obtain ⟨j, b⟩ := p
    simp only [put]
    by_cases h : j = k
    · subst h
      simp only [if_true, get]
      by_cases h2 : j = k'
      · subst h2; simp
      · have h' : k' ≠ j := fun e => h2 e.symm
        simp [h2, h']
    · simp only [if_neg h, get, ih]
      by_cases h2 : j = k'
      · subst h2; simp [h]
      · simp [h2]

theorem keys_put (k : κ) (a : α) (l : List (κ × α)) :
    keys (put k a l) = if k ∈ keys l then keys l else keys l ++ [k] := by
  induction l with
  | nil => simp [put, keys]
  | cons p l ih =>
    obtain ⟨j, b⟩ := p
    simp only [put]
    by_cases h : j = k
    · subst h; simp
    · have h' : k ≠ j := fun e => h e.symm
      simp only [if_neg h, keys_cons, ih, List.mem_cons, h', false_or]
      split <;> simp

theorem mem_keys_put {k k' : κ} {a : α} {l : List (κ × α)} :
    k' ∈ keys (put k a l) ↔ k' = k ∨ k' ∈ keys l := by
  rw [keys_put]
  split
  · rename_i h
    constructor
    · exact Or.inr
    · rintro (rfl | h2)
      · exact h
      · exact h2
  · simp [or_comm]

theorem nodup_put {k : κ} {a : α} {l : List (κ × α)} (h : (keys l).Nodup) :
    (keys (put k a l)).Nodup := by
  rw [keys_put]
  split
  · exact h
  · rename_i h2
    rw [List.nodup_append]
    refine ⟨h, by simp, ?_⟩
    intro x hx y hy e
    simp only [List.mem_singleton] at hy
    exact h2 (hy ▸ e ▸ hx)

/-- Putting a new key appends. -/
theorem put_of_not_mem {k : κ} {a : α} {l : List (κ × α)} (h : k ∉ keys l) :
    put k a l = l ++ [(k, a)] := by
  induction l with
  | nil => rfl
  | cons p l ih =>
    obtain ⟨j, b⟩ := p
    simp only [keys_cons, List.mem_cons, not_or] at h
    have h' : j ≠ k := fun e => h.1 e.symm
    simp [put, if_neg h', ih h.2]

theorem mem_put {k : κ} {a : α} {l : List (κ × α)} (hn : (keys l).Nodup) {p : κ × α} :
    p ∈ put k a l ↔ p = (k, a) ∨ (p ∈ l ∧ p.1 ≠ k) := by
  obtain ⟨k', b⟩ := p
  rw [← get_iff_mem (nodup_put hn), get_put, ← get_iff_mem hn]
  by_cases h : k' = k
  · subst h
    simp only [if_true, Option.some.injEq, Prod.mk.injEq, true_and, ne_eq, not_true, and_false,
      or_false]
    exact eq_comm
  · simp [h]

@[simp] theorem get_del (k k' : κ) (l : List (κ × α)) :
    get k' (del k l) = if k' = k then none else get k' l := by
  induction l with
  | nil => simp [del, get]
  | cons p l ih =>
    obtain ⟨j, b⟩ := p
    simp only [del] at ih ⊢
    by_cases h : j = k
    · subst h
      rw [List.filter_cons_of_neg (by simp), ih]
      by_cases h2 : k' = j
      · simp [h2]
      · have : j ≠ k' := fun e => h2 e.symm
        simp [h2, get, this]
    · rw [List.filter_cons_of_pos (by simpa using h)]
      simp only [get, ih]
      by_cases h2 : j = k'
      · subst h2; simp [h]
      · simp [h2]

theorem mem_del {k : κ} {l : List (κ × α)} {p : κ × α} : p ∈ del k l ↔ p ∈ l ∧ p.1 ≠ k := by
  simp [del]

theorem mem_keys_del {k k' : κ} {l : List (κ × α)} : k' ∈ keys (del k l) ↔ k' ∈ keys l ∧ k' ≠ k := by
  simp only [keys, List.mem_map, mem_del]
  constructor
  · rintro ⟨p, ⟨h1, h2⟩, rfl⟩; exact ⟨⟨p, h1, rfl⟩, h2⟩
  · rintro ⟨⟨p, h1, rfl⟩, h2⟩; exact ⟨p, ⟨h1, h2⟩, rfl⟩

theorem nodup_del {k : κ} {l : List (κ × α)} (h : (keys l).Nodup) : (keys (del k l)).Nodup :=
  h.sublist (List.filter_sublist.map _)

end Copc.AList
