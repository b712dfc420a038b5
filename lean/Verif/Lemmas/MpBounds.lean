import Verif.Lemmas.Mp
import Verif.Spec.Mp
import Verif.Lemmas.FltOrder
/-! # Bounds collected by a transform -/
namespace Copc.Mp
open Copc Spec

/-- A choice of one of two numbers that is below both. -/
def Lower (pick : Dbl → Dbl → Dbl) : Prop := ∀ a b, a.isNaN = false → b.isNaN = false →
  (pick a b = a ∨ pick a b = b) ∧ Flt.le' (pick a b) a = true ∧ Flt.le' (pick a b) b = true

theorem Lower.fold {pick : Dbl → Dbl → Dbl} (hp : Lower pick) : ∀ (l : List Dbl) (a : Dbl), a.isNaN = false →
    (∀ x ∈ l, x.isNaN = false) → l.foldl pick a ∈ a :: l ∧ ∀ x ∈ a :: l, Flt.le' (l.foldl pick a) x = true
  | [], a, ha, _ => ⟨by simp, by simpa using Flt.le'_refl ha⟩
  | b :: l, a, ha, hl => by
    obtain ⟨h1, h2, h3⟩ := hp a b ha (hl b (by simp))
    have hn : (pick a b).isNaN = false := (Flt.le'_notNaN h2).1
    obtain ⟨i1, i2⟩ := hp.fold l (pick a b) hn fun x hx => hl x (by simp [hx])
    rw [List.foldl_cons]
    refine ⟨?_, ?_⟩
    · rcases List.mem_cons.1 i1 with e | e
      · rw [e]
        rcases h1 with e | e <;> rw [e] <;> simp
      · simp [e]
    · intro x hx
      have h0 := i2 (pick a b) (by simp)
      rcases List.mem_cons.1 hx with rfl | hx
      · exact Flt.le'_trans h0 h2
      · rcases List.mem_cons.1 hx with rfl | hx
        · exact Flt.le'_trans h0 h3
        · exact i2 x (by simp [hx])

/-- A choice of one of two numbers that is above both. -/
def Upper (pick : Dbl → Dbl → Dbl) : Prop := ∀ a b, a.isNaN = false → b.isNaN = false →
  (pick a b = a ∨ pick a b = b) ∧ Flt.le' a (pick a b) = true ∧ Flt.le' b (pick a b) = true

theorem Upper.fold {pick : Dbl → Dbl → Dbl} (hp : Upper pick) : ∀ (l : List Dbl) (a : Dbl), a.isNaN = false →
    (∀ x ∈ l, x.isNaN = false) → l.foldl pick a ∈ a :: l ∧ ∀ x ∈ a :: l, Flt.le' x (l.foldl pick a) = true
  | [], a, ha, _ => ⟨by simp, by simpa using Flt.le'_refl ha⟩
  | b :: l, a, ha, hl => by
    obtain ⟨h1, h2, h3⟩ := hp a b ha (hl b (by simp))
    have hn : (pick a b).isNaN = false := (Flt.le'_notNaN h2).2
    obtain ⟨i1, i2⟩ := hp.fold l (pick a b) hn fun x hx => hl x (by simp [hx])
    rw [List.foldl_cons]
    refine ⟨?_, ?_⟩
    · rcases List.mem_cons.1 i1 with e | e
      · rw [e]
        rcases h1 with e | e <;> rw [e] <;> simp
      · simp [e]
    · intro x hx
      have h0 := i2 (pick a b) (by simp)
      rcases List.mem_cons.1 hx with rfl | hx
      · exact Flt.le'_trans h2 h0
      · rcases List.mem_cons.1 hx with rfl | hx
        · exact Flt.le'_trans h3 h0
        · exact i2 x (by simp [hx])

theorem lower_py : Lower fun m x => if Flt.lt' x m then x else m := by
  intro a b ha hb
  by_cases h : Flt.lt' b a = true
  · simp only [h, if_true]
    exact ⟨.inr trivial, (Flt.le'_total ha hb).resolve_left (by
      intro e; rw [Flt.not_lt'_of_le' e] at h; cases h), Flt.le'_refl hb⟩
  · simp only [h, Bool.false_eq_true, if_false]
    exact ⟨.inl trivial, Flt.le'_refl ha, Flt.le'_of_not_lt' ha hb (by simpa using h)⟩

theorem upper_py : Upper fun m x => if Flt.lt' m x then x else m := by
  intro a b ha hb
  by_cases h : Flt.lt' a b = true
  · simp only [h, if_true]
    exact ⟨.inr trivial, (Flt.le'_total ha hb).resolve_right (by
      intro e; rw [Flt.not_lt'_of_le' e] at h; cases h), Flt.le'_refl hb⟩
  · simp only [h, Bool.false_eq_true, if_false]
    exact ⟨.inl trivial, Flt.le'_refl ha, Flt.le'_of_not_lt' hb ha (by simpa using h)⟩

theorem lower_np : Lower npMin2 := by
  intro a b ha hb
  unfold npMin2
  simp only [ha, hb, Bool.false_eq_true, if_false]
  exact lower_py a b ha hb

theorem upper_np : Upper npMax2 := by
  intro a b ha hb
  unfold npMax2
  simp only [ha, hb, Bool.false_eq_true, if_false]
  exact upper_py a b ha hb

/-- `v` is an element of the list, and below all others. -/
def Low (v : Dbl) (l : List Dbl) : Prop := v ∈ l ∧ ∀ x ∈ l, Flt.le' v x = true
/-- `v` is an element of the list, and above all others. -/
def High (v : Dbl) (l : List Dbl) : Prop := v ∈ l ∧ ∀ x ∈ l, Flt.le' x v = true

theorem Low.least {v : Dbl} {l : List Dbl} (h : Low v l) : Least v l := by
  have := h.2 v h.1
  exact ⟨(Flt.le'_notNaN this).1, fun x hx => (Flt.le'_iff_ext.1 (h.2 x hx)).2.2, v, h.1, rfl⟩

theorem High.greatest {v : Dbl} {l : List Dbl} (h : High v l) : Greatest v l := by
  have := h.2 v h.1
  exact ⟨(Flt.le'_notNaN this).1, fun x hx => (Flt.le'_iff_ext.1 (h.2 x hx)).2.2, v, h.1, rfl⟩

theorem pyMin_low {l : List Dbl} (hl : l ≠ []) (hn : ∀ x ∈ l, x.isNaN = false) : ∃ v, pyMin l = some v ∧ Low v l := by
  cases l with
  | nil => exact absurd rfl hl
  | cons a l => exact ⟨_, rfl, lower_py.fold l a (hn a (by simp)) fun x hx => hn x (by simp [hx])⟩

theorem pyMax_high {l : List Dbl} (hl : l ≠ []) (hn : ∀ x ∈ l, x.isNaN = false) : ∃ v, pyMax l = some v ∧ High v l := by
  cases l with
  | nil => exact absurd rfl hl
  | cons a l => exact ⟨_, rfl, upper_py.fold l a (hn a (by simp)) fun x hx => hn x (by simp [hx])⟩

/-- Corners of the smallest box, with coordinates of the points. -/
structure Tight (ps : List Point) (b : Vec3 Dbl × Vec3 Dbl) : Prop where
  x0 : Low b.1.x (ps.map (·.x))
  y0 : Low b.1.y (ps.map (·.y))
  z0 : Low b.1.z (ps.map (·.z))
  x1 : High b.2.x (ps.map (·.x))
  y1 : High b.2.y (ps.map (·.y))
  z1 : High b.2.z (ps.map (·.z))

theorem Tight.bounds {ps : List Point} {b : Vec3 Dbl × Vec3 Dbl} (h : Tight ps b) : Bounds ps b.1 b.2 :=
  ⟨h.x0.least, h.y0.least, h.z0.least, h.x1.greatest, h.y1.greatest, h.z1.greatest⟩

theorem bounds_tight {ps : List Point} (hne : ps ≠ []) (hn : Numbers ps) : ∃ b, bounds ps = some b ∧ Tight ps b := by
  have hx : ∀ v ∈ ps.map (·.x), v.isNaN = false := by
    intro v hv; obtain ⟨p, hp, rfl⟩ := List.mem_map.1 hv; exact (hn p hp).1
  have hy : ∀ v ∈ ps.map (·.y), v.isNaN = false := by
    intro v hv; obtain ⟨p, hp, rfl⟩ := List.mem_map.1 hv; exact (hn p hp).2.1
  have hz : ∀ v ∈ ps.map (·.z), v.isNaN = false := by
    intro v hv; obtain ⟨p, hp, rfl⟩ := List.mem_map.1 hv; exact (hn p hp).2.2
  obtain ⟨x0, a1, b1⟩ := pyMin_low (by simpa using hne) hx
  obtain ⟨y0, a2, b2⟩ := pyMin_low (by simpa using hne) hy
  obtain ⟨z0, a3, b3⟩ := pyMin_low (by simpa using hne) hz
  obtain ⟨x1, a4, b4⟩ := pyMax_high (by simpa using hne) hx
  obtain ⟨y1, a5, b5⟩ := pyMax_high (by simpa using hne) hy
  obtain ⟨z1, a6, b6⟩ := pyMax_high (by simpa using hne) hz
  refine ⟨(⟨x0, y0, z0⟩, ⟨x1, y1, z1⟩), ?_, ⟨b1, b2, b3, b4, b5, b6⟩⟩
  unfold bounds
  rw [a1, a2, a3, a4, a5, a6]
  rfl

theorem bounds_nil : bounds [] = none := rfl

/-- Folding the bounds of several lists of points. -/
theorem fold_tight (pick : Dbl → Dbl → Dbl) (hp : Lower pick) {sel : Point → Dbl} :
    ∀ (l : List (Dbl × List Point)) (a : Dbl) (as : List Point), Low a (as.map sel) →
    (∀ x ∈ l, Low x.1 (x.2.map sel)) → Low ((l.map (·.1)).foldl pick a) ((as ++ (l.map (·.2)).flatten).map sel)
  | [], a, as, ha, _ => by simpa using ha
  | (b, bs) :: l, a, as, ha, hl => by
    have hb : Low b (bs.map sel) := hl (b, bs) (by simp)
    have na := (Flt.le'_notNaN (ha.2 a ha.1)).1
    have nb := (Flt.le'_notNaN (hb.2 b hb.1)).1
    obtain ⟨h1, h2, h3⟩ := hp a b na nb
    have := fold_tight pick hp l (pick a b) (as ++ bs) ?_ fun x hx => hl x (by simp [hx])
    · simpa [List.append_assoc] using this
    · refine ⟨?_, ?_⟩
      · rw [List.map_append]
        rcases h1 with e | e <;> rw [e]
        · exact List.mem_append_left _ ha.1
        · exact List.mem_append_right _ hb.1
      · intro x hx
        rw [List.map_append] at hx
        rcases List.mem_append.1 hx with hx | hx
        · exact Flt.le'_trans h2 (ha.2 x hx)
        · exact Flt.le'_trans h3 (hb.2 x hx)

theorem fold_tight' (pick : Dbl → Dbl → Dbl) (hp : Upper pick) {sel : Point → Dbl} :
    ∀ (l : List (Dbl × List Point)) (a : Dbl) (as : List Point), High a (as.map sel) →
    (∀ x ∈ l, High x.1 (x.2.map sel)) → High ((l.map (·.1)).foldl pick a) ((as ++ (l.map (·.2)).flatten).map sel)
  | [], a, as, ha, _ => by simpa using ha
  | (b, bs) :: l, a, as, ha, hl => by
    have hb : High b (bs.map sel) := hl (b, bs) (by simp)
    have na := (Flt.le'_notNaN (ha.2 a ha.1)).1
    have nb := (Flt.le'_notNaN (hb.2 b hb.1)).1
    obtain ⟨h1, h2, h3⟩ := hp a b na nb
    have := fold_tight' pick hp l (pick a b) (as ++ bs) ?_ fun x hx => hl x (by simp [hx])
    · simpa [List.append_assoc] using this
    · refine ⟨?_, ?_⟩
      · rw [List.map_append]
        rcases h1 with e | e <;> rw [e]
        · exact List.mem_append_left _ ha.1
        · exact List.mem_append_right _ hb.1
      · intro x hx
        rw [List.map_append] at hx
        rcases List.mem_append.1 hx with hx | hx
        · exact Flt.le'_trans (ha.2 x hx) h2
        · exact Flt.le'_trans (hb.2 x hx) h3

theorem globalBounds_parts (a : Vec3 Dbl × Vec3 Dbl) (l : List (Vec3 Dbl × Vec3 Dbl)) : globalBounds (a :: l) =
    (⟨(l.map (·.1.x)).foldl npMin2 a.1.x, (l.map (·.1.y)).foldl npMin2 a.1.y, (l.map (·.1.z)).foldl npMin2 a.1.z⟩,
     ⟨(l.map (·.2.x)).foldl npMax2 a.2.x, (l.map (·.2.y)).foldl npMax2 a.2.y, (l.map (·.2.z)).foldl npMax2 a.2.z⟩) := by
  unfold globalBounds
  induction l generalizing a with
  | nil => rfl
  | cons b l ih =>
    simp only [List.foldl_cons, List.map_cons]
    exact ih _

/-- The global bounds of the bounds of several non-empty lists of points are those of all the points. -/
theorem globalBounds_tight (l : List ((Vec3 Dbl × Vec3 Dbl) × List Point)) (hne : l ≠ [])
    (h : ∀ x ∈ l, Tight x.2 x.1) : Tight (l.map (·.2)).flatten (globalBounds (l.map (·.1))) := by
  cases l with
  | nil => exact absurd rfl hne
  | cons a l =>
    have ha := h a (by simp)
    have hl : ∀ x ∈ l, Tight x.2 x.1 := fun x hx => h x (by simp [hx])
    rw [List.map_cons, List.map_cons, List.flatten_cons, globalBounds_parts]
    simp only [List.map_map]
    constructor
    · have := fold_tight npMin2 lower_np (sel := (·.x)) (l.map fun x => (x.1.1.x, x.2)) a.1.1.x a.2 ha.x0
        (by intro x hx; obtain ⟨y, hy, rfl⟩ := List.mem_map.1 hx; exact (hl y hy).x0)
      rw [List.map_map, List.map_map] at this
      exact this
    · have := fold_tight npMin2 lower_np (sel := (·.y)) (l.map fun x => (x.1.1.y, x.2)) a.1.1.y a.2 ha.y0
        (by intro x hx; obtain ⟨y, hy, rfl⟩ := List.mem_map.1 hx; exact (hl y hy).y0)
      rw [List.map_map, List.map_map] at this
      exact this
    · have := fold_tight npMin2 lower_np (sel := (·.z)) (l.map fun x => (x.1.1.z, x.2)) a.1.1.z a.2 ha.z0
        (by intro x hx; obtain ⟨y, hy, rfl⟩ := List.mem_map.1 hx; exact (hl y hy).z0)
      rw [List.map_map, List.map_map] at this
      exact this
    · have := fold_tight' npMax2 upper_np (sel := (·.x)) (l.map fun x => (x.1.2.x, x.2)) a.1.2.x a.2 ha.x1
        (by intro x hx; obtain ⟨y, hy, rfl⟩ := List.mem_map.1 hx; exact (hl y hy).x1)
      rw [List.map_map, List.map_map] at this
      exact this
    · have := fold_tight' npMax2 upper_np (sel := (·.y)) (l.map fun x => (x.1.2.y, x.2)) a.1.2.y a.2 ha.y1
        (by intro x hx; obtain ⟨y, hy, rfl⟩ := List.mem_map.1 hx; exact (hl y hy).y1)
      rw [List.map_map, List.map_map] at this
      exact this
    · have := fold_tight' npMax2 upper_np (sel := (·.z)) (l.map fun x => (x.1.2.z, x.2)) a.1.2.z a.2 ha.z1
        (by intro x hx; obtain ⟨y, hy, rfl⟩ := List.mem_map.1 hx; exact (hl y hy).z1)
      rw [List.map_map, List.map_map] at this
      exact this

theorem Tight.perm {ps qs : List Point} {b : Vec3 Dbl × Vec3 Dbl} (h : Tight ps b) (hp : ps.Perm qs) : Tight qs b := by
  have lo : ∀ (sel : Point → Dbl) (v : Dbl), Low v (ps.map sel) → Low v (qs.map sel) := fun sel v h =>
    ⟨(hp.map sel).mem_iff.1 h.1, fun x hx => h.2 x ((hp.map sel).mem_iff.2 hx)⟩
  have hi : ∀ (sel : Point → Dbl) (v : Dbl), High v (ps.map sel) → High v (qs.map sel) := fun sel v h =>
    ⟨(hp.map sel).mem_iff.1 h.1, fun x hx => h.2 x ((hp.map sel).mem_iff.2 hx)⟩
  exact ⟨lo _ _ h.x0, lo _ _ h.y0, lo _ _ h.z0, hi _ _ h.x1, hi _ _ h.y1, hi _ _ h.z1⟩

end Copc.Mp
