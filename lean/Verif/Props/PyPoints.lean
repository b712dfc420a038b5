import Verif.Spec.PySeq
import Verif.Props.Points
import Verif.Lemmas.Sample
import Mathlib.Tactic.Linarith
import Mathlib.Tactic.Ring
/-! # C57: `Points` as a Python sequence -/
namespace Copc
open Spec

theorem Spec.Position.unique {n : Nat} {i : Int} {p q : Nat} (hp : Position n i p) (hq : Position n i q) : p = q := by
  obtain ⟨a, b⟩ := hp; obtain ⟨c, d⟩ := hq; omega

theorem wrapI_ok {n : Nat} (hn : (n : Int) ≤ PySlice.maxIdx) {i : Int} {p : Nat} (h : Position n i p) :
    Coll.wrapI i n = .ok p := by
  obtain ⟨h1, h2⟩ := h
  unfold Coll.wrapI
  unfold PySlice.maxIdx at *
  rw [if_neg (by omega)]
  simp only
  rcases h2 with h2 | h2
  · rw [if_neg (by omega), if_neg (by omega), h2, Int.toNat_natCast]
  · simp only [if_pos (show i < 0 by omega)]
    rw [if_neg (by omega)]; congr 1; omega

theorem wrapI_bad {n : Nat} {i : Int} (h : ∀ p, ¬Position n i p) :
    Coll.wrapI i n = .raise .index ∨ Coll.wrapI i n = .raise .type := by
  unfold Coll.wrapI
  split
  · exact Or.inr rfl
  · left
    simp only
    split
    · rw [if_pos]
      by_contra hc
      exact h (i + n).toNat ⟨by omega, by omega⟩
    · rw [if_pos]
      by_contra hc
      exact h i.toNat ⟨by omega, by omega⟩

/-- `points[i]` is the item at the position of `i`; an index without position raises. -/
theorem C57_get (c : Coll) (hn : (c.pts.length : Int) ≤ PySlice.maxIdx) (i : Int) :
    (∀ p (h : Position c.pts.length i p), c.pyGet i = .ok (c.pts[p]'h.1)) ∧
    ((∀ p, ¬Position c.pts.length i p) → c.pyGet i = .raise .index ∨ c.pyGet i = .raise .type) := by
  unfold Coll.pyGet
  constructor
  · intro p h
    rw [wrapI_ok hn h]
    simp only [Coll.at_, List.getElem?_eq_getElem h.1]
  · intro h
    rcases wrapI_bad h with e | e <;> rw [e] <;> simp

/-- `points[i] = v` replaces the item at the position of `i`, and nothing else; an index without position
raises. -/
theorem C57_set (c : Coll) (hn : (c.pts.length : Int) ≤ PySlice.maxIdx) (i : Int) (v : Nat) :
    (∀ p, Position c.pts.length i p → ∃ c', c.pySet i v = .ok c' ∧ c'.fmt = c.fmt ∧ c'.recLen = c.recLen ∧
      c'.pts.length = c.pts.length ∧ c'.pts[p]? = some v ∧ ∀ q ≠ p, c'.pts[q]? = c.pts[q]?) ∧
    ((∀ p, ¬Position c.pts.length i p) → c.pySet i v = .raise .index ∨ c.pySet i v = .raise .type) := by
  unfold Coll.pySet
  constructor
  · intro p h
    rw [wrapI_ok hn h]
    refine ⟨_, rfl, rfl, rfl, by simp, ?_, fun q hq => ?_⟩
    · simp [h.1]
    · simp [List.getElem?_set_ne hq.symm]
  · intro h
    rcases wrapI_bad h with e | e <;> rw [e] <;> simp

/-! ### Slices -/

/-- The positions a slice walks over. -/
def walk (a k : Int) (m : Nat) : List Nat := (List.range m).map fun j : Nat => (a + j * k).toNat

theorem adjust_first (n : Nat) (hn : (n : Int) ≤ PySlice.maxIdx) (k : Int) (o : Option Int) :
    PySlice.adjust n k (PySlice.startOf k o) = first n (decide (k < 0)) o := by
  cases o with
  | none =>
    simp only [first, PySlice.adjust, PySlice.startOf]
    unfold PySlice.maxIdx at *
    by_cases hk : k < 0 <;> simp [hk]
    all_goals omega
  | some i =>
    simp only [first, bound, PySlice.adjust, PySlice.startOf, PySlice.clip]
    unfold PySlice.maxIdx at *
    by_cases hk : k < 0 <;> simp [hk] <;> split_ifs <;> omega

theorem adjust_last (n : Nat) (hn : (n : Int) ≤ PySlice.maxIdx) (k : Int) (o : Option Int) :
    PySlice.adjust n k (PySlice.stopOf k o) = last n (decide (k < 0)) o := by
  cases o with
  | none =>
    simp only [last, PySlice.adjust, PySlice.stopOf]
    unfold PySlice.maxIdx at *
    by_cases hk : k < 0 <;> simp [hk] <;> omega
  | some i =>
    simp only [last, bound, PySlice.adjust, PySlice.stopOf, PySlice.clip]
    unfold PySlice.maxIdx at *
    by_cases hk : k < 0 <;> simp [hk] <;> split_ifs <;> omega

theorem first_range (n : Nat) (b : Bool) (o : Option Int) :
    (if b then -1 else 0) ≤ first n b o ∧ first n b o ≤ (if b then (n : Int) - 1 else n) := by
  cases o <;> cases b <;> simp [first, bound]

theorem last_range (n : Nat) (b : Bool) (o : Option Int) :
    (if b then -1 else 0) ≤ last n b o ∧ last n b o ≤ (if b then (n : Int) - 1 else n) := by
  cases o <;> cases b <;> simp [last, bound]

theorem mem_walk {a k : Int} {m p : Nat} : p ∈ walk a k m ↔ ∃ j < m, (a + j * k).toNat = p := by
  simp [walk]

/-- Walking forward. -/
theorem walk_up {a b k : Int} (hk : 0 < k) (ha : 0 ≤ a) :
    let m := if a < b then ((b - a - 1) / k + 1).toNat else 0
    (∀ j : Nat, j < m → a + j * k < b) ∧ (walk a k m).Pairwise (· < ·) ∧
      ∀ p : Nat, p ∈ walk a k m ↔ a ≤ p ∧ (p : Int) < b ∧ k ∣ p - a := by
  intro m
  have hm : ∀ j : Nat, j < m ↔ a + j * k < b := by
    intro j
    by_cases hab : a < b
    · simp only [m, if_pos hab]
      have h0 : 0 ≤ (b - a - 1) / k := Int.ediv_nonneg (by omega) hk.le
      have := Int.le_ediv_iff_mul_le (a := (j : Int)) (b := b - a - 1) hk
      omega
    · simp only [m, if_neg hab]
      have : 0 ≤ (j : Int) * k := by positivity
      omega
  refine ⟨fun j hj => (hm j).1 hj, ?_, fun p => ?_⟩
  · unfold walk
    rw [List.pairwise_map]
    refine List.pairwise_lt_range.imp fun {i j} hij => ?_
    have h1 : 0 ≤ (i : Int) * k := by positivity
    have h2 : (i : Int) * k < j * k := by
      apply mul_lt_mul_of_pos_right _ hk
      exact_mod_cast hij
    omega
  · rw [mem_walk]
    constructor
    · rintro ⟨j, hj, rfl⟩
      have h1 : 0 ≤ (j : Int) * k := by positivity
      have := (hm j).1 hj
      refine ⟨by omega, by omega, ⟨j, ?_⟩⟩
      rw [Int.toNat_of_nonneg (by omega)]; ring
    · rintro ⟨h1, h2, ⟨c, hc⟩⟩
      have hc0 : 0 ≤ c := by
        by_contra h
        have : k * c < 0 := mul_neg_of_pos_of_neg hk (by omega)
        omega
      refine ⟨c.toNat, (hm _).2 ?_, ?_⟩ <;> rw [Int.toNat_of_nonneg hc0, mul_comm c k] <;> omega

/-- Walking backward. -/
theorem walk_down {a b k : Int} (hk : k < 0) (hb : -1 ≤ b) :
    let m := if b < a then ((a - b - 1) / (-k) + 1).toNat else 0
    (∀ j : Nat, j < m → b < a + j * k) ∧ (walk a k m).Pairwise (· > ·) ∧
      ∀ p : Nat, p ∈ walk a k m ↔ (p : Int) ≤ a ∧ b < (p : Int) ∧ k ∣ p - a := by
  intro m
  have hm : ∀ j : Nat, j < m ↔ b < a + j * k := by
    intro j
    by_cases hab : b < a
    · simp only [m, if_pos hab]
      have h0 : 0 ≤ (a - b - 1) / (-k) := Int.ediv_nonneg (by omega) (by omega)
      have := Int.le_ediv_iff_mul_le (a := (j : Int)) (b := a - b - 1) (c := -k) (by omega)
      rw [mul_neg] at this
      omega
    · simp only [m, if_neg hab]
      have : 0 ≤ (j : Int) * (-k) := mul_nonneg (by omega) (by omega)
      rw [mul_neg] at this
      omega
  refine ⟨fun j hj => (hm j).1 hj, ?_, fun p => ?_⟩
  · unfold walk
    rw [List.pairwise_map]
    refine (List.Pairwise.and_mem.1 List.pairwise_lt_range).imp fun {i j} hij => ?_
    obtain ⟨-, hj, hij⟩ := hij
    have h1 := (hm j).1 (List.mem_range.1 hj)
    have h2 : (j : Int) * k < i * k := by
      apply mul_lt_mul_of_neg_right _ hk
      exact_mod_cast hij
    show (a + j * k).toNat < (a + i * k).toNat
    omega
  · rw [mem_walk]
    constructor
    · rintro ⟨j, hj, rfl⟩
      have h1 : 0 ≤ (j : Int) * (-k) := mul_nonneg (by omega) (by omega)
      rw [mul_neg] at h1
      have := (hm j).1 hj
      refine ⟨by omega, by omega, ⟨j, ?_⟩⟩
      rw [Int.toNat_of_nonneg (by omega)]; ring
    · rintro ⟨h1, h2, ⟨c, hc⟩⟩
      have hc0 : 0 ≤ c := by
        by_contra h
        have : 0 < k * c := mul_pos_of_neg_of_neg hk (by omega)
        omega
      refine ⟨c.toNat, (hm _).2 ?_, ?_⟩ <;> rw [Int.toNat_of_nonneg hc0, mul_comm c k] <;> omega

/-- A step beyond the size selects the same positions as any other such step. -/
theorem dvd_far {n k k' x : Int} (hx : -n < x ∧ x < n) (h : k = k' ∨ (n ≤ |k| ∧ n ≤ |k'|)) : k ∣ x ↔ k' ∣ x := by
  rcases h with rfl | ⟨h1, h2⟩
  · rfl
  · have key : ∀ c : Int, n ≤ |c| → (c ∣ x ↔ x = 0) := by
      intro c hc
      constructor
      · intro h
        apply Int.eq_zero_of_abs_lt_dvd ((abs_dvd c x).2 h)
        exact lt_of_lt_of_le (abs_lt.2 hx) hc
      · rintro rfl; exact dvd_zero _
    rw [key k h1, key k' h2]

theorem compute_spec (n : Nat) (hn : (n : Int) ≤ PySlice.maxIdx) (s : PySlice) (h0 : s.step ≠ some 0) :
    ∃ a k m, s.compute n = .ok (a, k, m) ∧ (∀ j : Nat, j < m → 0 ≤ a + j * k ∧ a + j * k < n) ∧
      Selected n s (walk a k m) := by
  have hstep : ∃ k : Int, k = PySlice.stepOf s.step ∧ k ≠ 0 ∧ (k < 0 ↔ s.step.getD 1 < 0) ∧
      (s.step.getD 1 = k ∨ ((n : Int) ≤ |s.step.getD 1| ∧ (n : Int) ≤ |k|)) ∧ s.step.getD 1 ≠ 0 := by
    refine ⟨_, rfl, ?_⟩
    cases h : s.step with
    | none => simp [PySlice.stepOf]
    | some c =>
      have hc : c ≠ 0 := by rintro rfl; exact h0 h
      simp only [Option.getD_some, PySlice.stepOf, PySlice.clip]
      unfold PySlice.maxIdx at *
      refine ⟨by omega, by omega, ?_, hc⟩
      by_cases hin : -9223372036854775807 ≤ c ∧ c ≤ 9223372036854775807
      · left; omega
      · right
        rcases abs_cases c with ⟨e1, e2⟩ | ⟨e1, e2⟩ <;> rw [e1] <;>
        rcases abs_cases (max (-9223372036854775807) (max (-9223372036854775807 - 1) (min c 9223372036854775807)))
          with ⟨f1, f2⟩ | ⟨f1, f2⟩ <;> rw [f1] <;> omega
  obtain ⟨k, hk, hk0, hneg, hfar, hz⟩ := hstep
  unfold PySlice.compute
  rw [← hk]
  simp only [if_neg hk0]
  rw [adjust_first n hn, adjust_last n hn]
  by_cases hs : k < 0
  · simp only [hs, decide_true, if_true]
    have f := first_range n true s.start
    have l := last_range n true s.stop
    simp only [if_true] at f l
    obtain ⟨w1, w2, w3⟩ := walk_down (a := first n true s.start) (b := last n true s.stop) hs l.1
    refine ⟨_, _, _, rfl, ?_, Or.inr ⟨hneg.1 hs, w2, fun p => ?_⟩⟩
    · intro j hj
      have := w1 j hj
      have h1 : 0 ≤ (j : Int) * (-k) := mul_nonneg (by omega) (by omega)
      rw [mul_neg] at h1
      omega
    · rw [w3 p]
      refine and_congr_right fun h1 => and_congr_right fun h2 => ?_
      exact (dvd_far (n := n) ⟨by omega, by omega⟩ hfar).symm
  · simp only [hs, decide_false, if_false]
    have f := first_range n false s.start
    have l := last_range n false s.stop
    simp only [Bool.false_eq_true, if_false] at f l
    obtain ⟨w1, w2, w3⟩ := walk_up (a := first n false s.start) (b := last n false s.stop) (k := k) (by omega) f.1
    refine ⟨_, _, _, rfl, ?_, Or.inl ⟨by omega, w2, fun p => ?_⟩⟩
    · intro j hj
      have := w1 j hj
      have h1 : 0 ≤ (j : Int) * k := mul_nonneg (by omega) (by omega)
      omega
    · rw [w3 p]
      refine and_congr_right fun h1 => and_congr_right fun h2 => ?_
      exact (dvd_far (n := n) ⟨by omega, by omega⟩ hfar).symm

theorem walk_succ (a k : Int) (m : Nat) : walk a k (m + 1) = a.toNat :: walk (a + k) k m := by
  unfold walk
  rw [List.range_succ_eq_map, List.map_cons, List.map_map]
  congr 1
  · simp
  · apply List.map_congr_left
    intro j _
    simp only [Function.comp]
    congr 1
    push_cast; ring

theorem mod_self {a : Int} (h0 : 0 ≤ a) (h : a ≤ PySlice.maxIdx) : a % 18446744073709551616 = a := by
  unfold PySlice.maxIdx at h
  omega

theorem gather_walk (c : Coll) (hn : (c.pts.length : Int) ≤ PySlice.maxIdx) {k : Int} : ∀ (m : Nat) (a : Int),
    (∀ j : Nat, j < m → 0 ≤ a + j * k ∧ a + j * k < c.pts.length) →
    ∃ l, c.gather m a k = .ok l ∧ l.map some = (walk a k m).map (c.pts[·]?)
  | 0, _, _ => ⟨[], rfl, rfl⟩
  | m + 1, a, h => by
    have h0 := h 0 (by omega)
    simp only [Nat.cast_zero, zero_mul, add_zero] at h0
    obtain ⟨l, hl, hm⟩ := gather_walk c hn m (a + k) fun j hj => by
      have := h (j + 1) (by omega)
      push_cast at this
      rw [show a + k + j * k = a + (j + 1) * k by ring]
      exact this
    have hlt : a.toNat < c.pts.length := by omega
    refine ⟨c.pts[a.toNat] :: l, ?_, ?_⟩
    · unfold Coll.gather
      rw [mod_self h0.1 (by omega)]
      simp only [Coll.at_, List.getElem?_eq_getElem hlt, hl]
    · rw [walk_succ, List.map_cons, List.map_cons, hm, List.getElem?_eq_getElem hlt]

/-- `points[start:stop:step]`: a step of zero raises; when nothing is selected the call raises (an empty
collection cannot be built from its points); otherwise, the points all being of the collection's format and
record length, it returns a collection of that format and length with the selected points in order. -/
theorem C57_slice (h : Heap) (c : Coll) (hh : Homogeneous h c) (hn : (c.pts.length : Int) ≤ PySlice.maxIdx)
    (s : PySlice) :
    (s.step = some 0 → c.pySlice h s = .raise .value) ∧
    (s.step ≠ some 0 → ∃ l, Selected c.pts.length s l ∧
      (l = [] → c.pySlice h s = .raise (.cxx .emptyData)) ∧
      (l ≠ [] → ∃ c', c.pySlice h s = .ok c' ∧ c'.fmt = c.fmt ∧ c'.recLen = c.recLen ∧
        c'.pts.map some = l.map (c.pts[·]?))) := by
  constructor
  · intro h0
    simp [Coll.pySlice, PySlice.compute, PySlice.stepOf, h0, PySlice.clip, PySlice.maxIdx]
  · intro h0
    obtain ⟨a, k, m, hc, hr, hsel⟩ := compute_spec c.pts.length hn s h0
    obtain ⟨l, hg, hm⟩ := gather_walk c hn m a hr
    refine ⟨_, hsel, fun hw => ?_, fun hw => ?_⟩
    · rw [hw] at hm
      have : l = [] := by simpa using hm
      subst this
      unfold Coll.pySlice
      rw [hc]
      simp only [hg]
      rfl
    · have hsub : ∀ i ∈ l, i ∈ c.pts := by
        intro i hi
        have : some i ∈ l.map some := List.mem_map.2 ⟨i, hi, rfl⟩
        rw [hm] at this
        obtain ⟨p, -, hp⟩ := List.mem_map.1 this
        exact List.mem_of_getElem? hp
      have hh' : Homogeneous h ⟨l, c.fmt, c.recLen⟩ := fun i hi => hh i (hsub i hi)
      cases l with
      | nil => exact absurd (by simpa using hm.symm) hw
      | cons i is =>
        obtain ⟨p, hp, pf, pl⟩ := hh' i (by simp)
        refine ⟨⟨i :: is, c.fmt, c.recLen⟩, ?_, rfl, rfl, hm⟩
        unfold Coll.pySlice
        rw [hc]
        simp only [hg]
        simp only [Coll.ofVector, hp]
        rw [pf, pl, (C17_all_or_nothing h ⟨[], c.fmt, c.recLen⟩ (i :: is) (fun j hj => by
          obtain ⟨q, hq, -⟩ := hh' j hj
          exact (List.getElem?_eq_some_iff.1 hq).1)).1 hh']
        rfl

theorem scatter_walk {k n : Int} (hn : n ≤ PySlice.maxIdx) : ∀ (vs : List Nat) (a : Int) (pts : List Nat),
    (pts.length : Int) = n →
    (∀ j : Nat, j < vs.length → 0 ≤ a + j * k ∧ a + j * k < n) → (walk a k vs.length).Nodup →
    ∃ l, Coll.scatter vs a k pts = .ok l ∧ l.length = pts.length ∧
      (walk a k vs.length).map (l[·]?) = vs.map some ∧ ∀ p ∉ walk a k vs.length, l[p]? = pts[p]?
  | [], _, pts, _, _, _ => ⟨pts, rfl, rfl, rfl, fun _ _ => rfl⟩
  | v :: vs, a, pts, hp, h, hd => by
    have h0 := h 0 (by simp)
    simp only [Nat.cast_zero, zero_mul, add_zero] at h0
    rw [List.length_cons, walk_succ, List.nodup_cons] at hd
    obtain ⟨l, hl, hlen, hm, ho⟩ := scatter_walk hn vs (a + k) (pts.set a.toNat v) (by simpa using hp) (fun j hj => by
      have := h (j + 1) (by simp; omega)
      push_cast at this
      rw [show a + k + j * k = a + (j + 1) * k by ring]
      exact this) hd.2
    refine ⟨l, ?_, by rw [hlen, List.length_set], ?_, ?_⟩
    · unfold Coll.scatter
      rw [mod_self h0.1 (by omega), if_pos (by omega), hl]
    · rw [List.length_cons, walk_succ, List.map_cons, List.map_cons, hm, ho _ hd.1]
      rw [List.getElem?_set_self (by omega)]
    · intro p hp'
      rw [List.length_cons, walk_succ, List.mem_cons, not_or] at hp'
      rw [ho p hp'.2, List.getElem?_set_ne (fun e => hp'.1 e.symm)]

theorem Spec.Selected.nodup {n : Nat} {s : PySlice} {l : List Nat} (h : Selected n s l) : l.Nodup := by
  rcases h with ⟨-, h, -⟩ | ⟨-, h, -⟩
  · exact h.imp fun h => Nat.ne_of_lt h
  · exact h.imp fun h => Nat.ne_of_gt h

/-- `points[start:stop:step] = value`: with as many points as positions are selected, the selected positions get
the points of `value` in order and nothing else changes; with another number, or a step of zero, it raises. -/
theorem C57_set_slice (c v : Coll) (hn : (c.pts.length : Int) ≤ PySlice.maxIdx) (s : PySlice) :
    (s.step = some 0 → c.pySetSlice s v = .raise .value) ∧
    (s.step ≠ some 0 → ∃ l, Selected c.pts.length s l ∧
      (l.length ≠ v.pts.length → c.pySetSlice s v = .raise .sliceSize) ∧
      (l.length = v.pts.length → ∃ c', c.pySetSlice s v = .ok c' ∧ c'.fmt = c.fmt ∧ c'.recLen = c.recLen ∧
        c'.pts.length = c.pts.length ∧ l.map (c'.pts[·]?) = v.pts.map some ∧ ∀ p ∉ l, c'.pts[p]? = c.pts[p]?)) := by
  constructor
  · intro h0
    simp [Coll.pySetSlice, PySlice.compute, PySlice.stepOf, h0, PySlice.clip, PySlice.maxIdx]
  · intro h0
    obtain ⟨a, k, m, hc, hr, hsel⟩ := compute_spec c.pts.length hn s h0
    have hw : (walk a k m).length = m := by simp [walk]
    refine ⟨_, hsel, fun hne => ?_, fun he => ?_⟩
    · rw [hw] at hne
      unfold Coll.pySetSlice
      rw [hc]
      simp only [if_pos hne]
    · rw [hw] at he
      subst he
      obtain ⟨l, h1, h2, h3, h4⟩ := scatter_walk hn v.pts a c.pts rfl hr hsel.nodup
      refine ⟨{ c with pts := l }, ?_, rfl, rfl, h2, h3, h4⟩
      unfold Coll.pySetSlice
      rw [hc]
      simp only [ne_eq, not_true, if_false, h1]

/-- The selected positions are determined by the slice. -/
theorem C57_selected_unique {n : Nat} {s : PySlice} {l l' : List Nat} (h : Selected n s l) (h' : Selected n s l') :
    l = l' := by
  rcases h with ⟨k, h1, h2⟩ | ⟨k, h1, h2⟩ <;> rcases h' with ⟨k', h1', h2'⟩ | ⟨k', h1', h2'⟩
  · exact List.Perm.eq_of_pairwise (fun a b _ _ x y => absurd x (by omega)) h1 h1'
      ((List.perm_ext_iff_of_nodup (h1.imp fun h => Nat.ne_of_lt h) (h1'.imp fun h => Nat.ne_of_lt h)).2
        fun p => (h2 p).trans (h2' p).symm)
  · omega
  · omega
  · exact List.Perm.eq_of_pairwise (fun a b _ _ x y => absurd x (by omega)) h1 h1'
      ((List.perm_ext_iff_of_nodup (h1.imp fun h => Nat.ne_of_gt h) (h1'.imp fun h => Nat.ne_of_gt h)).2
        fun p => (h2 p).trans (h2' p).symm)

/-! ### Non-vacuity -/

/-- Five points: `points[-2]`, `points[7]`. -/
example : (⟨[4, 3, 2, 1, 0], 6, 30⟩ : Coll).pyGet (-2) = .ok 1 ∧
    (⟨[4, 3, 2, 1, 0], 6, 30⟩ : Coll).pyGet 7 = .raise .index := by decide

/-- `points[::-2]` selects the positions 4, 2, 0. -/
example : Selected 5 ⟨none, none, some (-2)⟩ [4, 2, 0] := by
  refine Or.inr ⟨by decide, by decide, fun p => ?_⟩
  simp only [first, last, Option.getD_some, List.mem_cons, List.not_mem_nil, or_false, if_true, neg_dvd]
  omega

/-- `points[1:-1]` selects the positions 1, 2, 3. -/
example : Selected 5 ⟨some 1, some (-1), none⟩ [1, 2, 3] := by
  refine Or.inl ⟨by decide, by decide, fun p => ?_⟩
  simp [first, last, bound]
  omega

/-- A slice of a homogeneous collection. -/
example : ∃ c', (⟨[0, 0, 0], 6, 30⟩ : Coll).pySlice [Point.fresh 6 0] ⟨some 1, none, none⟩ = .ok c' ∧
    c'.pts = [0, 0] ∧ Homogeneous [Point.fresh 6 0] ⟨[0, 0, 0], 6, 30⟩ := by
  refine ⟨⟨[0, 0], 6, 30⟩, by decide +kernel, rfl, fun i hi => ?_⟩
  simp at hi
  subst hi
  exact ⟨_, rfl, rfl, rfl⟩

/-- Slice assignment. -/
example : (⟨[0, 1, 2, 3], 6, 30⟩ : Coll).pySetSlice ⟨none, none, some 2⟩ ⟨[8, 9], 6, 30⟩ =
    .ok ⟨[8, 1, 9, 3], 6, 30⟩ := by decide

/-! ### Assignment does not check the points -/

/-- **C17** is false for item assignment from Python: it stores a point of another format. -/
theorem C17_setitem_violated : ∃ w c c', PReach w ∧ w.colls = [c] ∧ c.pySet 0 1 = .ok c' ∧
    Homogeneous w.heap c ∧ ¬Homogeneous w.heap c' := by
  refine ⟨⟨[Point.fresh 6 0, Point.fresh 7 0], [⟨[0], 6, 30⟩]⟩, ⟨[0], 6, 30⟩, ⟨[1], 6, 30⟩, ?_, rfl, by decide,
    ?_, ?_⟩
  · refine PReach.step (w := ⟨[Point.fresh 6 0, Point.fresh 7 0], [⟨[], 6, 30⟩]⟩) ?_
      (PStep.addPoint (k := 0) (c := ⟨[], 6, 30⟩) (i := 0) rfl rfl)
    refine PReach.step (w := ⟨[Point.fresh 6 0, Point.fresh 7 0], []⟩) ?_
      (PStep.newColl (fmt := 6) (eb := 0) (by decide) rfl)
    refine PReach.step (w := ⟨[Point.fresh 6 0], []⟩) ?_ (PStep.newPoint (fmt := 7) (eb := 0) (by decide) rfl)
    exact PReach.step PReach.init (PStep.newPoint (fmt := 6) (eb := 0) (by decide) rfl)
  · intro i hi
    simp at hi
    subst hi
    exact ⟨_, rfl, rfl, rfl⟩
  · intro h
    obtain ⟨p, hp, hf, -⟩ := h 1 (by simp)
    simp at hp
    subst hp
    revert hf
    decide

/-- A writer of format 6 without extra bytes. -/
def plainCfg : CopcConfig := Sample.getOk (CopcConfig.make 6 Sample.scale Sample.zero [] [] false)
def plainW : Writer := Sample.getOk (Writer.make OStream.fresh plainCfg {})

/-- ... and such a collection can be written as garbage: after the five points of a collection of format 6 have been
replaced by points of format 7, `AddNode` accepts it and records six points. -/
theorem C17_setitem_corrupts_violated :
    Writer.make OStream.fresh plainCfg {} = .ok plainW ∧
    ((⟨[0, 0, 0, 0, 0], 6, 30⟩ : Coll).pySetSlice ⟨none, none, none⟩ ⟨[1, 1, 1, 1, 1], 7, 36⟩ =
      .ok ⟨[1, 1, 1, 1, 1], 6, 30⟩) ∧
    (match (Writer.addNodePoints Lazperf.plain VoxelKey.root 6 30
        ([1, 1, 1, 1, 1].map fun i => [Point.fresh 6 0, Point.fresh 7 0].getD i (Point.fresh 6 0))
        VoxelKey.root plainW).1 with
      | .ok n => some n.entry.pointCount
      | _ => none) = some 6 := by
  refine ⟨?_, ?_, ?_⟩ <;> decide +kernel

end Copc
