import Verif.Props.Points
/-! # C51 (scan angle in degrees), C52 (array accessors of a collection) -/
namespace Copc
open Spec Point

/-! ## C52 -/

/-- The program sees, for the objects of the collection, exactly the values `v`; every other object is
as before, and the objects of the collection differ from before only by one successful `set` each. -/
structure Spec.ArrayWritten {α : Type} (set : Point → α → Res Point) (get : Point → Res α)
    (h h' : Heap) (c : Coll) (v : List α) : Prop where
  reads : c.arrayGet get h' = .ok v
  each : ∀ (k i : Nat), c.pts[k]? = some i → ∃ p q a, h[i]? = some p ∧ v[k]? = some a ∧ set p a = .ok q ∧
    h'[i]? = some q
  others : ∀ i, i ∉ c.pts → h'[i]? = h[i]?
  size : h'.length = h.length

theorem setAll_ok {α : Type} {set : Point → α → Res Point} {get : Point → Res α} {P : Point → Prop}
    (hset : ∀ p a, P p → ∃ q, set p a = .ok q ∧ get q = .ok a) (is : List Nat) (v : List α) (h : Heap)
    (hl : v.length = is.length) (hv : ∀ i ∈ is, ∃ p, h[i]? = some p ∧ P p) (hn : is.Nodup) :
    ∃ h', Coll.setAll set h (is.zip v) = (.ok (), h') ∧
      (∀ (k i : Nat), is[k]? = some i → ∃ p q a, h[i]? = some p ∧ v[k]? = some a ∧ set p a = .ok q ∧
        get q = .ok a ∧ h'[i]? = some q) ∧
      (∀ i, i ∉ is → h'[i]? = h[i]?) ∧ h'.length = h.length := by
  induction is generalizing v h with
  | nil => exact ⟨h, by simp [Coll.setAll], by simp, by simp, rfl⟩
  | cons i is ih =>
    match v with
    | [] => simp at hl
    | a :: v =>
      obtain ⟨p, hp, hP⟩ := hv i (by simp)
      obtain ⟨q, hq, hg⟩ := hset p a hP
      have hi := (List.getElem?_eq_some_iff.1 hp).1
      rw [List.nodup_cons] at hn
      have hv' : ∀ j ∈ is, ∃ p, (h.set i q)[j]? = some p ∧ P p := by
        intro j hj
        obtain ⟨r, hr⟩ := hv j (by simp [hj])
        have : i ≠ j := fun e => hn.1 (e ▸ hj)
        exact ⟨r, by rw [List.getElem?_set_ne this]; exact hr.1, hr.2⟩
      obtain ⟨h', e1, e2, e3, e4⟩ := ih v (h.set i q) (by simpa using hl) hv' hn.2
      refine ⟨h', ?_, ?_, ?_, by rw [e4, List.length_set]⟩
      · rw [List.zip_cons_cons, Coll.setAll, hp]
        simp only [hq]
        exact e1
      · intro k j hk
        cases k with
        | zero =>
          simp at hk
          subst hk
          exact ⟨p, q, a, hp, rfl, hq, hg, by rw [e3 i hn.1, List.getElem?_set_self hi]⟩
        | succ k =>
          simp at hk
          obtain ⟨p', q', a', f1, f2, f3, f4, f5⟩ := e2 k j hk
          have hj : j ∈ is := List.mem_of_getElem? hk
          have : i ≠ j := fun e => hn.1 (e ▸ hj)
          rw [List.getElem?_set_ne this] at f1
          exact ⟨p', q', a', f1, by simpa using f2, f3, f4, f5⟩
      · intro j hj
        simp at hj
        rw [e3 j hj.2, List.getElem?_set_ne (Ne.symm hj.1)]

theorem arrayGet_ok {α : Type} {get : Point → Res α} {h : Heap} {is : List Nat} {v : List α}
    (hl : v.length = is.length)
    (hk : ∀ (k i : Nat), is[k]? = some i → ∃ q a, h[i]? = some q ∧ v[k]? = some a ∧ get q = .ok a) :
    Res.mapL (fun i => match h[i]? with
      | none => Res.ub
      | some p => get p) is = .ok v := by
  induction is generalizing v with
  | nil => simp at hl; subst hl; rfl
  | cons i is ih =>
    match v with
    | [] => simp at hl
    | a :: v =>
      obtain ⟨q, b, h1, h2, h3⟩ := hk 0 i rfl
      simp at h2
      subst h2
      have := ih (v := v) (by simpa using hl) (fun k j hj => by
        obtain ⟨q, b, g1, g2, g3⟩ := hk (k + 1) j (by simpa using hj)
        exact ⟨q, b, g1, by simpa using g2, g3⟩)
      unfold Res.mapL
      simp only [h1, h3, this, Res.bind_eq, Res.bind_ok]

theorem arraySet_written {α : Type} {set : Point → α → Res Point} {get : Point → Res α}
    {P : Point → Prop} (hset : ∀ p a, P p → ∃ q, set p a = .ok q ∧ get q = .ok a) (h : Heap) (c : Coll)
    (v : List α) (hl : v.length = c.pts.length) (hv : ∀ i ∈ c.pts, ∃ p, h[i]? = some p ∧ P p)
    (hn : c.pts.Nodup) :
    ∃ h', c.arraySet set h v = (.ok (), h') ∧ ArrayWritten set get h h' c v := by
  obtain ⟨h', e1, e2, e3, e4⟩ := setAll_ok hset c.pts v h hl hv hn
  refine ⟨h', ?_, ?_, ?_, e3, e4⟩
  · unfold Coll.arraySet
    rw [if_neg (by simpa using hl), e1]
  · exact arrayGet_ok hl (fun k i hk => by
      obtain ⟨p, q, a, f1, f2, f3, f4, f5⟩ := e2 k i hk
      exact ⟨q, a, f5, f2, f4⟩)
  · intro k i hk
    obtain ⟨p, q, a, f1, f2, f3, f4, f5⟩ := e2 k i hk
    exact ⟨p, q, a, f1, f2, f3, f5⟩

/-- **C52** (array setters): on a homogeneous collection of distinct point objects, each of the array
setters `X`, `Y`, `Z`, `Classification` with an array of the right size succeeds, the array getter then
returns exactly that array, and no other object changes. -/
theorem C52_array_set_partial (h : Heap) (c : Coll) (hc : Homogeneous h c) (hn : c.pts.Nodup) :
    (∀ v : List Dbl, v.length = c.pts.length →
      (∃ h', c.arraySet (fun p a => .ok (p.setX a)) h v = (.ok (), h') ∧
        ArrayWritten (fun p a => .ok (p.setX a)) (fun p => .ok p.x) h h' c v) ∧
      (∃ h', c.arraySet (fun p a => .ok (p.setY a)) h v = (.ok (), h') ∧
        ArrayWritten (fun p a => .ok (p.setY a)) (fun p => .ok p.y) h h' c v) ∧
      (∃ h', c.arraySet (fun p a => .ok (p.setZ a)) h v = (.ok (), h') ∧
        ArrayWritten (fun p a => .ok (p.setZ a)) (fun p => .ok p.z) h h' c v)) ∧
    (∀ v : List UInt8, v.length = c.pts.length →
      ∃ h', c.arraySet (fun p a => .ok (p.setClassification a)) h v = (.ok (), h') ∧
        ArrayWritten (fun p a => .ok (p.setClassification a)) (fun p => .ok p.classification)
          h h' c v) := by
  have hv : ∀ i ∈ c.pts, ∃ p, h[i]? = some p ∧ True := fun i hi =>
    ⟨_, (hc i hi).choose_spec.1, trivial⟩
  refine ⟨fun v hl => ⟨?_, ?_, ?_⟩, fun v hl => ?_⟩
  all_goals
    refine arraySet_written (P := fun _ => True) ?_ h c v hl hv hn
    exact fun p a _ => ⟨_, rfl, rfl⟩

/-- **C52** (colour arrays): with format 7 or 8 likewise. -/
theorem C52_array_set_rgb_partial (h : Heap) (c : Coll) (hr : ∀ p ∈ h, Reach p) (hc : Homogeneous h c)
    (hf : c.fmt ≠ 6) (hn : c.pts.Nodup) (v : List UInt16) (hl : v.length = c.pts.length) :
    (∃ h', c.arraySet setRed h v = (.ok (), h') ∧ ArrayWritten setRed getRed h h' c v) ∧
    (∃ h', c.arraySet setGreen h v = (.ok (), h') ∧ ArrayWritten setGreen getGreen h h' c v) ∧
    (∃ h', c.arraySet setBlue h v = (.ok (), h') ∧ ArrayWritten setBlue getBlue h h' c v) := by
  have hv : ∀ i ∈ c.pts, ∃ p, h[i]? = some p ∧ p.hasRgb = true := by
    intro i hi
    obtain ⟨p, h1, h2, _⟩ := hc i hi
    refine ⟨p, h1, ?_⟩
    rw [(reach_wf (hr p (List.mem_of_getElem? h1))).hasRgb, h2]
    simpa using hf
  refine ⟨?_, ?_, ?_⟩
  · exact arraySet_written (P := fun p => p.hasRgb = true) (fun p a hp => by
      simp [setRed, getRed, hp]) h c v hl hv hn
  · exact arraySet_written (P := fun p => p.hasRgb = true) (fun p a hp => by
      simp [setGreen, getGreen, hp]) h c v hl hv hn
  · exact arraySet_written (P := fun p => p.hasRgb = true) (fun p a hp => by
      simp [setBlue, getBlue, hp]) h c v hl hv hn

/-- **C52** (rejections): a wrong size is rejected by every array setter without any effect, and a
colour array on a non-empty format 6 collection too. -/
theorem C52_array_reject (h : Heap) (c : Coll) :
    (∀ {α : Type} (set : Point → α → Res Point) (v : List α), v.length ≠ c.pts.length →
      c.arraySet set h v = (.throw .arraySize, h)) ∧
    ((∀ p ∈ h, Reach p) → Homogeneous h c → c.fmt = 6 → c.pts ≠ [] → ∀ v : List UInt16,
      v.length = c.pts.length → c.arraySet setRed h v = (.throw .noRgb, h) ∧
        c.arraySet setGreen h v = (.throw .noRgb, h) ∧ c.arraySet setBlue h v = (.throw .noRgb, h)) := by
  constructor
  · intro α set v hl
    unfold Coll.arraySet
    rw [if_pos hl]
  · intro hr hc hf hne v hl
    unfold Coll.arraySet
    rw [if_neg (by simpa using hl), if_neg (by simpa using hl), if_neg (by simpa using hl)]
    match hp : c.pts, v with
    | [], _ => exact absurd hp hne
    | i :: is, [] => rw [hp] at hl; simp at hl
    | i :: is, a :: v =>
      obtain ⟨p, h1, h2, _⟩ := hc i (by rw [hp]; simp)
      have hrgb : p.hasRgb = false := by
        rw [(reach_wf (hr p (List.mem_of_getElem? h1))).hasRgb, h2, hf]; rfl
      rw [List.zip_cons_cons]
      simp only [Coll.setAll, h1, setRed, setGreen, setBlue, hrgb, Bool.false_eq_true, if_false,
        and_self]

/-- **C52** (duplicates): when the same object is in the collection twice the array read back is not
the array written, so distinctness is needed. -/
theorem C52_alias_violated : ∃ (h : Heap) (c : Coll) (v w : List UInt8), Homogeneous h c ∧
    c.arrayGet (fun p => .ok p.classification)
      (c.arraySet (fun p a => .ok (p.setClassification a)) h v).2 = .ok w ∧
    v.length = c.pts.length ∧ w ≠ v := by
  refine ⟨[Point.fresh 6 0], ⟨[0, 0], 6, 30⟩, [1, 2], [2, 2], ?_, rfl, rfl, by decide⟩
  intro i hi
  simp at hi
  subst hi
  exact ⟨_, rfl, rfl, rfl⟩

/-- **C52** is false for the point source id: the array getter narrows the 16-bit ids to 8 bits. -/
theorem C52_pointSourceId_violated : ∃ (h : Heap) (c : Coll) (p : Point), Homogeneous h c ∧
    h = [p] ∧ c.pts = [0] ∧ Reach p ∧ p.pointSourceId = 256 ∧
    c.getPointSourceIds h = .ok [0] := by
  refine ⟨[(Point.fresh 6 0).setPointSourceId 256], ⟨[0], 6, 30⟩, _, ?_, rfl, rfl, ?_, rfl, rfl⟩
  · intro i hi
    simp at hi
    subst hi
    exact ⟨_, rfl, rfl, rfl⟩
  · exact Reach.setter (Reach.make (fmt := 6) (eb := 0) (by decide) rfl) (Setter.setPointSourceId _ _)

/-- **C52** (point source ids that fit 8 bits do round trip). -/
theorem C52_pointSourceId_partial (h : Heap) (c : Coll) (hc : Homogeneous h c) (hn : c.pts.Nodup)
    (v : List UInt8) (hl : v.length = c.pts.length) :
    ∃ h', c.setPointSourceIds h v = (.ok (), h') ∧ c.getPointSourceIds h' = .ok v := by
  have hv : ∀ i ∈ c.pts, ∃ p, h[i]? = some p ∧ True := fun i hi =>
    ⟨_, (hc i hi).choose_spec.1, trivial⟩
  obtain ⟨h', e1, e2⟩ := arraySet_written (P := fun _ => True)
    (set := fun p (a : UInt8) => .ok (p.setPointSourceId a.toUInt16))
    (get := fun p => .ok p.pointSourceId.toUInt8)
    (fun p a _ => ⟨_, rfl, by simp [setPointSourceId]⟩) h c v hl hv hn
  exact ⟨h', e1, e2.reads⟩

/-- **C52** (box queries): `Within` holds exactly when every point lies in the box and `GetWithin`
returns exactly the points in the box, in order and with repetitions. -/
theorem C52_within (h : Heap) (c : Coll) (hc : Homogeneous h c) (b : Box Dbl) :
    (c.within h b = true ↔ ∀ i ∈ c.pts, ∃ p, h[i]? = some p ∧ b.containsPoint ⟨p.x, p.y, p.z⟩ = true) ∧
    (c.getWithin h b).Sublist c.pts ∧
    (∀ i, (c.getWithin h b).count i = if ∃ p, h[i]? = some p ∧ b.containsPoint ⟨p.x, p.y, p.z⟩ = true
      then c.pts.count i else 0) := by
  refine ⟨?_, List.filter_sublist, ?_⟩
  · unfold Coll.within
    rw [List.all_eq_true]
    constructor
    · intro hh i hi
      have := hh i hi
      obtain ⟨p, h1, _⟩ := hc i hi
      rw [h1] at this
      exact ⟨p, h1, this⟩
    · intro hh i hi
      obtain ⟨p, h1, h2⟩ := hh i hi
      rw [h1]; exact h2
  · intro i
    unfold Coll.getWithin
    split
    · rename_i hx
      obtain ⟨p, h1, h2⟩ := hx
      rw [List.count_filter]
      simp only [h1]; exact h2
    · rename_i hx
      rw [List.count_eq_zero]
      intro hm
      rw [List.mem_filter] at hm
      apply hx
      obtain ⟨p, h1, _⟩ := hc i hm.1
      have := hm.2
      rw [h1] at this
      exact ⟨p, h1, this⟩

/-! ## C51 -/

/-- **C51** is false: reading the scan angle in degrees and writing the same value back changes the
stored angle for some raw values, because the conversion truncates (`0.006f * v / 0.006f` can fall just
short of the integer). -/
theorem C51_violated : ∃ p q, Reach p ∧ p.setScanAngleDegrees p.scanAngleDegrees = .ok q ∧
    p.scanAngle = -32761 ∧ q.scanAngle = -32760 := by
  refine ⟨(Point.fresh 6 0).setScanAngle (-32761),
    (Point.fresh 6 0).setScanAngle (-32760),
    Reach.setter (Reach.make (fmt := 6) (eb := 0) (by decide) rfl) (Setter.setScanAngle _ _), ?_, rfl, rfl⟩
  have hd : Flt.trunc (Flt.div (((Point.fresh 6 0).setScanAngle (-32761)).scanAngleDegrees) degreeStep)
      = some (-32760) := by decide +kernel
  unfold setScanAngleDegrees
  rw [hd]
  rfl

end Copc
