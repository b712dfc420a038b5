import Verif.Spec.Octree
/-! Helper lemmas about keys. -/
namespace Copc
open Spec
namespace VoxelKey

theorem isValid_iff (k : VoxelKey) : k.isValid = true ↔ Valid k := by
  simp [isValid, Valid]

theorem isValid_false_iff (k : VoxelKey) : k.isValid = false ↔ ¬ Valid k := by
  rw [← isValid_iff]; simp

theorem getParent_eq {k : VoxelKey} (h : Valid k) : k.getParent = up 1 k := by
  have h' := (isValid_iff k).2 h
  obtain ⟨_, hx, hy, hz⟩ := h
  simp only [getParent, h', if_true, up]
  rw [Int.tdiv_eq_ediv_of_nonneg hx, Int.tdiv_eq_ediv_of_nonneg hy, Int.tdiv_eq_ediv_of_nonneg hz]
  simp

theorem up_zero (k : VoxelKey) : up 0 k = k := by simp [up]

theorem up_up (m n : Nat) (k : VoxelKey) : up m (up n k) = up (n + m) k := by
  have key : ∀ v : Int, v / 2 ^ n / 2 ^ m = v / 2 ^ (n + m) := by
    intro v
    rw [Int.ediv_ediv_of_nonneg (Int.pow_nonneg (by decide)), Int.pow_add]
  simp only [up, key, VoxelKey.mk.injEq, and_true]
  omega

theorem up_succ' (n : Nat) (k : VoxelKey) : up (n + 1) k = up n (up 1 k) := by
  rw [up_up]; congr 1; omega

theorem valid_up {k : VoxelKey} (h : Valid k) {n : Nat} (hn : (n : Int) ≤ k.d) : Valid (up n k) := by
  obtain ⟨hd, hx, hy, hz⟩ := h
  have hp : (0 : Int) ≤ 2 ^ n := Int.pow_nonneg (by decide)
  exact ⟨by simp only [up]; omega, Int.ediv_nonneg hx hp, Int.ediv_nonneg hy hp,
    Int.ediv_nonneg hz hp⟩

theorem parentsLoop_invalid {k : VoxelKey} (h : ¬ Valid k) : parentsLoop k = [] := by
  rw [parentsLoop, (isValid_false_iff k).2 h]; rfl

theorem parentsLoop_valid {k : VoxelKey} (h : Valid k) :
    parentsLoop k = k :: parentsLoop k.getParent := by
  rw [parentsLoop, (isValid_iff k).2 h]; rfl

/-- The loop yields the ancestors 0, 1, ..., d levels up. -/
theorem parentsLoop_eq {k : VoxelKey} (h : Valid k) :
    parentsLoop k = (List.range (k.d.toNat + 1)).map (fun i => up i k) := by
  generalize hn : k.d.toNat = n
  induction n generalizing k with
  | zero =>
    rw [parentsLoop_valid h, getParent_eq h, parentsLoop_invalid]
    · simp [up_zero]
    · intro hv; have := hv.1; simp [up] at this; omega
  | succ n ih =>
    have hd : k.d = n + 1 := by have := h.1; omega
    have hv : Valid (up 1 k) := valid_up h (by omega)
    rw [parentsLoop_valid h, getParent_eq h, ih hv (by simp only [up]; omega)]
    rw [List.range_succ_eq_map (n := n + 1), List.map_cons, List.map_map, up_zero]
    congr 1
    apply List.map_congr_left
    intro i _
    simp only [Function.comp]
    exact (up_succ' i k).symm

theorem getParents_eq {k : VoxelKey} (h : Valid k) (s : Bool) :
    k.getParents s =
      if s then (List.range (k.d.toNat + 1)).map (fun i => up i k)
      else (List.range k.d.toNat).map (fun i => up (i + 1) k) := by
  have e := parentsLoop_eq h
  rw [parentsLoop_valid h] at e
  cases s
  · simp only [getParents, (isValid_iff k).2 h]
    rw [List.range_succ_eq_map, List.map_cons, List.map_map] at e
    simpa [Function.comp_def] using (List.cons.inj e).2
  · simp only [getParents, (isValid_iff k).2 h]
    simpa using e

theorem childOf_iff (a b : VoxelKey) : a.childOf b = true ↔ Valid a ∧ Below a b := by
  by_cases h : Valid a
  · simp only [childOf, List.any_eq_true, getParents_eq h, if_true, decide_eq_true_eq, List.mem_map,
      List.mem_range, Below, h, true_and]
    constructor
    · rintro ⟨p, ⟨n, hn, rfl⟩, rfl⟩
      exact ⟨n, by have := h.1; omega, rfl⟩
    · rintro ⟨n, hn, rfl⟩
      exact ⟨up n a, ⟨n, by omega, rfl⟩, rfl⟩
  · simp [childOf, getParents, (isValid_false_iff a).2 h, h]

theorem bisectCoord_ok {v : Int} {dir i : Nat} {w : Int} (h : bisectCoord v dir i = .ok w) :
    w = 2 * v + (if dir.testBit i then 1 else 0) ∧ InI32 w := by
  unfold bisectCoord chk32 at h
  split at h
  · rename_i h1
    simp only [Res.bind] at h
    split at h
    · split at h
      · rename_i h2 h3
        simp only [Res.ok.injEq] at h
        subst h; simp [h2, h3]; omega
      · simp at h
    · rename_i h2
      simp only [Res.ok.injEq] at h
      subst h; simp [h2, h1]; omega
  · simp [Res.bind] at h

theorem bisectCoord_of {v : Int} {dir i : Nat} (h0 : InI32 (2 * v))
    (h : InI32 (2 * v + (if dir.testBit i then 1 else 0))) :
    bisectCoord v dir i = .ok (2 * v + (if dir.testBit i then 1 else 0)) := by
  unfold bisectCoord chk32
  rw [show v * 2 = 2 * v by omega, if_pos h0]
  simp only [Res.bind]
  split
  · rename_i hb; simp only [hb, if_true] at h; simp [h]
  · simp

/-- The eight children, written out. -/
def childAt (k : VoxelKey) (dir : Nat) : VoxelKey :=
  ⟨k.d + 1, 2 * k.x + (if dir.testBit 0 then 1 else 0), 2 * k.y + (if dir.testBit 1 then 1 else 0),
    2 * k.z + (if dir.testBit 2 then 1 else 0)⟩

theorem bisect_ok {k c : VoxelKey} {dir : Nat} (h : k.bisect dir = .ok c) :
    c = childAt k dir ∧ c.InRange := by
  unfold bisect at h
  cases h0 : chk32 (k.d + 1) with
  | throw e => simp [h0, Res.bind] at h
  | ub => simp [h0, Res.bind] at h
  | ok d =>
  cases h1 : bisectCoord k.x dir 0 with
  | throw e => simp [h0, h1, Res.bind] at h
  | ub => simp [h0, h1, Res.bind] at h
  | ok x =>
  cases h2 : bisectCoord k.y dir 1 with
  | throw e => simp [h0, h1, h2, Res.bind] at h
  | ub => simp [h0, h1, h2, Res.bind] at h
  | ok y =>
  cases h3 : bisectCoord k.z dir 2 with
  | throw e => simp [h0, h1, h2, h3, Res.bind] at h
  | ub => simp [h0, h1, h2, h3, Res.bind] at h
  | ok z =>
  simp only [h0, h1, h2, h3, Res.bind, Res.ok.injEq] at h
  subst h
  unfold chk32 at h0
  split at h0
  · rename_i hr
    simp only [Res.ok.injEq] at h0
    subst h0
    obtain ⟨e1, r1⟩ := bisectCoord_ok h1
    obtain ⟨e2, r2⟩ := bisectCoord_ok h2
    obtain ⟨e3, r3⟩ := bisectCoord_ok h3
    exact ⟨by simp [childAt, e1, e2, e3], hr, r1, r2, r3⟩
  · simp at h0

theorem bisect_of {k : VoxelKey} {dir : Nat} (hv : Valid k) (h : (childAt k dir).InRange) :
    k.bisect dir = .ok (childAt k dir) := by
  obtain ⟨hd, hx, hy, hz⟩ := hv
  obtain ⟨rd, rx, ry, rz⟩ := h
  simp only [childAt] at rd rx ry rz
  have ge : ∀ {v : Int} {b : Bool}, 0 ≤ v → InI32 (2 * v + (if b then 1 else 0)) → InI32 (2 * v) := by
    intro v b h0 h1; unfold InI32 at *; split at h1 <;> omega
  unfold bisect chk32
  rw [if_pos rd, bisectCoord_of (ge hx rx) rx, bisectCoord_of (ge hy ry) ry,
    bisectCoord_of (ge hz rz) rz]
  rfl

theorem isChild_childAt (k : VoxelKey) (dir : Nat) : IsChild k (childAt k dir) := by
  unfold IsChild childAt
  refine ⟨rfl, ?_, ?_, ?_⟩ <;> (simp only; split <;> simp)

/-- Every spec child is one of the eight directions. -/
theorem isChild_exists {k c : VoxelKey} (h : IsChild k c) : ∃ dir, dir < 8 ∧ c = childAt k dir := by
  obtain ⟨hd, hx, hy, hz⟩ := h
  have e : ∀ (cx cy cz cd : Int), cd = k.d + 1 → (⟨cd, cx, cy, cz⟩ : VoxelKey) = c → c.d = cd :=
    fun _ _ _ _ _ h => h ▸ rfl
  obtain ⟨cd, cx, cy, cz⟩ := c
  simp only at hd hx hy hz
  rcases hx with hx | hx <;> rcases hy with hy | hy <;> rcases hz with hz | hz <;> subst hd hx hy hz
  · exact ⟨0, by decide, by simp [childAt]⟩
  · exact ⟨4, by decide, by simp [childAt, Nat.testBit]⟩
  · exact ⟨2, by decide, by simp [childAt, Nat.testBit]⟩
  · exact ⟨6, by decide, by simp [childAt, Nat.testBit]⟩
  · exact ⟨1, by decide, by simp [childAt, Nat.testBit]⟩
  · exact ⟨5, by decide, by simp [childAt, Nat.testBit]⟩
  · exact ⟨3, by decide, by simp [childAt, Nat.testBit]⟩
  · exact ⟨7, by decide, by simp [childAt, Nat.testBit]⟩

theorem isChild_iff_up {k c : VoxelKey} : IsChild k c ↔ up 1 c = k := by
  obtain ⟨d, x, y, z⟩ := k
  obtain ⟨cd, cx, cy, cz⟩ := c
  simp only [IsChild, up, VoxelKey.mk.injEq, Int.pow_succ, Int.pow_zero]
  omega

theorem getChildren_ok {k : VoxelKey} {cs : List VoxelKey} (h : k.getChildren = .ok cs) :
    cs = [0, 1, 2, 3, 4, 5, 6, 7].map (childAt k) ∧ ∀ c ∈ cs, c.InRange := by
  unfold getChildren at h
  have key : ∀ (l : List Nat) (cs : List VoxelKey), Res.mapL k.bisect l = .ok cs →
      cs = l.map (childAt k) ∧ ∀ c ∈ cs, c.InRange := by
    intro l
    induction l with
    | nil => intro cs h; simp [Res.mapL] at h; subst h; simp
    | cons a as ih =>
      intro cs h
      obtain ⟨b, bs, h1, h2, rfl⟩ := Res.mapL_cons_ok.1 h
      obtain ⟨e1, r1⟩ := bisect_ok h1
      obtain ⟨e2, r2⟩ := ih bs h2
      refine ⟨by simp [e1, e2], ?_⟩
      intro c hc
      rcases List.mem_cons.1 hc with rfl | hc
      · exact r1
      · exact r2 c hc
  exact key _ _ h

end VoxelKey
end Copc
