import Verif.Lemmas.Key
/-!
# C01–C05: voxel keys
-/
namespace Copc
open Spec VoxelKey

/-- Every child cell of `k` (in the mathematical sense) is representable by `int32_t` fields. -/
def ChildrenFit (k : VoxelKey) : Prop := ∀ c, IsChild k c → c.InRange

/-- **C01.** For a valid key whose children fit in `int32_t`, `GetChildren` returns exactly eight
distinct keys; these are exactly the valid keys whose `GetParent` is the key. -/
theorem C01_children (k : VoxelKey) (hv : Valid k) (hf : ChildrenFit k) :
    ∃ cs, k.getChildren = .ok cs ∧ cs.length = 8 ∧ cs.Nodup ∧
      (∀ c, c ∈ cs ↔ (Valid c ∧ c.getParent = k)) ∧ (∀ c, c ∈ cs ↔ IsChild k c) := by
  refine ⟨[0, 1, 2, 3, 4, 5, 6, 7].map (childAt k), ?_, rfl, ?_, ?_⟩
  · unfold getChildren
    exact Res.mapL_eq_ok_map fun a _ => bisect_of hv (hf _ (isChild_childAt k a))
  · simp [childAt, Nat.testBit]; omega
  · have mem : ∀ c, c ∈ [0, 1, 2, 3, 4, 5, 6, 7].map (childAt k) ↔ IsChild k c := by
      intro c
      constructor
      · intro hc
        obtain ⟨dir, _, rfl⟩ := List.mem_map.1 hc
        exact isChild_childAt k dir
      · intro hc
        obtain ⟨dir, hd, rfl⟩ := isChild_exists hc
        refine List.mem_map.2 ⟨dir, ?_, rfl⟩
        have : dir = 0 ∨ dir = 1 ∨ dir = 2 ∨ dir = 3 ∨ dir = 4 ∨ dir = 5 ∨ dir = 6 ∨ dir = 7 := by
          omega
        simpa using this
    refine ⟨?_, mem⟩
    intro c
    rw [mem]
    constructor
    · intro hc
      have hcv : Valid c := by
        obtain ⟨h1, h2, h3, h4⟩ := hv
        obtain ⟨a, b, d, e⟩ := hc
        refine ⟨?_, ?_, ?_, ?_⟩ <;> omega
      exact ⟨hcv, by rw [getParent_eq hcv]; exact isChild_iff_up.1 hc⟩
    · rintro ⟨hcv, hp⟩
      rw [getParent_eq hcv] at hp
      exact isChild_iff_up.2 hp

/-- **C01**, no wrong key: whatever the key, a child which `Bisect` returns normally is the right
child cell and a real `int32_t` key; the only other outcome is undefined behaviour (signed
overflow), never an exception. -/
theorem C01_bisect_never_wrong (k : VoxelKey) (dir : Nat) :
    (∃ c, k.bisect dir = .ok c ∧ IsChild k c ∧ c.InRange) ∨ k.bisect dir = .ub := by
  cases h : k.bisect dir with
  | ok c =>
    obtain ⟨rfl, r⟩ := bisect_ok h
    exact .inl ⟨_, rfl, isChild_childAt k dir, r⟩
  | ub => exact .inr rfl
  | throw e =>
    exfalso
    have hb : ∀ v i, bisectCoord v dir i ≠ .throw e := by
      intro v i
      unfold bisectCoord chk32
      by_cases h : InI32 (v * 2) <;> simp only [h, if_true, if_false, Res.bind] <;>
        (try split) <;> (try split) <;> simp
    unfold bisect at h
    have h0 : chk32 (k.d + 1) ≠ .throw e := by unfold chk32; split <;> simp
    cases h0' : chk32 (k.d + 1) with
    | throw e' => simp only [h0', Res.bind, Res.throw.injEq] at h; subst h; exact h0 h0'
    | ub => simp [h0', Res.bind] at h
    | ok d =>
    cases h1 : bisectCoord k.x dir 0 with
    | throw e' => simp only [h0', h1, Res.bind, Res.throw.injEq] at h; subst h; exact hb _ _ h1
    | ub => simp [h0', h1, Res.bind] at h
    | ok x =>
    cases h2 : bisectCoord k.y dir 1 with
    | throw e' => simp only [h0', h1, h2, Res.bind, Res.throw.injEq] at h; subst h; exact hb _ _ h2
    | ub => simp [h0', h1, h2, Res.bind] at h
    | ok y =>
    cases h3 : bisectCoord k.z dir 2 with
    | throw e' =>
      simp only [h0', h1, h2, h3, Res.bind, Res.throw.injEq] at h; subst h; exact hb _ _ h3
    | ub => simp [h0', h1, h2, h3, Res.bind] at h
    | ok z => simp [h0', h1, h2, h3, Res.bind] at h

/-- The premises of C01 hold for keys deep in a real octree. -/
example : Valid ⟨20, 1000000, 5, 77⟩ ∧ ChildrenFit ⟨20, 1000000, 5, 77⟩ := by
  refine ⟨by decide, ?_⟩
  rintro ⟨d, x, y, z⟩ ⟨h1, h2, h3, h4⟩
  simp only at h1 h2 h3 h4
  simp only [InRange, InI32]
  omega
/-- and overflow is really reachable: a valid `int32_t` key with no representable child. -/
example : Valid ⟨31, 2000000000, 0, 0⟩ ∧ VoxelKey.InRange ⟨31, 2000000000, 0, 0⟩ ∧
    VoxelKey.getChildren ⟨31, 2000000000, 0, 0⟩ = .ub := by decide +kernel

/-- **C02.** `GetParents` of a valid key lists its ancestors from nearest to depth 0: the `i`-th is
the key shifted `i` (`i+1` without self) levels up; there are `d + 1` (`d`) of them. -/
theorem C02_parents (k : VoxelKey) (hv : Valid k) :
    (k.getParents true).length = k.d.toNat + 1 ∧ (k.getParents false).length = k.d.toNat ∧
    (∀ i, i ≤ k.d.toNat → (k.getParents true)[i]? = some (up i k)) ∧
    (∀ i, i < k.d.toNat → (k.getParents false)[i]? = some (up (i + 1) k)) := by
  rw [getParents_eq hv, getParents_eq hv]
  refine ⟨by simp, by simp, ?_, ?_⟩
  · intro i hi; simp only [if_true]; rw [List.getElem?_map, List.getElem?_range (by omega)]; rfl
  · intro i hi
    simp only [Bool.false_eq_true, if_false]
    rw [List.getElem?_map, List.getElem?_range hi]; rfl

/-- **C02.** No ancestors for an invalid key. -/
theorem C02_parents_invalid (k : VoxelKey) (hv : ¬ Valid k) (s : Bool) : k.getParents s = [] := by
  simp [getParents, (isValid_false_iff k).2 hv]

/-- **C02.** The last listed ancestor has depth 0, so the list is complete. -/
theorem C02_parents_last (k : VoxelKey) (hv : Valid k) :
    ∃ p, (k.getParents true).getLast? = some p ∧ p.d = 0 := by
  refine ⟨up k.d.toNat k, ?_, ?_⟩
  · rw [getParents_eq hv, List.getLast?_eq_getElem?]; simp
  · have := hv.1; simp only [up]; omega

example : Valid ⟨3, 5, 2, 7⟩ ∧ (VoxelKey.mk 3 5 2 7).getParents true =
    [⟨3, 5, 2, 7⟩, ⟨2, 2, 1, 3⟩, ⟨1, 1, 0, 1⟩, ⟨0, 0, 0, 0⟩] := by decide +kernel

/-- **C03.** `ChildOf` is the octree order. -/
theorem C03_childOf (a b : VoxelKey) :
    a.childOf b = true ↔ Valid a ∧ 0 ≤ b.d ∧ b.d ≤ a.d ∧
      b.x = a.x / 2 ^ (a.d - b.d).toNat ∧ b.y = a.y / 2 ^ (a.d - b.d).toNat ∧
      b.z = a.z / 2 ^ (a.d - b.d).toNat := by
  rw [childOf_iff]
  constructor
  · rintro ⟨hv, n, hn, rfl⟩
    have : (a.d - (up n a).d).toNat = n := by simp only [up]; omega
    refine ⟨hv, by simp only [up]; omega, by simp only [up]; omega, ?_⟩
    rw [this]
    exact ⟨rfl, rfl, rfl⟩
  · rintro ⟨hv, h1, h2, hx, hy, hz⟩
    refine ⟨hv, (a.d - b.d).toNat, by omega, ?_⟩
    obtain ⟨bd, bx, by', bz⟩ := b
    simp only at h1 h2 hx hy hz
    simp only [up, VoxelKey.mk.injEq]
    exact ⟨by omega, hx, hy, hz⟩

theorem C03_childOf_refl (a : VoxelKey) : a.childOf a = true ↔ Valid a := by
  rw [childOf_iff]
  exact ⟨fun h => h.1, fun h => ⟨h, 0, h.1, (up_zero a).symm⟩⟩

theorem C03_childOf_trans (a b c : VoxelKey) (h1 : a.childOf b = true) (h2 : b.childOf c = true) :
    a.childOf c = true := by
  rw [childOf_iff] at *
  obtain ⟨hv, n, hn, rfl⟩ := h1
  obtain ⟨_, m, hm, rfl⟩ := h2
  exact ⟨hv, n + m, by simp only [up] at hm; omega, up_up m n a⟩

theorem C03_childOf_antisymm (a b : VoxelKey) (h1 : a.childOf b = true) (h2 : b.childOf a = true) :
    a = b := by
  rw [childOf_iff] at *
  obtain ⟨hv, n, hn, rfl⟩ := h1
  obtain ⟨_, m, hm, h⟩ := h2
  have : n = 0 := by
    have := congrArg VoxelKey.d h
    simp only [up] at this
    omega
  subst this
  exact (up_zero a).symm

/-- Everything in the octree is below the root, and conversely (for valid keys). -/
theorem C03_childOf_root (a : VoxelKey) : a.childOf root = true ↔ InOctree a := by
  rw [C03_childOf]
  simp only [root, Valid, InOctree, Int.sub_zero]
  have h : ∀ v : Int, ∀ n : Nat, 0 ≤ v → (0 = v / 2 ^ n ↔ v < 2 ^ n) := by
    intro v n hv
    constructor
    · intro h
      have := Int.lt_ediv_add_one_mul_self v (show (0 : Int) < 2 ^ n from Int.pow_pos (by decide))
      rw [← h] at this; omega
    · intro h; exact (Int.ediv_eq_zero_of_lt hv h).symm
  constructor
  · rintro ⟨⟨hd, hx, hy, hz⟩, _, _, h1, h2, h3⟩
    exact ⟨hd, hx, (h _ _ hx).1 h1, hy, (h _ _ hy).1 h2, hz, (h _ _ hz).1 h3⟩
  · rintro ⟨hd, hx, h1, hy, h2, hz, h3⟩
    exact ⟨⟨hd, hx, hy, hz⟩, by omega, hd, (h _ _ hx).2 h1, (h _ _ hy).2 h2, (h _ _ hz).2 h3⟩

example : VoxelKey.childOf ⟨3, 5, 2, 7⟩ ⟨1, 1, 0, 1⟩ = true ∧
    VoxelKey.childOf ⟨3, 5, 2, 7⟩ ⟨1, 1, 1, 1⟩ = false := by decide +kernel

/-- **C04.** `GetParentAtDepth` is the ancestor at that depth. -/
theorem C04_parentAtDepth (k : VoxelKey) (hv : Valid k) (depth : Int) (h0 : 0 ≤ depth)
    (h1 : depth ≤ k.d) (h2 : k.d - depth ≤ 30) :
    ∃ p, k.getParentAtDepth depth = .ok p ∧ p.d = depth ∧
      (k.getParents true)[(k.d - depth).toNat]? = some p := by
  refine ⟨up (k.d - depth).toNat k, ?_, by simp only [up]; omega,
    (C02_parents k hv).2.2.1 _ (by have := hv.1; omega)⟩
  obtain ⟨hd, hx, hy, hz⟩ := hv
  have hv : Valid k := ⟨hd, hx, hy, hz⟩
  simp only [getParentAtDepth, (isValid_iff k).2 hv, powInt, h2, if_true, Res.bind]
  rw [if_neg (by simp), if_neg (by omega)]
  simp only [up, Int.tdiv_eq_ediv_of_nonneg hx, Int.tdiv_eq_ediv_of_nonneg hy,
    Int.tdiv_eq_ediv_of_nonneg hz, Res.ok.injEq, VoxelKey.mk.injEq, and_true]
  omega

/-- **C04.** Depths outside `[0, d]` are rejected. -/
theorem C04_parentAtDepth_reject (k : VoxelKey) (hv : Valid k) (depth : Int)
    (h : depth < 0 ∨ depth > k.d) : k.getParentAtDepth depth = .throw .parentDepth := by
  simp [getParentAtDepth, (isValid_iff k).2 hv, h]

/-- **C04.** An invalid key yields the invalid key. -/
theorem C04_parentAtDepth_invalid (k : VoxelKey) (hv : ¬ Valid k) (depth : Int) :
    k.getParentAtDepth depth = .ok ⟨-1, -1, -1, -1⟩ := by
  simp [getParentAtDepth, (isValid_false_iff k).2 hv, invalid]

/-- **C04.** 31 or more levels up, the conversion of `pow(2, n)` to `int` is undefined behaviour. -/
theorem C04_parentAtDepth_ub (k : VoxelKey) (hv : Valid k) (depth : Int) (h0 : 0 ≤ depth)
    (h : 31 ≤ k.d - depth) : k.getParentAtDepth depth = .ub := by
  simp only [getParentAtDepth, (isValid_iff k).2 hv, powInt]
  rw [if_neg (by simp), if_neg (by omega), if_neg (by omega)]
  rfl

example : VoxelKey.getParentAtDepth ⟨3, 5, 2, 7⟩ 1 = .ok ⟨1, 1, 0, 1⟩ := by decide +kernel
example : VoxelKey.getParentAtDepth ⟨31, 5, 2, 7⟩ 0 = .ub := by decide +kernel

/-- **C05.** Inside the octree with depth at most 30 every child exists, is computed without
overflow and is inside the octree. (At depth 30 the children have coordinates up to `2^31 - 1`,
which still fit.) -/
theorem C05_children_in (k : VoxelKey) (h : InOctree k) (hd : k.d ≤ 30) :
    ∃ cs, k.getChildren = .ok cs ∧ cs.length = 8 ∧ ∀ c ∈ cs, InOctree c ∧ c.InRange := by
  obtain ⟨h0, hx, hx', hy, hy', hz, hz'⟩ := h
  have hv : Valid k := ⟨h0, hx, hy, hz⟩
  have hp : (2 : Int) ^ k.d.toNat ≤ 2 ^ 30 := by
    exact_mod_cast Nat.pow_le_pow_right (by decide : 0 < 2) (by omega : k.d.toNat ≤ 30)
  have hf : ChildrenFit k := by
    rintro c ⟨h1, h2, h3, h4⟩
    simp only [VoxelKey.InRange, InI32]
    omega
  obtain ⟨cs, e, l, _, _, m⟩ := C01_children k hv hf
  refine ⟨cs, e, l, fun c hc => ?_⟩
  have hc' := (m c).1 hc
  refine ⟨?_, hf c hc'⟩
  obtain ⟨h1, h2, h3, h4⟩ := hc'
  have : (2 : Int) ^ c.d.toNat = 2 * 2 ^ k.d.toNat := by
    rw [show c.d.toNat = k.d.toNat + 1 by omega, Int.pow_succ]; omega
  unfold InOctree
  rw [this]
  omega

/-- **C05.** All ancestors of a key in the octree are in the octree. -/
theorem C05_parents_in (k : VoxelKey) (h : InOctree k) (s : Bool) :
    ∀ p ∈ k.getParents s, InOctree p := by
  intro p hp
  have hk := (C03_childOf_root k).2 h
  have hv : Valid k := ((childOf_iff _ _).1 hk).1
  have : ∃ n : Nat, (n : Int) ≤ k.d ∧ p = up n k := by
    rw [getParents_eq hv] at hp
    cases s
    · simp only [Bool.false_eq_true, if_false, List.mem_map, List.mem_range] at hp
      obtain ⟨i, hi, rfl⟩ := hp
      exact ⟨i + 1, by omega, rfl⟩
    · simp only [if_true, List.mem_map, List.mem_range] at hp
      obtain ⟨i, hi, rfl⟩ := hp
      exact ⟨i, by have := hv.1; omega, rfl⟩
  obtain ⟨n, hn, rfl⟩ := this
  obtain ⟨hd, hx, hx', hy, hy', hz, hz'⟩ := h
  have hpn : (0 : Int) < 2 ^ n := Int.pow_pos (by decide)
  have e : (2 : Int) ^ k.d.toNat = 2 ^ (up n k).d.toNat * 2 ^ n := by
    rw [← Int.pow_add]; congr 1; simp only [up]; omega
  rw [e] at hx' hy' hz'
  exact ⟨by simp only [up]; omega, Int.ediv_nonneg hx (by omega), Int.ediv_lt_of_lt_mul hpn hx',
    Int.ediv_nonneg hy (by omega), Int.ediv_lt_of_lt_mul hpn hy',
    Int.ediv_nonneg hz (by omega), Int.ediv_lt_of_lt_mul hpn hz'⟩

example : InOctree ⟨30, 2 ^ 30 - 1, 0, 12345⟩ := by decide +kernel

end Copc
