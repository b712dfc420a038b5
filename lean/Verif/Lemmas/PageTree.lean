import Verif.Model.Writer
import Verif.Spec.Pages
import Verif.Lemmas.Key
import Mathlib.Data.List.Nodup
/-! # The page tree computed when a writer is closed -/
namespace Copc
open Spec VoxelKey

theorem below_refl {k : VoxelKey} (h : Valid k) : Below k k := ⟨0, by simpa using h.1, (up_zero k).symm⟩

theorem below_trans {a b c : VoxelKey} (h1 : Below a b) (h2 : Below b c) : Below a c := by
  obtain ⟨m, hm, rfl⟩ := h1
  obtain ⟨n, hn, rfl⟩ := h2
  refine ⟨m + n, ?_, up_up _ _ _⟩
  simp only [up] at hn
  push_cast
  omega

theorem below_depth {a b : VoxelKey} (h : Below a b) : b.d ≤ a.d := by
  obtain ⟨m, hm, rfl⟩ := h
  simp only [up]; omega

theorem below_eq_of_depth {a b : VoxelKey} (h : Below a b) (hd : a.d ≤ b.d) : b = a := by
  obtain ⟨m, hm, rfl⟩ := h
  simp only [up] at hd
  have : m = 0 := by omega
  subst this
  exact up_zero a

theorem below_antisymm {a b : VoxelKey} (h1 : Below a b) (h2 : Below b a) : a = b :=
  (below_eq_of_depth h1 (below_depth h2)).symm

theorem below_ne_depth {a b : VoxelKey} (h : Below a b) (hne : b ≠ a) : b.d < a.d := by
  by_contra hc
  exact hne (below_eq_of_depth h (by omega))

theorem below_linear {k a b : VoxelKey} (h1 : Below k a) (h2 : Below k b) : Below a b ∨ Below b a := by
  obtain ⟨m, hm, rfl⟩ := h1
  obtain ⟨n, hn, rfl⟩ := h2
  rcases Nat.le_total m n with h | h
  · left
    refine ⟨n - m, ?_, ?_⟩
    · simp only [up]; omega
    · rw [up_up, Nat.add_sub_cancel' h]
  · right
    refine ⟨m - n, ?_, ?_⟩
    · simp only [up]; omega
    · rw [up_up, Nat.add_sub_cancel' h]

theorem valid_of_below {a b : VoxelKey} (ha : Valid a) (h : Below a b) : Valid b := by
  obtain ⟨m, hm, rfl⟩ := h
  exact valid_up ha hm

theorem isParentPage_unique {ks : List VoxelKey} {k p q : VoxelKey} (hp : IsParentPage ks k p)
    (hq : IsParentPage ks k q) : p = q :=
  below_antisymm (hp.2.2.2 q hq.1 hq.2.1 hq.2.2.1) (hq.2.2.2 p hp.1 hp.2.1 hp.2.2.1)

theorem isParentPage_depth {ks : List VoxelKey} {k p : VoxelKey} (hp : IsParentPage ks k p) :
    p.d < k.d := below_ne_depth hp.2.1 hp.2.2.1

/-! ### The search for the parent page -/

section
variable {pages : List (VoxelKey × WPage)}

theorem get_isSome_iff {k : VoxelKey} :
    (AList.get k pages).isSome = true ↔ k ∈ AList.keys pages := AList.get_isSome

theorem parentLoop_spec {k : VoxelKey} (hk : Valid k) (hv : ∀ q ∈ AList.keys pages, Valid q) :
    ∀ (fuel i : Nat), 1 ≤ i → (i : Int) ≤ k.d + 1 → k.d + 2 - i ≤ fuel →
      (∃ j : Nat, i ≤ j ∧ (j : Int) ≤ k.d ∧ up j k ∈ AList.keys pages ∧
        (∀ l : Nat, i ≤ l → l < j → up l k ∉ AList.keys pages) ∧
        Writer.parentLoop pages fuel (up i k) = .ok (up j k)) ∨
      ((∀ j : Nat, i ≤ j → (j : Int) ≤ k.d → up j k ∉ AList.keys pages) ∧
        Writer.parentLoop pages fuel (up i k) = .throw .noParentPage)
  | 0, i, h1, h2, h3 => by simp at h3; omega
  | fuel + 1, i, h1, h2, h3 => by
    simp only [Writer.parentLoop]
    by_cases hm : up i k ∈ AList.keys pages
    · left
      have hvi := hv _ hm
      have hi : (i : Int) ≤ k.d := by
        have := hvi.1
        simp only [up] at this; omega
      refine ⟨i, Nat.le_refl _, hi, hm, fun l h4 h5 => by omega, ?_⟩
      rw [if_pos (get_isSome_iff.2 hm)]
    · rw [if_neg (fun h => hm (get_isSome_iff.1 h))]
      by_cases hi : (i : Int) ≤ k.d
      · have hvi := valid_up hk hi
        rw [getParent_eq hvi, up_up]
        by_cases hi2 : ((i + 1 : Nat) : Int) ≤ k.d
        · have hvi2 := valid_up hk hi2
          rw [(isValid_iff _).2 hvi2]
          simp only [Bool.true_eq_false, if_false]
          rcases parentLoop_spec hk hv fuel (i + 1) (by omega) (by push_cast; omega)
            (by push_cast at *; omega) with ⟨j, a1, a2, a3, a4, a5⟩ | ⟨a1, a2⟩
          · left
            refine ⟨j, by omega, a2, a3, ?_, a5⟩
            intro l b1 b2
            rcases Nat.eq_or_lt_of_le b1 with rfl | b1
            · exact hm
            · exact a4 l b1 b2
          · right
            refine ⟨?_, a2⟩
            intro l b1 b2
            rcases Nat.eq_or_lt_of_le b1 with rfl | b1
            · exact hm
            · exact a1 l b1 b2
        · right
          have hinv : ¬ Valid (up (i + 1) k) := by
            intro h
            have := h.1
            simp only [up] at this
            push_cast at *
            omega
          rw [(isValid_false_iff _).2 hinv]
          simp only [if_true, and_true]
          intro l b1 b2
          have : l = i := by push_cast at hi2; omega
          subst this
          exact hm
      · right
        have hinv : ¬ Valid (up i k) := by
          intro h
          have := h.1
          simp only [up] at this
          omega
        have e : (up i k).getParent = VoxelKey.invalid := by
          simp only [getParent, (isValid_false_iff _).2 hinv, Bool.false_eq_true, if_false]
        rw [e]
        have e2 : VoxelKey.invalid.isValid = false := by decide
        rw [e2]
        simp only [if_true, and_true]
        intro j b1 b2
        omega

/-- The search gives the nearest strict ancestor page, or throws when there is none. -/
theorem parentPage_spec {k : VoxelKey} (hk : Valid k) (hv : ∀ q ∈ AList.keys pages, Valid q) :
    (∃ p, Writer.parentPage pages k = .ok p ∧ IsParentPage (AList.keys pages) k p) ∨
    (Writer.parentPage pages k = .throw .noParentPage ∧
      ∀ q ∈ AList.keys pages, Below k q → q = k) := by
  unfold Writer.parentPage
  rw [getParent_eq hk]
  have hd := hk.1
  rcases parentLoop_spec hk hv (k.d.toNat + 2) 1 (Nat.le_refl _) (by omega) (by push_cast; omega) with
    ⟨j, a1, a2, a3, a4, a5⟩ | ⟨a1, a2⟩
  · left
    refine ⟨up j k, a5, a3, ⟨j, a2, rfl⟩, ?_, ?_⟩
    · intro e
      have := congrArg VoxelKey.d e
      simp only [up] at this
      omega
    · rintro q hq ⟨m, hm, rfl⟩ hne
      have hm1 : 1 ≤ m := by
        rcases Nat.eq_zero_or_pos m with rfl | h
        · exact absurd (up_zero k) hne
        · exact h
      have hjm : j ≤ m := by
        by_contra hc
        exact a4 m hm1 (by omega) hq
      refine ⟨m - j, ?_, ?_⟩
      · simp only [up]; omega
      · rw [up_up, Nat.add_sub_cancel' hjm]
  · right
    refine ⟨a2, ?_⟩
    rintro q hq ⟨m, hm, rfl⟩
    rcases Nat.eq_zero_or_pos m with rfl | h
    · exact up_zero k
    · exact absurd hq (a1 m h hm)

theorem parentPage_ok_iff {k p : VoxelKey} (hk : Valid k) (hv : ∀ q ∈ AList.keys pages, Valid q) :
    Writer.parentPage pages k = .ok p ↔ IsParentPage (AList.keys pages) k p := by
  rcases parentPage_spec hk hv with ⟨q, h1, h2⟩ | ⟨h1, h2⟩
  · rw [h1]
    constructor
    · intro e; cases e; exact h2
    · intro h; rw [isParentPage_unique h h2]
  · rw [h1]
    constructor
    · intro e; cases e
    · intro h; exact absurd (h2 p h.1 h.2.1) h.2.2.1

/-! ### All parents -/

theorem mapL_ok_iff {α β : Type} {f : α → Res β} {l : List α} {r : List β} :
    Res.mapL f l = .ok r ↔ List.Forall₂ (fun a b => f a = .ok b) l r := by
  induction l generalizing r with
  | nil =>
    simp only [Res.mapL, Res.ok.injEq, List.forall₂_nil_left_iff]
    exact eq_comm
  | cons a l ih =>
    rw [Res.mapL_cons_ok]
    constructor
    · rintro ⟨b, bs, h1, h2, rfl⟩
      exact List.Forall₂.cons h1 (ih.1 h2)
    · intro h
      cases h with
      | cons h1 h2 => exact ⟨_, _, h1, ih.2 h2, rfl⟩

/-- `hier` lists each page other than the root with its parent page. -/
structure HierOk (ks : List VoxelKey) (hier : List (VoxelKey × VoxelKey)) : Prop where
  keys : hier.map (·.1) = ks.filter fun k => !decide (k = VoxelKey.root)
  parent : ∀ q ∈ hier, IsParentPage ks q.1 q.2

theorem computePageHierarchy_ok {hier : List (VoxelKey × VoxelKey)}
    (hv : ∀ q ∈ AList.keys pages, Valid q)
    (h : Writer.computePageHierarchy pages = .ok hier) : HierOk (AList.keys pages) hier := by
  unfold Writer.computePageHierarchy at h
  rw [mapL_ok_iff] at h
  have hv' : ∀ q ∈ (AList.keys pages).filter (fun k => !decide (k = VoxelKey.root)), Valid q :=
    fun q hq => hv q (List.mem_of_mem_filter hq)
  generalize el : (AList.keys pages).filter (fun k => !decide (k = VoxelKey.root)) = l at h hv'
  have key : hier.map (·.1) = l ∧ ∀ q ∈ hier, IsParentPage (AList.keys pages) q.1 q.2 := by
    clear el
    induction h with
    | nil => simp
    | @cons a b l r h1 h2 ih =>
      have ih' := ih (fun q hq => hv' q (by simp [hq]))
      rcases hp : Writer.parentPage pages a with p | e | _
      · rw [hp] at h1
        simp only [Res.bind, Res.ok.injEq] at h1
        subst h1
        refine ⟨by simp [ih'.1], ?_⟩
        intro q hq
        rcases List.mem_cons.1 hq with rfl | hq
        · exact (parentPage_ok_iff (hv' a (by simp)) hv).1 hp
        · exact ih'.2 q hq
      · rw [hp] at h1; cases h1
      · rw [hp] at h1; cases h1
  exact ⟨key.1.trans el.symm, key.2⟩

/-- It succeeds when every page other than the root has a strict ancestor page. -/
theorem computePageHierarchy_total (hv : ∀ q ∈ AList.keys pages, Valid q)
    (h : ∀ k ∈ AList.keys pages, k ≠ VoxelKey.root → ∃ q ∈ AList.keys pages, Below k q ∧ q ≠ k) :
    ∃ hier, Writer.computePageHierarchy pages = .ok hier := by
  unfold Writer.computePageHierarchy
  have hl : ∀ k ∈ (AList.keys pages).filter (fun k => !decide (k = VoxelKey.root)),
      ∃ p, Writer.parentPage pages k = .ok p := by
    intro k hk
    rw [List.mem_filter] at hk
    obtain ⟨q, h1, h2, h3⟩ := h k hk.1 (by simpa using hk.2)
    rcases parentPage_spec (hv k hk.1) hv with ⟨p, hp, _⟩ | ⟨_, hc⟩
    · exact ⟨p, hp⟩
    · exact absurd (hc q h1 h2) h3
  generalize (AList.keys pages).filter (fun k => !decide (k = VoxelKey.root)) = l at hl
  induction l with
  | nil => exact ⟨[], rfl⟩
  | cons a l ih =>
    obtain ⟨p, hp⟩ := hl a (by simp)
    obtain ⟨r, hr⟩ := ih (fun k hk => hl k (by simp [hk]))
    exact ⟨(a, p) :: r, by simp only [Res.mapL, hp, hr, Res.okBind]⟩

/-- It throws when some page has no strict ancestor page. -/
theorem computePageHierarchy_throws (hv : ∀ q ∈ AList.keys pages, Valid q)
    {k : VoxelKey} (hk : k ∈ AList.keys pages) (hr : k ≠ VoxelKey.root)
    (h : ∀ q ∈ AList.keys pages, Below k q → q = k) :
    Writer.computePageHierarchy pages = .throw .noParentPage := by
  unfold Writer.computePageHierarchy
  have hm : k ∈ (AList.keys pages).filter (fun k => !decide (k = VoxelKey.root)) := by
    simp [hk, hr]
  have hv' : ∀ q ∈ (AList.keys pages).filter (fun k => !decide (k = VoxelKey.root)), Valid q :=
    fun q hq => hv q (List.mem_of_mem_filter hq)
  generalize (AList.keys pages).filter (fun k => !decide (k = VoxelKey.root)) = l at hm hv'
  induction l with
  | nil => cases hm
  | cons a l ih =>
    simp only [Res.mapL]
    rcases parentPage_spec (hv' a (by simp)) hv with ⟨p, hp, hpp⟩ | ⟨hp, _⟩
    · rw [hp]
      simp only [Res.okBind]
      rcases List.mem_cons.1 hm with rfl | hm
      · exact absurd (h p hpp.1 hpp.2.1) hpp.2.2.1
      · rw [ih hm (fun q hq => hv' q (by simp [hq]))]
        rfl
    · rw [hp]
      rfl

end

/-! ### The visiting order -/

section
variable {ks : List VoxelKey} {hier : List (VoxelKey × VoxelKey)}

theorem mem_subPages {k q : VoxelKey} (h : HierOk ks hier) :
    q ∈ Writer.subPages hier k ↔ q ∈ ks ∧ q ≠ VoxelKey.root ∧ IsParentPage ks q k := by
  unfold Writer.subPages
  simp only [List.mem_map, List.mem_filter, decide_eq_true_eq]
  constructor
  · rintro ⟨⟨a, b⟩, ⟨h1, h2⟩, rfl⟩
    simp only at h2
    subst h2
    have : a ∈ hier.map (·.1) := List.mem_map.2 ⟨(a, b), h1, rfl⟩
    rw [h.keys, List.mem_filter] at this
    exact ⟨this.1, by simpa using this.2, h.parent _ h1⟩
  · rintro ⟨h1, h2, h3⟩
    have : q ∈ hier.map (·.1) := by rw [h.keys, List.mem_filter]; simp [h1, h2]
    obtain ⟨⟨a, b⟩, h4, rfl⟩ := List.mem_map.1 this
    refine ⟨(a, b), ⟨h4, ?_⟩, rfl⟩
    exact isParentPage_unique (h.parent _ h4) h3

theorem nodup_subPages (h : HierOk ks hier) (hn : ks.Nodup) (k : VoxelKey) :
    (Writer.subPages hier k).Nodup := by
  have : (hier.map (·.1)).Nodup := by rw [h.keys]; exact hn.filter _
  exact this.sublist (List.filter_sublist.map _)

/-- Depth of the deepest page, plus one. -/
def depthBound (ks : List VoxelKey) : Nat := (ks.map fun k => k.d.toNat).foldr max 0 + 1

theorem levels_eq (pages : List (VoxelKey × WPage)) :
    Writer.levels pages = depthBound (AList.keys pages) := by
  unfold Writer.levels depthBound AList.keys
  rw [List.map_map]
  rfl

theorem lt_depthBound {k : VoxelKey} (h : k ∈ ks) : k.d < depthBound ks := by
  unfold depthBound
  have : ∀ l : List Nat, ∀ x ∈ l, x ≤ l.foldr max 0 := by
    intro l
    induction l with
    | nil => simp
    | cons a l ih =>
      intro x hx
      simp only [List.foldr_cons]
      rcases List.mem_cons.1 hx with rfl | hx
      · exact Nat.le_max_left _ _
      · exact Nat.le_trans (ih x hx) (Nat.le_max_right _ _)
  have := this (ks.map fun k => k.d.toNat) k.d.toNat (List.mem_map.2 ⟨k, h, rfl⟩)
  push_cast
  omega

/-- A page strictly below `k` is below one of its sub-pages. -/
theorem exists_sub (h : HierOk ks hier) (hv : ∀ q ∈ ks, Valid q) {k m : VoxelKey} (hk : k ∈ ks)
    (hm : m ∈ ks) (hb : Below m k) (hne : m ≠ k) : ∃ s ∈ Writer.subPages hier k, Below m s := by
  have aux : ∀ n : Nat, ∀ m ∈ ks, m.d.toNat ≤ n → Below m k → m ≠ k →
      ∃ s ∈ Writer.subPages hier k, Below m s := by
    intro n
    induction n with
    | zero =>
      intro m hm h0 hb hne
      have := below_ne_depth hb (Ne.symm hne)
      have := (hv k hk).1
      omega
    | succ n ih =>
      intro m hm h0 hb hne
      have hmr : m ≠ VoxelKey.root := by
        rintro rfl
        have := below_ne_depth hb (Ne.symm hne)
        have h2 := (hv k hk).1
        simp only [VoxelKey.root] at this
        omega
      have : m ∈ hier.map (·.1) := by rw [h.keys, List.mem_filter]; simp [hm, hmr]
      obtain ⟨⟨a, p⟩, h4, rfl⟩ := List.mem_map.1 this
      have hp := h.parent _ h4
      simp only at hp hb hne hm h0 hmr
      by_cases hpk : p = k
      · subst hpk
        exact ⟨a, (mem_subPages h).2 ⟨hm, hmr, hp⟩, below_refl (hv a hm)⟩
      · have hbk := hp.2.2.2 k hk hb (Ne.symm hne)
        have hd := isParentPage_depth hp
        have := (hv p hp.1).1
        obtain ⟨s, h5, h6⟩ := ih p hp.1 (by omega) hbk hpk
        exact ⟨s, h5, below_trans hp.2.1 h6⟩
  exact aux _ m hm (Nat.le_refl _) hb hne

/-- Pages reached by the visit: those at or below the starting page. -/
theorem mem_visit (ord : Order) (h : HierOk ks hier) (hv : ∀ q ∈ ks, Valid q) :
    ∀ (fuel : Nat) (k : VoxelKey), k ∈ ks → (depthBound ks : Int) ≤ k.d + fuel →
      ∀ m, m ∈ Writer.visit ord hier fuel k ↔ m ∈ ks ∧ Below m k
  | 0, k, hk, hf, m => by
    have := lt_depthBound hk
    simp at hf
    omega
  | fuel + 1, k, hk, hf, m => by
    simp only [Writer.visit, List.mem_append, List.mem_flatMap, List.mem_singleton]
    constructor
    · rintro (⟨s, hs, hm⟩ | rfl)
      · have hs := (mem_subPages h).1 ((ord.subs_perm _ _).mem_iff.1 hs)
        have hd := isParentPage_depth hs.2.2
        have := (mem_visit ord h hv fuel s hs.1 (by push_cast at *; omega) m).1 hm
        exact ⟨this.1, below_trans this.2 hs.2.2.2.1⟩
      · exact ⟨hk, below_refl (hv _ hk)⟩
    · rintro ⟨hm, hb⟩
      by_cases e : m = k
      · exact Or.inr e
      · left
        obtain ⟨s, hs, hms⟩ := exists_sub h hv hk hm hb e
        refine ⟨s, (ord.subs_perm _ _).mem_iff.2 hs, ?_⟩
        have hs := (mem_subPages h).1 hs
        have hd := isParentPage_depth hs.2.2
        exact (mem_visit ord h hv fuel s hs.1 (by push_cast at *; omega) m).2 ⟨hm, hms⟩

/-- Each page is visited once. -/
theorem nodup_visit (ord : Order) (h : HierOk ks hier) (hv : ∀ q ∈ ks, Valid q) (hn : ks.Nodup) :
    ∀ (fuel : Nat) (k : VoxelKey), k ∈ ks → (depthBound ks : Int) ≤ k.d + fuel →
      (Writer.visit ord hier fuel k).Nodup
  | 0, k, hk, hf => by simp [Writer.visit]
  | fuel + 1, k, hk, hf => by
    simp only [Writer.visit]
    have hsub : ∀ s ∈ ord.subs k (Writer.subPages hier k), s ∈ ks ∧ s ≠ VoxelKey.root ∧
        IsParentPage ks s k := fun s hs => (mem_subPages h).1 ((ord.subs_perm _ _).mem_iff.1 hs)
    rw [List.nodup_append]
    refine ⟨?_, by simp, ?_⟩
    · rw [List.nodup_flatMap]
      refine ⟨?_, ?_⟩
      · intro s hs
        have h1 := hsub s hs
        have hd := isParentPage_depth h1.2.2
        exact nodup_visit ord h hv hn fuel s h1.1 (by push_cast at *; omega)
      · have hnd : (ord.subs k (Writer.subPages hier k)).Nodup :=
          (ord.subs_perm _ _).nodup_iff.2 (nodup_subPages h hn k)
        refine List.Pairwise.imp_of_mem ?_ hnd
        intro s t hs ht hst
        have h1 := hsub s hs
        have h2 := hsub t ht
        have hd1 := isParentPage_depth h1.2.2
        have hd2 := isParentPage_depth h2.2.2
        rw [Function.onFun, List.disjoint_left]
        intro m hm1 hm2
        have m1 := (mem_visit ord h hv fuel s h1.1 (by push_cast at *; omega) m).1 hm1
        have m2 := (mem_visit ord h hv fuel t h2.1 (by push_cast at *; omega) m).1 hm2
        rcases below_linear m1.2 m2.2 with hb | hb
        · -- s below t, so the parent of s is at or below t
          have := h1.2.2.2.2.2 t h2.1 hb (Ne.symm hst)
          have := below_depth this
          omega
        · have := h2.2.2.2.2.2 s h1.1 hb hst
          have := below_depth this
          omega
    · intro a ha b hb e
      simp only [List.mem_singleton] at hb
      subst hb
      subst e
      obtain ⟨s, hs, hm⟩ := List.mem_flatMap.1 ha
      have h1 := hsub s hs
      have hd := isParentPage_depth h1.2.2
      have m1 := (mem_visit ord h hv fuel s h1.1 (by push_cast at *; omega) a).1 hm
      have := below_depth m1.2
      omega

/-- Children come before their parent. -/
def ChildFirst (hier : List (VoxelKey × VoxelKey)) (l : List VoxelKey) : Prop :=
  ∀ l1 k l2, l = l1 ++ k :: l2 → ∀ q ∈ Writer.subPages hier k, q ∈ l1

theorem childFirst_nil : ChildFirst hier [] := by
  intro l1 k l2 h
  simp at h

theorem childFirst_append {a b : List VoxelKey} (ha : ChildFirst hier a) (hb : ChildFirst hier b) :
    ChildFirst hier (a ++ b) := by
  intro l1 k l2 h q hq
  rw [List.append_eq_append_iff] at h
  rcases h with ⟨c, rfl, h2⟩ | ⟨c, h1, h2⟩
  · exact List.mem_append_right _ (hb c k l2 h2 q hq)
  · cases c with
    | nil =>
      simp only [List.nil_append] at h2
      simp only [List.append_nil] at h1
      subst h1
      have := hb [] k l2 (by simpa using h2.symm) q hq
      simp at this
    | cons x c =>
      simp only [List.cons_append, List.cons.injEq] at h2
      obtain ⟨rfl, rfl⟩ := h2
      exact ha l1 k c h1 q hq

theorem childFirst_visit (ord : Order) (h : HierOk ks hier) (hv : ∀ q ∈ ks, Valid q) :
    ∀ (fuel : Nat) (k : VoxelKey), k ∈ ks → (depthBound ks : Int) ≤ k.d + fuel →
      ChildFirst hier (Writer.visit ord hier fuel k)
  | 0, k, hk, hf => childFirst_nil
  | fuel + 1, k, hk, hf => by
    simp only [Writer.visit]
    have hsub : ∀ s ∈ ord.subs k (Writer.subPages hier k), s ∈ ks ∧ s ≠ VoxelKey.root ∧
        IsParentPage ks s k := fun s hs => (mem_subPages h).1 ((ord.subs_perm _ _).mem_iff.1 hs)
    have hfm : ∀ l : List VoxelKey, (∀ s ∈ l, s ∈ ks ∧ s ≠ VoxelKey.root ∧ IsParentPage ks s k) →
        ChildFirst hier (l.flatMap (Writer.visit ord hier fuel)) := by
      intro l
      induction l with
      | nil => intro _; exact childFirst_nil
      | cons s l ih =>
        intro hl
        rw [List.flatMap_cons]
        have h1 := hl s (by simp)
        have hd := isParentPage_depth h1.2.2
        exact childFirst_append (childFirst_visit ord h hv fuel s h1.1 (by push_cast at *; omega))
          (ih (fun t ht => hl t (by simp [ht])))
    intro l1 k' l2 e q hq
    rw [List.append_eq_append_iff] at e
    rcases e with ⟨c, rfl, h2⟩ | ⟨c, h1, h2⟩
    · rcases c with _ | ⟨x, c⟩
      · simp only [List.nil_append, List.cons.injEq] at h2
        obtain ⟨rfl, rfl⟩ := h2
        apply List.mem_append_left
        apply List.mem_flatMap.2
        refine ⟨q, (ord.subs_perm _ _).mem_iff.2 hq, ?_⟩
        have h1 := (mem_subPages h).1 hq
        have hd := isParentPage_depth h1.2.2
        exact (mem_visit ord h hv fuel q h1.1 (by push_cast at *; omega) q).2
          ⟨h1.1, below_refl (hv q h1.1)⟩
      · simp only [List.cons_append, List.cons.injEq] at h2
        have := congrArg List.length h2.2
        simp at this
    · cases c with
      | nil =>
        simp only [List.nil_append, List.cons.injEq] at h2
        simp only [List.append_nil] at h1
        obtain ⟨rfl, -⟩ := h2
        rw [← h1]
        apply List.mem_flatMap.2
        refine ⟨q, (ord.subs_perm _ _).mem_iff.2 hq, ?_⟩
        have h1 := (mem_subPages h).1 hq
        have hd := isParentPage_depth h1.2.2
        exact (mem_visit ord h hv fuel q h1.1 (by push_cast at *; omega) q).2
          ⟨h1.1, below_refl (hv q h1.1)⟩
      | cons x c =>
        simp only [List.cons_append, List.cons.injEq] at h2
        obtain ⟨rfl, -⟩ := h2
        exact hfm _ hsub l1 k' c h1 q hq

end
end Copc
