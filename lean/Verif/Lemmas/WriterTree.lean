import Verif.Lemmas.WriterInv
import Verif.Lemmas.WriterClosed
import Verif.Props.Key
import Verif.Lemmas.Entry
import Verif.Spec.Layout
/-! # The page tree of a closed file -/
namespace Copc
open Spec VoxelKey

theorem inOctree_iff_below (k : VoxelKey) : InOctree k ↔ Valid k ∧ Below k VoxelKey.root := by
  rw [← C03_childOf_root, childOf_iff]

/-- Everything about the pages of a closed file. -/
theorem CloseOk.tree {L : Lazperf} {ord : Order} {otpd : Nat} {log : List (Nat × Bytes)} {w w' : Writer}
    {hier : List (VoxelKey × VoxelKey)} {eb : Nat} {h14 : Header14} {gps : Extent}
    (h : CloseOk L ord otpd log w w' hier eb h14 gps) (hp : PageInv w) :
    HierOk (AList.keys w.pages) hier ∧
    (∀ q ∈ AList.keys w.pages, Valid q) ∧
    (Writer.visit ord hier (Writer.levels w.pages) VoxelKey.root).Nodup ∧
    (∀ m, m ∈ Writer.visit ord hier (Writer.levels w.pages) VoxelKey.root ↔
      m ∈ AList.keys w.pages ∧ Below m VoxelKey.root) ∧
    ChildFirst hier (Writer.visit ord hier (Writer.levels w.pages) VoxelKey.root) := by
  have hv : ∀ q ∈ AList.keys w.pages, Valid q := by
    intro q hq
    unfold AList.keys at hq
    obtain ⟨x, hx, rfl⟩ := List.mem_map.1 hq
    exact (hp.page x hx).1
  have hh := computePageHierarchy_ok hv h.hier_ok
  have hf : (depthBound (AList.keys w.pages) : Int) ≤ VoxelKey.root.d + (Writer.levels w.pages : Nat) := by
    rw [levels_eq]; simp [VoxelKey.root]
  exact ⟨hh, hv, nodup_visit ord hh hv hp.nodup _ _ hp.root hf, mem_visit ord hh hv _ _ hp.root hf,
    childFirst_visit ord hh hv _ _ hp.root hf⟩

theorem below_root_of_hier {ks : List VoxelKey} {hier : List (VoxelKey × VoxelKey)} (h : HierOk ks hier) :
    ∀ (n : Nat) (k : VoxelKey), k ∈ ks → Valid k → (∀ q ∈ ks, Valid q) → k.d.toNat ≤ n → Below k VoxelKey.root := by
  intro n
  induction n with
  | zero =>
    intro k hk hv hvs hd
    by_cases hr : k = VoxelKey.root
    · subst hr; exact below_refl hv
    · exfalso
      have hm : k ∈ hier.map (·.1) := by rw [h.keys]; simp [hk, hr]
      obtain ⟨x, hx, rfl⟩ := List.mem_map.1 hm
      have h1 := isParentPage_depth (h.parent x hx)
      have h2 := (hvs _ (h.parent x hx).1).1
      omega
  | succ n ih =>
    intro k hk hv hvs hd
    by_cases hr : k = VoxelKey.root
    · subst hr; exact below_refl hv
    · have hm : k ∈ hier.map (·.1) := by rw [h.keys]; simp [hk, hr]
      obtain ⟨x, hx, rfl⟩ := List.mem_map.1 hm
      have hp := h.parent x hx
      have h1 := isParentPage_depth hp
      have h2 := (hvs _ hp.1).1
      exact below_trans hp.2.1 (ih x.2 hp.1 (hvs _ hp.1) hvs (by omega))

theorem PageInv.valid {w : Writer} (hp : PageInv w) : ∀ q ∈ AList.keys w.pages, Valid q := by
  intro q hq
  unfold AList.keys at hq
  obtain ⟨x, hx, rfl⟩ := List.mem_map.1 hq
  exact (hp.page x hx).1

/-- The page hierarchy can be computed exactly when all pages lie in the octree. -/
theorem hierarchy_iff {w : Writer} (hp : PageInv w) :
    (∃ hier, Writer.computePageHierarchy w.pages = .ok hier) ↔ ∀ k ∈ AList.keys w.pages, InOctree k := by
  have hv := hp.valid
  constructor
  · rintro ⟨hier, h⟩ k hk
    exact (inOctree_iff_below k).2 ⟨hv k hk,
      below_root_of_hier (computePageHierarchy_ok hv h) _ k hk (hv k hk) hv (Nat.le_refl _)⟩
  · intro h
    refine computePageHierarchy_total hv fun k hk hr => ⟨VoxelKey.root, hp.root, ?_, Ne.symm hr⟩
    exact ((inOctree_iff_below k).1 (h k hk)).2

theorem hierarchy_throws {w : Writer} (hp : PageInv w) {k : VoxelKey} (hk : k ∈ AList.keys w.pages)
    (hn : ¬ InOctree k) : Writer.computePageHierarchy w.pages = .throw .noParentPage := by
  have hv := hp.valid
  -- a page outside the octree of least depth
  have hmin : ∀ n : Nat, ∀ k ∈ AList.keys w.pages, ¬ InOctree k → k.d.toNat ≤ n →
      ∃ m ∈ AList.keys w.pages, ¬ InOctree m ∧ ∀ q ∈ AList.keys w.pages, q.d < m.d → InOctree q := by
    intro n
    induction n with
    | zero =>
      intro k hk hn hd
      refine ⟨k, hk, hn, fun q hq hlt => ?_⟩
      have := (hv q hq).1
      omega
    | succ n ih =>
      intro k hk hn hd
      by_cases hc : ∃ q ∈ AList.keys w.pages, q.d < k.d ∧ ¬ InOctree q
      · obtain ⟨q, h1, h2, h3⟩ := hc
        have := (hv q h1).1
        exact ih q h1 h3 (by omega)
      · refine ⟨k, hk, hn, fun q hq hlt => ?_⟩
        exact Decidable.byContradiction fun h3 => hc ⟨q, hq, hlt, h3⟩
  obtain ⟨m, h1, h2, h3⟩ := hmin _ k hk hn (Nat.le_refl _)
  refine computePageHierarchy_throws hv h1 ?_ ?_
  · rintro rfl; exact h2 (by decide)
  · intro q hq hb
    refine Decidable.byContradiction fun hne => ?_
    have := h3 q hq (below_ne_depth hb hne)
    exact h2 ((inOctree_iff_below m).2 ⟨hv m h1, below_trans hb ((inOctree_iff_below q).1 this).2⟩)

/-! ### Where the pages are -/

theorem length_flatMap_pack {α : Type} (f : α → Entry) (l : List α) :
    (l.flatMap fun x => (f x).pack).length = 32 * l.length := by
  induction l with
  | nil => rfl
  | cons a l ih => simp [ih]; omega

theorem length_pageBody (ord : Order) (pages : List (VoxelKey × WPage)) (hier : List (VoxelKey × VoxelKey))
    (placed : List (VoxelKey × (Nat × Nat))) (k : VoxelKey) :
    (pageBody ord pages hier placed k).length = pageSize pages hier k := by
  unfold pageBody pageSize
  rw [List.length_append, length_flatMap_pack (fun p : VoxelKey × Node => p.2.entry),
    length_flatMap_pack (fun q => Writer.pageEntry placed q), (ord.nodes_perm _ _).length_eq,
    (ord.subs_perm _ _).length_eq]
  omega

/-- Places follow the order of writing. -/
theorem layoutPages_places (ord : Order) (pages : List (VoxelKey × WPage))
    (hier : List (VoxelKey × VoxelKey)) :
    ∀ (ks : List VoxelKey) (pos : Nat) (placed : List (VoxelKey × (Nat × Nat))), ks.Nodup →
      (∀ k ∈ ks, ∃ o, AList.get k (layoutPages ord pages hier pos placed ks).2 = some (o, pageSize pages hier k) ∧
        pos ≤ o ∧ o + pageSize pages hier k ≤ pos + (layoutPages ord pages hier pos placed ks).1.length) ∧
      ks.Pairwise fun a b => ∀ oa sa ob sb,
        AList.get a (layoutPages ord pages hier pos placed ks).2 = some (oa, sa) →
        AList.get b (layoutPages ord pages hier pos placed ks).2 = some (ob, sb) → oa + sa ≤ ob
  | [], pos, placed, _ => by simp
  | k :: ks, pos, placed, hn => by
    obtain ⟨hk, hn'⟩ := List.nodup_cons.1 hn
    rw [layoutPages]
    dsimp only
    generalize Writer.pageHeader k (pageSize pages hier k) = hd
    generalize hpl : AList.put k (pos + hd.length, pageSize pages hier k) placed = placed'
    have hb : (hd ++ pageBody ord pages hier placed' k).length = hd.length + pageSize pages hier k := by
      rw [List.length_append, length_pageBody]
    rw [hb]
    obtain ⟨i1, i2⟩ := layoutPages_places ord pages hier ks (pos + (hd.length + pageSize pages hier k)) placed' hn'
    have hgk : AList.get k (layoutPages ord pages hier (pos + (hd.length + pageSize pages hier k)) placed' ks).2 =
        some (pos + hd.length, pageSize pages hier k) := by
      rw [layoutPages_get _ _ _ _ _ _ _ hk, ← hpl, AList.get_put, if_pos rfl]
    refine ⟨?_, ?_⟩
    · intro q hq
      rcases List.mem_cons.1 hq with rfl | hq
      · refine ⟨_, hgk, by omega, ?_⟩
        rw [List.length_append, hb]; omega
      · obtain ⟨o, a1, a2, a3⟩ := i1 q hq
        refine ⟨o, a1, by omega, ?_⟩
        rw [List.length_append, hb]; omega
    · rw [List.pairwise_cons]
      refine ⟨?_, i2⟩
      intro b hbm oa sa ob sb e1 e2
      rw [hgk] at e1
      obtain ⟨o, a1, a2, a3⟩ := i1 b hbm
      rw [a1] at e2
      injection e1 with e1
      injection e2 with e2
      injection e1 with e1 e1'
      injection e2 with e2 e2'
      omega

/-- The pages of a closed file. -/
def filePage (placed : List (VoxelKey × (Nat × Nat))) (x : VoxelKey × WPage) : FPage :=
  ⟨x.1, ((AList.get x.1 placed).getD (0, 0)).1, ((AList.get x.1 placed).getD (0, 0)).2,
    x.2.map (·.2.entry)⟩

theorem hasEntries_of {data a b : Bytes} {es : List Entry} {off size : Nat}
    (hd : data = a ++ (es.flatMap Entry.pack ++ b)) (ho : off = a.length) (hs : size = 32 * es.length) :
    HasEntries data off size es := by
  refine ⟨hs, slice_at hd ho ?_⟩
  rw [hs, length_flatMap_pack (fun e : Entry => e)]

theorem CloseOk.pageTree {L : Lazperf} {ord : Order} {otpd : Nat} {log : List (Nat × Bytes)} {w w' : Writer}
    {hier : List (VoxelKey × VoxelKey)} {eb : Nat} {h14 : Header14} {gps : Extent}
    (h : CloseOk L ord otpd log w w' hier eb h14 gps) (hp : PageInv w) :
    PageTree w'.base.out.data (w.pages.map (filePage (closeLayout L ord otpd log hier w).2)) ∧
    (∀ p ∈ w.pages.map (filePage (closeLayout L ord otpd log hier w).2),
      ∃ o s, AList.get p.key (closeLayout L ord otpd log hier w).2 = some (o, s) ∧ p.offset = o ∧ p.size = s ∧
      s ≤ 2147483647 ∧ otpd + (bodyBytes L otpd log).length ≤ o ∧ o + s ≤ w'.base.out.data.length) ∧
    (∀ p ∈ w.pages.map (filePage (closeLayout L ord otpd log hier w).2),
      ∀ q ∈ w.pages.map (filePage (closeLayout L ord otpd log hier w).2), p.key ≠ q.key →
        FPage.Before p q ∨ FPage.Before q p) ∧
    (∀ p ∈ w.pages.map (filePage (closeLayout L ord otpd log hier w).2),
      ∀ q ∈ w.pages.map (filePage (closeLayout L ord otpd log hier w).2),
        IsParentPage (AList.keys w.pages) q.key p.key → FPage.Before q p) := by
  obtain ⟨hh, hv, hnd, hmem, hcf⟩ := h.tree hp
  obtain ⟨hfit, hdata, _⟩ := h.closed
  have htree : ∀ k ∈ AList.keys w.pages, InOctree k := (hierarchy_iff hp).1 ⟨hier, h.hier_ok⟩
  have hmem' : ∀ k ∈ AList.keys w.pages, k ∈ Writer.visit ord hier (Writer.levels w.pages) VoxelKey.root :=
    fun k hk => (hmem k).2 ⟨hk, ((inOctree_iff_below k).1 (htree k hk)).2⟩
  -- layout facts
  have hpl := layoutPages_places ord w.pages hier (Writer.visit ord hier (Writer.levels w.pages) VoxelKey.root)
    (otpd + (bodyBytes L otpd log).length) [] hnd
  have hpre : (headArea L (closedCfg L ord otpd log hier w) eb gps h14 otpd ++ bodyBytes L otpd log).length =
      otpd + (bodyBytes L otpd log).length := by
    rw [List.length_append, length_headArea hfit]
  have hin := layoutPages_pageIn ord w.pages hier (Writer.visit ord hier (Writer.levels w.pages) VoxelKey.root)
    (headArea L (closedCfg L ord otpd log hier w) eb gps h14 otpd ++ bodyBytes L otpd log) [] [] (by simpa using hnd)
    (by intro l1 k l2 e q hq; simpa using hcf l1 k l2 e q hq)
  rw [hpre] at hin
  have hlay : layoutPages ord w.pages hier (otpd + (bodyBytes L otpd log).length) []
    (Writer.visit ord hier (Writer.levels w.pages) VoxelKey.root) = closeLayout L ord otpd log hier w := rfl
  rw [hlay] at hin hpl
  obtain ⟨hpl1, hpl2⟩ := hpl
  have hsmall := h.small
  have hdata' : w'.base.out.data = headArea L (closedCfg L ord otpd log hier w) eb gps h14 otpd ++
      bodyBytes L otpd log ++ (closeLayout L ord otpd log hier w).1 ++ wktBytes w.cfg.wkt := by
    rw [hdata]; simp only [fileBytes, List.append_assoc]
  have hpagein : ∀ k ∈ AList.keys w.pages,
      PageIn ord w.pages hier (closeLayout L ord otpd log hier w).2 w'.base.out.data k := by
    intro k hk
    rw [hdata']
    exact (hin k (hmem' k hk)).append _
  have hlen : otpd + (bodyBytes L otpd log).length + (closeLayout L ord otpd log hier w).1.length ≤
      w'.base.out.data.length := by
    rw [hdata', List.length_append, List.length_append, hpre]; omega
  clear hdata hdata' hin hlay hpre hfit h
  generalize hF : (closeLayout L ord otpd log hier w).2 = placed at *
  generalize w'.base.out.data = data at *
  have hkeys : (w.pages.map (filePage placed)).map (·.key) = AList.keys w.pages := by
    rw [List.map_map]; rfl
  have hget : ∀ x ∈ w.pages, AList.get x.1 w.pages = some x.2 := fun x hx => (AList.get_iff_mem hp.nodup).2 hx
  have hplace : ∀ x ∈ w.pages, ∃ o, AList.get x.1 placed = some (o, pageSize w.pages hier x.1) ∧
      (filePage placed x).offset = o ∧ (filePage placed x).size = pageSize w.pages hier x.1 ∧
      otpd + (bodyBytes L otpd log).length ≤ o ∧ o + pageSize w.pages hier x.1 ≤ data.length := by
    intro x hx
    obtain ⟨o, a1, a2, a3⟩ := hpl1 x.1 (hmem' _ (AList.mem_keys hx))
    refine ⟨o, a1, ?_, ?_, a2, by omega⟩
    · simp [filePage, a1]
    · simp [filePage, a1]
  have horder : ∀ x ∈ w.pages, ∀ y ∈ w.pages, ∀ l1 l2 l3,
      Writer.visit ord hier (Writer.levels w.pages) VoxelKey.root = l1 ++ x.1 :: (l2 ++ y.1 :: l3) →
      FPage.Before (filePage placed x) (filePage placed y) := by
    intro x hx y hy l1 l2 l3 e
    rw [e, List.pairwise_append, List.pairwise_cons] at hpl2
    obtain ⟨o, a1, a2, a3, _⟩ := hplace x hx
    obtain ⟨o', b1, b2, b3, _⟩ := hplace y hy
    unfold FPage.Before
    rw [a2, a3, b2]
    exact hpl2.2.1.1 y.1 (by simp) _ _ _ _ a1 b1
  refine ⟨⟨by rw [hkeys]; exact hp.nodup, by rw [hkeys]; exact hp.root, ?_, ?_⟩, ?_, ?_, ?_⟩
  · intro p hpm
    obtain ⟨x, hx, rfl⟩ := List.mem_map.1 hpm
    exact htree _ (AList.mem_keys hx)
  · intro p hpm
    obtain ⟨x, hx, rfl⟩ := List.mem_map.1 hpm
    have hk := AList.mem_keys hx
    obtain ⟨a, b, d1, d2⟩ := hpagein x.1 hk
    obtain ⟨o, a1, a2, a3, _⟩ := hplace x hx
    -- sub-pages
    refine ⟨(w.pages.filter fun y => decide (y.1 ∈ Writer.subPages hier x.1)).map (filePage placed), ?_, ?_, ?_⟩
    · have : ((w.pages.filter fun y => decide (y.1 ∈ Writer.subPages hier x.1)).map (filePage placed)).map (·.key)
          |>.Nodup := by
        rw [List.map_map]
        exact hp.nodup.sublist (List.filter_sublist.map _)
      exact this.of_map _
    · intro q
      rw [hkeys, List.mem_map, List.mem_map]
      constructor
      · rintro ⟨y, hy, rfl⟩
        rw [List.mem_filter, decide_eq_true_eq, mem_subPages hh] at hy
        exact ⟨⟨y, hy.1, rfl⟩, hy.2.2.2⟩
      · rintro ⟨⟨y, hy, rfl⟩, hpp⟩
        refine ⟨y, ?_, rfl⟩
        rw [List.mem_filter, decide_eq_true_eq, mem_subPages hh]
        refine ⟨hy, AList.mem_keys hy, ?_, hpp⟩
        intro hr
        have h1 := isParentPage_depth hpp
        have h2 : (filePage placed y).key.d = 0 := by
          have : (filePage placed y).key = VoxelKey.root := hr
          rw [this]; rfl
        have h3 := (hv _ hpp.1).1
        omega
    · have hns : (AList.get x.1 w.pages).getD [] = x.2 := by rw [hget x hx]; rfl
      refine ⟨(ord.nodes x.1 x.2).map (·.2.entry) ++
        (ord.subs x.1 (Writer.subPages hier x.1)).map (Writer.pageEntry placed), ?_, ?_⟩
      · refine List.Perm.append ((ord.nodes_perm _ _).map _) ?_
        refine ((ord.subs_perm _ _).map _).trans ?_
        -- the same sub-pages
        have e1 : ∀ y ∈ w.pages, Writer.pageEntry placed y.1 = (filePage placed y).entry := by
          intro y hy
          obtain ⟨o, a1, a2, a3, _⟩ := hplace y hy
          unfold Writer.pageEntry FPage.entry
          rw [a1, a2, a3]; rfl
        have e2 : (((w.pages.filter fun y => decide (y.1 ∈ Writer.subPages hier x.1)).map (filePage placed)).map
            FPage.entry) = ((w.pages.filter fun y => decide (y.1 ∈ Writer.subPages hier x.1)).map (·.1)).map
              (Writer.pageEntry placed) := by
          rw [List.map_map, List.map_map]
          apply List.map_congr_left
          intro y hy
          exact (e1 y (List.mem_of_mem_filter hy)).symm
        rw [e2]
        apply List.Perm.map
        rw [List.perm_ext_iff_of_nodup (nodup_subPages hh hp.nodup _)
          (hp.nodup.sublist (List.filter_sublist.map _))]
        intro q
        constructor
        · intro hq
          have := ((mem_subPages hh).1 hq).1
          obtain ⟨y, hy, rfl⟩ := List.mem_map.1 this
          exact List.mem_map.2 ⟨y, by simp [hy, hq], rfl⟩
        · intro hq
          obtain ⟨y, hy, rfl⟩ := List.mem_map.1 hq
          simpa using (List.mem_filter.1 hy).2
      · refine hasEntries_of (a := a ++ Writer.pageHeader x.1 (pageSize w.pages hier x.1)) (b := b) ?_ ?_ ?_
        · rw [d1]
          unfold pageBody
          rw [hns]
          simp only [List.flatMap_append, List.flatMap_map, List.append_assoc]
        · rw [d2] at a1
          injection a1 with a1
          injection a1 with a1
          rw [a2, List.length_append]; exact a1.symm
        · rw [a3, List.length_append, List.length_map, List.length_map, (ord.nodes_perm _ _).length_eq,
            (ord.subs_perm _ _).length_eq]
          unfold pageSize
          rw [hns]; omega
  · intro p hpm
    obtain ⟨x, hx, rfl⟩ := List.mem_map.1 hpm
    obtain ⟨o, a1, a2, a3, a4, a5⟩ := hplace x hx
    exact ⟨o, _, a1, a2, a3, hsmall _ (hmem' _ (AList.mem_keys hx)), a4, a5⟩
  · intro p hpm q hqm hne
    obtain ⟨x, hx, rfl⟩ := List.mem_map.1 hpm
    obtain ⟨y, hy, rfl⟩ := List.mem_map.1 hqm
    obtain ⟨l1, l2, e⟩ := List.append_of_mem (hmem' _ (AList.mem_keys hx))
    have hy' := hmem' _ (AList.mem_keys hy)
    rw [e, List.mem_append, List.mem_cons] at hy'
    rcases hy' with h1 | h1 | h1
    · obtain ⟨m1, m2, rfl⟩ := List.append_of_mem h1
      exact .inr (horder y hy x hx m1 m2 l2 (by rw [e]; simp))
    · exact absurd h1.symm hne
    · obtain ⟨m1, m2, rfl⟩ := List.append_of_mem h1
      exact .inl (horder x hx y hy l1 m1 m2 e)
  · intro p hpm q hqm hpp
    obtain ⟨x, hx, rfl⟩ := List.mem_map.1 hpm
    obtain ⟨y, hy, rfl⟩ := List.mem_map.1 hqm
    obtain ⟨l1, l2, e⟩ := List.append_of_mem (hmem' _ (AList.mem_keys hx))
    have hsub : y.1 ∈ Writer.subPages hier x.1 := by
      rw [mem_subPages hh]
      refine ⟨AList.mem_keys hy, ?_, hpp⟩
      intro hr
      have h1 := isParentPage_depth hpp
      have h2 : (filePage placed y).key.d = 0 := by
        have : (filePage placed y).key = VoxelKey.root := hr
        rw [this]; rfl
      have h3 := (hv _ hpp.1).1
      omega
    obtain ⟨m1, m2, rfl⟩ := List.append_of_mem (hcf l1 x.1 l2 e y.1 hsub)
    exact horder y hy x hx m1 m2 l2 (by rw [e]; simp)

end Copc
