import Verif.Lemmas.ReaderFind
/-! # Loading the hierarchy below a page -/
namespace Copc
open Spec VoxelKey

section
variable {data : Bytes} {ps : List FPage}

theorem LoadedKey.ext {s s' : HReader} {k : VoxelKey} (h : LoadedKey s k) (he : Ext s s') : LoadedKey s' k := by
  obtain ⟨p, hp, hk, hl⟩ := h
  obtain ⟨i, hpi⟩ := List.getElem?_of_mem hp
  obtain ⟨p', hp', _, h3⟩ := he i p hpi
  have := h3 hl
  subst this
  exact ⟨p', List.mem_of_getElem? hp', hk, hl⟩

theorem Spec.GoodHierarchy.child (hg : GoodHierarchy data ps) {k m : VoxelKey}
    (hk : k ∈ ps.map (·.key)) (hm : m ∈ ps.map (·.key)) (hb : Below m k) (hne : m ≠ k) :
    ∃ c ∈ ps.map (·.key), IsParentPage (ps.map (·.key)) c k ∧ Below m c := by
  generalize hn : m.d.toNat = n
  induction n using Nat.strongRecOn generalizing m with
  | ind n ih =>
    have hmr : m ≠ VoxelKey.root := by
      rintro rfl
      exact hne (below_antisymm hb (hg.belowRoot hk))
    obtain ⟨q, hq⟩ := hg.parent hm hmr
    by_cases hqk : q = k
    · subst hqk
      exact ⟨m, hm, hq, below_refl (hg.valid hm)⟩
    · have h1 := hq.2.2.2 k hk hb (fun h => hne h.symm)
      have h2 := isParentPage_depth hq
      have h3 := (hg.valid hq.1).1
      obtain ⟨c, hc1, hc2, hc3⟩ := ih q.d.toNat (by omega) hq.1 h1 hqk rfl
      exact ⟨c, hc1, hc2, below_trans hq.2.1 hc3⟩

/-- Two pages with the same parent have no page below both. -/
theorem disjoint_children {ks : List VoxelKey} {a b p m : VoxelKey} (ha : IsParentPage ks a p)
    (hb : IsParentPage ks b p) (ham : a ∈ ks) (hbm : b ∈ ks) (h1 : Below m a) (h2 : Below m b) : a = b := by
  by_contra hne
  have hda := isParentPage_depth ha
  have hdb := isParentPage_depth hb
  rcases below_linear h1 h2 with h | h
  · have := ha.2.2.2 b hbm h (fun e => hne e.symm)
    have := below_depth this
    omega
  · have := hb.2.2.2 a ham h hne
    have := below_depth this
    omega

theorem nodup_nodeList (hg : GoodHierarchy data ps) {q : FPage} (hq : q ∈ ps) : q.nodeList.Nodup := by
  have h1 : (q.nodes.map (·.key)).Nodup := (List.nodup_flatMap.1 hg.nodesDistinct).1 q hq
  have h2 : q.nodes.Nodup := List.Nodup.of_map _ h1
  refine h2.map ?_
  intro a b h
  simpa using h

theorem pageKey_of_nodeList {q : FPage} {m : Node} (h : m ∈ q.nodeList) : m.pageKey = q.key := by
  obtain ⟨e, _, rfl⟩ := List.mem_map.1 h
  rfl

/-- What loading the hierarchy below the pages with keys satisfying `K` gives. -/
structure Loads (ps : List FPage) (K : VoxelKey → Prop) (l : List Node) (s' : HReader) : Prop where
  nodup : l.Nodup
  mem : ∀ m, m ∈ l ↔ ∃ q ∈ ps, K q.key ∧ m ∈ q.nodeList
  loaded : ∀ k ∈ ps.map (·.key), K k → LoadedKey s' k

/-- The claim for one page and at least `n` nested calls. -/
def LoadOk (data : Bytes) (ps : List FPage) (ord : ROrder) (n id : Nat) (s : HReader) (k : VoxelKey) : Prop :=
  ∃ l s', (∀ fuel, n ≤ fuel → HReader.loadPageHierarchy ord fuel id s = some (.ok l, s')) ∧
    RInv data ps s' ∧ Ext s s' ∧ Loads ps (fun m => Below m k) l s'

theorem collect_load (ord : ROrder) (n : Nat) (pk : VoxelKey) (hpk : pk ∈ ps.map (·.key))
    (hload : ∀ (id : Nat) (s : HReader) (p : RPage), RInv data ps s → s.hier.heap[id]? = some p →
      IsParentPage (ps.map (·.key)) p.key pk → LoadOk data ps ord n id s p.key) :
    ∀ (L : List Nat) (s : HReader), RInv data ps s → L.Nodup →
    (∀ i ∈ L, ∃ p, s.hier.heap[i]? = some p ∧ IsParentPage (ps.map (·.key)) p.key pk) →
    ∃ l s', (∀ fuel, n ≤ fuel →
      Run.collect (HReader.loadPageHierarchy ord fuel) L s = some (.ok l, s')) ∧
      RInv data ps s' ∧ Ext s s' ∧
      Loads ps (fun m => ∃ i ∈ L, ∃ p, s.hier.heap[i]? = some p ∧ Below m p.key) l s' := by
  intro L
  induction L with
  | nil =>
    intro s hi _ _
    refine ⟨[], s, fun _ _ => rfl, hi, Ext.refl s, ⟨List.nodup_nil, ?_, ?_⟩⟩
    · intro m; simp
    · rintro k _ ⟨i, hi', _⟩; cases hi'
  | cons a L ih =>
    intro s hi hnd hL
    obtain ⟨p, hp, hpar⟩ := hL a (by simp)
    obtain ⟨l1, s1, hr1, hi1, he1, hl1⟩ := hload a s p hi hp hpar
    obtain ⟨l2, s2, hr2, hi2, he2, hl2⟩ := ih s1 hi1 (List.nodup_cons.1 hnd).2 (by
      intro i hiL
      obtain ⟨q, hq, hqpar⟩ := hL i (by simp [hiL])
      obtain ⟨q', hq', hk, _⟩ := he1 i q hq
      exact ⟨q', hq', hk ▸ hqpar⟩)
    -- keys of the remaining pages are the same in both states
    have hconv : ∀ m, (∃ i ∈ L, ∃ p, s1.hier.heap[i]? = some p ∧ Below m p.key) ↔
        ∃ i ∈ L, ∃ p, s.hier.heap[i]? = some p ∧ Below m p.key := by
      intro m
      constructor
      · rintro ⟨i, hiL, q, hq, hb⟩
        obtain ⟨q0, hq0, _⟩ := hL i (by simp [hiL])
        obtain ⟨q', hq', hk, _⟩ := he1 i q0 hq0
        rw [hq] at hq'; cases hq'
        exact ⟨i, hiL, q0, hq0, hk ▸ hb⟩
      · rintro ⟨i, hiL, q, hq, hb⟩
        obtain ⟨q', hq', hk, _⟩ := he1 i q hq
        exact ⟨i, hiL, q', hq', hk ▸ hb⟩
    refine ⟨l1 ++ l2, s2, ?_, hi2, he1.trans he2, ⟨?_, ?_, ?_⟩⟩
    · intro fuel hf
      rw [Run.collect_cons, Run.bind_ok (hr1 fuel hf), Run.bind_ok (hr2 fuel hf)]
      rfl
    · refine List.nodup_append.2 ⟨hl1.nodup, hl2.nodup, ?_⟩
      rintro m hm1 m' hm2 rfl
      obtain ⟨q1, hq1, hb1, hn1⟩ := (hl1.mem m).1 hm1
      obtain ⟨q2, hq2, hb2, hn2⟩ := (hl2.mem m).1 hm2
      have hkk : q1.key = q2.key := (pageKey_of_nodeList hn1).symm.trans (pageKey_of_nodeList hn2)
      obtain ⟨i, hiL, c, hc, hbc⟩ := (hconv _).1 hb2
      obtain ⟨c', hc', hcpar⟩ := hL i (by simp [hiL])
      rw [hc] at hc'; cases hc'
      have : p.key = c.key := disjoint_children hpar hcpar (hi.key_mem (List.mem_of_getElem? hp))
        (hi.key_mem (List.mem_of_getElem? hc)) hb1 (hkk ▸ hbc)
      have := hi.same hp hc this
      subst this
      exact (List.nodup_cons.1 hnd).1 hiL
    · intro m
      rw [List.mem_append, hl1.mem, hl2.mem]
      constructor
      · rintro (⟨q, hq, hb, hm⟩ | ⟨q, hq, hb, hm⟩)
        · exact ⟨q, hq, ⟨a, by simp, p, hp, hb⟩, hm⟩
        · obtain ⟨i, hiL, r⟩ := (hconv _).1 hb
          exact ⟨q, hq, ⟨i, by simp [hiL], r⟩, hm⟩
      · rintro ⟨q, hq, ⟨i, hiL, c, hc, hb⟩, hm⟩
        rcases List.mem_cons.1 hiL with rfl | hiL
        · rw [hp] at hc; cases hc
          exact .inl ⟨q, hq, hb, hm⟩
        · exact .inr ⟨q, hq, (hconv _).2 ⟨i, hiL, c, hc, hb⟩, hm⟩
    · rintro k hk ⟨i, hiL, c, hc, hb⟩
      rcases List.mem_cons.1 hiL with rfl | hiL
      · rw [hp] at hc; cases hc
        exact (hl1.loaded k hk hb).ext he2
      · exact hl2.loaded k hk ((hconv _).2 ⟨i, hiL, c, hc, hb⟩)

theorem RInv.page_valid {s : HReader} (hg : GoodHierarchy data ps) (hi : RInv data ps s) {id : Nat} {p : RPage}
    (hp : s.hier.heap[id]? = some p) : p.isValid = true := by
  obtain ⟨q, hq, hm⟩ := hi.page id p hp
  unfold RPage.isValid
  rw [← hm.key, ← hm.size]
  simp [(isValid_iff q.key).2 (hg.valid (List.mem_map_of_mem hq))]

theorem ensureLoaded_good {s : HReader} (hg : GoodHierarchy data ps) (hi : RInv data ps s) {id : Nat} {p : RPage}
    (hp : s.hier.heap[id]? = some p) :
    ∃ s' p', HReader.ensureLoaded id p s = (.ok (), s') ∧ RInv data ps s' ∧ Ext s s' ∧
      s'.hier.heap[id]? = some p' ∧ p'.key = p.key ∧ p'.loaded = true := by
  unfold HReader.ensureLoaded
  cases hl : p.loaded with
  | true => exact ⟨s, p, by simp, hi, Ext.refl s, hp, rfl, hl⟩
  | false =>
    obtain ⟨s', p', h1, h2, h3, h4, h5⟩ := readAndParse_good hg hi hp hl
    refine ⟨s', p', by simpa using h1, h2, h3, h4, ?_, h5⟩
    obtain ⟨x, hx, hk, _⟩ := h3 id p hp
    rw [h4] at hx; cases hx
    exact hk

theorem load_aux (hg : GoodHierarchy data ps) (ord : ROrder) : ∀ (n id : Nat) (s : HReader) (p : RPage),
    RInv data ps s → s.hier.heap[id]? = some p → depthBound (ps.map (·.key)) - p.key.d ≤ n →
    LoadOk data ps ord n id s p.key := by
  intro n
  induction n with
  | zero =>
    intro id s p hi hp hd
    have := lt_depthBound (hi.key_mem (List.mem_of_getElem? hp))
    omega
  | succ n ih =>
    intro id s p hi hp hd
    obtain ⟨s1, p1, hr1, hi1, he1, hp1, hk1, hl1⟩ := ensureLoaded_good hg hi hp
    have hpk := hi.key_mem (List.mem_of_getElem? hp)
    obtain ⟨q, hq, hmt⟩ := hi1.page id p1 hp1
    have hqk : q.key = p.key := hmt.key.trans hk1
    obtain ⟨l, s2, hr2, hi2, he2, hl2⟩ := collect_load (data := data) ord n p.key hpk (fun id' s' p' hi' hp' hpar => by
        refine ih id' s' p' hi' hp' ?_
        have := isParentPage_depth hpar
        omega) (ord.subs p1.subs) s1 hi1
      ((ord.subs_perm _).nodup_iff.2 (hmt.subsNodup hl1)) (by
        intro i him
        obtain ⟨c, hc, hpar⟩ := (hmt.subs hl1 i).1 ((ord.subs_perm _).mem_iff.1 him)
        exact ⟨c, hc, hk1 ▸ hpar⟩)
    -- pages below the sub pages are those strictly below
    have hbelow : ∀ k ∈ ps.map (·.key), (∃ i ∈ ord.subs p1.subs, ∃ c, s1.hier.heap[i]? = some c ∧ Below k c.key) ↔
        Below k p.key ∧ k ≠ p.key := by
      intro k hk
      constructor
      · rintro ⟨i, him, c, hc, hb⟩
        obtain ⟨c', hc', hpar⟩ := (hmt.subs hl1 i).1 ((ord.subs_perm _).mem_iff.1 him)
        rw [hc] at hc'; cases hc'
        rw [hk1] at hpar
        refine ⟨below_trans hb hpar.2.1, ?_⟩
        rintro rfl
        have := below_depth hb
        have := isParentPage_depth hpar
        omega
      · rintro ⟨hb, hne⟩
        obtain ⟨c, hc, hpar, hbc⟩ := hg.child hpk hk hb hne
        obtain ⟨x, hx, hxk⟩ := List.mem_map.1 (hmt.children hl1 c hc (hk1 ▸ hpar))
        obtain ⟨i, hxi⟩ := List.getElem?_of_mem hx
        have hxk' : x.key = c := hxk
        refine ⟨i, (ord.subs_perm _).mem_iff.2 ((hmt.subs hl1 i).2 ⟨x, hxi, ?_⟩), x, hxi, hxk' ▸ hbc⟩
        rw [hxk', hk1]
        exact hpar
    have hnodes : ((ord.nodes p1.nodes).map (·.2)).Perm q.nodeList := by
      have h1 := ((ord.nodes_perm p1.nodes).trans (hmt.nodes hl1)).map (·.2)
      rw [List.map_map] at h1
      exact h1
    refine ⟨l ++ (ord.nodes p1.nodes).map (·.2), s2, ?_, hi2, he1.trans he2, ⟨?_, ?_, ?_⟩⟩
    · intro fuel hf
      obtain ⟨f, rfl⟩ : ∃ f, fuel = f + 1 := ⟨fuel - 1, by omega⟩
      rw [HReader.loadPageHierarchy]
      simp only [hp, hi.page_valid hg hp]
      rw [if_neg (by simp)]
      rw [Run.bind_ok (s' := s1) (a := ()) (by rw [Run.ofAct_apply, hr1])]
      rw [Run.bind_ok (s' := s1) (a := some p1) (by rw [Run.gets_apply, hp1])]
      simp only
      rw [Run.bind_ok (hr2 f (by omega))]
      rfl
    · refine List.nodup_append.2 ⟨hl2.nodup, hnodes.nodup_iff.2 (nodup_nodeList hg hq), ?_⟩
      rintro m hm1 m' hm2 rfl
      obtain ⟨q2, hq2, hb2, hn2⟩ := (hl2.mem m).1 hm1
      have := pageKey_of_nodeList (hnodes.mem_iff.1 hm2)
      have h3 := pageKey_of_nodeList hn2
      exact ((hbelow q2.key (List.mem_map_of_mem hq2)).1 hb2).2 (h3.symm.trans (this.trans hqk))
    · intro m
      rw [List.mem_append, hl2.mem, hnodes.mem_iff]
      constructor
      · rintro (⟨q2, hq2, hb2, hn2⟩ | hm)
        · exact ⟨q2, hq2, ((hbelow _ (List.mem_map_of_mem hq2)).1 hb2).1, hn2⟩
        · exact ⟨q, hq, hqk ▸ below_refl (hg.valid (hqk ▸ hpk)), hm⟩
      · rintro ⟨q2, hq2, hb2, hn2⟩
        by_cases hke : q2.key = p.key
        · right
          have : q2 = q := hg.inj hq2 hq (hke.trans hqk.symm)
          exact this ▸ hn2
        · exact .inl ⟨q2, hq2, (hbelow _ (List.mem_map_of_mem hq2)).2 ⟨hb2, hke⟩, hn2⟩
    · intro k hk hb
      by_cases hke : k = p.key
      · subst hke
        exact LoadedKey.ext ⟨p1, List.mem_of_getElem? hp1, hk1, hl1⟩ he2
      · exact hl2.loaded k hk ((hbelow k hk).2 ⟨hb, hke⟩)

end
end Copc
