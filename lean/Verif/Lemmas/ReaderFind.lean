import Verif.Lemmas.ReaderHier
/-! # Node lookup and traversal on a good file -/
namespace Copc
open Spec VoxelKey

section
variable {data : Bytes} {ps : List FPage} {s : HReader}

theorem RInv.get_seen (hi : RInv data ps s) {k : VoxelKey} {i : Nat} :
    AList.get k s.hier.seen = some i ↔ ∃ p, s.hier.heap[i]? = some p ∧ p.key = k := by
  rw [AList.get_iff_mem hi.seenNodup, hi.seen]

theorem RInv.get_seen_none (hi : RInv data ps s) {k : VoxelKey} :
    AList.get k s.hier.seen = none ↔ k ∉ s.hier.heap.map (·.key) := by
  rw [AList.get_eq_none]
  constructor
  · intro h hc
    obtain ⟨p, hp, rfl⟩ := List.mem_map.1 hc
    obtain ⟨i, hpi⟩ := List.getElem?_of_mem hp
    exact h (AList.mem_keys ((hi.seen p.key i).2 ⟨p, hpi, rfl⟩))
  · intro h hc
    obtain ⟨⟨a, i⟩, ha, rfl⟩ := List.mem_map.1 hc
    obtain ⟨p, hp, hk⟩ := (hi.seen a i).1 ha
    exact h (List.mem_map.2 ⟨p, List.mem_of_getElem? hp, hk⟩)

/-- The nearest page seen. -/
theorem RInv.nearest_some (hi : RInv data ps s) {key : VoxelKey} {id : Nat}
    (h : s.hier.nearest (key.getParents true) = some id) :
    ∃ p, s.hier.heap[id]? = some p ∧ Below key p.key ∧
      ∀ p' ∈ s.hier.heap, Below key p'.key → Below p.key p'.key := by
  have hv : Valid key := by
    by_contra hc
    unfold VoxelKey.getParents at h
    rw [(isValid_false_iff key).2 hc] at h
    simp [RHier.nearest] at h
  unfold RHier.nearest at h
  rw [getParents_eq hv, if_pos rfl] at h
  obtain ⟨l1, a, l2, hl, ha, hno⟩ := List.findSome?_eq_some_iff.1 h
  obtain ⟨p, hp, hpk⟩ := hi.get_seen.1 ha
  have hd : 0 ≤ key.d := hv.1
  have hlen := congrArg List.length hl
  simp only [List.length_map, List.length_range, List.length_append, List.length_cons] at hlen
  have hget : ∀ j : Nat, j ≤ key.d.toNat → (l1 ++ a :: l2)[j]? = some (up j key) := by
    intro j hj
    rw [← hl, List.getElem?_map, List.getElem?_range (by omega)]
    rfl
  have ha' : a = up l1.length key := by
    have := hget l1.length (by omega)
    rw [List.getElem?_append_right (Nat.le_refl _)] at this
    simpa using this
  refine ⟨p, hp, ?_, ?_⟩
  · rw [hpk, ha']
    exact ⟨l1.length, by omega, rfl⟩
  · intro p' hp' hb
    have hbp : Below key p.key := by
      rw [hpk, ha']
      exact ⟨l1.length, by omega, rfl⟩
    obtain ⟨j, hj, hjk⟩ := hb
    have hji : l1.length ≤ j := by
      by_contra hc
      have := hget j (by omega)
      rw [List.getElem?_append_left (by omega)] at this
      have hn := hno _ (List.mem_of_getElem? this)
      rw [hi.get_seen_none] at hn
      exact hn (List.mem_map.2 ⟨p', hp', hjk⟩)
    rcases below_linear hbp ⟨j, hj, hjk⟩ with h1 | h1
    · exact h1
    · have h2 : p.key.d = key.d - l1.length := by rw [hpk, ha']; rfl
      have h3 : p'.key.d = key.d - j := by rw [hjk]; rfl
      have := below_eq_of_depth h1 (by omega)
      rw [this]
      exact below_refl (valid_of_below hv ⟨j, hj, hjk⟩)

theorem RInv.nearest_none (hi : RInv data ps s) {key : VoxelKey} (hv : Valid key)
    (h : s.hier.nearest (key.getParents true) = none) : ∀ p ∈ s.hier.heap, ¬Below key p.key := by
  intro p hp ⟨j, hj, hk⟩
  unfold RHier.nearest at h
  rw [getParents_eq hv, if_pos rfl, List.findSome?_eq_none_iff] at h
  have := h (up j key) (List.mem_map.2 ⟨j, by simp; omega, rfl⟩)
  rw [hi.get_seen_none] at this
  exact this (List.mem_map.2 ⟨p, hp, hk⟩)

/-- All strict ancestors of a page seen have been loaded. -/
theorem RInv.above_loaded (hi : RInv data ps s) {p : RPage} (hp : p ∈ s.hier.heap) {k : VoxelKey}
    (hk : k ∈ ps.map (·.key)) (hb : Below p.key k) (hne : k ≠ p.key) :
    ∃ p' ∈ s.hier.heap, p'.key = k ∧ p'.loaded = true := by
  generalize hn : p.key.d.toNat = n
  induction n using Nat.strongRecOn generalizing p with
  | ind n ih =>
    rcases hi.above p hp with hr | ⟨q, hq, hl, hpar⟩
    · exfalso
      obtain ⟨j, hj, hjk⟩ := hb
      rw [hr] at hj
      have : j = 0 := by simp only [VoxelKey.root] at hj; omega
      subst this
      rw [up_zero] at hjk
      exact hne hjk
    · by_cases hkq : k = q.key
      · exact ⟨q, hq, hkq.symm, hl⟩
      · have hb' := hpar.2.2.2 k hk hb hne
        have hd := isParentPage_depth hpar
        have hq0 : 0 ≤ q.key.d := by
          obtain ⟨j, hj, hjk⟩ := hpar.2.1
          rw [hjk]; simp only [up]; omega
        exact ih q.key.d.toNat (by omega) hq hb' hkq rfl

/-- Every page but the root page has a parent page. -/
theorem Spec.GoodHierarchy.parent (hg : GoodHierarchy data ps) {k : VoxelKey} (hk : k ∈ ps.map (·.key))
    (hkr : k ≠ VoxelKey.root) : ∃ q, IsParentPage (ps.map (·.key)) k q := by
  have hpar : ∃ a ∈ ps.map (·.key), Below k a ∧ a ≠ k := ⟨VoxelKey.root, hg.root, hg.belowRoot hk, fun h => hkr h.symm⟩
  -- take the deepest strict ancestor
  have aux : ∀ n : Nat, ∀ a ∈ ps.map (·.key), Below k a → a ≠ k → (k.d - a.d).toNat ≤ n →
      ∃ q, IsParentPage (ps.map (·.key)) k q := by
    intro n
    induction n with
    | zero =>
      intro a ha hba hna hle
      have := below_ne_depth hba hna
      omega
    | succ n ihn =>
      intro a ha hba hna hle
      by_cases hc : ∀ q ∈ ps.map (·.key), Below k q → q ≠ k → Below a q
      · exact ⟨a, ha, hba, hna, hc⟩
      · simp only [not_forall] at hc
        obtain ⟨b, hb1, hb2, hb3, hb4⟩ := hc
        have hba' : Below b a := (below_linear hba hb2).resolve_left hb4
        have hne : a ≠ b := by
          rintro rfl
          exact hb4 (below_refl (hg.valid hb1))
        have := below_ne_depth hba' hne
        have := below_depth hb2
        exact ihn b hb1 hb2 hb3 (by omega)
  obtain ⟨a, h1, h2, h3⟩ := hpar
  exact aux _ a h1 h2 h3 (Nat.le_refl _)

/-- When the nearest page seen is loaded, all pages of the file above the key are. -/
theorem RInv.all_above (hg : GoodHierarchy data ps) (hi : RInv data ps s) {key : VoxelKey} {p : RPage}
    (hp : p ∈ s.hier.heap) (hl : p.loaded = true)
    (hnear : ∀ p' ∈ s.hier.heap, Below key p'.key → Below p.key p'.key) {k : VoxelKey}
    (hk : k ∈ ps.map (·.key)) (hb : Below key k) : ∃ p' ∈ s.hier.heap, p'.key = k ∧ p'.loaded = true := by
  generalize hn : k.d.toNat = n
  induction n using Nat.strongRecOn generalizing k with
  | ind n ih =>
    by_cases hm : k ∈ s.hier.heap.map (·.key)
    · obtain ⟨x, hx, rfl⟩ := List.mem_map.1 hm
      have h1 := hnear x hx hb
      by_cases he : x.key = p.key
      · refine ⟨p, hp, he.symm, hl⟩
      · exact hi.above_loaded hp hk h1 he
    · have hkr : k ≠ VoxelKey.root := fun h => hm (h ▸ hi.root)
      obtain ⟨q, hpar⟩ := hg.parent hk hkr
      have hqd := isParentPage_depth hpar
      have hqv := hg.valid hpar.1
      obtain ⟨x, hx, hxk, hxl⟩ := ih q.d.toNat (by have := hqv.1; omega) hpar.1 (below_trans hb hpar.2.1) rfl
      obtain ⟨i, hxi⟩ := List.getElem?_of_mem hx
      obtain ⟨f, hf, hmt⟩ := hi.page i x hxi
      exact absurd (hmt.children hxl k hk (hxk ▸ hpar)) hm

/-- A page that has been loaded. -/
def LoadedKey (s : HReader) (k : VoxelKey) : Prop := ∃ p ∈ s.hier.heap, p.key = k ∧ p.loaded = true

/-- State after the lookup of a key: if a node was found its page is loaded, otherwise all pages above
the key are. -/
def After (ps : List FPage) (key : VoxelKey) (n : Node) (s : HReader) : Prop :=
  (NodeOf ps n ∧ LoadedKey s n.pageKey) ∨ (n = Node.empty ∧ ∀ k ∈ ps.map (·.key), Below key k → LoadedKey s k)

theorem mem_nodeList {q : FPage} {e : Entry} (he : e ∈ q.nodes) : (⟨e, q.key⟩ : Node) ∈ q.nodeList :=
  List.mem_map.2 ⟨e, he, rfl⟩

theorem RInv.node_sound (hi : RInv data ps s) {key : VoxelKey} {n : Node}
    (h : AList.get key s.hier.nodes = some n) : NodeOf ps n ∧ n.key = key ∧ LoadedKey s n.pageKey := by
  have hm := AList.mem_of_get h
  obtain ⟨p, hp, hx⟩ := (hi.nodes _).1 hm
  obtain ⟨i, hpi⟩ := List.getElem?_of_mem hp
  obtain ⟨q, hq, hmt⟩ := hi.page i p hpi
  cases hl : p.loaded with
  | false => rw [(hmt.unloaded hl).2] at hx; cases hx
  | true =>
    obtain ⟨e, he, hee⟩ := List.mem_map.1 ((hmt.nodes hl).mem_iff.1 hx)
    unfold nodeItem at hee
    cases hee
    exact ⟨⟨q, hq, mem_nodeList he⟩, rfl, p, hp, hmt.key.symm, hl⟩

/-- A node of a loaded page is found at once. -/
theorem RInv.node_complete (hg : GoodHierarchy data ps) (hi : RInv data ps s) {q : FPage} (hq : q ∈ ps)
    {e : Entry} (he : e ∈ q.nodes) (hl : LoadedKey s q.key) :
    AList.get e.key s.hier.nodes = some ⟨e, q.key⟩ := by
  obtain ⟨p, hp, hk, hpl⟩ := hl
  obtain ⟨i, hpi⟩ := List.getElem?_of_mem hp
  obtain ⟨q2, hq2, hmt⟩ := hi.page i p hpi
  have : q2 = q := hg.inj hq2 hq (hmt.key.trans hk)
  subst this
  rw [AList.get_iff_mem hi.nodesNodup, hi.nodes]
  exact ⟨p, hp, (hmt.nodes hpl).mem_iff.2 (List.mem_map.2 ⟨e, he, rfl⟩)⟩

theorem findNode_step {fuel : Nat} {key : VoxelKey} {s s' : HReader} {id : Nat} {p : RPage}
    (h1 : AList.get key s.hier.nodes = none) (h2 : s.hier.nearest (key.getParents true) = some id)
    (h3 : s.hier.heap[id]? = some p) (h4 : p.loaded = false)
    (h5 : HReader.readAndParsePage id s = (.ok (), s')) :
    HReader.findNode (fuel + 1) key s = HReader.findNode fuel key s' := by
  rw [HReader.findNode]
  simp only [h1, h2, h3, h4]
  rw [if_neg (by simp), Run.bind_apply, Run.ofAct_apply, h5]

theorem findNode_aux (hg : GoodHierarchy data ps) (key : VoxelKey) : ∀ (n : Nat) (s : HReader),
    RInv data ps s → 1 ≤ n →
    (∀ id p, s.hier.nearest (key.getParents true) = some id → s.hier.heap[id]? = some p →
      p.loaded = false → (key.d - p.key.d).toNat + 2 ≤ n) →
    ∃ r s', (∀ fuel, n ≤ fuel → HReader.findNode fuel key s = some (.ok r, s')) ∧
      RInv data ps s' ∧ Ext s s' ∧ Answer ps key r ∧ After ps key r s' := by
  intro n
  induction n with
  | zero => intro s _ h; omega
  | succ n ih =>
    intro s hi _ hb
    cases hnd : AList.get key s.hier.nodes with
    | some nd =>
      obtain ⟨h1, h2, h3⟩ := hi.node_sound hnd
      refine ⟨nd, s, ?_, hi, Ext.refl s, .inl ⟨h1, h2⟩, .inl ⟨h1, h3⟩⟩
      intro fuel hf
      obtain ⟨f, rfl⟩ : ∃ f, fuel = f + 1 := ⟨fuel - 1, by omega⟩
      rw [HReader.findNode]
      simp only [hnd]
    | none =>
      cases hnr : s.hier.nearest (key.getParents true) with
      | none =>
        have hno : ∀ k ∈ ps.map (·.key), Valid key → ¬Below key k := by
          intro k hk hv hc
          obtain ⟨p, hp, hpk⟩ := List.mem_map.1 hi.root
          refine hi.nearest_none hv hnr p hp ?_
          rw [hpk]
          exact below_trans hc (hg.belowRoot hk)
        have hnone : ∀ m, NodeOf ps m → m.key ≠ key := by
          rintro m ⟨q, hq, hm⟩ rfl
          obtain ⟨e, he, rfl⟩ := List.mem_map.1 hm
          have := hg.entries q hq e he
          exact hno q.key (List.mem_map_of_mem hq) this.2.1 this.2.2.2.2
        refine ⟨Node.empty, s, ?_, hi, Ext.refl s, .inr ⟨hnone, rfl⟩, ?_⟩
        · intro fuel hf
          obtain ⟨f, rfl⟩ : ∃ f, fuel = f + 1 := ⟨fuel - 1, by omega⟩
          rw [HReader.findNode]
          simp only [hnd, hnr]
        · refine .inr ⟨rfl, fun k hk hbk => ?_⟩
          exfalso
          have hkv := hg.valid hk
          refine hno k hk ?_ hbk
          -- a key below a valid key is valid
          obtain ⟨j, hj, rfl⟩ := hbk
          obtain ⟨h1, h2, h3, h4⟩ := hkv
          have hp : (0 : Int) < 2 ^ j := Int.pow_pos (by decide)
          simp only [up] at h1 h2 h3 h4
          refine ⟨by omega, ?_, ?_, ?_⟩
          · by_contra hc; have := Int.ediv_neg_of_neg_of_pos (by omega : key.x < 0) hp; omega
          · by_contra hc; have := Int.ediv_neg_of_neg_of_pos (by omega : key.y < 0) hp; omega
          · by_contra hc; have := Int.ediv_neg_of_neg_of_pos (by omega : key.z < 0) hp; omega
      | some id =>
        obtain ⟨p, hp, hbp, hnear⟩ := hi.nearest_some hnr
        cases hl : p.loaded with
        | true =>
          have hall : ∀ k ∈ ps.map (·.key), Below key k → LoadedKey s k := fun k hk hbk =>
            hi.all_above hg (List.mem_of_getElem? hp) hl hnear hk hbk
          have hnone : ∀ m, NodeOf ps m → m.key ≠ key := by
            rintro m ⟨q, hq, hm⟩ rfl
            obtain ⟨e, he, rfl⟩ := List.mem_map.1 hm
            have h1 := hg.entries q hq e he
            have h2 := hi.node_complete hg hq he (hall q.key (List.mem_map_of_mem hq) h1.2.2.2.2)
            have h3 : AList.get e.key s.hier.nodes = none := hnd
            rw [h2] at h3
            cases h3
          refine ⟨Node.empty, s, ?_, hi, Ext.refl s, .inr ⟨hnone, rfl⟩, .inr ⟨rfl, hall⟩⟩
          intro fuel hf
          obtain ⟨f, rfl⟩ : ∃ f, fuel = f + 1 := ⟨fuel - 1, by omega⟩
          rw [HReader.findNode]
          simp only [hnd, hnr, hp, hl, if_true]
        | false =>
          obtain ⟨s', p', hrd, hi', hext, hp', hl'⟩ := readAndParse_good hg hi hp hl
          have hle := hb id p hnr hp hl
          obtain ⟨r, s'', hr, hi'', hext', hans, haft⟩ := ih s' hi' (by omega) (by
            intro id2 p2 hn2 hp2 hl2
            obtain ⟨x, hx, hbx, hnearx⟩ := hi'.nearest_some hn2
            rw [hx] at hp2; cases hp2
            obtain ⟨y, hy, hyk, _⟩ := hext id p hp
            rw [hp'] at hy; cases hy
            have h1 : Below p2.key p'.key := hnearx p' (List.mem_of_getElem? hp') (hyk ▸ hbp)
            have hne : p'.key ≠ p2.key := by
              intro he
              have := hi'.same hp' hx he
              subst this
              rw [hp'] at hx; cases hx
              rw [hl'] at hl2; cases hl2
            have h2 := below_ne_depth h1 hne
            have h3 := below_depth hbx
            rw [hyk] at h2
            omega)
          refine ⟨r, s'', ?_, hi'', hext.trans hext', hans, haft⟩
          intro fuel hf
          obtain ⟨f, rfl⟩ : ∃ f, fuel = f + 1 := ⟨fuel - 1, by omega⟩
          rw [findNode_step hnd hnr hp hl hrd]
          exact hr f (by omega)

/-- `FindNode` on a good file, whatever has been read before. -/
theorem findNode_good (hg : GoodHierarchy data ps) (hi : RInv data ps s) (key : VoxelKey) :
    ∃ r s', (∀ fuel, key.d.toNat + 2 ≤ fuel → HReader.findNode fuel key s = some (.ok r, s')) ∧
      RInv data ps s' ∧ Ext s s' ∧ Answer ps key r ∧ After ps key r s' := by
  refine findNode_aux hg key _ s hi (by omega) ?_
  intro id p _ hp _
  have := (hg.valid (hi.key_mem (List.mem_of_getElem? hp))).1
  omega

end
end Copc
