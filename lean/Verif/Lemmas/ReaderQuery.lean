import Verif.Lemmas.ReaderLoad
/-! # Hierarchy queries of a reader on a good file -/
namespace Copc
open Spec VoxelKey

section
variable {data : Bytes} {ps : List FPage}

/-! ### The state after opening -/

theorem signed4_small {n : Nat} (h : n < 2 ^ 31) : signed 4 (n % 256 ^ 4) = (n : Int) := by
  unfold signed
  rw [Nat.mod_eq_of_lt (by omega), if_pos (by omega)]

theorem rInv_make (hg : GoodHierarchy data ps) {str : IStream} (hd : str.data = data)
    (hf : str.fail = false) {q : FPage} (hq : q ∈ ps) (hk : q.key = VoxelKey.root) {o z : UInt64}
    (ho : o.toNat = q.offset) (hz : z.toNat = q.size) : RInv data ps ⟨str, RHier.make o z⟩ := by
  have hr := hg.pageRange q hq
  have hz' : signed 4 (z.toNat % 256 ^ 4) = (q.size : Int) := by
    rw [hz]; exact signed4_small hr.2.2
  have hone : ∀ (i : Nat) (p : RPage), (RHier.make o z).heap[i]? = some p →
      i = 0 ∧ p = ⟨VoxelKey.root, o.toNat, signed 4 (z.toNat % 256 ^ 4), false, [], []⟩ := by
    intro i p h
    unfold RHier.make at h
    cases i with
    | zero => exact ⟨rfl, (Option.some.inj h).symm⟩
    | succ i => simp at h
  refine ⟨hd, hf, by simp [RHier.make], by simp [RHier.make, AList.keys], ?_, ?_, by simp [RHier.make], ?_,
    by simp [RHier.make, AList.keys], by simp [RHier.make]⟩
  · intro k i
    constructor
    · intro h
      have : (k, i) = (VoxelKey.root, 0) := by simpa [RHier.make] using h
      cases this
      exact ⟨_, rfl, rfl⟩
    · rintro ⟨p, hp, rfl⟩
      obtain ⟨rfl, rfl⟩ := hone i p hp
      simp [RHier.make]
  · intro i p hp
    obtain ⟨rfl, rfl⟩ := hone i p hp
    refine ⟨q, hq, ⟨hk, ho.symm, hz'.symm, fun _ => ⟨rfl, rfl⟩, ?_, ?_, ?_, ?_⟩⟩ <;>
      (intro h; exact absurd h (by simp))
  · intro p hp
    left
    have : p = ⟨VoxelKey.root, o.toNat, signed 4 (z.toNat % 256 ^ 4), false, [], []⟩ := by
      simpa [RHier.make] using hp
    rw [this]

/-! ### Answers are unique -/

theorem NodeOf.unique (hg : GoodHierarchy data ps) {m n : Node} (hm : NodeOf ps m) (hn : NodeOf ps n)
    (hk : m.key = n.key) : m = n := by
  obtain ⟨p, hp, hmp⟩ := hm
  obtain ⟨q, hq, hnq⟩ := hn
  obtain ⟨e, he, rfl⟩ := List.mem_map.1 hmp
  obtain ⟨f, hf, rfl⟩ := List.mem_map.1 hnq
  have hk' : e.key = f.key := hk
  by_cases hpq : p = q
  · subst hpq
    have := List.inj_on_of_nodup_map ((List.nodup_flatMap.1 hg.nodesDistinct).1 p hp) he hf hk'
    rw [this]
  · exfalso
    have hpw := (List.nodup_flatMap.1 hg.nodesDistinct).2
    obtain ⟨i, hi, rfl⟩ := List.getElem_of_mem hp
    obtain ⟨j, hj, rfl⟩ := List.getElem_of_mem hq
    have hij : i ≠ j := by rintro rfl; exact hpq rfl
    rcases Nat.lt_or_gt_of_ne hij with h | h
    · exact (List.pairwise_iff_getElem.1 hpw i j hi hj h) (List.mem_map_of_mem he) (hk' ▸ List.mem_map_of_mem hf)
    · exact (List.pairwise_iff_getElem.1 hpw j i hj hi h) (List.mem_map_of_mem hf) (hk' ▸ List.mem_map_of_mem he)

theorem Answer.unique (hg : GoodHierarchy data ps) {key : VoxelKey} {m n : Node}
    (hm : Answer ps key m) (hn : Answer ps key n) : m = n := by
  rcases hm with ⟨hm, hk⟩ | ⟨hm, rfl⟩
  · rcases hn with ⟨hn, hk'⟩ | ⟨hn, rfl⟩
    · exact NodeOf.unique hg hm hn (hk.trans hk'.symm)
    · exact absurd hk (hn m hm)
  · rcases hn with ⟨hn, hk'⟩ | ⟨hn, rfl⟩
    · exact absurd hk' (hm n hn)
    · rfl

theorem NodeOf.isValid (hg : GoodHierarchy data ps) {m : Node} (hm : NodeOf ps m) : m.isValid = true := by
  obtain ⟨p, hp, hmp⟩ := hm
  obtain ⟨e, he, rfl⟩ := List.mem_map.1 hmp
  obtain ⟨_, hv, hb, _⟩ := hg.entries p hp e he
  simp [Node.isValid, Entry.isValid, (isValid_iff e.key).2 hv, hb]

theorem empty_isValid : Node.empty.isValid = false := by decide

/-! ### Listing -/

theorem childrenFrom_good {s : HReader} (hg : GoodHierarchy data ps) (hi : RInv data ps s) (ord : ROrder)
    {key : VoxelKey} (hv : Valid key) {n : Node} (ha : Answer ps key n) (haf : After ps key n s) :
    ∃ l s', (∀ fuel, depthBound (ps.map (·.key)) ≤ fuel →
        HReader.childrenFrom ord fuel key n s = some (.ok l, s')) ∧ RInv data ps s' ∧ Ext s s' ∧
      ((key ∈ ps.map (·.key) ∧ ListsPage ps key l ∧ ∀ k ∈ ps.map (·.key), Below k key → LoadedKey s' k) ∨
        (ListsNode ps key l ∧ (key ∈ ps.map (·.key) →
          ∃ m, NodeOf ps m ∧ m.key = key ∧ m.pageKey ≠ key ∧ ¬IsParentPage (ps.map (·.key)) key m.pageKey))) := by
  unfold HReader.childrenFrom
  cases hs : AList.get key s.hier.seen with
  | some id =>
    obtain ⟨p, hp, hk⟩ := hi.get_seen.1 hs
    have hd := (hg.valid (hi.key_mem (List.mem_of_getElem? hp))).1
    obtain ⟨l, s', h1, h2, h3, h4⟩ := load_aux hg ord (depthBound (ps.map (·.key))) id s p hi hp (by omega)
    rw [hk] at h4
    exact ⟨l, s', h1, h2, h3, .inl ⟨hk ▸ hi.key_mem (List.mem_of_getElem? hp), ⟨h4.nodup, h4.mem⟩, h4.loaded⟩⟩
  | none =>
    have hno := hi.get_seen_none.1 hs
    refine ⟨_, s, fun _ _ => rfl, hi, Ext.refl s, .inr ⟨?_, ?_⟩⟩
    · rcases ha with ⟨hn, hk⟩ | ⟨hn, rfl⟩
      · exact .inl ⟨n, hn, hk, by rw [if_pos (NodeOf.isValid hg hn)]⟩
      · exact .inr ⟨hn, by rw [if_neg (by rw [empty_isValid]; simp)]⟩
    · intro hkp
      rcases haf with ⟨hn, hl⟩ | ⟨rfl, hl⟩
      · rcases ha with ⟨_, hk⟩ | ⟨hn', rfl⟩
        · refine ⟨n, hn, hk, ?_, ?_⟩
          · intro h
            obtain ⟨p, hp, hpk, _⟩ := hl
            exact hno (List.mem_map.2 ⟨p, hp, hpk.trans h⟩)
          · intro hpar
            obtain ⟨p, hp, hpk, hpl⟩ := hl
            obtain ⟨i, hpi⟩ := List.getElem?_of_mem hp
            obtain ⟨q, hq, hmt⟩ := hi.page i p hpi
            exact hno (hmt.children hpl key hkp (hpk ▸ hpar))
        · have := NodeOf.isValid hg hn
          rw [empty_isValid] at this
          exact absurd this (by simp)
      · obtain ⟨p, hp, hpk, _⟩ := hl key hkp (below_refl hv)
        exact absurd (List.mem_map.2 ⟨p, hp, hpk⟩) hno

theorem children_good {s : HReader} (hg : GoodHierarchy data ps) (hi : RInv data ps s) (ord : ROrder)
    (key : VoxelKey) :
    ∃ n l s', (∀ fuel, n ≤ fuel → HReader.getAllChildrenOfPage ord fuel key s = some (.ok l, s')) ∧
      RInv data ps s' ∧ Ext s s' ∧ (¬Valid key → l = []) ∧ (Valid key →
      ((key ∈ ps.map (·.key) ∧ ListsPage ps key l ∧ ∀ k ∈ ps.map (·.key), Below k key → LoadedKey s' k) ∨
        (ListsNode ps key l ∧ (key ∈ ps.map (·.key) →
          ∃ m, NodeOf ps m ∧ m.key = key ∧ m.pageKey ≠ key ∧
            ¬IsParentPage (ps.map (·.key)) key m.pageKey)))) := by
  by_cases hv : Valid key
  · obtain ⟨r, s1, h1, hi1, he1, ha, haf⟩ := findNode_good hg hi key
    obtain ⟨l, s2, h2, hi2, he2, hl⟩ := childrenFrom_good hg hi1 ord hv ha haf
    refine ⟨max (key.d.toNat + 2) (depthBound (ps.map (·.key))), l, s2, ?_, hi2, he1.trans he2,
      fun h => absurd hv h, fun _ => hl⟩
    intro fuel hf
    unfold HReader.getAllChildrenOfPage
    rw [if_neg (by rw [(isValid_iff key).2 hv]; simp), Run.bind_ok (h1 fuel (by omega))]
    exact h2 fuel (by omega)
  · refine ⟨0, [], s, ?_, hi, Ext.refl s, fun _ => rfl, fun h => absurd h hv⟩
    intro fuel _
    unfold HReader.getAllChildrenOfPage
    rw [if_pos ((isValid_false_iff key).2 hv)]
    rfl

theorem root_valid : Valid VoxelKey.root := (isValid_iff _).1 (by decide)

/-- The root node, if any, is in the root page, so listing from the root always lists everything. -/
theorem allNodes_good {s : HReader} (hg : GoodHierarchy data ps) (hi : RInv data ps s) (ord : ROrder) :
    ∃ n l s', (∀ fuel, n ≤ fuel → HReader.getAllNodes ord fuel s = some (.ok l, s')) ∧
      RInv data ps s' ∧ Ext s s' ∧ ListsAll ps l ∧ ∀ k ∈ ps.map (·.key), LoadedKey s' k := by
  obtain ⟨n, l, s', h1, h2, h3, _, h4⟩ := children_good hg hi ord VoxelKey.root
  refine ⟨n, l, s', h1, h2, h3, ?_⟩
  have key : ListsPage ps VoxelKey.root l ∧ ∀ k ∈ ps.map (·.key), Below k VoxelKey.root → LoadedKey s' k := by
    rcases h4 root_valid with ⟨_, h, h'⟩ | ⟨_, h⟩
    · exact ⟨h, h'⟩
    · exfalso
      obtain ⟨m, ⟨q, hq, hm⟩, hk, hne, _⟩ := h hg.root
      obtain ⟨e, he, rfl⟩ := List.mem_map.1 hm
      have hb := (hg.entries q hq e he).2.2.2.2
      have hk' : e.key = VoxelKey.root := hk
      rw [hk'] at hb
      exact hne (below_antisymm (hg.belowRoot (List.mem_map_of_mem hq)) hb)
  refine ⟨⟨key.1.1, fun m => ?_⟩, fun k hk => key.2 k hk (hg.belowRoot hk)⟩
  rw [key.1.2]
  constructor
  · rintro ⟨q, hq, _, hm⟩
    exact ⟨q, hq, hm⟩
  · rintro ⟨q, hq, hm⟩
    exact ⟨q, hq, hg.belowRoot (List.mem_map_of_mem hq), hm⟩

theorem pageList_good {s : HReader} (hg : GoodHierarchy data ps) (hi : RInv data ps s) (ord : ROrder) :
    ∃ n l s', (∀ fuel, n ≤ fuel → HReader.getPageList ord fuel s = some (.ok l, s')) ∧
      RInv data ps s' ∧ Ext s s' ∧ l.Perm (ps.map (·.key)) := by
  obtain ⟨n, l, s', h1, h2, h3, _, h5⟩ := allNodes_good hg hi ord
  refine ⟨n, (ord.seen s'.hier.seen).filterMap fun e => (s'.hier.heap[e.2]?).map (·.key), s', fun fuel hf => ?_,
    h2, h3, ?_⟩
  · unfold HReader.getPageList
    rw [Run.bind_ok (h1 fuel hf)]
    rfl
  · have e1 : ((ord.seen s'.hier.seen).filterMap fun e => (s'.hier.heap[e.2]?).map (·.key)).Perm
        (s'.hier.seen.filterMap fun e => (s'.hier.heap[e.2]?).map (·.key)) :=
      (ord.seen_perm _).filterMap _
    refine e1.trans ?_
    have e2 : s'.hier.seen.filterMap (fun e => (s'.hier.heap[e.2]?).map (·.key)) = AList.keys s'.hier.seen := by
      unfold AList.keys
      rw [← List.filterMap_eq_map]
      refine List.filterMap_congr fun x hx => ?_
      obtain ⟨p, hp, hk⟩ := (h2.seen x.1 x.2).1 hx
      simp [hp, hk]
    rw [e2]
    refine (List.perm_ext_iff_of_nodup h2.seenNodup hg.distinct).2 fun k => ?_
    constructor
    · intro hk
      obtain ⟨x, hx, rfl⟩ := List.mem_map.1 hk
      obtain ⟨p, hp, hk⟩ := (h2.seen x.1 x.2).1 hx
      rw [← hk]
      exact h2.key_mem (List.mem_of_getElem? hp)
    · intro hk
      obtain ⟨p, hp, hpk, _⟩ := h5 k hk
      obtain ⟨i, hpi⟩ := List.getElem?_of_mem hp
      exact List.mem_map.2 ⟨(k, i), (h2.seen k i).2 ⟨p, hpi, hpk⟩, rfl⟩

/-! ### A page is not read again -/

theorem loaded_of_key {s : HReader} (hi : RInv data ps s) {id : Nat} {p : RPage}
    (hp : s.hier.heap[id]? = some p) (hl : LoadedKey s p.key) : p.loaded = true := by
  obtain ⟨q, hq, hk, hl⟩ := hl
  obtain ⟨j, hj⟩ := List.getElem?_of_mem hq
  have := hi.same hp hj hk.symm
  subst this
  rw [hp] at hj
  cases hj
  exact hl

/-- When all pages at or below a page are loaded, listing them does not touch the reader. -/
theorem load_still (hg : GoodHierarchy data ps) (ord : ROrder) {s : HReader} (hi : RInv data ps s) : ∀ (fuel id : Nat) (p : RPage) (r : Res (List Node))
    (s' : HReader), s.hier.heap[id]? = some p →
    (∀ k ∈ ps.map (·.key), Below k p.key → LoadedKey s k) →
    HReader.loadPageHierarchy ord fuel id s = some (r, s') → s' = s := by
  intro fuel
  induction fuel with
  | zero => intro id p r s' _ _ h; exact absurd h (by simp [HReader.loadPageHierarchy])
  | succ n ih =>
    intro id p r s' hp hall h
    have hv := hg.valid (hi.key_mem (List.mem_of_getElem? hp))
    have hl : p.loaded = true := loaded_of_key hi hp
      (hall p.key (hi.key_mem (List.mem_of_getElem? hp)) (below_refl hv))
    rw [HReader.loadPageHierarchy] at h
    simp only [hp] at h
    by_cases hval : p.isValid = false
    · rw [if_pos hval] at h
      cases h; rfl
    · rw [if_neg hval] at h
      rw [Run.bind_ok (s' := s) (a := ()) (by rw [Run.ofAct_apply, HReader.ensureLoaded, if_pos hl])] at h
      rw [Run.bind_ok (s' := s) (a := some p) (by rw [Run.gets_apply, hp])] at h
      simp only at h
      obtain ⟨q, hq, hmt⟩ := hi.page id p hp
      have hsub : ∀ i ∈ ord.subs p.subs, ∃ c, s.hier.heap[i]? = some c ∧ IsParentPage (ps.map (·.key)) c.key p.key :=
        fun i him => (hmt.subs hl i).1 ((ord.subs_perm _).mem_iff.1 him)
      have key : ∀ (L : List Nat), (∀ i ∈ L, i ∈ ord.subs p.subs) → ∀ r1 s1,
          Run.collect (HReader.loadPageHierarchy ord n) L s = some (r1, s1) → s1 = s := by
        intro L
        induction L with
        | nil => intro _ r1 s1 h1; cases h1; rfl
        | cons a L ihL =>
          intro hL r1 s1 h1
          rw [Run.collect_cons, Run.bind_apply] at h1
          obtain ⟨c, hc, hpar⟩ := hsub a (hL a (by simp))
          cases hx : HReader.loadPageHierarchy ord n a s with
          | none => rw [hx] at h1; exact absurd h1 (by simp)
          | some y =>
            obtain ⟨ra, sa⟩ := y
            have hsa : sa = s := ih a c ra sa hc
              (fun k hk hb => hall k hk (below_trans hb hpar.2.1)) hx
            subst hsa
            rw [hx] at h1
            cases ra with
            | throw e => cases h1; rfl
            | ub => cases h1; rfl
            | ok la =>
              simp only at h1
              rw [Run.bind_apply] at h1
              cases hy : Run.collect (HReader.loadPageHierarchy ord n) L sa with
              | none => rw [hy] at h1; exact absurd h1 (by simp)
              | some y =>
                obtain ⟨rb, sb⟩ := y
                have := ihL (fun i hi => hL i (by simp [hi])) rb sb hy
                subst this
                rw [hy] at h1
                cases rb <;> (cases h1; rfl)
      rw [Run.bind_apply] at h
      cases hx : Run.collect (HReader.loadPageHierarchy ord n) (ord.subs p.subs) s with
      | none => rw [hx] at h; exact absurd h (by simp)
      | some y =>
        obtain ⟨r1, s1⟩ := y
        have := key _ (fun i h => h) r1 s1 hx
        subst this
        rw [hx] at h
        cases r1 <;> (cases h; rfl)

/-- Looking a key up again does not touch the reader. -/
theorem find_still {s : HReader} (hg : GoodHierarchy data ps) (hi : RInv data ps s) {key : VoxelKey} {n : Node}
    (ha : Answer ps key n) (haf : After ps key n s) (fuel : Nat) :
    HReader.findNode (fuel + 1) key s = some (.ok n, s) := by
  rw [HReader.findNode]
  rcases ha with ⟨hn, hk⟩ | ⟨hn, rfl⟩
  · have hget : AList.get key s.hier.nodes = some n := by
      rcases haf with ⟨_, hl⟩ | ⟨rfl, _⟩
      · obtain ⟨q, hq, hm⟩ := hn
        obtain ⟨e, he, rfl⟩ := List.mem_map.1 hm
        exact (show e.key = key from hk) ▸ hi.node_complete hg hq he hl
      · have := NodeOf.isValid hg hn
        rw [empty_isValid] at this
        exact absurd this (by simp)
    simp only [hget]
  · have hall : ∀ k ∈ ps.map (·.key), Below key k → LoadedKey s k := by
      rcases haf with ⟨hn', _⟩ | ⟨_, h⟩
      · have := NodeOf.isValid hg hn'
        rw [empty_isValid] at this
        exact absurd this (by simp)
      · exact h
    have hget : AList.get key s.hier.nodes = none := by
      cases h : AList.get key s.hier.nodes with
      | none => rfl
      | some m =>
        obtain ⟨h1, h2, _⟩ := hi.node_sound h
        exact absurd h2 (hn m h1)
    simp only [hget]
    cases hnr : s.hier.nearest (key.getParents true) with
    | none => rfl
    | some id =>
      obtain ⟨p, hp, hb, _⟩ := hi.nearest_some hnr
      have hl := loaded_of_key hi hp (hall p.key (hi.key_mem (List.mem_of_getElem? hp)) hb)
      simp only [hp, hl]
      rfl

end
end Copc
