import Verif.Spec.Hierarchy
import Verif.Model.ReaderHier
import Verif.Lemmas.Entry
import Verif.Lemmas.PageTree
import Verif.Lemmas.WriterTree
/-! # Reading a page into the hierarchy -/
namespace Copc
open Spec VoxelKey

theorem modify_of_getElem? {α : Type} {l : List α} {i : Nat} {a : α} (f : α → α) (h : l[i]? = some a) :
    l.modify i f = l.set i (f a) := by
  induction l generalizing i with
  | nil => simp at h
  | cons b l ih =>
    cases i with
    | zero => simp at h; simp [h]
    | succ i => simp at h; simp [ih h]

/-- The pair stored for a node entry. -/
def nodeItem (k : VoxelKey) (e : Entry) : VoxelKey × Node := (e.key, ⟨e, k⟩)

/-- A page after some entries have been added. -/
def RPage.more (p : RPage) (len : Nat) (es : List Entry) : RPage :=
  { p with
    subs := p.subs ++ List.range' len (es.filter (·.isPage)).length
    nodes := p.nodes ++ (es.filter fun e => !e.isPage).map (nodeItem p.key) }

/-- The hierarchy after the entries of a page have been added. -/
def RHier.more (h : RHier) (id : Nat) (p : RPage) (es : List Entry) : RHier :=
  { heap := h.heap.set id (p.more h.heap.length es) ++ (es.filter (·.isPage)).map RPage.ofEntry
    seen := h.seen ++ ((es.filter (·.isPage)).map (·.key)).zip
      (List.range' h.heap.length (es.filter (·.isPage)).length)
    nodes := h.nodes ++ (es.filter fun e => !e.isPage).map (nodeItem p.key) }

theorem foldl_addEntry (id : Nat) (es : List Entry) : ∀ (h : RHier) (p : RPage), h.heap[id]? = some p →
    (AList.keys h.seen ++ (es.filter (·.isPage)).map (·.key)).Nodup →
    (AList.keys h.nodes ++ (es.filter fun e => !e.isPage).map (·.key)).Nodup →
    (AList.keys p.nodes ++ (es.filter fun e => !e.isPage).map (·.key)).Nodup →
    es.foldl (RHier.addEntry id) h = h.more id p es := by
  induction es with
  | nil =>
    intro h p hp _ _ _
    have e : h.heap.set id p = h.heap := by
      apply List.ext_getElem?
      intro i
      rw [List.getElem?_set]
      split
      · next hi =>
        subst hi
        split
        · exact hp.symm
        · next hl => exact (List.getElem?_eq_none (by omega)).symm
      · rfl
    simp [RHier.more, RPage.more, e]
  | cons e es ih =>
    intro h p hp h1 h2 h3
    have hlen : id < h.heap.length := by
      rcases Nat.lt_or_ge id h.heap.length with hl | hl
      · exact hl
      · rw [List.getElem?_eq_none hl] at hp; cases hp
    rw [List.foldl_cons]
    cases hpg : e.isPage with
    | true =>
      rw [List.filter_cons_of_pos (by simpa using hpg)] at h1
      rw [List.filter_cons_of_neg (by simp [hpg])] at h2 h3
      simp only [List.map_cons] at h1
      have hstep : h.addEntry id e =
          { heap := h.heap.set id { p with subs := p.subs ++ [h.heap.length] } ++ [RPage.ofEntry e]
            seen := h.seen ++ [(e.key, h.heap.length)]
            nodes := h.nodes } := by
        unfold RHier.addEntry
        rw [if_pos hpg, modify_of_getElem? _ hp, AList.put_of_not_mem]
        intro hc
        have := List.nodup_append.1 h1
        exact this.2.2 e.key hc e.key (by simp) rfl
      rw [hstep, ih _ { p with subs := p.subs ++ [h.heap.length] }]
      · unfold RHier.more RPage.more
        simp only [List.length_append, List.length_set, List.length_cons, List.length_nil,
          List.filter_cons_of_pos (p := fun e : Entry => e.isPage) (by simpa using hpg),
          List.filter_cons_of_neg (p := fun e : Entry => !e.isPage) (a := e) (by simp [hpg]), List.map_cons,
          List.range'_succ, List.zip_cons_cons, List.append_assoc, List.cons_append, List.nil_append, Nat.zero_add]
        rw [List.set_append_left _ _ (by simpa using hlen), List.set_set]
        simp
      · rw [List.getElem?_append_left (by simpa using hlen), List.getElem?_set_self hlen]
      · unfold AList.keys
        rw [List.map_append]
        simpa [AList.keys] using h1
      · exact h2
      · exact h3
    | false =>
      rw [List.filter_cons_of_neg (by simp [hpg])] at h1
      rw [List.filter_cons_of_pos (by simp [hpg])] at h2 h3
      simp only [List.map_cons] at h2 h3
      have hstep : h.addEntry id e =
          { heap := h.heap.set id { p with nodes := p.nodes ++ [nodeItem p.key e] }
            seen := h.seen
            nodes := h.nodes ++ [nodeItem p.key e] } := by
        unfold RHier.addEntry
        rw [if_neg (by simp [hpg]), modify_of_getElem? _ hp, hp]
        rw [AList.put_of_not_mem, AList.put_of_not_mem]
        · rfl
        · intro hc
          have := List.nodup_append.1 h2
          exact this.2.2 e.key hc e.key (by simp) rfl
        · intro hc
          have := List.nodup_append.1 h3
          exact this.2.2 e.key hc e.key (by simp) rfl
      rw [hstep, ih _ { p with nodes := p.nodes ++ [nodeItem p.key e] }]
      · unfold RHier.more RPage.more
        simp only [List.length_set,
          List.filter_cons_of_neg (p := fun e : Entry => e.isPage) (a := e) (by simp [hpg]),
          List.filter_cons_of_pos (p := fun e : Entry => !e.isPage) (a := e) (by simp [hpg]), List.map_cons,
          List.append_assoc, List.cons_append, List.nil_append, List.set_set]
      · rw [List.getElem?_set_self hlen]
      · exact h1
      · unfold AList.keys
        rw [List.map_append]
        simpa [AList.keys, nodeItem] using h2
      · unfold AList.keys
        rw [List.map_append]
        simpa [AList.keys, nodeItem] using h3

/-! ### The invariant -/

/-- A page object against the page of the file. -/
structure PageMatch (ks : List VoxelKey) (heap : List RPage) (p : RPage) (q : FPage) : Prop where
  key : q.key = p.key
  offset : q.offset = p.offset
  size : (q.size : Int) = p.byteSize
  unloaded : p.loaded = false → p.subs = [] ∧ p.nodes = []
  nodes : p.loaded = true → p.nodes.Perm (q.nodes.map (nodeItem q.key))
  subsNodup : p.loaded = true → p.subs.Nodup
  subs : p.loaded = true → ∀ i : Nat, i ∈ p.subs ↔ ∃ p', heap[i]? = some p' ∧ IsParentPage ks p'.key p.key
  children : p.loaded = true → ∀ k ∈ ks, IsParentPage ks k p.key → k ∈ heap.map (·.key)

/-- Reachable states of a reader on a file with pages `ps`. -/
structure RInv (data : Bytes) (ps : List FPage) (s : HReader) : Prop where
  data : s.str.data = data
  good : s.str.fail = false
  distinct : (s.hier.heap.map (·.key)).Nodup
  seenNodup : (AList.keys s.hier.seen).Nodup
  seen : ∀ (k : VoxelKey) (i : Nat), (k, i) ∈ s.hier.seen ↔ ∃ p, s.hier.heap[i]? = some p ∧ p.key = k
  page : ∀ (i : Nat) (p : RPage), s.hier.heap[i]? = some p → ∃ q ∈ ps, PageMatch (ps.map (·.key)) s.hier.heap p q
  root : VoxelKey.root ∈ s.hier.heap.map (·.key)
  above : ∀ p ∈ s.hier.heap, p.key = VoxelKey.root ∨
    ∃ p' ∈ s.hier.heap, p'.loaded = true ∧ IsParentPage (ps.map (·.key)) p.key p'.key
  nodesNodup : (AList.keys s.hier.nodes).Nodup
  nodes : ∀ x, x ∈ s.hier.nodes ↔ ∃ p ∈ s.hier.heap, x ∈ p.nodes

/-- Entries read back from a page of a good file. -/
theorem readPage_good {data : Bytes} {q : FPage} {es : List Entry} {s : IStream}
    (hd : s.data = data) (hf : s.fail = false) (ho : q.offset < 2 ^ 63)
    (hes : ∀ e ∈ es, e.InRange ∧ e.isValid = true) (h : HasEntries data q.offset q.size es) :
    ∃ s', readPage s true q.offset (q.size : Int) = (.ok es, s') ∧ s'.data = data ∧ s'.fail = false := by
  obtain ⟨h1, h2⟩ := h
  unfold readPage
  rw [if_neg (by simp)]
  have hn : ((q.size : Int).tdiv 32).toNat = es.length := by
    rw [h1]
    have : ((32 * es.length : Nat) : Int).tdiv 32 = es.length := by
      rw [Int.tdiv_eq_ediv_of_nonneg (by omega)]
      omega
    rw [this]; simp
  rw [hn]
  have hsk : s.seekg q.offset = { s with pos := q.offset } := by
    unfold IStream.seekg
    rw [if_neg (by simp [hf]), if_pos ho]
  rw [hsk]
  by_cases he : es = []
  · subst he
    exact ⟨_, rfl, hd, hf⟩
  · have hlen : (es.flatMap Entry.pack).length = 32 * es.length := by
      clear h1 h2 hn he hes
      induction es with
      | nil => rfl
      | cons a es ih => simp only [List.flatMap_cons, List.length_append, Entry.length_pack, ih, List.length_cons]; omega
    have hpos : 0 < es.length := List.length_pos_iff.2 he
    have hl : q.offset + q.size ≤ data.length := by
      have := congrArg List.length h2
      unfold slice at this
      rw [List.length_take, List.length_drop, hlen] at this
      omega
    have hsplit : data = data.take q.offset ++ (es.flatMap Entry.pack ++ data.drop (q.offset + q.size)) := by
      rw [← h2]
      unfold slice
      rw [← List.drop_drop, List.take_append_drop, List.take_append_drop]
    have hpre : (data.take q.offset).length = q.offset := by rw [List.length_take]; omega
    have := Entry.readEntries_pack hes (data.take q.offset) (data.drop (q.offset + q.size))
    rw [hpre, ← hsplit] at this
    have e : { s with pos := q.offset } = (⟨data, q.offset, false⟩ : IStream) := by
      cases s; cases hd; cases hf; rfl
    rw [e]
    exact ⟨_, this, rfl, rfl⟩

theorem FPage.entry_isPage {q : FPage} (h : Valid q.key) : q.entry.isPage = true := by
  have := (isValid_iff q.key).2 h
  simp [FPage.entry, Entry.isPage, Entry.isValid, this]

theorem perm_filter_entries {ns : List Entry} {subs : List FPage} {es : List Entry}
    (hes : es.Perm (ns ++ subs.map FPage.entry)) (hn : ∀ e ∈ ns, e.isPage = false)
    (hp : ∀ q ∈ subs, q.entry.isPage = true) :
    (es.filter (·.isPage)).Perm (subs.map FPage.entry) ∧ (es.filter fun e => !e.isPage).Perm ns := by
  have a1 : ns.filter (fun e => e.isPage) = [] := by
    rw [List.filter_eq_nil_iff]; intro e he; simp [hn e he]
  have a2 : (subs.map FPage.entry).filter (fun e => e.isPage) = subs.map FPage.entry := by
    rw [List.filter_eq_self]; intro e he
    obtain ⟨q, hq, rfl⟩ := List.mem_map.1 he
    exact hp q hq
  have a3 : ns.filter (fun e => !e.isPage) = ns := by
    rw [List.filter_eq_self]; intro e he; simp [hn e he]
  have a4 : (subs.map FPage.entry).filter (fun e => !e.isPage) = [] := by
    rw [List.filter_eq_nil_iff]; intro e he
    obtain ⟨q, hq, rfl⟩ := List.mem_map.1 he
    simp [hp q hq]
  constructor
  · have := hes.filter (fun e => e.isPage)
    rwa [List.filter_append, a1, a2, List.nil_append] at this
  · have := hes.filter (fun e => !e.isPage)
    rwa [List.filter_append, a3, a4, List.append_nil] at this

/-- What stays when more pages are read. -/
def Ext (s s' : HReader) : Prop := ∀ (i : Nat) (p : RPage), s.hier.heap[i]? = some p →
  ∃ p', s'.hier.heap[i]? = some p' ∧ p'.key = p.key ∧ (p.loaded = true → p' = p)

theorem Ext.refl (s : HReader) : Ext s s := fun _ p h => ⟨p, h, rfl, fun _ => rfl⟩

theorem Ext.trans {a b c : HReader} (h1 : Ext a b) (h2 : Ext b c) : Ext a c := by
  intro i p hp
  obtain ⟨p1, e1, k1, l1⟩ := h1 i p hp
  obtain ⟨p2, e2, k2, l2⟩ := h2 i p1 e1
  refine ⟨p2, e2, k2.trans k1, fun hl => ?_⟩
  have := l1 hl
  subst this
  exact l2 hl

section
variable {data : Bytes} {ps : List FPage} {s : HReader}

theorem RInv.same (hi : RInv data ps s) {i j : Nat} {p q : RPage} (hp : s.hier.heap[i]? = some p)
    (hq : s.hier.heap[j]? = some q) (hk : p.key = q.key) : i = j := by
  have hil : i < s.hier.heap.length := (List.getElem?_eq_some_iff.1 hp).1
  have hjl : j < s.hier.heap.length := (List.getElem?_eq_some_iff.1 hq).1
  have := hi.distinct
  refine (List.Nodup.getElem_inj_iff this (hi := by simpa using hil) (hj := by simpa using hjl)).1 ?_
  simp only [List.getElem_map]
  rw [(List.getElem?_eq_some_iff.1 hp).2, (List.getElem?_eq_some_iff.1 hq).2, hk]

theorem RInv.key_mem (hi : RInv data ps s) {p : RPage} (hp : p ∈ s.hier.heap) : p.key ∈ ps.map (·.key) := by
  obtain ⟨i, h⟩ := List.getElem?_of_mem hp
  obtain ⟨q, hq, hm⟩ := hi.page i p h
  rw [← hm.key]
  exact List.mem_map_of_mem hq

theorem Spec.GoodHierarchy.valid (hg : GoodHierarchy data ps) {k : VoxelKey} (h : k ∈ ps.map (·.key)) : Valid k := by
  obtain ⟨p, hp, rfl⟩ := List.mem_map.1 h
  exact ((inOctree_iff_below _).1 (hg.inTree p hp)).1

theorem Spec.GoodHierarchy.belowRoot (hg : GoodHierarchy data ps) {k : VoxelKey} (h : k ∈ ps.map (·.key)) :
    Below k VoxelKey.root := by
  obtain ⟨p, hp, rfl⟩ := List.mem_map.1 h
  exact ((inOctree_iff_below _).1 (hg.inTree p hp)).2

theorem Spec.GoodHierarchy.inj (hg : GoodHierarchy data ps) {p q : FPage} (hp : p ∈ ps) (hq : q ∈ ps)
    (h : p.key = q.key) : p = q := List.inj_on_of_nodup_map hg.distinct hp hq h

/-- The pages of the heap whose parent is an unloaded page: none. -/
theorem RInv.no_child (hi : RInv data ps s) {id : Nat} {p : RPage} (hp : s.hier.heap[id]? = some p)
    (hu : p.loaded = false) {c : RPage} (hc : c ∈ s.hier.heap) :
    ¬IsParentPage (ps.map (·.key)) c.key p.key := by
  intro hpar
  have hv := isParentPage_depth hpar
  rcases hi.above c hc with hr | ⟨p', hp', hl, hpar'⟩
  · obtain ⟨n, hn, hk⟩ := hpar.2.1
    rw [hr] at hk hn hv
    have : n = 0 := by simp only [VoxelKey.root] at hn; omega
    subst this
    rw [up_zero] at hk
    rw [hk] at hv
    omega
  · have hk := isParentPage_unique hpar hpar'
    obtain ⟨j, hj⟩ := List.getElem?_of_mem hp'
    have := hi.same hp hj hk
    subst this
    rw [hp] at hj
    cases hj
    rw [hu] at hl
    cases hl

/-- Reading an unloaded page of a good file. -/
theorem readAndParse_good (hg : GoodHierarchy data ps) (hi : RInv data ps s) {id : Nat} {p : RPage}
    (hp : s.hier.heap[id]? = some p) (hu : p.loaded = false) :
    ∃ s' p', HReader.readAndParsePage id s = (.ok (), s') ∧ RInv data ps s' ∧ Ext s s' ∧
      s'.hier.heap[id]? = some p' ∧ p'.loaded = true := by
  obtain ⟨q, hq, hm⟩ := hi.page id p hp
  obtain ⟨subs, hsn, hsub, es, hperm, hent⟩ := hg.stored q hq
  have hlt : id < s.hier.heap.length := (List.getElem?_eq_some_iff.1 hp).1
  have hqv : Valid q.key := hg.valid (List.mem_map_of_mem hq)
  have hks : q.key = p.key := hm.key
  -- the entries
  have hns : ∀ e ∈ q.nodes, e.isPage = false := by
    intro e he
    have := hg.entries q hq e he
    unfold Entry.isPage
    simp [this.2.2.2.1]
  have hps' : ∀ c ∈ subs, c.entry.isPage = true := by
    intro c hc
    exact FPage.entry_isPage (hg.valid (List.mem_map_of_mem ((hsub c).1 hc).1))
  obtain ⟨hpp, hpn⟩ := perm_filter_entries hperm hns hps'
  have hes : ∀ e ∈ es, e.InRange ∧ e.isValid = true := by
    intro e he
    have := hperm.mem_iff.1 he
    rcases List.mem_append.1 this with h | h
    · have h1 := hg.entries q hq e h
      refine ⟨h1.1, ?_⟩
      unfold Entry.isValid
      simp [(isValid_iff e.key).2 h1.2.1, h1.2.2.1]
    · obtain ⟨c, hc, rfl⟩ := List.mem_map.1 h
      have hcp := ((hsub c).1 hc).1
      have h1 := hg.pageRange c hcp
      have h2 := hg.valid (List.mem_map_of_mem hcp)
      refine ⟨⟨h1.1, by simp only [FPage.entry]; omega, ?_, ?_⟩, ?_⟩
      · simp only [FPage.entry, InI32]; omega
      · simp only [FPage.entry, InI32]; omega
      · unfold Entry.isValid
        simp [FPage.entry, (isValid_iff c.key).2 h2]
  have hvalid : p.isValid = true := by
    unfold RPage.isValid
    rw [← hm.key, ← hm.size]
    simp [(isValid_iff q.key).2 hqv]
  obtain ⟨str', hrd, hdata', hfail'⟩ := readPage_good (q := q) hi.data hi.good (hg.pageRange q hq).2.1 hes hent
  rw [hm.offset, hm.size] at hrd
  -- keys are fresh
  have hnewkeys : (es.filter (·.isPage)).map (·.key) = (es.filter (·.isPage)).map (·.key) := rfl
  have hkperm : ((es.filter (·.isPage)).map (·.key)).Perm (subs.map (·.key)) := by
    have := hpp.map (·.key)
    rwa [List.map_map] at this
  have hchild : ∀ k, k ∈ (es.filter (·.isPage)).map (·.key) ↔
      k ∈ ps.map (·.key) ∧ IsParentPage (ps.map (·.key)) k p.key := by
    intro k
    rw [hkperm.mem_iff, List.mem_map]
    constructor
    · rintro ⟨c, hc, rfl⟩
      have := (hsub c).1 hc
      exact ⟨List.mem_map_of_mem this.1, hks ▸ this.2⟩
    · rintro ⟨h1, h2⟩
      obtain ⟨c, hc, rfl⟩ := List.mem_map.1 h1
      exact ⟨c, (hsub c).2 ⟨hc, hks ▸ h2⟩, rfl⟩
  have hknodup : ((es.filter (·.isPage)).map (·.key)).Nodup := by
    rw [hkperm.nodup_iff]
    exact List.Nodup.map_on (fun a ha b hb h => hg.inj ((hsub a).1 ha).1 ((hsub b).1 hb).1 h) hsn
  have hkseen : ∀ k, k ∈ AList.keys s.hier.seen ↔ k ∈ s.hier.heap.map (·.key) := by
    intro k
    constructor
    · intro hk
      obtain ⟨⟨a, i⟩, ha, rfl⟩ := List.mem_map.1 hk
      obtain ⟨x, hx, hxk⟩ := (hi.seen a i).1 ha
      exact List.mem_map.2 ⟨x, List.mem_of_getElem? hx, hxk⟩
    · intro hk
      obtain ⟨x, hx, rfl⟩ := List.mem_map.1 hk
      obtain ⟨i, hxi⟩ := List.getElem?_of_mem hx
      exact AList.mem_keys ((hi.seen x.key i).2 ⟨x, hxi, rfl⟩)
  have hfresh : ∀ k ∈ (es.filter (·.isPage)).map (·.key), k ∉ s.hier.heap.map (·.key) := by
    intro k hk hc
    obtain ⟨c, hcm, rfl⟩ := List.mem_map.1 hc
    exact hi.no_child hp hu hcm ((hchild _).1 hk).2
  have hnkeys : ((es.filter fun e => !e.isPage).map (·.key)).Perm (q.nodes.map (·.key)) := hpn.map _
  have hqn : (q.nodes.map (·.key)).Nodup := (List.nodup_flatMap.1 hg.nodesDistinct).1 q hq
  have hnn : ((es.filter fun e => !e.isPage).map (·.key)).Nodup := hnkeys.nodup_iff.2 hqn
  have hnfresh : ∀ k ∈ (es.filter fun e => !e.isPage).map (·.key), k ∉ AList.keys s.hier.nodes := by
    intro k hk hc
    rw [hnkeys.mem_iff] at hk
    obtain ⟨x, hx, rfl⟩ := List.mem_map.1 hc
    obtain ⟨p2, hp2, hx2⟩ := (hi.nodes x).1 hx
    obtain ⟨j, hj⟩ := List.getElem?_of_mem hp2
    obtain ⟨q2, hq2, hm2⟩ := hi.page j p2 hj
    cases hl2 : p2.loaded with
    | false => rw [(hm2.unloaded hl2).2] at hx2; cases hx2
    | true =>
      have hx3 := (hm2.nodes hl2).mem_iff.1 hx2
      obtain ⟨e, he, rfl⟩ := List.mem_map.1 hx3
      have hne : q ≠ q2 := by
        rintro rfl
        have := hi.same hp hj (hm.key.symm.trans hm2.key)
        subst this
        rw [hp] at hj; cases hj
        rw [hu] at hl2; cases hl2
      have hdis := (List.nodup_flatMap.1 hg.nodesDistinct).2
      have hpw := (List.pairwise_iff_getElem).1 hdis
      obtain ⟨a, ha, rfl⟩ := List.getElem_of_mem hq
      obtain ⟨b, hb, rfl⟩ := List.getElem_of_mem hq2
      have hk' : e.key ∈ (ps[b]).nodes.map (·.key) := List.mem_map_of_mem he
      rcases Nat.lt_trichotomy a b with hab | hab | hab
      · exact hpw a b ha hb hab hk hk'
      · subst hab; exact hne rfl
      · exact hpw b a hb ha hab hk' hk
  -- the new state
  have hpnil : p.nodes = [] := (hm.unloaded hu).2
  have hsnil : p.subs = [] := (hm.unloaded hu).1
  have hstep : HReader.readAndParsePage id s = (.ok (), ⟨str',
      ({ s.hier with heap := s.hier.heap.set id { p with loaded := true } } : RHier).more id
        { p with loaded := true } es⟩) := by
    unfold HReader.readAndParsePage
    rw [hp]
    simp only [hvalid]
    rw [hrd]
    simp only
    rw [modify_of_getElem? _ hp]
    rw [foldl_addEntry id es _ { p with loaded := true }]
    · exact List.getElem?_set_self hlt
    · refine List.nodup_append.2 ⟨hi.seenNodup, hknodup, ?_⟩
      rintro a ha b hb rfl
      exact hfresh a hb ((hkseen a).1 ha)
    · refine List.nodup_append.2 ⟨hi.nodesNodup, hnn, ?_⟩
      rintro a ha b hb rfl
      exact hnfresh a hb ha
    · simp only [hpnil]
      simpa [AList.keys] using hnn
  generalize hPE : es.filter (·.isPage) = PE at *
  generalize hNE : (es.filter fun e => !e.isPage) = NE at *
  let P : RPage := { p with
    loaded := true
    subs := List.range' s.hier.heap.length PE.length
    nodes := NE.map (nodeItem p.key) }
  have hmore : (({ s.hier with heap := s.hier.heap.set id { p with loaded := true } } : RHier).more id
        { p with loaded := true } es) =
      { heap := s.hier.heap.set id P ++ PE.map RPage.ofEntry
        seen := s.hier.seen ++ (PE.map (·.key)).zip (List.range' s.hier.heap.length PE.length)
        nodes := s.hier.nodes ++ NE.map (nodeItem p.key) } := by
    unfold RHier.more RPage.more
    simp only [hPE, hNE, List.set_set, List.length_set, hsnil, hpnil, List.nil_append]
    rfl
  rw [hmore] at hstep
  have hPk : P.key = p.key := rfl
  have hPl : P.loaded = true := rfl
  have hPn : P.nodes = NE.map (nodeItem p.key) := rfl
  have hPs : P.subs = List.range' s.hier.heap.length PE.length := rfl
  have hPo : P.offset = p.offset := rfl
  have hPb : P.byteSize = p.byteSize := rfl
  clear_value P
  have hPE : ∀ e ∈ PE, ∃ c ∈ ps, e = c.entry ∧ IsParentPage (ps.map (·.key)) c.key p.key := by
    intro e he
    obtain ⟨c, hc, rfl⟩ := List.mem_map.1 (hpp.mem_iff.1 he)
    exact ⟨c, ((hsub c).1 hc).1, rfl, hks ▸ ((hsub c).1 hc).2⟩
  have hnx : ∀ k i, (k, i) ∈ (PE.map (·.key)).zip (List.range' s.hier.heap.length PE.length) ↔
      ∃ e, s.hier.heap.length ≤ i ∧ PE[i - s.hier.heap.length]? = some e ∧ e.key = k := by
    intro k i
    rw [List.mem_iff_getElem?]
    simp only [List.getElem?_zip_eq_some, List.getElem?_map, Option.map_eq_some_iff]
    constructor
    · rintro ⟨j, ⟨e, he, rfl⟩, hj⟩
      have hjl := (List.getElem?_eq_some_iff.1 he).1
      rw [List.getElem?_range' (by simpa using hjl)] at hj
      cases hj
      refine ⟨e, by omega, ?_, rfl⟩
      rw [← he]; congr 1; omega
    · rintro ⟨e, hle, he, rfl⟩
      have hjl := (List.getElem?_eq_some_iff.1 he).1
      refine ⟨i - s.hier.heap.length, ⟨e, he, rfl⟩, ?_⟩
      rw [List.getElem?_range' (by simpa using hjl)]
      congr 1; omega
  have hlook : ∀ i : Nat, (s.hier.heap.set id P ++ PE.map RPage.ofEntry)[i]? =
      if i = id then some P else if i < s.hier.heap.length then s.hier.heap[i]?
      else (PE.map RPage.ofEntry)[i - s.hier.heap.length]? := by
    intro i
    split
    · next h => subst h; rw [List.getElem?_append_left (by simpa using hlt), List.getElem?_set_self hlt]
    · next h =>
      split
      · next h2 => rw [List.getElem?_append_left (by simpa using h2), List.getElem?_set_ne (by omega)]
      · next h2 => rw [List.getElem?_append_right (by simpa using h2)]; simp
  have hkeys : (s.hier.heap.set id P ++ PE.map RPage.ofEntry).map (·.key) =
      s.hier.heap.map (·.key) ++ PE.map (·.key) := by
    rw [List.map_append, List.map_set, List.map_map]
    congr 1
    apply List.ext_getElem?
    intro i
    rw [List.getElem?_set]
    split
    · next h =>
      subst h
      rw [if_pos (by simpa using hlt), List.getElem?_map, hp, hPk]; rfl
    · rfl
  -- a page of the new heap: the page read, an old one, a new one
  have hcases : ∀ (i : Nat) (x : RPage), (s.hier.heap.set id P ++ PE.map RPage.ofEntry)[i]? = some x →
      (i = id ∧ x = P) ∨ (i ≠ id ∧ s.hier.heap[i]? = some x) ∨
      (s.hier.heap.length ≤ i ∧ ∃ e, PE[i - s.hier.heap.length]? = some e ∧ x = RPage.ofEntry e) := by
    intro i x hx
    rw [hlook] at hx
    split at hx
    · next h => cases hx; exact .inl ⟨h, rfl⟩
    · next h =>
      split at hx
      · exact .inr (.inl ⟨h, hx⟩)
      · next h2 =>
        rw [List.getElem?_map, Option.map_eq_some_iff] at hx
        obtain ⟨e, he, rfl⟩ := hx
        exact .inr (.inr ⟨by omega, e, he, rfl⟩)
  have hold : ∀ (i : Nat) (x : RPage), i ≠ id → s.hier.heap[i]? = some x →
      (s.hier.heap.set id P ++ PE.map RPage.ofEntry)[i]? = some x := by
    intro i x hne hx
    have := (List.getElem?_eq_some_iff.1 hx).1
    rw [hlook, if_neg hne, if_pos this, hx]
  have hid : (s.hier.heap.set id P ++ PE.map RPage.ofEntry)[id]? = some P := by rw [hlook, if_pos rfl]
  have hnew : ∀ (j : Nat) (e : Entry), PE[j]? = some e →
      (s.hier.heap.set id P ++ PE.map RPage.ofEntry)[s.hier.heap.length + j]? = some (RPage.ofEntry e) := by
    intro j e he
    rw [hlook, if_neg (by omega), if_neg (by omega), List.getElem?_map]
    have : s.hier.heap.length + j - s.hier.heap.length = j := by omega
    rw [this, he]; rfl
  generalize hH : s.hier.heap.set id P ++ PE.map RPage.ofEntry = H at *
  have hnewpar : ∀ (i : Nat) (x : RPage), H[i]? = some x → s.hier.heap.length ≤ i →
      IsParentPage (ps.map (·.key)) x.key p.key := by
    intro i x hx hle
    rcases hcases i x hx with ⟨h1, _⟩ | ⟨_, h2⟩ | ⟨_, e, he, rfl⟩
    · omega
    · have := (List.getElem?_eq_some_iff.1 h2).1; omega
    · obtain ⟨c, _, rfl, hpar⟩ := hPE e (List.mem_of_getElem? he)
      exact hpar
  refine ⟨_, P, hstep, ⟨hdata', hfail', ?_, ?_, ?_, ?_, ?_, ?_, ?_, ?_⟩, ?_, hid, hPl⟩
  · show (H.map (·.key)).Nodup
    rw [hkeys]
    refine List.nodup_append.2 ⟨hi.distinct, hknodup, ?_⟩
    rintro a ha b hb rfl
    exact hfresh a hb ha
  · show (AList.keys (_ ++ _)).Nodup
    unfold AList.keys
    rw [List.map_append, List.map_fst_zip (by simp)]
    refine List.nodup_append.2 ⟨hi.seenNodup, hknodup, ?_⟩
    rintro a ha b hb rfl
    exact hfresh a hb ((hkseen a).1 ha)
  · intro k i
    show (k, i) ∈ _ ++ _ ↔ ∃ p, H[i]? = some p ∧ p.key = k
    rw [List.mem_append, hi.seen, hnx]
    constructor
    · rintro (⟨x, hx, rfl⟩ | ⟨e, hle, he, rfl⟩)
      · by_cases hii : i = id
        · subst hii
          rw [hp] at hx; cases hx
          exact ⟨P, hid, hPk⟩
        · exact ⟨x, hold i x hii hx, rfl⟩
      · have := hnew _ e he
        rw [show s.hier.heap.length + (i - s.hier.heap.length) = i by omega] at this
        exact ⟨_, this, rfl⟩
    · rintro ⟨x, hx, rfl⟩
      rcases hcases i x hx with ⟨h1, h2⟩ | ⟨_, h2⟩ | ⟨hle, e, he, rfl⟩
      · subst h1 h2
        exact .inl ⟨p, hp, hPk.symm⟩
      · exact .inl ⟨x, h2, rfl⟩
      · exact .inr ⟨e, hle, he, rfl⟩
  · intro i x hx
    show ∃ q ∈ ps, PageMatch _ H x q
    rcases hcases i x hx with ⟨h1, h2⟩ | ⟨hne, h2⟩ | ⟨hle, e, he, rfl⟩
    · subst h1 h2
      refine ⟨q, hq, ⟨by rw [hPk]; exact hks, by rw [hPo]; exact hm.offset, by rw [hPb]; exact hm.size,
        by simp [hPl], ?_, ?_, ?_, ?_⟩⟩
      · intro _
        rw [hPn, hks]
        exact hpn.map _
      · intro _
        rw [hPs]
        exact List.nodup_range'
      · intro _ j
        rw [hPs, List.mem_range'_1, hPk]
        constructor
        · rintro ⟨h1, h2⟩
          have hj : j - s.hier.heap.length < PE.length := by omega
          have := hnew _ _ (List.getElem?_eq_getElem hj)
          rw [show s.hier.heap.length + (j - s.hier.heap.length) = j by omega] at this
          exact ⟨_, this, hnewpar j _ this h1⟩
        · rintro ⟨p', hp', hpar⟩
          rcases hcases j p' hp' with ⟨_, h2⟩ | ⟨_, h2⟩ | ⟨hle, e, he, _⟩
          · rw [h2, hPk] at hpar
            exact absurd rfl hpar.2.2.1
          · exact absurd hpar (hi.no_child hp hu (List.mem_of_getElem? h2))
          · have := (List.getElem?_eq_some_iff.1 he).1
            omega
      · intro _ k hk hpar
        rw [hkeys, List.mem_append]
        exact .inr ((hchild k).2 ⟨hk, hPk ▸ hpar⟩)
    · obtain ⟨q2, hq2, hm2⟩ := hi.page i x h2
      refine ⟨q2, hq2, ⟨hm2.key, hm2.offset, hm2.size, hm2.unloaded, hm2.nodes, hm2.subsNodup, ?_, ?_⟩⟩
      · intro hl j
        rw [hm2.subs hl]
        constructor
        · rintro ⟨c, hc, hpar⟩
          by_cases hj : j = id
          · subst hj
            rw [hp] at hc; cases hc
            exact ⟨P, hid, hPk ▸ hpar⟩
          · exact ⟨c, hold j c hj hc, hpar⟩
        · rintro ⟨c, hc, hpar⟩
          rcases hcases j c hc with ⟨h3, h4⟩ | ⟨_, h4⟩ | ⟨hle, e, he, h4⟩
          · subst h3 h4
            exact ⟨p, hp, hPk ▸ hpar⟩
          · exact ⟨c, h4, hpar⟩
          · have := isParentPage_unique hpar (hnewpar j c hc hle)
            exact absurd (hi.same h2 hp this) hne
      · intro hl k hk hpar
        rw [hkeys, List.mem_append]
        exact .inl (hm2.children hl k hk hpar)
    · obtain ⟨c, hc, rfl, hpar⟩ := hPE e (List.mem_of_getElem? he)
      refine ⟨c, hc, ⟨rfl, rfl, rfl, fun _ => ⟨rfl, rfl⟩, ?_, ?_, ?_, ?_⟩⟩ <;> (intro h; cases h)
  · show _ ∈ H.map (·.key)
    rw [hkeys, List.mem_append]
    exact .inl hi.root
  · intro x hx
    obtain ⟨i, hxi⟩ := List.getElem?_of_mem hx
    have key : ∀ y ∈ s.hier.heap, y.key = VoxelKey.root ∨
        ∃ p' ∈ H, p'.loaded = true ∧ IsParentPage (ps.map (·.key)) y.key p'.key := by
      intro y hy
      rcases hi.above y hy with h | ⟨p', hp', hl, hpar⟩
      · exact .inl h
      · refine .inr ⟨p', ?_, hl, hpar⟩
        obtain ⟨j, hj⟩ := List.getElem?_of_mem hp'
        refine List.mem_of_getElem? (hold j p' ?_ hj)
        rintro rfl
        rw [hp] at hj; cases hj
        rw [hu] at hl; cases hl
    rcases hcases i x hxi with ⟨_, h2⟩ | ⟨_, h2⟩ | ⟨hle, _⟩
    · rw [h2, hPk]
      exact key p (List.mem_of_getElem? hp)
    · exact key x (List.mem_of_getElem? h2)
    · exact .inr ⟨P, List.mem_of_getElem? hid, hPl, hPk ▸ hnewpar i x hxi hle⟩
  · show (AList.keys (_ ++ _)).Nodup
    unfold AList.keys
    rw [List.map_append, List.map_map]
    refine List.nodup_append.2 ⟨hi.nodesNodup, hnn, ?_⟩
    rintro a ha b hb rfl
    exact hnfresh a hb ha
  · intro x
    show x ∈ _ ++ _ ↔ ∃ p ∈ H, x ∈ p.nodes
    rw [List.mem_append, hi.nodes]
    constructor
    · rintro (⟨y, hy, hxy⟩ | hx)
      · obtain ⟨j, hj⟩ := List.getElem?_of_mem hy
        refine ⟨y, List.mem_of_getElem? (hold j y ?_ hj), hxy⟩
        rintro rfl
        rw [hp] at hj; cases hj
        rw [hpnil] at hxy; cases hxy
      · exact ⟨P, List.mem_of_getElem? hid, hPn ▸ hx⟩
    · rintro ⟨y, hy, hxy⟩
      obtain ⟨j, hj⟩ := List.getElem?_of_mem hy
      rcases hcases j y hj with ⟨_, h2⟩ | ⟨_, h2⟩ | ⟨_, e, _, h2⟩
      · rw [h2, hPn] at hxy
        exact .inr hxy
      · exact .inl ⟨y, List.mem_of_getElem? h2, hxy⟩
      · rw [h2] at hxy; cases hxy
  · intro i x hx
    by_cases hii : i = id
    · subst hii
      rw [hp] at hx; cases hx
      exact ⟨P, hid, hPk, fun h => by rw [hu] at h; cases h⟩
    · exact ⟨x, hold i x hii hx, rfl, fun _ => rfl⟩

end

end Copc
