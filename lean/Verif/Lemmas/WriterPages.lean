import Verif.Lemmas.WriterOps
/-! # The pages written at `Close` -/
namespace Copc
open OStream

/-- A good stream holding `d`, at its end. -/
def endStream (d : Bytes) : OStream := ⟨d, d.length, false, none⟩

theorem endStream_holds (d : Bytes) : (endStream d).Holds d := rfl
theorem holds_eq {o : OStream} {d : Bytes} (h : o.Holds d) : o = endStream d := h
@[simp] theorem endStream_seekEnd (d : Bytes) : (endStream d).seekEnd = endStream d :=
  (endStream_holds d).seekEnd
@[simp] theorem endStream_write (d bs : Bytes) : (endStream d).write bs = endStream (d ++ bs) :=
  (endStream_holds d).write bs
@[simp] theorem endStream_tellp (d : Bytes) : (endStream d).tellp = d.length :=
  (endStream_holds d).tellp
@[simp] theorem endStream_data (d : Bytes) : (endStream d).data = d := rfl

theorem foldl_write {α : Type} (f : α → Bytes) (l : List α) (d : Bytes) :
    l.foldl (fun o p => o.write (f p)) (endStream d) = endStream (d ++ l.flatMap f) := by
  induction l generalizing d with
  | nil => simp
  | cons a l ih => simp [ih]

/-- The configuration once the root page has been placed. -/
def setRoot (placed : List (VoxelKey × (Nat × Nat))) (c : CopcConfig) : CopcConfig :=
  match AList.get VoxelKey.root placed with
  | some (o, s) => { c with info := { c.info with
      rootHierOffset := UInt64.ofNat o
      rootHierSize := UInt64.ofNat s } }
  | none => c

/-- The state of the writer while pages are written: only the stream and the root page of the
information VLR change. -/
def pState (w0 : Writer) (d : Bytes) (placed : List (VoxelKey × (Nat × Nat))) : Writer.PageW :=
  ⟨{ w0 with
      base := { w0.base with out := endStream d }
      cfg := setRoot placed w0.cfg }, placed⟩

/-- Size of the entries of a page. -/
def pageSize (pages : List (VoxelKey × WPage)) (hier : List (VoxelKey × VoxelKey)) (k : VoxelKey) : Nat :=
  ((AList.get k pages).getD []).length * 32 + (Writer.subPages hier k).length * 32

/-- The entries of a page, given where its sub-pages are. -/
def pageBody (ord : Order) (pages : List (VoxelKey × WPage)) (hier : List (VoxelKey × VoxelKey))
    (placed : List (VoxelKey × (Nat × Nat))) (k : VoxelKey) : Bytes :=
  (ord.nodes k ((AList.get k pages).getD [])).flatMap (fun p => p.2.entry.pack) ++
    (ord.subs k (Writer.subPages hier k)).flatMap fun q => (Writer.pageEntry placed q).pack

theorem writePage_eq (ord : Order) (hier : List (VoxelKey × VoxelKey)) (k : VoxelKey) (w0 : Writer)
    (d : Bytes) (placed : List (VoxelKey × (Nat × Nat))) :
    (pageSize w0.pages hier k > 2147483647 →
      (Writer.writePage ord hier k (pState w0 d placed)).1 = .throw .pageTooLarge) ∧
    (¬ pageSize w0.pages hier k > 2147483647 →
      Writer.writePage ord hier k (pState w0 d placed) =
        (.ok (), pState w0
          (d ++ (Writer.pageHeader k (pageSize w0.pages hier k) ++ pageBody ord w0.pages hier
            (AList.put k (d.length + (Writer.pageHeader k (pageSize w0.pages hier k)).length,
              pageSize w0.pages hier k) placed) k))
          (AList.put k (d.length + (Writer.pageHeader k (pageSize w0.pages hier k)).length,
              pageSize w0.pages hier k) placed))) := by
  have hsz : ((AList.get k w0.pages).getD []).length * 32 + (Writer.subPages hier k).length * 32 =
      pageSize w0.pages hier k := rfl
  have hpg : (pState w0 d placed).w.pages = w0.pages := rfl
  have hout : (pState w0 d placed).w.base.out = endStream d := rfl
  unfold Writer.writePage
  simp only [Act.bind_apply, Act.gets_apply, Act.modify_apply, hpg, hsz, hout, endStream_seekEnd,
    endStream_write, endStream_tellp, List.length_append]
  generalize pageSize w0.pages hier k = size
  generalize Writer.pageHeader k size = hd
  constructor
  · intro h
    rw [Act.throwIf_pos h]
  · intro h
    rw [Act.throwIf_neg h]
    simp only
    by_cases hr : k = VoxelKey.root
    · subst hr
      simp only [if_true, Act.modify_apply, Act.bind_apply, Act.gets_apply]
      rw [foldl_write, foldl_write]
      unfold pState pageBody setRoot
      simp only [AList.get_put, if_true, List.append_assoc]
      congr 2
      cases AList.get VoxelKey.root placed <;> rfl
    · simp only [if_neg hr, Act.modify_apply, Act.bind_apply, Act.gets_apply]
      rw [foldl_write, foldl_write]
      unfold pState pageBody setRoot
      simp only [AList.get_put, if_neg (Ne.symm hr), List.append_assoc]

/-- Bytes and places of a sequence of pages written from position `pos`. -/
def layoutPages (ord : Order) (pages : List (VoxelKey × WPage)) (hier : List (VoxelKey × VoxelKey)) :
    Nat → List (VoxelKey × (Nat × Nat)) → List VoxelKey → Bytes × List (VoxelKey × (Nat × Nat))
  | _, placed, [] => ([], placed)
  | pos, placed, k :: ks =>
    let size := pageSize pages hier k
    let hd := Writer.pageHeader k size
    let placed' := AList.put k (pos + hd.length, size) placed
    let bs := hd ++ pageBody ord pages hier placed' k
    let r := layoutPages ord pages hier (pos + bs.length) placed' ks
    (bs ++ r.1, r.2)

theorem forEach_writePage (ord : Order) (hier : List (VoxelKey × VoxelKey)) (w0 : Writer) :
    ∀ (ks : List VoxelKey) (d : Bytes) (placed : List (VoxelKey × (Nat × Nat))),
    ((∀ k ∈ ks, pageSize w0.pages hier k ≤ 2147483647) ∧
      Act.forEach (Writer.writePage ord hier) ks (pState w0 d placed) =
        (.ok (), pState w0 (d ++ (layoutPages ord w0.pages hier d.length placed ks).1)
          (layoutPages ord w0.pages hier d.length placed ks).2)) ∨
    ((∃ k ∈ ks, pageSize w0.pages hier k > 2147483647) ∧
      (Act.forEach (Writer.writePage ord hier) ks (pState w0 d placed)).1 = .throw .pageTooLarge)
  | [], d, placed => by
    left
    simp [layoutPages]
  | k :: ks, d, placed => by
    by_cases h : pageSize w0.pages hier k > 2147483647
    · right
      refine ⟨⟨k, by simp, h⟩, ?_⟩
      have := (writePage_eq ord hier k w0 d placed).1 h
      rw [Act.forEach_cons, Act.bind_apply]
      rcases hr : Writer.writePage ord hier k (pState w0 d placed) with ⟨r, s⟩
      rw [hr] at this
      simp only at this
      subst this
      rfl
    · have e := (writePage_eq ord hier k w0 d placed).2 h
      rcases forEach_writePage ord hier w0 ks
        (d ++ (Writer.pageHeader k (pageSize w0.pages hier k) ++ pageBody ord w0.pages hier
            (AList.put k (d.length + (Writer.pageHeader k (pageSize w0.pages hier k)).length,
              pageSize w0.pages hier k) placed) k))
          (AList.put k (d.length + (Writer.pageHeader k (pageSize w0.pages hier k)).length,
              pageSize w0.pages hier k) placed) with ⟨h1, h2⟩ | ⟨h1, h2⟩
      · left
        refine ⟨?_, ?_⟩
        · intro q hq
          rcases List.mem_cons.1 hq with rfl | hq
          · omega
          · exact h1 q hq
        · rw [Act.forEach_cons, Act.bind_ok e, h2, layoutPages]
          simp only [List.length_append, List.append_assoc]
      · right
        obtain ⟨q, hq, hq2⟩ := h1
        refine ⟨⟨q, List.mem_cons_of_mem _ hq, hq2⟩, ?_⟩
        rw [Act.forEach_cons, Act.bind_ok e]
        exact h2

/-! ### Where the pages are -/

/-- The page `k` is in `data` at its place, with its entries. -/
def PageIn (ord : Order) (pages : List (VoxelKey × WPage)) (hier : List (VoxelKey × VoxelKey))
    (placed : List (VoxelKey × (Nat × Nat))) (data : Bytes) (k : VoxelKey) : Prop :=
  ∃ a b, data = a ++ (Writer.pageHeader k (pageSize pages hier k) ++
      (pageBody ord pages hier placed k ++ b)) ∧
    AList.get k placed =
      some (a.length + (Writer.pageHeader k (pageSize pages hier k)).length, pageSize pages hier k)

/-- Places are not changed by pages with other keys. -/
theorem layoutPages_get (ord : Order) (pages : List (VoxelKey × WPage))
    (hier : List (VoxelKey × VoxelKey)) (k : VoxelKey) :
    ∀ (ks : List VoxelKey) (pos : Nat) (placed : List (VoxelKey × (Nat × Nat))), k ∉ ks →
      AList.get k (layoutPages ord pages hier pos placed ks).2 = AList.get k placed
  | [], pos, placed, _ => rfl
  | q :: ks, pos, placed, h => by
    have h1 : k ≠ q := fun e => h (by simp [e])
    have h2 : k ∉ ks := fun e => h (by simp [e])
    rw [layoutPages]
    simp only
    rw [layoutPages_get ord pages hier k ks _ _ h2, AList.get_put, if_neg h1]

theorem pageBody_congr (ord : Order) (pages : List (VoxelKey × WPage))
    (hier : List (VoxelKey × VoxelKey)) (p1 p2 : List (VoxelKey × (Nat × Nat))) (k : VoxelKey)
    (h : ∀ q ∈ Writer.subPages hier k, AList.get q p1 = AList.get q p2) :
    pageBody ord pages hier p1 k = pageBody ord pages hier p2 k := by
  unfold pageBody
  congr 1
  rw [List.flatMap_def, List.flatMap_def]
  congr 1
  apply List.map_congr_left
  intro q hq
  have hq' := ((ord.subs_perm k _).mem_iff).1 hq
  unfold Writer.pageEntry
  rw [h q hq']

theorem layoutPages_pageIn (ord : Order) (pages : List (VoxelKey × WPage))
    (hier : List (VoxelKey × VoxelKey)) :
    ∀ (ks : List VoxelKey) (pre : Bytes) (done : List VoxelKey)
      (placed : List (VoxelKey × (Nat × Nat))), (done ++ ks).Nodup →
      (∀ l1 k l2, ks = l1 ++ k :: l2 → ∀ q ∈ Writer.subPages hier k, q ∈ done ++ l1) →
      ∀ k ∈ ks, PageIn ord pages hier (layoutPages ord pages hier pre.length placed ks).2
        (pre ++ (layoutPages ord pages hier pre.length placed ks).1) k
  | [], pre, done, placed, _, _, k, hk => by cases hk
  | q :: ks, pre, done, placed, hn, hc, k, hk => by
    have hnq : q ∉ done ++ ks := by
      rw [List.nodup_append] at hn
      intro hm
      rcases List.mem_append.1 hm with hm | hm
      · exact hn.2.2 q hm q (by simp) rfl
      · exact (List.nodup_cons.1 hn.2.1).1 hm
    have hqs : q ∉ ks := fun h => hnq (by simp [h])
    have hdone : ∀ p ∈ done, p ∉ q :: ks := by
      intro p hp hm
      rw [List.nodup_append] at hn
      exact hn.2.2 p hp p hm rfl
    rw [layoutPages]
    simp only
    generalize hsize : pageSize pages hier q = size
    generalize hhd : Writer.pageHeader q size = hd
    rcases List.mem_cons.1 hk with rfl | hk'
    · refine ⟨pre, (layoutPages ord pages hier (pre.length + (hd ++ pageBody ord pages hier
        (AList.put k (pre.length + hd.length, size) placed) k).length)
        (AList.put k (pre.length + hd.length, size) placed) ks).1, ?_, ?_⟩
      · rw [hsize, hhd]
        rw [pageBody_congr ord pages hier (layoutPages ord pages hier (pre.length + (hd ++ pageBody ord pages hier
          (AList.put k (pre.length + hd.length, size) placed) k).length)
          (AList.put k (pre.length + hd.length, size) placed) ks).2
          (AList.put k (pre.length + hd.length, size) placed) k ?_]
        · simp only [List.append_assoc, List.append_nil]
        · intro p hp
          have hpd : p ∈ done := by simpa using hc [] k ks rfl p hp
          exact layoutPages_get ord pages hier p ks _ _ fun h => hdone p hpd (by simp [h])
      · rw [layoutPages_get ord pages hier k ks _ _ hqs, AList.get_put, if_pos rfl, hsize, hhd]
    · have hn' : ((done ++ [q]) ++ ks).Nodup := by simpa using hn
      have hc' : ∀ l1 m l2, ks = l1 ++ m :: l2 → ∀ p ∈ Writer.subPages hier m,
          p ∈ (done ++ [q]) ++ l1 := by
        intro l1 m l2 e p hp
        have := hc (q :: l1) m l2 (by rw [e]; rfl) p hp
        simpa using this
      have ih := layoutPages_pageIn ord pages hier ks
        (pre ++ (hd ++ pageBody ord pages hier (AList.put q (pre.length + hd.length, size) placed) q))
        (done ++ [q]) (AList.put q (pre.length + hd.length, size) placed) hn' hc' k hk'
      simp only [List.length_append, List.append_assoc] at ih ⊢
      exact ih

/-- A page in a file is in every extension. -/
theorem PageIn.append {ord : Order} {pages : List (VoxelKey × WPage)}
    {hier : List (VoxelKey × VoxelKey)} {placed : List (VoxelKey × (Nat × Nat))} {data : Bytes}
    {k : VoxelKey} (h : PageIn ord pages hier placed data k) (c : Bytes) :
    PageIn ord pages hier placed (data ++ c) k := by
  obtain ⟨a, b, h1, h2⟩ := h
  refine ⟨a, b ++ c, ?_, h2⟩
  rw [h1]
  simp

end Copc
