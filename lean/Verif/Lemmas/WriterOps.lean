import Verif.Spec.Writer
import Verif.Lemmas.WriterBase
import Verif.Lemmas.PageTree
/-! # Effects of the public calls of the writer -/
namespace Copc

/-- The node returned for a chunk. -/
def nodeOf (key page : VoxelKey) (pos : Nat) (blob : Bytes) (c : Int) : Node :=
  ⟨⟨key, pos, ((blob.length % 2 ^ 64 : Nat) : Int), c⟩, page⟩

/-- The writer after a node has been added. -/
def nodeAdded (w : Writer) (page : VoxelKey) (n : Node) (b : BaseW) : Writer :=
  { w with
    base := b
    nodes := AList.put n.entry.key n w.nodes
    pages := AList.put page (AList.put n.entry.key n ((AList.get page w.pages).getD [])) w.pages }

theorem put_put {κ α : Type} [DecidableEq κ] (k : κ) (a b : α) (l : List (κ × α)) :
    AList.put k b (AList.put k a l) = AList.put k b l := by
  induction l with
  | nil => simp [AList.put]
  | cons p l ih =>
    obtain ⟨k', c⟩ := p
    by_cases h : k' = k
    · simp [AList.put, h]
    · simp [AList.put, h, ih]

theorem ensure_add (page key : VoxelKey) (n : Node) (w : Writer) :
    (do Writer.ensurePage page; Writer.addToPage page key n : Act Writer Unit) w =
      (.ok (), { w with
        pages := AList.put page (AList.put key n ((AList.get page w.pages).getD [])) w.pages }) := by
  simp only [Act.bind_apply, Writer.ensurePage, Writer.addToPage, Act.modify_apply]
  by_cases h : w.pageExists page = true
  · rw [if_pos h]
  · rw [if_neg h]
    have hg : AList.get page w.pages = none := by
      unfold Writer.pageExists at h
      simpa using h
    simp [hg, put_put]

theorem doAddNode_cases (L : Lazperf) (key : VoxelKey) (bs : Bytes) (count : Int) (compressed : Bool)
    (page : VoxelKey) {n0 : Nat} {w : Writer} {log : List (Nat × Bytes)} (hi : BInv n0 w.base log)
    (hn : 0 < n0) :
    ((Writer.doAddNode L key bs count compressed page w).2 = w ∧
      ∀ a, (Writer.doAddNode L key bs count compressed page w).1 ≠ .ok a) ∨
    ∃ blob c, ChunkOf L w.cfg.header bs count compressed blob c ∧ key.isValid = true ∧
      page.isValid = true ∧ key.childOf page = true ∧
      ((blob.length % 2 ^ 64 > 2147483647 ∧
        Writer.doAddNode L key bs count compressed page w =
          (.throw .chunkTooLarge, { w with base := chunkAdded w.base blob c })) ∨
       (¬ blob.length % 2 ^ 64 > 2147483647 ∧
        Writer.doAddNode L key bs count compressed page w =
          (.ok (nodeOf key page (n0 + (chunkData log).length) blob c),
            nodeAdded w page (nodeOf key page (n0 + (chunkData log).length) blob c)
              (chunkAdded w.base blob c)))) := by
  unfold Writer.doAddNode
  by_cases h1 : page.isValid = false ∨ key.isValid = false
  · left
    rw [Act.bind_throw (Act.throwIf_pos h1 _ _)]
    exact ⟨rfl, by simp⟩
  · rw [Act.bind_ok (Act.throwIf_neg h1 _ _)]
    by_cases h2 : key.childOf page = false
    · left
      rw [Act.bind_throw (Act.throwIf_pos h2 _ _)]
      exact ⟨rfl, by simp⟩
    · rw [Act.bind_ok (Act.throwIf_neg h2 _ _), Act.bind_ok (Act.gets_apply _ _)]
      have h1' : page.isValid = true ∧ key.isValid = true := by
        rw [not_or] at h1; simpa using h1
      have h2' : key.childOf page = true := by simpa using h2
      rcases writeChunk_cases L w.cfg.header bs count compressed hi hn with ⟨e1, e2⟩ | ⟨blob, c, hc, e⟩
      · left
        have hz : Writer.onBase (BaseW.writeChunk L w.cfg.header bs count compressed) w =
            ((BaseW.writeChunk L w.cfg.header bs count compressed w.base).1, w) := by
          simp only [Writer.onBase, Act.zoom_apply, e1]
        cases hr : (BaseW.writeChunk L w.cfg.header bs count compressed w.base).1 with
        | ok a => exact absurd hr (e2 a)
        | throw x =>
          rw [hr] at hz
          rw [Act.bind_throw hz]
          exact ⟨rfl, by simp⟩
        | ub =>
          rw [hr] at hz
          rw [Act.bind_ub hz]
          exact ⟨rfl, by simp⟩
      · right
        refine ⟨blob, c, hc, h1'.2, h1'.1, h2', ?_⟩
        have hz : Writer.onBase (BaseW.writeChunk L w.cfg.header bs count compressed) w =
            (chunkResult (n0 + (chunkData log).length) blob c,
              { w with base := chunkAdded w.base blob c }) := by
          simp only [Writer.onBase, Act.zoom_apply, e]
        unfold chunkResult at hz
        by_cases hl : blob.length % 2 ^ 64 > 2147483647
        · left
          rw [if_pos hl] at hz
          exact ⟨hl, Act.bind_throw hz⟩
        · right
          rw [if_neg hl] at hz
          refine ⟨hl, ?_⟩
          rw [Act.bind_ok hz]
          dsimp only
          rw [Act.bind_ok (Act.modify_apply _ _)]
          have := ensure_add page key (nodeOf key page (n0 + (chunkData log).length) blob c)
            { w with
              base := chunkAdded w.base blob c
              nodes := AList.put key (nodeOf key page (n0 + (chunkData log).length) blob c) w.nodes }
          rw [Act.bind_eq_ok] at this
          obtain ⟨_, w1, e1, e2⟩ := this
          unfold nodeOf at e1 e2
          rw [Act.bind_ok e1, Act.bind_ok e2]
          rfl

/-! ### Records -/

theorem cut_flatten (k : Nat) : ∀ (n : Nat) (bs : Bytes), bs.length = n * k →
    (BaseW.cut k n bs).flatten = bs ∧ (∀ r ∈ BaseW.cut k n bs, r.length = k) ∧
      (BaseW.cut k n bs).length = n
  | 0, bs, h => by
    have : bs = [] := List.length_eq_zero_iff.1 (by simpa using h)
    simp [BaseW.cut, this]
  | n + 1, bs, h => by
    have hk : k ≤ bs.length := by rw [h, Nat.add_mul]; omega
    have hd : (bs.drop k).length = n * k := by rw [List.length_drop, h, Nat.add_mul]; omega
    have ih := cut_flatten k n (bs.drop k) hd
    refine ⟨?_, ?_, ?_⟩
    · simp [BaseW.cut, ih.1]
    · intro r hr
      simp only [BaseW.cut, List.mem_cons] at hr
      rcases hr with rfl | hr
      · simp [hk]
      · exact ih.2.1 r hr
    · simp [BaseW.cut, ih.2.2]

theorem pointByteSize_ebSize {h : LasHeader} {eb size : Nat} (h1 : h.ebSize = .ok eb)
    (h2 : pointByteSize h.fmt eb = .ok size) : size = h.recLen.toNat := by
  unfold LasHeader.ebSize ebByteSize at h1
  unfold pointByteSize at h2
  rcases hb : pointBaseByteSize h.fmt with b | e | _
  · rw [hb, Res.okBind] at h1 h2
    have hle : b ≤ 38 := by
      unfold pointBaseByteSize at hb
      repeat' split at hb
      all_goals simp_all
      all_goals omega
    injection h1 with h1
    injection h2 with h2
    have := h.recLen.toNat_lt
    omega
  · rw [hb] at h1; cases h1
  · rw [hb] at h1; cases h1

/-- A raw chunk is the compression of the records of the data. -/
theorem chunkOf_records {L : Lazperf} {h : LasHeader} {bs blob : Bytes} {count c : Int}
    (hc : ChunkOf L h bs count false blob c) :
    ∃ eb recs, h.ebSize = .ok eb ∧ recs.flatten = bs ∧ (∀ r ∈ recs, r.length = h.recLen.toNat) ∧
      blob = L.compress h.fmt eb recs ∧ c = ((recs.length : Nat) : Int) := by
  obtain ⟨eb, size, h1, h2, h3, h4, h5, h6, h7⟩ := hc.raw rfl
  have hs := pointByteSize_ebSize h1 h2
  have hl : bs.length = bs.length / size * size := by
    have := Nat.div_add_mod bs.length size
    rw [h4, Nat.add_zero] at this
    rw [Nat.mul_comm]; exact this.symm
  obtain ⟨f1, f2, f3⟩ := cut_flatten size (bs.length / size) bs hl
  exact ⟨eb, _, h1, f1, hs ▸ f2, h7, by rw [f3]; exact h6⟩

/-! ### Additions -/

/-- The three things an addition can do: nothing, write an oversized chunk and throw, add a node. -/
def AddEffect (L : Lazperf) (op : Op) (key page : VoxelKey) (n0 : Nat) (log : List (Nat × Bytes))
    (w : Writer) (r : Res (Option Node) × Writer) : Prop :=
  (r.2 = w ∧ ∀ a, r.1 ≠ .ok a) ∨
  ∃ blob c, op.Stores L w.cfg.header blob c ∧ key.isValid = true ∧ page.isValid = true ∧
    key.childOf page = true ∧
    ((blob.length % 2 ^ 64 > 2147483647 ∧
        r = (.throw .chunkTooLarge, { w with base := chunkAdded w.base blob c })) ∨
     (¬ blob.length % 2 ^ 64 > 2147483647 ∧
        r = (.ok (some (nodeOf key page (n0 + (chunkData log).length) blob c)),
            nodeAdded w page (nodeOf key page (n0 + (chunkData log).length) blob c)
              (chunkAdded w.base blob c))))

theorem addEffect_of (L : Lazperf) {op : Op} {key page : VoxelKey} {n0 : Nat}
    {log : List (Nat × Bytes)} {w : Writer} {x : Act Writer Node} {compressed : Bool} {bs : Bytes}
    {count : Int}
    (hx : x w = Writer.doAddNode L key bs count compressed page w)
    (hst : ∀ blob c, ChunkOf L w.cfg.header bs count compressed blob c →
      op.Stores L w.cfg.header blob c)
    (hi : BInv n0 w.base log) (hn : 0 < n0) :
    AddEffect L op key page n0 log w ((do let n ← x; pure (some n) : Act Writer (Option Node)) w) := by
  rcases doAddNode_cases L key bs count compressed page hi hn with ⟨h1, h2⟩ | ⟨blob, c, hc, hk, hp, hb, h⟩
  · left
    rw [← hx] at h1 h2
    rcases hr : x w with ⟨r, w'⟩
    rw [hr] at h1 h2
    simp only at h1
    subst h1
    cases r with
    | ok a => exact absurd rfl (h2 a)
    | throw e => rw [Act.bind_throw hr]; exact ⟨rfl, by simp⟩
    | ub => rw [Act.bind_ub hr]; exact ⟨rfl, by simp⟩
  · right
    refine ⟨blob, c, hst blob c hc, hk, hp, hb, ?_⟩
    rcases h with ⟨h1, h2⟩ | ⟨h1, h2⟩
    · left
      rw [← hx] at h2
      exact ⟨h1, Act.bind_throw h2⟩
    · right
      rw [← hx] at h2
      exact ⟨h1, Act.bind_ok h2⟩

theorem addEffect_none (L : Lazperf) {op : Op} {key page : VoxelKey} {n0 : Nat}
    {log : List (Nat × Bytes)} {w : Writer} {x : Act Writer Node} {r : Res Node}
    (hx : x w = (r, w)) (hr : ∀ a, r ≠ .ok a) :
    AddEffect L op key page n0 log w ((do let n ← x; pure (some n) : Act Writer (Option Node)) w) := by
  left
  cases r with
  | ok a => exact absurd rfl (hr a)
  | throw e => rw [Act.bind_throw hx]; exact ⟨rfl, by simp⟩
  | ub => rw [Act.bind_ub hx]; exact ⟨rfl, by simp⟩

theorem addNode_reduce (L : Lazperf) (key : VoxelKey) (bs : Bytes) (page : VoxelKey) (w : Writer) :
    (∃ r, Writer.addNode L key bs page w = (r, w) ∧ ∀ a, r ≠ .ok a) ∨
    Writer.addNode L key bs page w = Writer.doAddNode L key bs 0 false page w := by
  unfold Writer.addNode
  rw [Act.bind_ok (Act.gets_apply _ _)]
  by_cases h1 : bs = []
  · left
    exact ⟨_, Act.bind_throw (Act.throwIf_pos h1 _ _), by simp⟩
  · rw [Act.bind_ok (Act.throwIf_neg h1 _ _)]
    by_cases h2 : w.cfg.header.recLen.toNat = 0
    · left; rw [if_pos h2]; exact ⟨_, rfl, by simp⟩
    · rw [if_neg h2]
      by_cases h3 : bs.length % w.cfg.header.recLen.toNat ≠ 0
      · left; exact ⟨_, Act.bind_throw (Act.throwIf_pos h3 _ _), by simp⟩
      · right; exact Act.bind_ok (Act.throwIf_neg h3 _ _)

theorem add_effect (L : Lazperf) (ord : Order) {op : Op} {key page : VoxelKey}
    (ht : op.target = some (key, page)) {n0 : Nat} {w : Writer} {log : List (Nat × Bytes)}
    (hi : BInv n0 w.base log) (hn : 0 < n0) :
    AddEffect L op key page n0 log w (op.run L ord w) := by
  cases op with
  | add k bs p =>
    obtain ⟨rfl, rfl⟩ : k = key ∧ p = page := by simpa [Op.target] using ht
    rcases addNode_reduce L k bs p w with ⟨r, h1, h2⟩ | h
    · exact addEffect_none L h1 h2
    · exact addEffect_of L h (fun blob c hc => chunkOf_records hc) hi hn
  | addPoints k fmt len ps p =>
    obtain ⟨rfl, rfl⟩ : k = key ∧ p = page := by simpa [Op.target] using ht
    have hred : (∃ r, Writer.addNodePoints L k fmt len ps p w = (r, w) ∧ ∀ a, r ≠ .ok a) ∨
        ∃ bs, packPoints ps w.cfg.header.scale w.cfg.header.offset = .ok bs ∧
          Writer.addNodePoints L k fmt len ps p w = Writer.addNode L k bs p w := by
      unfold Writer.addNodePoints
      rw [Act.bind_ok (Act.gets_apply _ _)]
      by_cases h1 : ps = []
      · left; exact ⟨_, Act.bind_throw (Act.throwIf_pos h1 _ _), by simp⟩
      · rw [Act.bind_ok (Act.throwIf_neg h1 _ _)]
        by_cases h2 : fmt ≠ w.cfg.header.fmt ∨ len ≠ w.cfg.header.recLen.toNat
        · left; exact ⟨_, Act.bind_throw (Act.throwIf_pos h2 _ _), by simp⟩
        · rw [Act.bind_ok (Act.throwIf_neg h2 _ _)]
          cases hp : packPoints ps w.cfg.header.scale w.cfg.header.offset with
          | ok bs => right; exact ⟨bs, rfl, Act.bind_ok (Act.lift_apply _ _)⟩
          | throw e => left; exact ⟨_, Act.bind_throw (Act.lift_apply _ _), by simp⟩
          | ub => left; exact ⟨_, Act.bind_ub (Act.lift_apply _ _), by simp⟩
    rcases hred with ⟨r, h1, h2⟩ | ⟨bs, hp, h⟩
    · exact addEffect_none L h1 h2
    · rcases addNode_reduce L k bs p w with ⟨r, h1, h2⟩ | h'
      · exact addEffect_none L (h.trans h1) h2
      · refine addEffect_of L (h.trans h') (fun blob c hc => ?_) hi hn
        obtain ⟨eb, recs, g⟩ := chunkOf_records hc
        exact ⟨bs, eb, recs, hp, g⟩
  | addCompressed k bs c p =>
    obtain ⟨rfl, rfl⟩ : k = key ∧ p = page := by simpa [Op.target] using ht
    by_cases h0 : c = 0
    · refine addEffect_none L (r := .throw .zeroCount) ?_ (by simp)
      exact Act.bind_throw (Act.throwIf_pos h0 _ _)
    · refine addEffect_of L (x := Writer.addNodeCompressed L k bs c p)
        (Act.bind_ok (Act.throwIf_neg h0 _ _)) (fun blob n hc => hc.comp rfl) hi hn
  | move => simp [Op.target] at ht
  | close => simp [Op.target] at ht

/-! ### Moves -/

/-- A move touches only the pages. -/
theorem leavePage_frame (old key : VoxelKey) (w : Writer) :
    (Writer.leavePage old key w).2.base = w.base ∧ (Writer.leavePage old key w).2.cfg = w.cfg ∧
    (Writer.leavePage old key w).2.nodes = w.nodes := by
  unfold Writer.leavePage
  split
  · exact ⟨rfl, rfl, rfl⟩
  · dsimp only
    split <;> exact ⟨rfl, rfl, rfl⟩

theorem changeNodePage_frame (key page : VoxelKey) (w : Writer) :
    (Writer.changeNodePage key page w).2.base = w.base ∧
    (Writer.changeNodePage key page w).2.cfg = w.cfg ∧
    (Writer.changeNodePage key page w).2.nodes = w.nodes := by
  unfold Writer.changeNodePage
  by_cases h1 : key.isValid = false
  · rw [Act.bind_throw (Act.throwIf_pos h1 _ _)]; exact ⟨rfl, rfl, rfl⟩
  rw [Act.bind_ok (Act.throwIf_neg h1 _ _)]
  by_cases h2 : page.isValid = false
  · rw [Act.bind_throw (Act.throwIf_pos h2 _ _)]; exact ⟨rfl, rfl, rfl⟩
  rw [Act.bind_ok (Act.throwIf_neg h2 _ _), Act.bind_ok (Act.gets_apply _ _)]
  cases hg : AList.get key w.nodes with
  | none => simp only [id, hg]; exact ⟨rfl, rfl, rfl⟩
  | some n =>
    simp only [id, hg]
    by_cases h3 : key.childOf page = false
    · rw [Act.bind_throw (Act.throwIf_pos h3 _ _)]; exact ⟨rfl, rfl, rfl⟩
    rw [Act.bind_ok (Act.throwIf_neg h3 _ _)]
    by_cases h4 : n.pageKey = page
    · rw [if_pos h4]; exact ⟨rfl, rfl, rfl⟩
    · rw [if_neg h4]
      have := ensure_add page key n w
      rw [Act.bind_eq_ok] at this
      obtain ⟨_, w1, e1, e2⟩ := this
      rw [Act.bind_ok e1, Act.bind_ok e2]
      exact leavePage_frame _ _ _

end Copc
