import Verif.Lemmas.WriterOps
/-! # Additions on a writer in any state, with any stream -/
namespace Copc
open OStream

theorem write_fail {o : OStream} (h : o.fail = true) (bs : Bytes) : o.write bs = o := by
  unfold OStream.write; rw [if_pos h]

theorem tellp_write_pos {o : OStream} (h : ¬ o.tellp ≤ 0) (bs : Bytes) : ¬ (o.write bs).tellp ≤ 0 := by
  obtain ⟨data, pos, fail, cap⟩ := o
  cases fail with
  | true => rw [write_fail rfl]; exact h
  | false =>
    have hp : 0 < pos := Nat.pos_of_ne_zero (by simpa [OStream.tellp] using h)
    cases cap with
    | none => simp only [OStream.write, OStream.tellp]; simp; omega
    | some c =>
      cases c <;> simp only [OStream.write, OStream.tellp, Bool.false_eq_true, if_false] <;>
      split <;> simp <;> omega

/-- The size of a chunk as computed from the stream positions before and after. -/
def spanOf (o : OStream) (blob : Bytes) : Nat := ((o.write blob).tellp + 2 ^ 64 - o.tellp) % 2 ^ 64

theorem finishChunk_any {b : BaseW} (h : ¬ b.out.tellp ≤ 0) (blob : Bytes) (c : Int) :
    BaseW.finishChunk b.out.tellp c { b with out := b.out.write blob } =
      (if spanOf b.out blob > 2147483647 then .throw .chunkTooLarge
        else .ok (b.out.tellp, ((spanOf b.out blob : Nat) : Int), c), chunkAdded b blob c) := by
  have h' := tellp_write_pos h blob
  rw [finishChunk_eq _ _ { b with out := b.out.write blob } h']
  unfold chunkAdded spanOf
  dsimp only
  generalize ((b.out.write blob).tellp + 2 ^ 64 - b.out.tellp) % 2 ^ 64 = s
  by_cases hs : s > 2147483647
  · rw [Act.bind_throw (Act.throwIf_pos hs _ _), if_pos hs]
  · rw [Act.bind_ok (Act.throwIf_neg hs _ _), if_neg hs]
    rfl

theorem writeChunk_any (L : Lazperf) (h : LasHeader) (bs : Bytes) (count : Int) (compressed : Bool)
    (b : BaseW) :
    ((BaseW.writeChunk L h bs count compressed b).2 = b ∧
      (∀ a, (BaseW.writeChunk L h bs count compressed b).1 ≠ .ok a)) ∨
    ∃ blob c, ChunkOf L h bs count compressed blob c ∧
      BaseW.writeChunk L h bs count compressed b =
        (if spanOf b.out blob > 2147483647 then .throw .chunkTooLarge
          else .ok (b.out.tellp, ((spanOf b.out blob : Nat) : Int), c), chunkAdded b blob c) := by
  unfold BaseW.writeChunk
  by_cases hp : b.out.tellp ≤ 0
  · left
    rw [Act.bind_ok (Act.gets_apply _ _), Act.bind_throw (Act.throwIf_pos hp _ _)]
    exact ⟨rfl, by simp⟩
  rw [Act.bind_ok (Act.gets_apply _ _), Act.bind_ok (Act.throwIf_neg hp _ _)]
  cases compressed with
  | true =>
    right
    refine ⟨bs, count, ⟨fun _ => ⟨rfl, rfl⟩, by simp⟩, ?_⟩
    rw [← finishChunk_any hp bs count]
    rfl
  | false =>
    simp only [Bool.false_eq_true, if_false]
    rcases compressBytes_cases L h bs b with ⟨h1, h2⟩ | ⟨blob, c, h1, h2⟩
    · left
      rcases hr : BaseW.compressBytes L h bs b with ⟨r, b'⟩
      rw [hr] at h1 h2
      cases r with
      | ok a => exact absurd rfl (h2 a)
      | throw e => rw [Act.bind_throw hr]; exact ⟨h1, by simp⟩
      | ub => rw [Act.bind_ub hr]; exact ⟨h1, by simp⟩
    · right
      refine ⟨blob, c, ⟨by simp, h2.raw⟩, ?_⟩
      rw [Act.bind_ok h1]
      exact finishChunk_any hp blob c

/-- The node of an addition that returns. -/
def nodeAt (o : OStream) (key page : VoxelKey) (blob : Bytes) (c : Int) : Node :=
  ⟨⟨key, o.tellp, ((spanOf o blob : Nat) : Int), c⟩, page⟩

theorem doAddNode_any (L : Lazperf) (key : VoxelKey) (bs : Bytes) (count : Int) (compressed : Bool)
    (page : VoxelKey) (w : Writer) :
    ((Writer.doAddNode L key bs count compressed page w).2 = w ∧
      ∀ a, (Writer.doAddNode L key bs count compressed page w).1 ≠ .ok a) ∨
    ∃ blob c, ChunkOf L w.cfg.header bs count compressed blob c ∧
      ((spanOf w.base.out blob > 2147483647 ∧
        Writer.doAddNode L key bs count compressed page w =
          (.throw .chunkTooLarge, { w with base := chunkAdded w.base blob c })) ∨
       (¬ spanOf w.base.out blob > 2147483647 ∧
        Writer.doAddNode L key bs count compressed page w =
          (.ok (nodeAt w.base.out key page blob c),
            nodeAdded w page (nodeAt w.base.out key page blob c) (chunkAdded w.base blob c)))) := by
  unfold Writer.doAddNode
  by_cases h1 : page.isValid = false ∨ key.isValid = false
  · left
    rw [Act.bind_throw (Act.throwIf_pos h1 _ _)]
    exact ⟨rfl, by simp⟩
  · rw [Act.bind_ok (Act.throwIf_neg h1 _ _)]
    by_cases h2 : key.childOf page = false
    · left
      rw [Act.bind_throw (Act.throwIf_pos h2 _ _)]
      exact ⟨rfl, by simp⟩
    · rw [Act.bind_ok (Act.throwIf_neg h2 _ _), Act.bind_ok (Act.gets_apply _ _)]
      rcases writeChunk_any L w.cfg.header bs count compressed w.base with ⟨e1, e2⟩ | ⟨blob, c, hc, e⟩
      · left
        have hz : Writer.onBase (BaseW.writeChunk L w.cfg.header bs count compressed) w =
            ((BaseW.writeChunk L w.cfg.header bs count compressed w.base).1, w) := by
          simp only [Writer.onBase, Act.zoom_apply, e1]
        cases hr : (BaseW.writeChunk L w.cfg.header bs count compressed w.base).1 with
        | ok a => exact absurd hr (e2 a)
        | throw x =>
          rw [hr] at hz
          rw [Act.bind_throw hz]
          exact ⟨rfl, by simp⟩
        | ub =>
          rw [hr] at hz
          rw [Act.bind_ub hz]
          exact ⟨rfl, by simp⟩
      · right
        refine ⟨blob, c, hc, ?_⟩
        have hz : Writer.onBase (BaseW.writeChunk L w.cfg.header bs count compressed) w =
            (if spanOf w.base.out blob > 2147483647 then .throw .chunkTooLarge
              else .ok (w.base.out.tellp, ((spanOf w.base.out blob : Nat) : Int), c),
              { w with base := chunkAdded w.base blob c }) := by
          simp only [Writer.onBase, Act.zoom_apply, e]
        by_cases hl : spanOf w.base.out blob > 2147483647
        · left
          rw [if_pos hl] at hz
          exact ⟨hl, Act.bind_throw hz⟩
        · right
          rw [if_neg hl] at hz
          refine ⟨hl, ?_⟩
          rw [Act.bind_ok hz]
          dsimp only
          rw [Act.bind_ok (Act.modify_apply _ _)]
          have := ensure_add page key (nodeAt w.base.out key page blob c)
            { w with
              base := chunkAdded w.base blob c
              nodes := AList.put key (nodeAt w.base.out key page blob c) w.nodes }
          rw [Act.bind_eq_ok] at this
          obtain ⟨_, w1, e1, e2⟩ := this
          unfold nodeAt at e1 e2
          rw [Act.bind_ok e1, Act.bind_ok e2]
          rfl

/-- The three things an addition can do, whatever the stream: nothing, write a chunk and throw, add a
node. -/
def AddAny (L : Lazperf) (op : Op) (key page : VoxelKey) (w : Writer) (r : Res (Option Node) × Writer) :
    Prop :=
  (r.2 = w ∧ ∀ a, r.1 ≠ .ok a) ∨
  ∃ blob c, op.Stores L w.cfg.header blob c ∧
    ((spanOf w.base.out blob > 2147483647 ∧
        r = (.throw .chunkTooLarge, { w with base := chunkAdded w.base blob c })) ∨
     (¬ spanOf w.base.out blob > 2147483647 ∧
        r = (.ok (some (nodeAt w.base.out key page blob c)),
            nodeAdded w page (nodeAt w.base.out key page blob c) (chunkAdded w.base blob c))))

theorem addAny_of (L : Lazperf) {op : Op} {key page : VoxelKey} {w : Writer} {x : Act Writer Node}
    {compressed : Bool} {bs : Bytes} {count : Int}
    (hx : x w = Writer.doAddNode L key bs count compressed page w)
    (hst : ∀ blob c, ChunkOf L w.cfg.header bs count compressed blob c → op.Stores L w.cfg.header blob c) :
    AddAny L op key page w ((do let n ← x; pure (some n) : Act Writer (Option Node)) w) := by
  rcases doAddNode_any L key bs count compressed page w with ⟨h1, h2⟩ | ⟨blob, c, hc, h⟩
  · left
    rw [← hx] at h1 h2
    rcases hr : x w with ⟨r, w'⟩
    rw [hr] at h1 h2
    simp only at h1
    subst h1
    cases r with
    | ok a => exact absurd rfl (h2 a)
    | throw e => rw [Act.bind_throw hr]; exact ⟨rfl, by simp⟩
    | ub => rw [Act.bind_ub hr]; exact ⟨rfl, by simp⟩
  · right
    refine ⟨blob, c, hst blob c hc, ?_⟩
    rcases h with ⟨h1, h2⟩ | ⟨h1, h2⟩
    · left
      rw [← hx] at h2
      exact ⟨h1, Act.bind_throw h2⟩
    · right
      rw [← hx] at h2
      exact ⟨h1, Act.bind_ok h2⟩

theorem addAny_none (L : Lazperf) {op : Op} {key page : VoxelKey} {w : Writer} {x : Act Writer Node}
    {r : Res Node} (hx : x w = (r, w)) (hr : ∀ a, r ≠ .ok a) :
    AddAny L op key page w ((do let n ← x; pure (some n) : Act Writer (Option Node)) w) := by
  left
  cases r with
  | ok a => exact absurd rfl (hr a)
  | throw e => rw [Act.bind_throw hx]; exact ⟨rfl, by simp⟩
  | ub => rw [Act.bind_ub hx]; exact ⟨rfl, by simp⟩

theorem addNodePoints_reduce (L : Lazperf) (k : VoxelKey) (fmt : Int) (len : Nat) (ps : List Point)
    (p : VoxelKey) (w : Writer) :
    (∃ r, Writer.addNodePoints L k fmt len ps p w = (r, w) ∧ ∀ a, r ≠ .ok a) ∨
    ∃ bs, packPoints ps w.cfg.header.scale w.cfg.header.offset = .ok bs ∧
      Writer.addNodePoints L k fmt len ps p w = Writer.addNode L k bs p w := by
  unfold Writer.addNodePoints
  rw [Act.bind_ok (Act.gets_apply _ _)]
  by_cases h1 : ps = []
  · left; exact ⟨_, Act.bind_throw (Act.throwIf_pos h1 _ _), by simp⟩
  · rw [Act.bind_ok (Act.throwIf_neg h1 _ _)]
    by_cases h2 : fmt ≠ w.cfg.header.fmt ∨ len ≠ w.cfg.header.recLen.toNat
    · left; exact ⟨_, Act.bind_throw (Act.throwIf_pos h2 _ _), by simp⟩
    · rw [Act.bind_ok (Act.throwIf_neg h2 _ _)]
      cases hp : packPoints ps w.cfg.header.scale w.cfg.header.offset with
      | ok bs => right; exact ⟨bs, rfl, Act.bind_ok (Act.lift_apply _ _)⟩
      | throw e => left; exact ⟨_, Act.bind_throw (Act.lift_apply _ _), by simp⟩
      | ub => left; exact ⟨_, Act.bind_ub (Act.lift_apply _ _), by simp⟩

theorem add_any (L : Lazperf) (ord : Order) {op : Op} {key page : VoxelKey}
    (ht : op.target = some (key, page)) (w : Writer) : AddAny L op key page w (op.run L ord w) := by
  cases op with
  | add k bs p =>
    obtain ⟨rfl, rfl⟩ : k = key ∧ p = page := by simpa [Op.target] using ht
    rcases addNode_reduce L k bs p w with ⟨r, h1, h2⟩ | h
    · exact addAny_none L h1 h2
    · exact addAny_of L h (fun blob c hc => chunkOf_records hc)
  | addPoints k fmt len ps p =>
    obtain ⟨rfl, rfl⟩ : k = key ∧ p = page := by simpa [Op.target] using ht
    rcases addNodePoints_reduce L k fmt len ps p w with ⟨r, h1, h2⟩ | ⟨bs, hp, h⟩
    · exact addAny_none L h1 h2
    · rcases addNode_reduce L k bs p w with ⟨r, h1, h2⟩ | h'
      · exact addAny_none L (h.trans h1) h2
      · refine addAny_of L (h.trans h') (fun blob c hc => ?_)
        obtain ⟨eb, recs, g⟩ := chunkOf_records hc
        exact ⟨bs, eb, recs, hp, g⟩
  | addCompressed k bs c p =>
    obtain ⟨rfl, rfl⟩ : k = key ∧ p = page := by simpa [Op.target] using ht
    by_cases h0 : c = 0
    · refine addAny_none L (r := .throw .zeroCount) ?_ (by simp)
      exact Act.bind_throw (Act.throwIf_pos h0 _ _)
    · refine addAny_of L (x := Writer.addNodeCompressed L k bs c p)
        (Act.bind_ok (Act.throwIf_neg h0 _ _)) (fun blob n hc => hc.comp rfl)
  | move => simp [Op.target] at ht
  | close => simp [Op.target] at ht

/-- An acceptable compressed node is always added or too large. -/
theorem addCompressed_any (L : Lazperf) (ord : Order) {key page : VoxelKey} {bs : Bytes} {c : Int} {w : Writer}
    (hk : key.isValid = true) (hp : page.isValid = true) (hb : key.childOf page = true) (hc : c ≠ 0)
    (h0 : ¬ w.base.out.tellp ≤ 0) (hs : ¬ spanOf w.base.out bs > 2147483647) :
    (Op.addCompressed key bs c page).run L ord w = (.ok (some (nodeAt w.base.out key page bs c)),
      nodeAdded w page (nodeAt w.base.out key page bs c) (chunkAdded w.base bs c)) := by
  rcases add_any L ord (op := .addCompressed key bs c page) rfl w with ⟨_, h2⟩ | ⟨blob, n, hst, h⟩
  · exfalso
    have hw : BaseW.writeChunk L w.cfg.header bs c true w.base =
        (.ok (w.base.out.tellp, ((spanOf w.base.out bs : Nat) : Int), c), chunkAdded w.base bs c) := by
      unfold BaseW.writeChunk
      rw [Act.bind_ok (Act.gets_apply _ _), Act.bind_ok (Act.throwIf_neg h0 _ _)]
      have := finishChunk_any h0 bs c
      rw [if_neg hs] at this
      rw [← this]
      rfl
    refine h2 (some (nodeAt w.base.out key page bs c)) ?_
    simp only [Op.run]
    unfold Writer.addNodeCompressed Writer.doAddNode
    have hn1 : ¬ (page.isValid = false ∨ key.isValid = false) := by rw [hk, hp]; simp
    have hn2 : ¬ key.childOf page = false := by rw [hb]; simp
    have hz : Writer.onBase (BaseW.writeChunk L w.cfg.header bs c true) w =
        (.ok (w.base.out.tellp, ((spanOf w.base.out bs : Nat) : Int), c),
          { w with base := chunkAdded w.base bs c }) := by
      simp only [Writer.onBase, Act.zoom_apply, hw]
    have hi : ∃ s', (do
        Act.throwIf (c = 0) .zeroCount
        Act.throwIf (page.isValid = false ∨ key.isValid = false) .invalidKey
        Act.throwIf (key.childOf page = false) .notChild
        let cf ← Act.gets (·.cfg)
        let r ← Writer.onBase (BaseW.writeChunk L cf.header bs c true)
        let n : Node := ⟨⟨key, r.1, r.2.1, r.2.2⟩, page⟩
        Act.modify fun w => { w with nodes := AList.put key n w.nodes }
        Writer.ensurePage page
        Writer.addToPage page key n
        pure n : Act Writer Node) w = (.ok (nodeAt w.base.out key page bs c), s') := by
      rw [Act.bind_ok (Act.throwIf_neg hc _ _), Act.bind_ok (Act.throwIf_neg hn1 _ _),
        Act.bind_ok (Act.throwIf_neg hn2 _ _), Act.bind_ok (Act.gets_apply _ _), Act.bind_ok hz,
        Act.bind_ok (Act.modify_apply _ _)]
      exact ⟨_, rfl⟩
    obtain ⟨s', hi⟩ := hi
    rw [Act.bind_ok hi]
    rfl
  · obtain ⟨rfl, rfl⟩ := hst
    rcases h with ⟨h1, _⟩ | ⟨_, h1⟩
    · exact absurd h1 hs
    · exact h1

end Copc
