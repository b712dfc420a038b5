import Verif.Props.Rewrite
import Verif.Props.Closes
/-! # C99: copying the chunks gives the same file -/
namespace Copc
open Spec OStream

/-- The chunk that `compressBytes` writes, given as compressed data, is written in the same way. -/
theorem writeChunk_copy {L : Lazperf} {h : LasHeader} {bs : Bytes} {b b' : BaseW} {r : Nat × Int × Int}
    (hr : BaseW.writeChunk L h bs 0 false b = (.ok r, b')) :
    ∃ blob, ChunkOf L h bs 0 false blob r.2.2 ∧ BaseW.writeChunk L h blob r.2.2 true b = (.ok r, b') := by
  unfold BaseW.writeChunk at hr ⊢
  rw [Act.bind_ok (Act.gets_apply _ _)] at hr
  by_cases h0 : b.out.tellp ≤ 0
  · rw [Act.bind_throw (Act.throwIf_pos h0 _ _)] at hr
    cases hr
  · rw [Act.bind_ok (Act.throwIf_neg h0 _ _)] at hr
    rw [if_neg (by simp)] at hr
    rcases compressBytes_cases L h bs b with ⟨e1, e2⟩ | ⟨blob, c, e1, e2⟩
    · obtain ⟨a, b1, k1, k2⟩ := Act.bind_eq_ok.1 hr
      exact absurd (by rw [k1]) (e2 a)
    · rw [Act.bind_ok e1] at hr
      have hc : r.2.2 = c := by
        obtain ⟨_, b1, f1, f2⟩ := Act.bind_eq_ok.1 hr
        obtain ⟨_, b2, f3, f4⟩ := Act.bind_eq_ok.1 f2
        obtain ⟨_, b3, f5, f6⟩ := Act.bind_eq_ok.1 f4
        obtain ⟨_, b4, f7, f8⟩ := Act.bind_eq_ok.1 f6
        obtain ⟨_, b5, f9, f10⟩ := Act.bind_eq_ok.1 f8
        have := (Prod.mk.inj f10).1
        obtain rfl := Res.ok.inj this
        rfl
      refine ⟨blob, hc ▸ e2, ?_⟩
      rw [Act.bind_ok (Act.gets_apply _ _), Act.bind_ok (Act.throwIf_neg h0 _ _), if_pos rfl, hc]
      exact hr

theorem doAddNode_copy {L : Lazperf} {key page : VoxelKey} {bs : Bytes} {w w' : Writer} {n : Node}
    (hr : Writer.doAddNode L key bs 0 false page w = (.ok n, w')) :
    n.entry.key = key ∧ n.pageKey = page ∧ ∃ blob, ChunkOf L w.cfg.header bs 0 false blob n.entry.pointCount ∧
      Writer.doAddNode L key blob n.entry.pointCount true page w = (.ok n, w') := by
  unfold Writer.doAddNode at hr ⊢
  obtain ⟨_, w1, a1, a2⟩ := Act.bind_eq_ok.1 hr
  obtain ⟨_, w2, b1, b2⟩ := Act.bind_eq_ok.1 a2
  obtain ⟨c, w3, c1, c2⟩ := Act.bind_eq_ok.1 b2
  obtain ⟨r, w4, d1, d2⟩ := Act.bind_eq_ok.1 c2
  have e1 : w1 = w := by
    by_cases h : page.isValid = false ∨ key.isValid = false
    · rw [Act.throwIf_pos h] at a1; cases a1
    · rw [Act.throwIf_neg h] at a1; cases a1; rfl
  subst e1
  have e2 : w2 = w1 := by
    by_cases h : key.childOf page = false
    · rw [Act.throwIf_pos h] at b1; cases b1
    · rw [Act.throwIf_neg h] at b1; cases b1; rfl
  subst e2
  obtain ⟨rfl, rfl⟩ : c = w2.cfg ∧ w3 = w2 := by cases c1; exact ⟨rfl, rfl⟩
  have hn : n.entry.pointCount = r.2.2 ∧ n.entry.key = key ∧ n.pageKey = page := by
    obtain ⟨_, w5, g1, g2⟩ := Act.bind_eq_ok.1 d2
    obtain ⟨_, w6, g3, g4⟩ := Act.bind_eq_ok.1 g2
    obtain ⟨_, w7, g5, g6⟩ := Act.bind_eq_ok.1 g4
    obtain rfl := Res.ok.inj (Prod.mk.inj g6).1
    exact ⟨rfl, rfl, rfl⟩
  obtain ⟨hn, hk, hp⟩ := hn
  obtain ⟨b4, hb, rfl⟩ : ∃ b4, BaseW.writeChunk L w3.cfg.header bs 0 false w3.base = (.ok r, b4) ∧ w4 = { w3 with base := b4 } := by
    unfold Writer.onBase at d1
    rw [Act.zoom_apply] at d1
    rcases hx : BaseW.writeChunk L w3.cfg.header bs 0 false w3.base with ⟨q, b4⟩
    rw [hx] at d1
    cases d1
    exact ⟨b4, rfl, rfl⟩
  obtain ⟨blob, k1, k2⟩ := writeChunk_copy hb
  refine ⟨hk, hp, blob, hn ▸ k1, ?_⟩
  rw [Act.bind_ok a1, Act.bind_ok b1, Act.bind_ok c1, hn]
  have hob : Writer.onBase (BaseW.writeChunk L w3.cfg.header blob r.2.2 true) w3 = (.ok r, { w3 with base := b4 }) := by
    unfold Writer.onBase
    rw [Act.zoom_apply, k2]
  rw [Act.bind_ok hob]
  exact d2

/-- An addition that returned a node and the addition of its chunk do the same. -/
theorem op_copy {L : Lazperf} {ord : Order} {op : Op} {w w' : Writer} {n : Node} (hc : op ≠ .close)
    (hr : op.run L ord w = (.ok (some n), w')) (hpos : n.entry.pointCount ≠ 0)
    (hraw : ∀ k bs c p, op ≠ .addCompressed k bs c p) :
    ∃ blob, op.Stores L w.cfg.header blob n.entry.pointCount ∧
      (Op.addCompressed n.entry.key blob n.entry.pointCount n.pageKey).run L ord w = (.ok (some n), w') := by
  have fin : ∀ {k p : VoxelKey} {bs : Bytes}, Writer.addNode L k bs p w = (.ok n, w') →
      ∃ blob, (Op.add k bs p).Stores L w.cfg.header blob n.entry.pointCount ∧
        (Op.addCompressed n.entry.key blob n.entry.pointCount n.pageKey).run L ord w = (.ok (some n), w') := by
    intro k p bs h
    rcases addNode_reduce L k bs p w with ⟨r, e1, e2⟩ | e
    · rw [e1] at h
      exact absurd (Prod.mk.inj h).1 (e2 _)
    · rw [e] at h
      obtain ⟨rfl, rfl, blob, h1, h2⟩ := doAddNode_copy h
      obtain ⟨eb, recs, r1, r2, r3, r4, r5⟩ := chunkOf_records h1
      refine ⟨blob, ⟨eb, recs, r1, r2, r3, r4, r5⟩, ?_⟩
      show (do
        let n ← Writer.addNodeCompressed L n.entry.key blob n.entry.pointCount n.pageKey
        pure (some n) : Act Writer (Option Node)) w = _
      have h3 : Writer.addNodeCompressed L n.entry.key blob n.entry.pointCount n.pageKey w = (.ok n, w') := by
        unfold Writer.addNodeCompressed
        rw [Act.bind_ok (Act.throwIf_neg hpos _ _)]
        exact h2
      rw [Act.bind_ok h3]
      rfl
  cases op with
  | add k bs p =>
    obtain ⟨m, w1, h1, h2⟩ := Act.bind_eq_ok.1 hr
    cases h2
    exact fin h1
  | addPoints k fmt len ps p =>
    obtain ⟨m, w1, h1, h2⟩ := Act.bind_eq_ok.1 hr
    cases h2
    rcases addNodePoints_reduce L k fmt len ps p w with ⟨r, e1, e2⟩ | ⟨bs, e1, e2⟩
    · rw [e1] at h1
      exact absurd (Prod.mk.inj h1).1 (e2 _)
    · rw [e2] at h1
      obtain ⟨blob, ⟨eb, recs, r1, r2, r3, r4, r5⟩, h3⟩ := fin h1
      exact ⟨blob, ⟨bs, eb, recs, e1, r1, r2, r3, r4, r5⟩, h3⟩
  | addCompressed k bs c p =>
    exact absurd rfl (hraw k bs c p)
  | move k p =>
    obtain ⟨m, w1, h1, h2⟩ := Act.bind_eq_ok.1 hr
    cases h2
  | close => exact absurd rfl hc

/-- A call that returned a node, as the addition of the chunk that the file has for this node. -/
def copied (data : Bytes) : Op × Res (Option Node) → Op × Res (Option Node)
  | (_, .ok (some n)) =>
    (.addCompressed n.entry.key (slice data n.entry.offset n.entry.byteSize.toNat) n.entry.pointCount n.pageKey, .ok (some n))
  | x => x

theorem history_copied {L : Lazperf} {ord : Order} {w0 w : Writer} {h : List (Op × Res (Option Node))} {data : Bytes}
    (hh : History L ord w0 h w) (hu : Unclosed h) (hpos : 0 < w0.cfg.header.recLen.toNat)
    {otpd : Nat} (ho : Writer.offsetToPointData w0.cfg = .ok otpd) (hb0 : BInv (otpd + 8) w0.base [])
    (hs : ∀ op n, (op, Res.ok (some n)) ∈ h → NodeStored L w0.cfg.header data op n ∧ n.entry.pointCount ≠ 0) :
    History L ord w0 (h.map (copied data)) w := by
  induction hh with
  | start => exact .start
  | @edit h w c' hh he ih =>
    exact .edit (ih hu hs) he
  | @call h w op hh hub ih =>
    have hu1 : Unclosed h := fun x hx => hu x (List.mem_append_left _ hx)
    obtain ⟨_, hi⟩ := wInv_history ho hb0 hh hu1
    have i1 := ih (fun x hx => hu x (List.mem_append_left _ hx)) fun op n hn => hs op n (List.mem_append_left _ hn)
    have hcl : op ≠ .close := hu _ (List.mem_append_right _ (List.mem_singleton.2 rfl))
    rw [List.map_append, List.map_cons, List.map_nil]
    rcases hx : op.run L ord w with ⟨r, w'⟩
    have hsame : copied data (op, r) = (op, r) → History L ord w0 (h.map (copied data) ++ [copied data (op, r)]) w' := by
      intro e
      have := History.call op i1 hub
      rw [hx] at this
      rw [e]
      exact this
    rcases r with (_ | n) | e | _
    · exact hsame rfl
    · obtain ⟨⟨ht, blob, s1, s2, _, s3⟩, hp⟩ := hs op n (List.mem_append_right _ (List.mem_singleton.2 (by rw [hx])))
      have hlen : n.entry.byteSize.toNat = blob.length := by rw [s2]; simp
      by_cases hraw : ∃ k bs c p, op = .addCompressed k bs c p
      · obtain ⟨k, bs, c, p, rfl⟩ := hraw
        obtain ⟨rfl, rfl⟩ : blob = bs ∧ _ = c := s1
        obtain ⟨rfl, rfl⟩ := Prod.mk.inj (Option.some.inj ht)
        refine hsame ?_
        unfold copied
        dsimp only
        rw [hlen, s3]
      · obtain ⟨blob', t1, t2⟩ := op_copy hcl hx hp fun k bs c p e => hraw ⟨k, bs, c, p, e⟩
        have hb := (stores_det hpos s1 ((hi.edit.stores L op blob' _).1 t1)).1
        subst hb
        have hcop : copied data (op, .ok (some n)) =
            (Op.addCompressed n.entry.key blob n.entry.pointCount n.pageKey, .ok (some n)) := by
          unfold copied
          dsimp only
          rw [hlen, s3]
        have := History.call (.addCompressed n.entry.key blob n.entry.pointCount n.pageKey) i1 (by rw [t2]; simp)
        rw [t2] at this
        rw [hcop]
        exact this
    · exact hsame rfl
    · exact hsame rfl

theorem addedNodes_copied (data : Bytes) (h : List (Op × Res (Option Node))) :
    addedNodes (h.map (copied data)) = addedNodes h := by
  unfold addedNodes
  rw [List.filterMap_map]
  congr 1
  funext ⟨op, r⟩
  rcases r with (_ | n) | e | _ <;> rfl

theorem movedTo_copied (data : Bytes) (h : List (Op × Res (Option Node))) (k : VoxelKey) :
    (movedTo (h.map (copied data)) k).length ≤ (movedTo h k).length := by
  induction h with
  | nil => exact Nat.le_refl _
  | cons x h ih =>
    unfold movedTo at *
    obtain ⟨op, r⟩ := x
    rw [List.map_cons]
    rcases r with (_ | n) | e | _
    · cases op <;> simp only [copied, List.filterMap_cons] <;> (try split) <;> simpa using ih
    · refine Nat.le_trans ?_ ((List.sublist_cons_self _ h).filterMap _).length_le
      simpa [copied, List.filterMap_cons] using ih
    · cases op <;> simpa [copied, List.filterMap_cons] using ih
    · cases op <;> simpa [copied, List.filterMap_cons] using ih

/-- The additions of the chunks that a file has, instead of the additions that wrote it, write the same file. -/
theorem Written.copied {L : Lazperf} {ord : Order} {w0 w : Writer} {h : List (Op × Res (Option Node))} {data : Bytes}
    (hw : Written L ord w0 w h data) : Written L ord w0 w (h.map (copied data)) data where
  made := hw.made
  history := by
    obtain ⟨c, o, hm⟩ := hw.made
    obtain ⟨otpd, g1, g2⟩ := bInv_of_make hm
    refine history_copied hw.history hw.unclosed hw.recLen_pos g1 g2 fun op n hn => ?_
    obtain ⟨k1, _, k2⟩ := hw.node hn
    have := (hw.counted n k1).2.1
    exact ⟨k2, by omega⟩
  unclosed := by
    intro x hx
    obtain ⟨⟨op, r⟩, hy, rfl⟩ := List.mem_map.1 hx
    rcases r with (_ | n) | e | _
    · exact hw.unclosed _ hy
    · exact fun e => nomatch e
    · exact hw.unclosed _ hy
    · exact hw.unclosed _ hy
  closed := hw.closed
  distinct := by unfold DistinctKeys; rw [addedNodes_copied]; exact hw.distinct
  once := fun k => Nat.le_trans (movedTo_copied data h k) (hw.once k)
  counted := by unfold Counted; rw [addedNodes_copied]; exact hw.counted
  storable := hw.storable
  size := hw.size
  few := hw.few

/-- The same file also if every addition is of the chunk that the file has for the node: reading the chunks, and giving
them to a writer with the configuration of the reader. -/
theorem C99_chunks {L : Lazperf} {ord : Order} {w0 w : Writer} {h : List (Op × Res (Option Node))} {data : Bytes}
    (hw : Written L ord w0 w h data) {r : Reader} (hr : Reader.init ⟨data, 0, false⟩ = .ok r) :
    ∃ v0 v v', Writer.make OStream.fresh r.cfg {} = .ok v0 ∧ History L ord v0 (h.map (Copc.copied data)) v ∧ v.cfg = v0.cfg ∧
      Writer.close L ord v = (.ok (), v') ∧ v'.base.out.data = data :=
  C99_again hw.copied hr

/-- The hypotheses are met, with three additions and a move: a program that copies the chunks. -/
example : ∃ r v0 v v', Reader.init ⟨(Writer.close Sample.L Sample.ord Sample.w).2.base.out.data, 0, false⟩ = .ok r ∧
    Writer.make OStream.fresh r.cfg {} = .ok v0 ∧
    History Sample.L Sample.ord v0 (Sample.hist.map (copied (Writer.close Sample.L Sample.ord Sample.w).2.base.out.data)) v ∧
    Writer.close Sample.L Sample.ord v = (.ok (), v') ∧
    v'.base.out.data = (Writer.close Sample.L Sample.ord Sample.w).2.base.out.data ∧ (addedNodes Sample.hist).length = 3 := by
  obtain ⟨r, hr, _⟩ := C33_opens sample_written
  obtain ⟨v0, v, v', h1, h2, _, h3, h4⟩ := C99_chunks sample_written hr
  exact ⟨r, v0, v, v', hr, h1, h2, h3, h4, by rw [sample_added]; rfl⟩

end Copc
