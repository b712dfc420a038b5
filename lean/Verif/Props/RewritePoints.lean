import Verif.Props.RewriteChunks
import Verif.Props.Accept
import Verif.Props.ToLaz
/-! # C99: other additions of the same data give the same file -/
namespace Copc
open Spec OStream

/-- The calls, with `f n` for the call that returned the node `n`. -/
def replaced (f : Node → Op) : Op × Res (Option Node) → Op × Res (Option Node)
  | (_, .ok (some n)) => (f n, .ok (some n))
  | x => x

/-- `op` is an addition of the data that the file `data` has for the node `n`: for the same key and page, as compressed data, as
records or as points. -/
structure SameAddition (L : Lazperf) (hd : LasHeader) (data : Bytes) (n : Node) (op : Op) : Prop where
  target : op.target = some (n.entry.key, n.pageKey)
  stores : op.Stores L hd (slice data n.entry.offset n.entry.byteSize.toNat) n.entry.pointCount
  fits : op.Fits hd n.entry.pointCount

theorem publicEdit_fits {c c' : CopcConfig} (h : PublicEdit c c') (n : Int) (op : Op) :
    op.Fits c'.header n ↔ op.Fits c.header n := by
  cases op <;> simp only [Op.Fits, h.fmt, h.recLen]

/-- The addition of a chunk that returned, and another addition of the same data. -/
theorem op_swap {L : Lazperf} {ord : Order} {w w' : Writer} {otpd : Nat} {log : List (Nat × Bytes)} {n : Node} {blob : Bytes}
    {op : Op} (hi : BInv (otpd + 8) w.base log) (hf : w.cfg.header.fmt = 6 ∨ w.cfg.header.fmt = 7 ∨ w.cfg.header.fmt = 8)
    (hb : lasBaseSize w.cfg.header.fmt ≤ w.cfg.header.recLen.toNat) (hl : blob.length < 2 ^ 63)
    (hr : (Op.addCompressed n.entry.key blob n.entry.pointCount n.pageKey).run L ord w = (.ok (some n), w'))
    (ht : op.target = some (n.entry.key, n.pageKey)) (hs : op.Stores L w.cfg.header blob n.entry.pointCount)
    (hfit : op.Fits w.cfg.header n.entry.pointCount) : op.run L ord w = (.ok (some n), w') := by
  obtain ⟨m, w1, h1, h2⟩ := Act.bind_eq_ok.1 hr
  have h1' := h1
  unfold Writer.addNodeCompressed at h1'
  have h0 : n.entry.pointCount ≠ 0 := by
    intro h
    rw [Act.bind_throw (Act.throwIf_pos h _ _)] at h1'
    cases h1'
  rw [Act.bind_ok (Act.throwIf_neg h0 _ _)] at h1'
  rcases doAddNode_cases L n.entry.key blob n.entry.pointCount true n.pageKey hi (by omega) with ⟨_, e⟩ | ⟨b, c, hc, k1, k2, k3, e⟩
  · exact absurd (by rw [h1']) (e m)
  · obtain ⟨rfl, rfl⟩ := hc.comp rfl
    rcases e with ⟨_, e⟩ | ⟨e2, e⟩
    · rw [e] at h1'; cases h1'
    · have g : ∀ op : Op, op.target = some (n.entry.key, n.pageKey) → op.Stores L w.cfg.header b n.entry.pointCount →
          op.Fits w.cfg.header n.entry.pointCount → GoodAdd L w.cfg.header op n.entry.key n.pageKey b n.entry.pointCount :=
        fun op a1 a2 a3 => ⟨a1, (VoxelKey.isValid_iff _).1 k1, (VoxelKey.isValid_iff _).1 k2, ((VoxelKey.childOf_iff _ _).1 k3).2, a2, h0, a3, by omega⟩
      have hd := hi.out
      have hpos : 0 < w.base.out.data.length := by rw [hd.data]; simp
      have hho : w.base.out.Holds w.base.out.data := by rw [hd.data]; exact hd
      have r1 := accept_any (L := L) (ord := ord) hho hpos hf hb (g op ht hs hfit)
      have r2 := accept_any (L := L) (ord := ord) hho hpos hf hb (g (.addCompressed n.entry.key b n.entry.pointCount n.pageKey) rfl ⟨rfl, rfl⟩ trivial)
      rw [r1, ← r2, hr]

theorem history_swap {L : Lazperf} {ord : Order} {w0 w : Writer} {h : List (Op × Res (Option Node))} {data : Bytes} {f : Node → Op}
    {otpd : Nat} (hh : History L ord w0 h w) (hu : Unclosed h) (ho : Writer.offsetToPointData w0.cfg = .ok otpd)
    (hb0 : BInv (otpd + 8) w0.base []) (hf : w0.cfg.header.fmt = 6 ∨ w0.cfg.header.fmt = 7 ∨ w0.cfg.header.fmt = 8)
    (hb : lasBaseSize w0.cfg.header.fmt ≤ w0.cfg.header.recLen.toNat) (hsz : data.length < 2 ^ 63)
    (hc : ∀ op n, (op, Res.ok (some n)) ∈ h →
      op = .addCompressed n.entry.key (slice data n.entry.offset n.entry.byteSize.toNat) n.entry.pointCount n.pageKey)
    (hs : ∀ n ∈ addedNodes h, SameAddition L w0.cfg.header data n (f n)) :
    History L ord w0 (h.map (replaced f)) w := by
  induction hh with
  | start => exact .start
  | @edit h w c' hh he ih => exact .edit (ih hu hc hs) he
  | @call h w op hh hub ih =>
    have hu1 : Unclosed h := fun x hx => hu x (List.mem_append_left _ hx)
    obtain ⟨log, hi⟩ := wInv_history ho hb0 hh hu1
    have hmem : ∀ n ∈ addedNodes h, n ∈ addedNodes (h ++ [(op, (op.run L ord w).1)]) := by
      intro n hn
      unfold addedNodes at *
      rw [List.filterMap_append]
      exact List.mem_append_left _ hn
    have i1 := ih hu1 (fun op n hn => hc op n (List.mem_append_left _ hn)) fun n hn => hs n (hmem n hn)
    rw [List.map_append, List.map_cons, List.map_nil]
    rcases hx : op.run L ord w with ⟨r, w'⟩
    have hsame : replaced f (op, r) = (op, r) → History L ord w0 (h.map (replaced f) ++ [replaced f (op, r)]) w' := by
      intro e
      have := History.call op i1 hub
      rw [hx] at this
      rw [e]
      exact this
    rcases r with (_ | n) | e | _
    · exact hsame rfl
    · have hin : (op, Res.ok (some n)) ∈ h ++ [(op, (op.run L ord w).1)] :=
        List.mem_append_right _ (List.mem_singleton.2 (by rw [hx]))
      have hop := hc op n hin
      obtain ⟨s1, s2, s3⟩ := hs n (List.mem_filterMap.2 ⟨_, hin, rfl⟩)
      rw [hop] at hx
      have hsl : (slice data n.entry.offset n.entry.byteSize.toNat).length < 2 ^ 63 := by
        unfold slice
        rw [List.length_take, List.length_drop]
        omega
      have t := op_swap hi.base (by rw [hi.edit.fmt]; exact hf) (by rw [hi.edit.fmt, hi.edit.recLen]; exact hb) hsl hx s1
        ((hi.edit.stores L _ _ _).2 s2) ((publicEdit_fits hi.edit _ _).2 s3)
      have := History.call (f n) i1 (by rw [t]; simp)
      rw [t] at this
      exact this
    · exact hsame rfl
    · exact hsame rfl

theorem replaced_copied (f : Node → Op) (data : Bytes) (h : List (Op × Res (Option Node))) :
    (h.map (copied data)).map (replaced f) = h.map (replaced f) := by
  rw [List.map_map]
  congr 1
  funext ⟨op, r⟩
  rcases r with (_ | n) | e | _ <;> rfl

theorem addedNodes_replaced (f : Node → Op) (h : List (Op × Res (Option Node))) :
    addedNodes (h.map (replaced f)) = addedNodes h := by
  unfold addedNodes
  rw [List.filterMap_map]
  congr 1
  funext ⟨op, r⟩
  rcases r with (_ | n) | e | _ <;> rfl

theorem movedTo_replaced {f : Node → Op} (k : VoxelKey) : ∀ {h : List (Op × Res (Option Node))},
    (∀ n ∈ addedNodes h, (f n).target ≠ none) → (movedTo (h.map (replaced f)) k).length ≤ (movedTo h k).length := by
  intro h
  induction h with
  | nil => exact fun _ => Nat.le_refl _
  | cons x h ih =>
    intro ht
    obtain ⟨op, r⟩ := x
    have ih := ih fun n hn => ht n (by
      unfold addedNodes at *
      rw [List.filterMap_cons]
      split
      · exact hn
      · exact List.mem_cons_of_mem _ hn)
    unfold movedTo at *
    rw [List.map_cons]
    rcases r with (_ | n) | e | _
    · cases op <;> simp only [replaced, List.filterMap_cons] <;> (try split) <;> simpa using ih
    · have hn := ht n (by unfold addedNodes; rw [List.filterMap_cons]; exact List.mem_cons_self)
      refine Nat.le_trans ?_ ((List.sublist_cons_self _ h).filterMap _).length_le
      simp only [replaced, List.filterMap_cons]
      cases hfn : f n with
      | move k p => rw [hfn] at hn; exact absurd rfl hn
      | _ => simpa using ih
    · cases op <;> simpa [replaced, List.filterMap_cons] using ih
    · cases op <;> simpa [replaced, List.filterMap_cons] using ih

/-- Other additions of the same data write the same file. -/
theorem Written.replaced {L : Lazperf} {ord : Order} {w0 w : Writer} {h : List (Op × Res (Option Node))} {data : Bytes}
    (hw : Written L ord w0 w h data) {f : Node → Op} (hs : ∀ n ∈ addedNodes h, SameAddition L w0.cfg.header data n (f n)) :
    Written L ord w0 w (h.map (Copc.replaced f)) data where
  made := hw.made
  history := by
    obtain ⟨c, o, hm⟩ := hw.made
    obtain ⟨otpd, g1, g2⟩ := bInv_of_make hm
    obtain ⟨k1, k2⟩ := hw.header_consistent
    rw [← replaced_copied f data]
    refine history_swap hw.copied.history hw.copied.unclosed g1 g2 k1 k2 hw.size ?_ (by rw [addedNodes_copied]; exact hs)
    intro op n hn
    obtain ⟨⟨op', r⟩, hy, he⟩ := List.mem_map.1 hn
    rcases r with (_ | m) | e | _
    · cases he
    · cases he
      rfl
    · cases he
    · cases he
  unclosed := by
    intro x hx
    obtain ⟨⟨op, r⟩, hy, rfl⟩ := List.mem_map.1 hx
    rcases r with (_ | n) | e | _
    · exact hw.unclosed _ hy
    · have := (hs n (List.mem_filterMap.2 ⟨_, hy, rfl⟩)).target
      intro e
      have e : f n = .close := e
      rw [e] at this
      cases this
    · exact hw.unclosed _ hy
    · exact hw.unclosed _ hy
  closed := hw.closed
  distinct := by unfold DistinctKeys; rw [addedNodes_replaced]; exact hw.distinct
  once := fun k => Nat.le_trans (movedTo_replaced k fun n hn => by rw [(hs n hn).target]; simp) (hw.once k)
  counted := by unfold Counted; rw [addedNodes_replaced]; exact hw.counted
  storable := hw.storable
  size := hw.size
  few := hw.few

theorem SameAddition.congr {L : Lazperf} {a b : LasHeader} {data : Bytes} {n : Node} {op : Op} (h1 : a.fmt = b.fmt)
    (h2 : a.recLen = b.recLen) (h3 : a.scale = b.scale) (h4 : a.offset = b.offset) (h : SameAddition L a data n op) :
    SameAddition L b data n op := by
  have e : a.ebSize = b.ebSize := by unfold LasHeader.ebSize; rw [h1, h2]
  obtain ⟨t, s, f⟩ := h
  cases op <;> simp only [Op.Stores, Op.Fits, e, h1, h2, h3, h4] at s f <;> exact ⟨t, s, f⟩

section
variable {L : Lazperf} {ord : Order} {w0 w : Writer} {h : List (Op × Res (Option Node))} {data : Bytes} {r r1 : Reader}
  {q : List Query}

/-- The same file also if every addition is another one of the data that the file has for the node. -/
theorem C99_additions (hw : Written L ord w0 w h data) (hr : Reader.init ⟨data, 0, false⟩ = .ok r) {f : Node → Op}
    (hs : ∀ n ∈ addedNodes h, SameAddition L r.cfg.header data n (f n)) :
    ∃ v0 v v', Writer.make OStream.fresh r.cfg {} = .ok v0 ∧ History L ord v0 (h.map (replaced f)) v ∧ v.cfg = v0.cfg ∧
      Writer.close L ord v = (.ok (), v') ∧ v'.base.out.data = data := by
  obtain ⟨_, _, _, _, _, f1, f2, f3, f4⟩ := hw.asked hr (Asked.none (L := L))
  exact C99_again (hw.replaced fun n hn => (hs n hn).congr f1 f2 f3 f4) hr

/-- Points read from records pack to the records. -/
theorem pack_unpacked {hd : LasHeader} (hf : hd.fmt = 6 ∨ hd.fmt = 7 ∨ hd.fmt = 8)
    (hl : lasBaseSize hd.fmt ≤ hd.recLen.toNat) (gx : GoodScale hd.scale.x hd.offset.x)
    (gy : GoodScale hd.scale.y hd.offset.y) (gz : GoodScale hd.scale.z hd.offset.z) {recs : List Bytes} {ps : List Point}
    (hrec : ∀ x ∈ recs, x.length = hd.recLen.toNat)
    (hu : List.Forall₂ (fun x p => Point.unpack hd.fmt hd.scale hd.offset (hd.recLen.toNat - lasBaseSize hd.fmt) x =
      .ok (p, [])) recs ps) : packPoints ps hd.scale hd.offset = .ok recs.flatten := by
  have key : Res.mapL (fun p => Point.pack p hd.scale hd.offset) ps = .ok recs := by
    induction hu with
    | nil => rfl
    | @cons x p recs ps hx _ ih =>
      have hbl : baseSize hd.fmt + (hd.recLen.toNat - lasBaseSize hd.fmt) = hd.recLen.toNat := by
        show lasBaseSize hd.fmt + _ = _
        omega
      have hxl := hrec x (by simp)
      obtain ⟨p', rest, e1, e2, _⟩ := C11_record hd.fmt hf hd.scale hd.offset gx gy gz
        (hd.recLen.toNat - lasBaseSize hd.fmt) x (by omega)
      obtain ⟨rfl, _⟩ := Prod.mk.inj (Res.ok.inj (e1.symm.trans hx))
      rw [List.take_of_length_le (by omega)] at e2
      rw [Res.mapL, e2, Res.okBind, ih fun z hz => hrec z (by simp [hz]), Res.okBind]
  unfold packPoints
  rw [key]
  rfl

/-- With points: every node is added with the points that `GetPoints` gives for it. The nodes hold compressed records of at most
255 bytes (true of those added as records or points; for compressed data it depends on the data), at most 2^31 - 1 bytes per node;
the scale and the offset are such that stored coordinates come back exactly (`GoodScale`, see C11). -/
theorem C99_points (hw : Written L ord w0 w h data) (hr : Reader.init ⟨data, 0, false⟩ = .ok r) (ha : Asked L r q r1)
    (h255 : r.cfg.header.recLen.toNat ≤ 255) (gx : GoodScale r.cfg.header.scale.x r.cfg.header.offset.x)
    (gy : GoodScale r.cfg.header.scale.y r.cfg.header.offset.y) (gz : GoodScale r.cfg.header.scale.z r.cfg.header.offset.z)
    (hrecs : ∀ n ∈ addedNodes h, ∃ recs, HoldsRecords L r.cfg.header data n recs)
    (hmax : ∀ n ∈ addedNodes h, n.entry.pointCount * r.cfg.header.recLen.toNat ≤ 2147483647)
    {pts : Node → List Point}
    (hp : ∀ n ∈ addedNodes h, ∃ r2, Run.Ends (fun k => Reader.getPointsAt L k n.entry.key) r1 (.ok (pts n), r2)) :
    ∃ v0 v v', Writer.make OStream.fresh r.cfg {} = .ok v0 ∧
      History L ord v0 (h.map (replaced fun n =>
        .addPoints n.entry.key r.cfg.header.fmt r.cfg.header.recLen.toNat (pts n) n.pageKey)) v ∧ v.cfg = v0.cfg ∧
      Writer.close L ord v = (.ok (), v') ∧ v'.base.out.data = data := by
  obtain ⟨_, _, _, _, _, f1, f2, f3, f4⟩ := hw.asked hr (Asked.none (L := L))
  obtain ⟨c1, c2⟩ := hw.header_consistent
  rw [← f1] at c1 c2
  rw [← f2] at c2
  refine C99_additions hw hr fun n hn => ⟨rfl, ?_, rfl, rfl, hmax n hn⟩
  obtain ⟨recs, hrec⟩ := hrecs n hn
  obtain ⟨_, _, ps, _, ⟨r4, d⟩, u⟩ := hw.node_points hr ha h255 hn (recs := recs) hrec
  obtain ⟨r2, e⟩ := hp n hn
  have : ps = pts n := Res.ok.inj (Prod.mk.inj (d.unique e)).1
  subst this
  obtain ⟨eb, b1, b2, b3, b4⟩ := hrec
  exact ⟨recs.flatten, eb, recs, pack_unpacked c1 c2 gx gy gz b2 u, b1, rfl, b2, b3, b4⟩

/-- With records: every node is added with the bytes that `GetPointData` gives for it; no condition on scale and offset. -/
theorem C99_data (hw : Written L ord w0 w h data) (hr : Reader.init ⟨data, 0, false⟩ = .ok r) (ha : Asked L r q r1)
    (h255 : r.cfg.header.recLen.toNat ≤ 255)
    (hrecs : ∀ n ∈ addedNodes h, ∃ recs, HoldsRecords L r.cfg.header data n recs)
    (hmax : ∀ n ∈ addedNodes h, n.entry.pointCount * r.cfg.header.recLen.toNat ≤ 2147483647)
    {bytes : Node → Bytes}
    (hp : ∀ n ∈ addedNodes h, ∃ r2, Run.Ends (fun k => Reader.getPointDataAt L k n.entry.key) r1 (.ok (bytes n), r2)) :
    ∃ v0 v v', Writer.make OStream.fresh r.cfg {} = .ok v0 ∧
      History L ord v0 (h.map (replaced fun n => .add n.entry.key (bytes n) n.pageKey)) v ∧ v.cfg = v0.cfg ∧
      Writer.close L ord v = (.ok (), v') ∧ v'.base.out.data = data := by
  obtain ⟨_, _, _, _, _, f1, f2, f3, f4⟩ := hw.asked hr (Asked.none (L := L))
  refine C99_additions hw hr fun n hn => ⟨rfl, ?_, hmax n hn⟩
  obtain ⟨recs, eb, b1, b2, b3, b4⟩ := hrecs n hn
  obtain ⟨⟨op, res⟩, hxh, he⟩ := List.mem_filterMap.1 hn
  have hres : res = .ok (some n) := by
    cases res with
    | ok a => exact congrArg Res.ok he
    | throw e => cases he
    | ub => cases he
  subst hres
  have heb : w0.cfg.header.ebSize = .ok eb := by
    rw [← b1]; unfold LasHeader.ebSize; rw [f1, f2]
  obtain ⟨r4, d1, _, _⟩ := hw.data_slice (f2 ▸ h255) hr ha hxh heb (f2 ▸ b2) (f1 ▸ b3) b4
  obtain ⟨r2, e⟩ := hp n hn
  have : recs.flatten = bytes n := Res.ok.inj (Prod.mk.inj (d1.unique e)).1
  exact ⟨eb, recs, b1, this, b2, b3, b4⟩

end
end Copc
