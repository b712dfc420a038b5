import Verif.Spec.Filter
import Verif.Props.Recompress
/-! # C68, C69: filtering the points of a file -/
namespace Copc
open Spec VoxelKey

/-! ### Adding points that were read -/

/-- The records and the points they hold. -/
abbrev Holds (hd : LasHeader) : List Bytes → List Point → Prop :=
  List.Forall₂ (fun x p => Point.unpack hd.fmt hd.scale hd.offset (hd.recLen.toNat - lasBaseSize hd.fmt) x = .ok (p, []))

theorem forall₂_filter {α β : Type} {R : α → β → Prop} (keep : β → Bool) :
    ∀ {l : List α} {x : List β}, List.Forall₂ R l x → ∃ l', l'.Sublist l ∧ List.Forall₂ R l' (x.filter keep) := by
  intro l x h
  induction h with
  | nil => exact ⟨[], .slnil, .nil⟩
  | @cons a b l x h1 _ ih =>
    obtain ⟨l', h2, h3⟩ := ih
    by_cases hk : keep b = true
    · refine ⟨a :: l', h2.cons_cons a, ?_⟩
      rw [List.filter_cons_of_pos hk]
      exact .cons h1 h3
    · exact ⟨l', h2.cons a, by rw [List.filter_cons_of_neg hk]; exact h3⟩

/-- What reading a record says of the point. -/
theorem holds_point {hd : LasHeader} (hf : hd.fmt = 6 ∨ hd.fmt = 7 ∨ hd.fmt = 8)
    (hl : lasBaseSize hd.fmt ≤ hd.recLen.toNat)
    (g1 : GoodScale hd.scale.x hd.offset.x) (g2 : GoodScale hd.scale.y hd.offset.y) (g3 : GoodScale hd.scale.z hd.offset.z)
    {recs : List Bytes} {ps : List Point} (h : Holds hd recs ps) (hrec : ∀ x ∈ recs, x.length = hd.recLen.toNat) :
    (∀ p ∈ ps, p.fmt = hd.fmt ∧ p.recLen = hd.recLen.toNat) ∧ packPoints ps hd.scale hd.offset = .ok recs.flatten := by
  obtain ⟨_, _, c3⟩ := ebSize_consistent hf hl
  have hbl : baseSize hd.fmt + (hd.recLen.toNat - lasBaseSize hd.fmt) = hd.recLen.toNat := c3
  have key : (∀ p ∈ ps, p.fmt = hd.fmt ∧ p.recLen = hd.recLen.toNat) ∧
      Res.mapL (fun p => Point.pack p hd.scale hd.offset) ps = .ok recs := by
    induction h with
    | nil => exact ⟨by simp, rfl⟩
    | @cons x p recs ps h1 _ ih =>
      obtain ⟨i1, i2⟩ := ih fun y hy => hrec y (by simp [hy])
      obtain ⟨p', u1, u2, u3, u4⟩ := unpack_record hf hd.scale hd.offset
        (eb := hd.recLen.toNat - lasBaseSize hd.fmt) (bs := x) (by rw [hbl]; exact hrec x (by simp))
      have := u1 []
      rw [List.append_nil, h1] at this
      injection this with this
      injection this with this
      subst this
      refine ⟨?_, ?_⟩
      · intro q hq
        rcases List.mem_cons.1 hq with rfl | hq
        · exact ⟨u2, u3.trans hbl⟩
        · exact i1 q hq
      · unfold Res.mapL
        rw [u4 g1 g2 g3, Res.okBind, i2]
        rfl
  refine ⟨key.1, ?_⟩
  unfold packPoints
  rw [key.2, Res.okBind]

/-- `AddNode` of more than 2^31 - 1 bytes does not return. -/
theorem addNode_small {L : Lazperf} {v v' : Writer} {bs : Bytes} {key page : VoxelKey} {n : Node}
    (hf : v.cfg.header.fmt = 6 ∨ v.cfg.header.fmt = 7 ∨ v.cfg.header.fmt = 8)
    (hb : lasBaseSize v.cfg.header.fmt ≤ v.cfg.header.recLen.toNat)
    (h : Writer.addNode L key bs page v = (.ok n, v')) : bs.length ≤ 2147483647 := by
  by_contra hbig
  obtain ⟨e1, e2, e3⟩ := ebSize_consistent hf hb
  have hpos : 0 < lasBaseSize v.cfg.header.fmt := by unfold lasBaseSize; split <;> [decide; split <;> decide]
  unfold Writer.addNode at h
  obtain ⟨_, _, h1, h⟩ := Act.bind_eq_ok.1 h
  injection h1 with h1 h1'
  injection h1 with h1
  subst h1 h1'
  obtain ⟨_, _, h1, h⟩ := Act.bind_eq_ok.1 h
  rw [Act.throwIf_apply] at h1
  split at h1
  · cases h1
  injection h1 with _ h1
  subst h1
  split at h
  · cases h
  obtain ⟨_, _, h1, h⟩ := Act.bind_eq_ok.1 h
  rw [Act.throwIf_apply] at h1
  split at h1
  · cases h1
  injection h1 with _ h1
  subst h1
  unfold Writer.doAddNode at h
  obtain ⟨_, _, h1, h⟩ := Act.bind_eq_ok.1 h
  rw [Act.throwIf_apply] at h1
  split at h1
  · cases h1
  injection h1 with _ h1
  subst h1
  obtain ⟨_, _, h1, h⟩ := Act.bind_eq_ok.1 h
  rw [Act.throwIf_apply] at h1
  split at h1
  · cases h1
  injection h1 with _ h1
  subst h1
  obtain ⟨_, _, h1, h⟩ := Act.bind_eq_ok.1 h
  injection h1 with h1 h1'
  injection h1 with h1
  subst h1 h1'
  obtain ⟨x, s, h1, h⟩ := Act.bind_eq_ok.1 h
  unfold Writer.onBase at h1
  rw [Act.zoom_apply] at h1
  injection h1 with h1 _
  have h1 : BaseW.writeChunk L v.cfg.header bs 0 false v.base = (.ok x, (BaseW.writeChunk L v.cfg.header bs 0 false v.base).2) :=
    Prod.ext h1 rfl
  unfold BaseW.writeChunk at h1
  obtain ⟨_, _, _, h1⟩ := Act.bind_eq_ok.1 h1
  obtain ⟨_, _, _, h1⟩ := Act.bind_eq_ok.1 h1
  simp only [Bool.false_eq_true, if_false] at h1
  obtain ⟨_, _, h2, _⟩ := Act.bind_eq_ok.1 h1
  unfold BaseW.compressBytes at h2
  rw [Act.bind_ok (by rw [Act.lift_apply, e1]), Act.bind_ok (by rw [Act.lift_apply, e2]), if_neg (by omega)] at h2
  obtain ⟨_, _, _, h2⟩ := Act.bind_eq_ok.1 h2
  obtain ⟨_, _, h3, _⟩ := Act.bind_eq_ok.1 h2
  rw [Act.throwIf_pos (by omega)] at h3
  cases h3

/-- Adding points that were read with the format, scale and offset of the writer is adding their records
compressed. -/
theorem addPoints_blob {L : Lazperf} {ord : Order} {hd : LasHeader} {v v' : Writer} {recs : List Bytes} {ps : List Point}
    {key page : VoxelKey} {a : Option Node} {eb : Nat} (hf : hd.fmt = 6 ∨ hd.fmt = 7 ∨ hd.fmt = 8)
    (hl : lasBaseSize hd.fmt ≤ hd.recLen.toNat)
    (g1 : GoodScale hd.scale.x hd.offset.x) (g2 : GoodScale hd.scale.y hd.offset.y) (g3 : GoodScale hd.scale.z hd.offset.z)
    (h : Holds hd recs ps) (hrec : ∀ x ∈ recs, x.length = hd.recLen.toNat) (hne : ps ≠ []) (he : hd.ebSize = .ok eb)
    (v1 : v.cfg.header.fmt = hd.fmt) (v2 : v.cfg.header.recLen = hd.recLen) (v3 : v.cfg.header.scale = hd.scale)
    (v4 : v.cfg.header.offset = hd.offset)
    (hrun : (Op.addPoints key hd.fmt hd.recLen.toNat ps page).run L ord v = (.ok a, v')) :
    (Op.addCompressed key (L.compress hd.fmt eb recs) recs.length page).run L ord v = (.ok a, v') := by
  obtain ⟨_, hpack⟩ := holds_point hf hl g1 g2 g3 h hrec
  have hpos : 0 < lasBaseSize hd.fmt := by unfold lasBaseSize; split <;> [decide; split <;> decide]
  have hlen : recs.flatten.length = recs.length * hd.recLen.toNat := by
    rw [List.length_flatten, List.map_congr_left hrec, List.map_const', List.sum_replicate_nat]
  have hne2 : 0 < recs.length := by
    rw [h.length_eq]; exact List.length_pos_iff.2 hne
  have hadd : Writer.addNodePoints L key hd.fmt hd.recLen.toNat ps page v = Writer.addNode L key recs.flatten page v := by
    unfold Writer.addNodePoints
    rw [Act.bind_ok (Act.gets_apply _ _), Act.bind_ok (Act.throwIf_neg hne _ _),
      Act.bind_ok (Act.throwIf_neg (by rw [v1, v2]; simp) _ _), Act.bind_ok (by rw [Act.lift_apply, v3, v4, hpack])]
  have hrun2 : (do let n ← Writer.addNodePoints L key hd.fmt hd.recLen.toNat ps page; pure (some n) : Act Writer (Option Node)) v
      = (.ok a, v') := hrun
  obtain ⟨n, s, k1, k2⟩ := Act.bind_eq_ok.1 hrun2
  rw [hadd] at k1
  have hsm := addNode_small (L := L) (by rw [v1]; exact hf) (by rw [v1, v2]; exact hl) k1
  have hve : v.cfg.header.ebSize = .ok eb := by rw [← he]; unfold LasHeader.ebSize; rw [v1, v2]
  have hcomp := compress_records L (hd := v.cfg.header) (by rw [v1]; exact hf) (by rw [v1, v2]; exact hl) hve
    (by rw [v2]; exact hrec) hsm
  have hflat : recs.flatten ≠ [] := by
    intro h0
    have := congrArg List.length h0
    rw [hlen] at this
    have h2 : 0 < recs.length * hd.recLen.toNat := Nat.mul_pos hne2 (by omega)
    simp only [List.length_nil] at this
    omega
  have hsame := C56_same_as_add L (w := v) (n := recs.length) (by rw [v1]; exact hf) (by rw [v1, v2]; exact hl)
    (by rw [v2]; exact hlen) hflat hcomp key page
  show (do let n ← Writer.addNodeCompressed L key (L.compress hd.fmt eb recs) recs.length page; pure (some n) : Act Writer (Option Node)) v = _
  rw [v1] at hsame
  rw [Act.bind_ok (hsame.trans k1)]
  exact k2

/-! ### Loops that add some records of each node -/

/-- Values chosen for the nodes of a list with distinct keys, as a function of the key. -/
theorem by_key {α : Type} [Inhabited α] {P : Node → α → Prop} {ns : List Node} (hk : (ns.map (·.entry.key)).Nodup)
    (h : ∀ n ∈ ns, ∃ a, P n a) : ∃ f : VoxelKey → α, ∀ n ∈ ns, P n (f n.entry.key) := by
  classical
  refine ⟨fun k => if hx : ∃ n ∈ ns, n.entry.key = k then Classical.choose (h _ (Classical.choose_spec hx).1) else default, ?_⟩
  intro n hn
  have hx : ∃ m ∈ ns, m.entry.key = n.entry.key := ⟨n, hn, rfl⟩
  beta_reduce
  rw [dif_pos hx]
  have e : Classical.choose hx = n := List.inj_on_of_nodup_map hk (Classical.choose_spec hx).1 hn (Classical.choose_spec hx).2
  have := Classical.choose_spec (h _ (Classical.choose_spec hx).1)
  generalize Classical.choose (h _ (Classical.choose_spec hx).1) = a at this
  rwa [e] at this

/-- The node with fewer points. -/
def cutTo (out : VoxelKey → List Bytes) (n : Node) : Node := ⟨{ n.entry with pointCount := (out n.entry.key).length }, n.pageKey⟩

section
variable {L : Lazperf} {ord ord' : Order} {w0 w : Writer} {h : List (Op × Res (Option Node))} {data : Bytes}
  {r r1 r2 : Reader} {q : List Query} {rord : ROrder} {all : List Node}
  {c : CopcConfig} {o : Writer.Overrides} {v0 : Writer}

/-- Adding a node leaves the configuration. -/
theorem addCompressed_cfg (key : VoxelKey) (bs : Bytes) (k : Int) (page : VoxelKey) :
    Keeps (fun w : Writer => w.cfg) ((Op.addCompressed key bs k page).run L ord) := by
  show Keeps _ (do let n ← Writer.addNodeCompressed L key bs k page; pure (some n) : Act Writer (Option Node))
  refine keeps_bind ?_ fun _ => keeps_pure _
  unfold Writer.addNodeCompressed Writer.doAddNode
  refine keeps_bind keeps_throwIf fun _ => keeps_bind keeps_throwIf fun _ => keeps_bind keeps_throwIf fun _ =>
    keeps_bind (keeps_gets _) fun _ => keeps_bind (keeps_onBase_cfg _) fun _ => keeps_bind (keeps_modify fun _ => rfl) fun _ =>
    keeps_bind ?_ fun _ => keeps_bind ?_ fun _ => keeps_pure _
  · refine keeps_modify fun w => ?_
    split <;> rfl
  · exact keeps_modify fun _ => rfl

/-- What a step of such a loop does to a reader of the file and a writer of the same format. -/
def Thins (L : Lazperf) (ord : Order) (hd : LasHeader) (eb : Nat) (data : Bytes) (out : VoxelKey → List Bytes)
    (step : Node → Act Copier Unit) (n : Node) : Prop :=
  ∀ (r r' : Reader) (v v' : Writer), r.h.str.data = data → r.h.str.fail = false → r.cfg.header = hd →
    v.cfg.header.fmt = hd.fmt → v.cfg.header.recLen = hd.recLen → v.cfg.header.scale = hd.scale →
    v.cfg.header.offset = hd.offset → step n (r, v) = (.ok (), (r', v')) →
    r'.h.str.data = data ∧ r'.h.str.fail = false ∧ r'.cfg.header = hd ∧
    (out n.entry.key = [] ∧ v' = v ∨ out n.entry.key ≠ [] ∧ ∃ node,
      (blobOp (fun n => L.compress hd.fmt eb (out n.entry.key)) (cutTo out n)).run L ord v = (.ok (some node), v'))

theorem thin_run {hd : LasHeader} {eb : Nat} {out : VoxelKey → List Bytes} {step : Node → Act Copier Unit}
    (hm : Writer.make OStream.fresh c o = .ok v0)
    (e1 : v0.cfg.header.fmt = hd.fmt) (e2 : v0.cfg.header.recLen = hd.recLen) (e3 : v0.cfg.header.scale = hd.scale)
    (e4 : v0.cfg.header.offset = hd.offset) :
    ∀ (ns : List Node), (∀ n ∈ ns, Thins L ord hd eb data out step n) →
    ∀ (r r' : Reader) (v v' : Writer) (h : List (Op × Res (Option Node))), r.h.str.data = data → r.h.str.fail = false →
    r.cfg.header = hd → History L ord v0 h v → Unclosed h → Act.forEach step ns (r, v) = (.ok (), (r', v')) →
    ∃ t, History L ord v0 (h ++ t) v' ∧
      t.map (·.1) = ((ns.filter fun n => out n.entry.key ≠ []).map (cutTo out)).map
        (blobOp fun n => L.compress hd.fmt eb (out n.entry.key)) ∧
      (∀ x ∈ t, ∃ node, x.2 = .ok (some node)) ∧ v'.cfg = v.cfg
  | [], _, r, r', v, v', h, _, _, _, hh, _, hrun => by
    injection hrun with _ hrun
    injection hrun with _ hrun
    subst hrun
    exact ⟨[], by simpa using hh, rfl, by simp, rfl⟩
  | n :: ns, hn, r, r', v, v', h, a1, a2, a3, hh, hu, hrun => by
    obtain ⟨otpd, ho, hb⟩ := bInv_of_make hm
    obtain ⟨log, hi⟩ := wInv_history ho hb hh hu
    obtain ⟨_, ⟨r1, v1⟩, h1, h2⟩ := Act.bind_eq_ok.1 (show (do step n; Act.forEach step ns) (r, v) = _ from hrun)
    obtain ⟨b1, b2, b3, b4⟩ := hn n (by simp) r r1 v v1 a1 a2 a3 (hi.edit.fmt.trans e1) (hi.edit.recLen.trans e2)
      (hi.edit.scale.trans e3) (hi.edit.offset.trans e4) h1
    rcases b4 with ⟨b4, rfl⟩ | ⟨b4, node, b5⟩
    · obtain ⟨t, c1, c2, c3, c4⟩ := thin_run hm e1 e2 e3 e4 ns (fun m hm => hn m (by simp [hm])) r1 r' v1 v' h b1 b2 b3 hh hu h2
      refine ⟨t, c1, ?_, c3, c4⟩
      rw [List.filter_cons_of_neg (by simp [b4])]
      exact c2
    · have hcall := History.call (blobOp (fun n => L.compress hd.fmt eb (out n.entry.key)) (cutTo out n)) hh
        (by rw [b5]; simp)
      rw [b5] at hcall
      have hu2 : Unclosed (h ++ [(blobOp (fun n => L.compress hd.fmt eb (out n.entry.key)) (cutTo out n),
          Res.ok (some node))]) := by
        intro x hx
        rcases List.mem_append.1 hx with hx | hx
        · exact hu x hx
        · rw [List.mem_singleton.1 hx]; simp [blobOp]
      obtain ⟨t, c1, c2, c3, c4⟩ := thin_run hm e1 e2 e3 e4 ns (fun m hm => hn m (by simp [hm])) r1 r' v1 v' _ b1 b2 b3
        hcall hu2 h2
      refine ⟨_ :: t, by rw [List.append_assoc] at c1; exact c1, ?_, ?_, c4.trans ?_⟩
      · rw [List.filter_cons_of_pos (by simp [b4]), List.map_cons, List.map_cons, List.map_cons, c2]
      · intro x hx
        rcases List.mem_cons.1 hx with rfl | hx
        · exact ⟨_, rfl⟩
        · exact c3 x hx
      · have := addCompressed_cfg (L := L) (ord := ord) n.entry.key (L.compress hd.fmt eb (out n.entry.key))
          (out n.entry.key).length n.pageKey v
        rw [show (Op.addCompressed n.entry.key (L.compress hd.fmt eb (out n.entry.key)) (out n.entry.key).length
          n.pageKey).run L ord v = _ from b5] at this
        exact this

/-- The points of a node that is not there. -/
theorem absent_points (hw : Written L ord w0 w h data) (hr : Reader.init ⟨data, 0, false⟩ = .ok r) (ha : Asked L r q r1)
    {key : VoxelKey} (hk : ∀ n ∈ addedNodes h, n.entry.key ≠ key) :
    ∃ r3, Run.Ends (fun k => Reader.getPointsAt L k key) r1 (.ok [], r3) := by
  obtain ⟨ps, g1, hi, g2, _, k1, k2, _⟩ := hw.asked hr ha
  obtain ⟨m, r3, he, _, hs, hA⟩ := (findNode_gives g1 hi key).ends
  have : m = Node.empty := by
    rcases hA with ⟨hm, he⟩ | ⟨_, he⟩
    · obtain ⟨n', hn', rfl⟩ := (g2 m).1 hm
      exact absurd he (hk n' hn')
    · exact he
  subst this
  obtain ⟨c1, c2⟩ := hw.header_consistent
  rw [← k1] at c1 c2
  rw [← k2] at c2
  obtain ⟨e1, e2, _⟩ := ebSize_consistent c1 c2
  have hfin : ∀ r' : Reader, r'.cfg = r1.cfg → (r'.cfg.header.ebSize.bind fun eb => (Coll.make r'.cfg.header.fmt eb).bind fun _ =>
      (.ok [] : Res (List Point))) = .ok [] := by
    intro r' hc
    rw [hc, e1, Res.okBind]
    unfold Coll.make
    rw [if_neg (by rcases c1 with e | e | e <;> rw [e] <;> omega), e2]
    rfl
  have hdat : ∃ r4, r4.cfg = r1.cfg ∧ Run.Ends (fun k => Reader.getPointDataAt L k key) r1 (.ok [], r4) := by
    by_cases hv : key.isValid = false
    · refine ⟨r1, rfl, 0, fun k _ => ?_⟩
      show Reader.getPointDataAt L k key r1 = _
      unfold Reader.getPointDataAt
      rw [if_pos hv]
      rfl
    · refine ⟨r3, hs.2, ?_⟩
      have hb := he.bind (f := fun _ (node : Node) => if node.isValid = false then (pure [] : Run Reader Bytes) else
        Run.ofAct (Reader.getPointData L node)) (r := (.ok [], r3)) ⟨0, fun _ _ => by
          show (if Node.empty.isValid = false then (pure [] : Run Reader Bytes) else
            Run.ofAct (Reader.getPointData L Node.empty)) r3 = _
          rw [if_pos (by decide)]; rfl⟩
      obtain ⟨k0, hk⟩ := hb
      refine ⟨k0, fun k hle => ?_⟩
      rw [← hk k hle]
      have hfun : Reader.getPointDataAt L k key = (Reader.findNode k key >>= fun (node : Node) =>
          if node.isValid = false then (pure [] : Run Reader Bytes) else Run.ofAct (Reader.getPointData L node)) := by
        unfold Reader.getPointDataAt
        rw [if_neg hv]
      exact congrFun hfun r1
  obtain ⟨r4, h4, hd⟩ := hdat
  refine ⟨r4, ?_⟩
  refine hd.bind (f := fun _ d => Run.gets (fun r : Reader => r.cfg.header) >>= fun hd =>
    if d = [] then Run.lift (hd.ebSize.bind fun eb => (Coll.make hd.fmt eb).bind fun _ => .ok [])
    else Run.lift (Reader.unpackWith hd d)) ⟨0, fun _ _ => ?_⟩
  show (if ([] : Bytes) = [] then Run.lift (r4.cfg.header.ebSize.bind fun eb => (Coll.make r4.cfg.header.fmt eb).bind fun _ => .ok [])
    else Run.lift (Reader.unpackWith r4.cfg.header [])) r4 = _
  rw [if_pos rfl, hfin r4 h4]
  rfl

/-- The file such a loop leaves. -/
theorem thin_file_any {hd : LasHeader} (c1 : hd.fmt = 6 ∨ hd.fmt = 7 ∨ hd.fmt = 8) (c2 : lasBaseSize hd.fmt ≤ hd.recLen.toNat)
    (h255 : hd.recLen.toNat ≤ 255) (hdat : r2.h.str.data = data) (hf : r2.h.str.fail = false) (hcfg : r2.cfg.header = hd)
    (hrng : ∀ n ∈ all, n.entry.key.InRange) (hkeys : (all.map (·.entry.key)).Nodup)
    (hm : Writer.make OStream.fresh c o = .ok v0)
    (hfmt : v0.cfg.header.fmt = hd.fmt) (hlen : v0.cfg.header.recLen = hd.recLen)
    (hscale : v0.cfg.header.scale = hd.scale) (hoff : v0.cfg.header.offset = hd.offset)
    {eb : Nat} (heb : hd.ebSize = .ok eb) {out : VoxelKey → List Bytes} {pts : VoxelKey → List Point}
    (hout : ∀ n ∈ all, (∀ x ∈ out n.entry.key, x.length = hd.recLen.toNat) ∧
      (out n.entry.key).length < 2 ^ 31 ∧ Holds hd (out n.entry.key) (pts n.entry.key))
    {step : Node → Act Copier Unit} (hstep : ∀ n ∈ all, Thins L ord' hd eb data out step n)
    {r3 : Reader} {v v' : Writer} (hrun : Act.forEach step all (r2, v0) = (.ok (), (r3, v)))
    (hc : Writer.close L ord' v = (.ok (), v')) (hst : Storable v0.cfg) (hsize : v'.base.out.data.length < 2 ^ 63)
    (hfew : v.pages.length + 1 < 2 ^ 31) :
    (∃ s, Reader.init ⟨v'.base.out.data, 0, false⟩ = .ok s ∧ SameMetadata v0.cfg s.cfg) ∧
    ∀ (s s1 : Reader) (q' : List Query), Reader.init ⟨v'.base.out.data, 0, false⟩ = .ok s → Asked L s q' s1 →
    (∀ n ∈ all, pts n.entry.key ≠ [] → (∃ off size s2, Run.Ends (fun k => Reader.findNode k n.entry.key) s1
        (.ok ⟨⟨n.entry.key, off, size, (pts n.entry.key).length⟩, n.pageKey⟩, s2))) ∧
    (∀ n ∈ all, ∃ s2, Run.Ends (fun k => Reader.getPointsAt L k n.entry.key) s1 (.ok (pts n.entry.key), s2)) ∧
    (∀ key, (∀ n ∈ all, n.entry.key = key → pts key = []) →
      ∃ s2, Run.Ends (fun k => Reader.findNode k key) s1 (.ok Node.empty, s2)) := by
  obtain ⟨t, g2, g3, g4, gcfg⟩ := thin_run (L := L) (ord := ord') hm hfmt hlen hscale hoff all hstep r2 r3 v0 v [] hdat hf
    hcfg .start (by intro x hx; cases hx) hrun
  rw [List.nil_append] at g2
  have hnd : (((all.filter fun n => out n.entry.key ≠ []).map (cutTo out)).map (·.entry.key)).Nodup := by
    rw [List.map_map]
    refine List.Nodup.sublist (List.filter_sublist.map _) ?_
    exact hkeys
  have hpt : ∀ n ∈ all, (out n.entry.key).length = (pts n.entry.key).length := fun n hn => (hout n hn).2.2.length_eq
  have hne : ∀ n ∈ all, out n.entry.key = [] ↔ pts n.entry.key = [] := by
    intro n hn
    rw [← List.length_eq_zero_iff, hpt n hn, List.length_eq_zero_iff]
  obtain ⟨hw', hpg, hent, hmem⟩ := blobs_written hm g2 g3 g4 hnd (fun n hn => by
    obtain ⟨n, hn', rfl⟩ := List.mem_map.1 hn
    obtain ⟨g5, g6⟩ := List.mem_filter.1 hn'
    refine ⟨hrng n g5, ?_, ?_⟩
    · have : 0 < (out n.entry.key).length := List.length_pos_iff.2 (by simpa using g6)
      show (0 : Int) < ((out n.entry.key).length : Int)
      exact_mod_cast this
    · show ((out n.entry.key).length : Int) < 2 ^ 31
      exact_mod_cast (hout n g5).2.1) hc (by rw [gcfg]; exact hst) hsize hfew
  refine ⟨by obtain ⟨s, hs, _⟩ := C33_opens hw'; exact ⟨s, hs, gcfg ▸ hw'.metadata hs⟩, fun s s1 q' hs hq => ?_⟩
  have habs : ∀ key, (∀ n ∈ all, n.entry.key = key → pts key = []) → ∀ m ∈ addedNodes t, m.entry.key ≠ key := by
    intro key hno m hm'
    obtain ⟨n, hn, off, rfl⟩ := hent m hm'
    obtain ⟨n, hn', rfl⟩ := List.mem_map.1 hn
    obtain ⟨g5, g6⟩ := List.mem_filter.1 hn'
    intro he
    have he : n.entry.key = key := he
    have := hno n g5 he
    rw [← he] at this
    exact (by simpa using g6 : out n.entry.key ≠ []) ((hne n g5).2 this)
  have main : ∀ n ∈ all, pts n.entry.key ≠ [] → (∃ off size s2, Run.Ends (fun k => Reader.findNode k n.entry.key) s1
        (.ok ⟨⟨n.entry.key, off, size, (pts n.entry.key).length⟩, n.pageKey⟩, s2)) ∧
      ∃ s2, Run.Ends (fun k => Reader.getPointsAt L k n.entry.key) s1 (.ok (pts n.entry.key), s2) := by
    intro n hn hpn
    have hon : out n.entry.key ≠ [] := fun e => hpn ((hne n hn).1 e)
    obtain ⟨off, hx⟩ := hmem (cutTo out n) (List.mem_map_of_mem (List.mem_filter.2 ⟨hn, by simpa using hon⟩))
    obtain ⟨o1, o2, o3⟩ := hout n hn
    obtain ⟨hmem', _, _, b, hsb, hb1, hb2, hb3⟩ := hw'.node hx
    obtain ⟨s2, f1⟩ := C33_findNode hw' hs hq hmem'
    rw [hpg] at f1
    have hcount : ((cutTo out n).entry.pointCount) = (pts n.entry.key).length := by
      show ((out n.entry.key).length : Int) = _
      rw [hpt n hn]
    rw [hcount] at f1
    refine ⟨⟨off, _, s2, f1⟩, ?_⟩
    obtain ⟨_, _, _, _, _, k1, k2, k3, k4⟩ := hw'.asked hs hq
    have heb' : v0.cfg.header.ebSize = .ok eb := by
      rw [← heb]; unfold LasHeader.ebSize; rw [hfmt, hlen]
    obtain ⟨hsb1, hsb2⟩ := hsb
    obtain ⟨s2, d3, _, d4⟩ := hw'.data_slice (hlen ▸ h255) hs hq hx heb' (hlen ▸ o1) (by
      have e : ∀ b : Bytes, (b.length : Int).toNat = b.length := fun b => by simp
      dsimp only
      rw [e, hfmt]
      rw [hsb1] at hb3
      exact hb3) rfl
    rw [← d4.2] at k1 k2 k3 k4
    obtain ⟨ps', _, p5, p6⟩ := points_of_data (hd := hd) c1 c2 o1 (List.length_pos_iff.2 hon) o2 d3
      (k1.trans hfmt) (k2.trans hlen) (k3.trans hscale) (k4.trans hoff)
    obtain ⟨ps'', u1, u2⟩ := unpack_records c1 c2 o1 o2
    obtain rfl := Res.ok.inj (p5.symm.trans u1)
    obtain rfl : ps' = pts n.entry.key := forall₂_det (fun a b c h1 h2 => by
      rw [h1] at h2; injection h2 with h2; injection h2) u2 o3
    exact ⟨s2, p6⟩
  refine ⟨fun n hn hpn => (main n hn hpn).1, fun n hn => ?_, fun key hno => ?_⟩
  · by_cases hpn : pts n.entry.key = []
    · rw [hpn]
      refine absent_points hw' hs hq (habs _ fun m hm' he => ?_)
      exact hpn
    · exact (main n hn hpn).2
  · obtain ⟨s2, f, _⟩ := C33_findNode_other hw' hs hq (key := key) (habs key hno)
    exact ⟨s2, f⟩

/-- The same for a file of the library. -/
theorem thin_file (hw : Written L ord w0 w h data) (hr : Reader.init ⟨data, 0, false⟩ = .ok r) (ha : Asked L r q r1)
    (hall : Run.Ends (fun k => Reader.getAllNodes rord k) r1 (.ok all, r2)) (h255 : r.cfg.header.recLen.toNat ≤ 255)
    (hm : Writer.make OStream.fresh c o = .ok v0)
    (hfmt : v0.cfg.header.fmt = r.cfg.header.fmt) (hlen : v0.cfg.header.recLen = r.cfg.header.recLen)
    (hscale : v0.cfg.header.scale = r.cfg.header.scale) (hoff : v0.cfg.header.offset = r.cfg.header.offset)
    {eb : Nat} (heb : r.cfg.header.ebSize = .ok eb) {out : VoxelKey → List Bytes} {pts : VoxelKey → List Point}
    (hout : ∀ n ∈ all, (∀ x ∈ out n.entry.key, x.length = r.cfg.header.recLen.toNat) ∧
      (out n.entry.key).length < 2 ^ 31 ∧ Holds r.cfg.header (out n.entry.key) (pts n.entry.key))
    {step : Node → Act Copier Unit} (hstep : ∀ n ∈ all, Thins L ord' r.cfg.header eb data out step n)
    {r3 : Reader} {v v' : Writer} (hrun : Act.forEach step all (r2, v0) = (.ok (), (r3, v)))
    (hc : Writer.close L ord' v = (.ok (), v')) (hst : Storable v0.cfg) (hsize : v'.base.out.data.length < 2 ^ 63)
    (hfew : v.pages.length + 1 < 2 ^ 31) :
    (∃ s, Reader.init ⟨v'.base.out.data, 0, false⟩ = .ok s) ∧
    ∀ (s s1 : Reader) (q' : List Query), Reader.init ⟨v'.base.out.data, 0, false⟩ = .ok s → Asked L s q' s1 →
    (∀ n ∈ all, pts n.entry.key ≠ [] → (∃ off size s2, Run.Ends (fun k => Reader.findNode k n.entry.key) s1
        (.ok ⟨⟨n.entry.key, off, size, (pts n.entry.key).length⟩, n.pageKey⟩, s2))) ∧
    (∀ n ∈ all, ∃ s2, Run.Ends (fun k => Reader.getPointsAt L k n.entry.key) s1 (.ok (pts n.entry.key), s2)) ∧
    (∀ key, (∀ n ∈ all, n.entry.key = key → pts key = []) →
      ∃ s2, Run.Ends (fun k => Reader.findNode k key) s1 (.ok Node.empty, s2)) := by
  obtain ⟨hp, hd, hf⟩ := copy_nodes hw hr ha hall
  have hcfg := nodes_cfg hw hr ha hall
  obtain ⟨c1, c2⟩ := hw.header_consistent
  obtain ⟨_, _, _, _, _, f1, f2, _⟩ := hw.asked hr (Asked.none (L := L))
  rw [← f1] at c1 c2
  rw [← f2] at c2
  obtain ⟨⟨s, h1, _⟩, h2⟩ := thin_file_any c1 c2 h255 hd hf (by rw [hcfg]) (fun n hn => by
    obtain ⟨m, hm, rfl⟩ := List.mem_map.1 (hp.subset hn)
    exact (hw.copyable hm).range) (by
    refine ((hp.map (·.entry.key)).nodup_iff).2 ?_
    rw [List.map_map]
    exact hw.distinct) hm hfmt hlen hscale hoff heb hout hstep hrun hc hst hsize hfew
  exact ⟨⟨s, h1⟩, h2⟩

/-- A successful addition returns a node. -/
theorem addCompressed_some {key page : VoxelKey} {bs : Bytes} {k : Int} {v v' : Writer} {a : Option Node}
    (h : (Op.addCompressed key bs k page).run L ord v = (.ok a, v')) : ∃ node, a = some node := by
  have h : (do let n ← Writer.addNodeCompressed L key bs k page; pure (some n) : Act Writer (Option Node)) v = (.ok a, v') := h
  obtain ⟨node, _, _, hn⟩ := Act.bind_eq_ok.1 h
  injection hn with hn _
  injection hn with hn
  exact ⟨node, hn.symm⟩

/-- A step that filters the node. -/
theorem filter_thins {hd : LasHeader} {eb : Nat} (hsize : data.length < 2 ^ 63) {n : Node} (cn : Copyable data n)
    (hf : hd.fmt = 6 ∨ hd.fmt = 7 ∨ hd.fmt = 8) (hb : lasBaseSize hd.fmt ≤ hd.recLen.toNat) (h255 : hd.recLen.toNat ≤ 255)
    (g1 : GoodScale hd.scale.x hd.offset.x) (g2 : GoodScale hd.scale.y hd.offset.y) (g3 : GoodScale hd.scale.z hd.offset.z)
    (he : hd.ebSize = .ok eb) {recs : List Bytes} {ps : List Point} (hrecs : HoldsRecords L hd data n recs)
    (hps : Holds hd recs ps) {keep : Point → Bool} {out : VoxelKey → List Bytes} (ho : Holds hd (out n.entry.key) (ps.filter keep))
    (hol : ∀ x ∈ out n.entry.key, x.length = hd.recLen.toNat) :
    Thins L ord hd eb data out (filterNode L ord keep) n := by
  intro r r' v v' a1 a2 a3 v1 v2 v3 v4 hrun
  obtain ⟨eb', b1, b2, b3, b4⟩ := hrecs
  obtain rfl := Res.ok.inj (b1.symm.trans he)
  obtain ⟨e1, e2, e3⟩ := ebSize_consistent hf hb
  obtain rfl : eb' = _ := Res.ok.inj (b1.symm.trans e1)
  have k1 := pointData_reads (L := L) a1 a2 hsize cn.valid cn.inside (by rw [a3]; exact e1) (by rw [a3]; exact e2)
    (by rw [a3, e3]; exact h255) (by rw [a3]; exact hf) (recs := recs) (by rw [a3]; exact b3)
    (by rw [a3, e3]; exact b2) b4
  have hcnt := cn.count
  obtain ⟨ps', u1, u2⟩ := unpack_records hf hb b2 (by rw [b4] at hcnt; omega)
  obtain rfl : ps' = ps := forall₂_det (fun a b c h1 h2 => by
      rw [h1] at h2; injection h2 with h2; injection h2) u2 hps
  have k2 : Reader.getPoints L n r = (.ok ps', r.withStr ⟨data, n.entry.offset, false⟩) := by
    unfold Reader.getPoints
    rw [Act.bind_ok k1, Act.bind_ok (Act.gets_apply _ _), Act.lift_apply]
    show (Reader.unpackWith r.cfg.header recs.flatten, _) = _
    rw [a3, u1]
  have k3 : Act.zoom Prod.fst (fun r s => (r, s.2)) (Reader.getPoints L n) ((r, v) : Copier) =
      (.ok ps', (r.withStr ⟨data, n.entry.offset, false⟩, v)) := by
    rw [Act.zoom_apply]; dsimp only; rw [k2]
  unfold filterNode at hrun
  rw [Act.bind_ok k3] at hrun
  obtain ⟨hpf, _⟩ := holds_point hf hb g1 g2 g3 ho hol
  generalize ps'.filter keep = kept at hrun ho hpf
  cases kept with
  | nil =>
    injection hrun with _ hrun
    injection hrun with hrun1 hrun2
    subst hrun1 hrun2
    exact ⟨rfl, rfl, a3, .inl ⟨List.forall₂_nil_right_iff.1 ho, rfl⟩⟩
  | cons p qs =>
    dsimp only at hrun
    obtain ⟨a, ⟨r4, v4'⟩, hrun1, hrun2⟩ := Act.bind_eq_ok.1 hrun
    clear hrun
    have hrun := hrun1
    clear hrun1
    injection hrun2 with _ hrun2
    injection hrun2 with h5 h6
    subst h5 h6
    rw [Act.zoom_apply] at hrun
    dsimp only at hrun
    obtain ⟨p1, p2⟩ := hpf p (by simp)
    rw [p1, p2] at hrun
    have hop : (Op.addPoints n.entry.key hd.fmt hd.recLen.toNat (p :: qs) n.pageKey).run L ord v = (.ok a, v4') := by
      injection hrun with h7 h8
      injection h8 with h9 h10
      exact Prod.ext h7 h10
    have hr4 : r4 = r.withStr ⟨data, n.entry.offset, false⟩ := by
      injection hrun with h7 h8
      injection h8 with h9 h10
      exact h9.symm
    subst hr4
    have hblob := addPoints_blob hf hb g1 g2 g3 ho hol (by simp) e1 v1 v2 v3 v4 hop
    refine ⟨rfl, rfl, a3, .inr ⟨fun e => ?_, ?_⟩⟩
    · rw [e] at ho
      cases ho
    · obtain ⟨node, rfl⟩ := addCompressed_some hblob
      exact ⟨node, hblob⟩

/-- A step that copies the node. -/
theorem copy_thins {hd : LasHeader} {eb : Nat} (hsize : data.length < 2 ^ 63) {n : Node} (cn : Copyable data n)
    (he : hd.ebSize = .ok eb) {out : VoxelKey → List Bytes} (hrecs : HoldsRecords L hd data n (out n.entry.key)) :
    Thins L ord hd eb data out (copyNode L ord) n := by
  intro r r' v v' a1 a2 a3 _ _ _ _ hrun
  obtain ⟨eb', b1, b2, b3, b4⟩ := hrecs
  obtain rfl := Res.ok.inj (b1.symm.trans he)
  have k1 := compressed_reads a1 a2 hsize cn.valid cn.inside
  have k3 : Act.zoom Prod.fst (fun r s => (r, s.2)) (Reader.getPointDataCompressed n) ((r, v) : Copier) =
      (.ok (slice data n.entry.offset n.entry.byteSize.toNat),
        (r.withStr ⟨data, n.entry.offset + n.entry.byteSize.toNat, false⟩, v)) := by
    rw [Act.zoom_apply]; dsimp only; rw [k1]
  unfold copyNode at hrun
  rw [Act.bind_ok k3, b3, b4] at hrun
  obtain ⟨a, ⟨r4, v4'⟩, hrun1, hrun2⟩ := Act.bind_eq_ok.1 hrun
  clear hrun
  have hrun := hrun1
  clear hrun1
  injection hrun2 with _ hrun2
  injection hrun2 with h5 h6
  subst h5 h6
  rw [Act.zoom_apply] at hrun
  dsimp only at hrun
  have hop : (Op.addCompressed n.entry.key (L.compress hd.fmt eb' (out n.entry.key)) (out n.entry.key).length n.pageKey).run L ord v =
      (.ok a, v4') := by
    injection hrun with h7 h8
    injection h8 with h9 h10
    exact Prod.ext h7 h10
  have hr4 : r4 = r.withStr ⟨data, n.entry.offset + n.entry.byteSize.toNat, false⟩ := by
    injection hrun with h7 h8
    injection h8 with h9 h10
    exact h9.symm
  subst hr4
  refine ⟨rfl, rfl, a3, .inr ⟨fun e => ?_, ?_⟩⟩
  · have := cn.count.1
    rw [b4, e] at this
    simp at this
  · obtain ⟨node, rfl⟩ := addCompressed_some hop
    exact ⟨node, hop⟩

/-- The records and the points of the nodes. -/
theorem nodes_hold (hw : Written L ord w0 w h data) (hr : Reader.init ⟨data, 0, false⟩ = .ok r) (ha : Asked L r q r1)
    (hall : Run.Ends (fun k => Reader.getAllNodes rord k) r1 (.ok all, r2)) (h255 : r.cfg.header.recLen.toNat ≤ 255)
    (hrecs : ∀ n ∈ all, ∃ recs, HoldsRecords L r.cfg.header data n recs) :
    ∃ (recs : VoxelKey → List Bytes) (ps : VoxelKey → List Point), ∀ n ∈ all,
      HoldsRecords L r.cfg.header data n (recs n.entry.key) ∧ Holds r.cfg.header (recs n.entry.key) (ps n.entry.key) ∧
      ∃ r4, Run.Ends (fun k => Reader.getPointsAt L k n.entry.key) r1 (.ok (ps n.entry.key), r4) := by
  obtain ⟨hp, _, _⟩ := copy_nodes hw hr ha hall
  have hnd : (all.map (·.entry.key)).Nodup := by
    refine ((hp.map (·.entry.key)).nodup_iff).2 ?_
    rw [List.map_map]
    exact hw.distinct
  obtain ⟨f, hf⟩ := by_key (α := List Bytes × List Point) (P := fun n a => HoldsRecords L r.cfg.header data n a.1 ∧
    Holds r.cfg.header a.1 a.2 ∧ ∃ r4, Run.Ends (fun k => Reader.getPointsAt L k n.entry.key) r1 (.ok a.2, r4)) hnd (by
      intro n hn
      obtain ⟨m, hm, rfl⟩ := List.mem_map.1 (hp.subset hn)
      obtain ⟨recs, hrec⟩ := hrecs _ hn
      obtain ⟨_, _, ps, _, hps, hholds⟩ := hw.node_points hr ha h255 hm hrec
      exact ⟨(recs, ps), hrec, hholds, hps⟩)
  exact ⟨fun k => (f k).1, fun k => (f k).2, hf⟩

/-- Selecting points: whatever the test `keep`, if the loop and `Close` return, then `GetPoints` of every node gives,
from the new file, those points of the original for which the test is true, in their order and unchanged; a node that has such a point is
there with their number and its page, a node without such a point is not there, and no other node is. For nodes
that hold compressed records of at most 255 bytes (C47), a writer of the same format, record length, scale and offset,
and a scale with which reading and storing coordinates gives the integers back (C13). -/
theorem C68_filter (hw : Written L ord w0 w h data) (hr : Reader.init ⟨data, 0, false⟩ = .ok r) (ha : Asked L r q r1)
    (hall : Run.Ends (fun k => Reader.getAllNodes rord k) r1 (.ok all, r2)) (h255 : r.cfg.header.recLen.toNat ≤ 255)
    (hrecs : ∀ n ∈ all, ∃ recs, HoldsRecords L r.cfg.header data n recs)
    (g1 : GoodScale r.cfg.header.scale.x r.cfg.header.offset.x) (g2 : GoodScale r.cfg.header.scale.y r.cfg.header.offset.y)
    (g3 : GoodScale r.cfg.header.scale.z r.cfg.header.offset.z)
    (hm : Writer.make OStream.fresh c o = .ok v0)
    (hfmt : v0.cfg.header.fmt = r.cfg.header.fmt) (hlen : v0.cfg.header.recLen = r.cfg.header.recLen)
    (hscale : v0.cfg.header.scale = r.cfg.header.scale) (hoff : v0.cfg.header.offset = r.cfg.header.offset)
    (keep : Point → Bool) {r3 : Reader} {v v' : Writer} (hrun : filterNodes L ord' keep all (r2, v0) = (.ok (), (r3, v)))
    (hc : Writer.close L ord' v = (.ok (), v')) (hst : Storable v0.cfg) (hsize : v'.base.out.data.length < 2 ^ 63)
    (hfew : v.pages.length + 1 < 2 ^ 31) :
    (∃ s, Reader.init ⟨v'.base.out.data, 0, false⟩ = .ok s) ∧
    ∀ (s s1 : Reader) (q' : List Query), Reader.init ⟨v'.base.out.data, 0, false⟩ = .ok s → Asked L s q' s1 →
    (∀ n ∈ all, ∃ ps r4, Run.Ends (fun k => Reader.getPointsAt L k n.entry.key) r1 (.ok ps, r4) ∧
      (∃ s2, Run.Ends (fun k => Reader.getPointsAt L k n.entry.key) s1 (.ok (ps.filter keep), s2)) ∧
      (ps.filter keep ≠ [] → ∃ off size s2, Run.Ends (fun k => Reader.findNode k n.entry.key) s1
        (.ok ⟨⟨n.entry.key, off, size, (ps.filter keep).length⟩, n.pageKey⟩, s2)) ∧
      (ps.filter keep = [] → ∃ s2, Run.Ends (fun k => Reader.findNode k n.entry.key) s1 (.ok Node.empty, s2))) ∧
    ∀ key, (∀ n ∈ all, n.entry.key ≠ key) → ∃ s2, Run.Ends (fun k => Reader.findNode k key) s1 (.ok Node.empty, s2) := by
  obtain ⟨recs, ps, hh⟩ := nodes_hold hw hr ha hall h255 hrecs
  obtain ⟨hp, _, _⟩ := copy_nodes hw hr ha hall
  obtain ⟨c1, c2⟩ := hw.header_consistent
  obtain ⟨_, _, _, _, _, f1, f2, _⟩ := hw.asked hr (Asked.none (L := L))
  rw [← f1] at c1 c2
  rw [← f2] at c2
  obtain ⟨e1, _, _⟩ := ebSize_consistent c1 c2
  have hcp : ∀ n ∈ all, Copyable data n := by
    intro n hn
    obtain ⟨m, hm, rfl⟩ := List.mem_map.1 (hp.subset hn)
    exact hw.copyable hm
  have hnd : (all.map (·.entry.key)).Nodup := by
    refine ((hp.map (·.entry.key)).nodup_iff).2 ?_
    rw [List.map_map]
    exact hw.distinct
  obtain ⟨out, hout⟩ := by_key (α := List Bytes) (P := fun n a => a.Sublist (recs n.entry.key) ∧
    Holds r.cfg.header a ((ps n.entry.key).filter keep)) hnd (fun n hn => forall₂_filter keep (hh n hn).2.1)
  have hol : ∀ n ∈ all, ∀ x ∈ out n.entry.key, x.length = r.cfg.header.recLen.toNat := by
    intro n hn x hx
    obtain ⟨⟨_, _, b2, _⟩, _⟩ := hh n hn
    exact b2 x ((hout n hn).1.subset hx)
  obtain ⟨hopen, hrest⟩ := thin_file (pts := fun k => (ps k).filter keep) hw hr ha hall h255 hm hfmt hlen hscale hoff e1
    (fun n hn => ⟨hol n hn, by
      obtain ⟨⟨_, _, _, _, b4⟩, _⟩ := hh n hn
      have h3 := (hcp n hn).count.2
      have := (hout n hn).1.length_le
      rw [b4] at h3
      omega, (hout n hn).2⟩)
    (fun n hn => filter_thins (L := L) (ord := ord') hw.size (hcp n hn) c1 c2 h255 g1 g2 g3 e1 (hh n hn).1 (hh n hn).2.1
      (hout n hn).2 (hol n hn)) hrun hc hst hsize hfew
  refine ⟨hopen, fun s s1 q' hs hq => ?_⟩
  obtain ⟨t1, t2, t3⟩ := hrest s s1 q' hs hq
  refine ⟨fun n hn => ?_, fun key hno => t3 key fun n hn he => absurd he (hno n hn)⟩
  obtain ⟨r4, h4⟩ := (hh n hn).2.2
  exact ⟨ps n.entry.key, r4, h4, t2 n hn, t1 n hn, fun he => t3 _ fun m _ _ => he⟩

/-- Trimming a file to a box (`BoundsTrimFileExample`): when the points of every node lie in its box, `GetPoints` of every
node gives, from the new file, the points of the original that lie in the box of the trim, and only nodes that have
such a point are there. -/
theorem C69_trim_partial (hw : Written L ord w0 w h data) (hr : Reader.init ⟨data, 0, false⟩ = .ok r) (ha : Asked L r q r1)
    (hall : Run.Ends (fun k => Reader.getAllNodes rord k) r1 (.ok all, r2)) (h255 : r.cfg.header.recLen.toNat ≤ 255)
    (hrecs : ∀ n ∈ all, ∃ recs, HoldsRecords L r.cfg.header data n recs)
    (g1 : GoodScale r.cfg.header.scale.x r.cfg.header.offset.x) (g2 : GoodScale r.cfg.header.scale.y r.cfg.header.offset.y)
    (g3 : GoodScale r.cfg.header.scale.z r.cfg.header.offset.z)
    (hbox : ∀ n ∈ all, ∀ ps r4, Run.Ends (fun k => Reader.getPointsAt L k n.entry.key) r1 (.ok ps, r4) →
      ∀ p ∈ ps, Lies (boxOf r n) p)
    (hm : Writer.make OStream.fresh c o = .ok v0)
    (hfmt : v0.cfg.header.fmt = r.cfg.header.fmt) (hlen : v0.cfg.header.recLen = r.cfg.header.recLen)
    (hscale : v0.cfg.header.scale = r.cfg.header.scale) (hoff : v0.cfg.header.offset = r.cfg.header.offset)
    (box : Box Dbl) {r3 : Reader} {v v' : Writer}
    (hrun : trimNodes L ord' r.cfg.header box all (r2, v0) = (.ok (), (r3, v)))
    (hc : Writer.close L ord' v = (.ok (), v')) (hst : Storable v0.cfg) (hsize : v'.base.out.data.length < 2 ^ 63)
    (hfew : v.pages.length + 1 < 2 ^ 31) :
    (∃ s, Reader.init ⟨v'.base.out.data, 0, false⟩ = .ok s) ∧
    ∀ (s s1 : Reader) (q' : List Query), Reader.init ⟨v'.base.out.data, 0, false⟩ = .ok s → Asked L s q' s1 →
    (∀ n ∈ all, ∃ ps r4, Run.Ends (fun k => Reader.getPointsAt L k n.entry.key) r1 (.ok ps, r4) ∧
      (∃ s2, Run.Ends (fun k => Reader.getPointsAt L k n.entry.key) s1 (.ok (Spec.within box ps), s2)) ∧
      (Spec.within box ps ≠ [] → ∃ off size s2, Run.Ends (fun k => Reader.findNode k n.entry.key) s1
        (.ok ⟨⟨n.entry.key, off, size, (Spec.within box ps).length⟩, n.pageKey⟩, s2)) ∧
      (Spec.within box ps = [] → ∃ s2, Run.Ends (fun k => Reader.findNode k n.entry.key) s1 (.ok Node.empty, s2))) ∧
    ∀ key, (∀ n ∈ all, n.entry.key ≠ key) → ∃ s2, Run.Ends (fun k => Reader.findNode k key) s1 (.ok Node.empty, s2) := by
  obtain ⟨recs, ps, hh⟩ := nodes_hold hw hr ha hall h255 hrecs
  obtain ⟨hp, _, _⟩ := copy_nodes hw hr ha hall
  obtain ⟨c1, c2⟩ := hw.header_consistent
  obtain ⟨_, _, _, _, _, f1, f2, _⟩ := hw.asked hr (Asked.none (L := L))
  rw [← f1] at c1 c2
  rw [← f2] at c2
  obtain ⟨e1, _, _⟩ := ebSize_consistent c1 c2
  have hcp : ∀ n ∈ all, Copyable data n := by
    intro n hn
    obtain ⟨m, hm, rfl⟩ := List.mem_map.1 (hp.subset hn)
    exact hw.copyable hm
  have hnd : (all.map (·.entry.key)).Nodup := by
    refine ((hp.map (·.entry.key)).nodup_iff).2 ?_
    rw [List.map_map]
    exact hw.distinct
  have hlies : ∀ n ∈ all, ∀ p ∈ ps n.entry.key, Lies (boxOf r n) p := by
    intro n hn
    obtain ⟨r4, h4⟩ := (hh n hn).2.2
    exact hbox n hn _ r4 h4
  obtain ⟨out, hout⟩ := by_key (α := List Bytes) (P := fun n a => a.Sublist (recs n.entry.key) ∧
    Holds r.cfg.header a (Spec.within box (ps n.entry.key)) ∧
    (Spec.within box (ps n.entry.key) = ps n.entry.key → a = recs n.entry.key)) hnd (fun n hn => by
      by_cases he : Spec.within box (ps n.entry.key) = ps n.entry.key
      · exact ⟨recs n.entry.key, List.Sublist.refl _, by rw [he]; exact (hh n hn).2.1, fun _ => rfl⟩
      · obtain ⟨a, a1, a2⟩ := forall₂_filter (fun p => p.within box) (hh n hn).2.1
        exact ⟨a, a1, by rw [← filter_within]; exact a2, fun e => absurd e he⟩)
  have hol : ∀ n ∈ all, ∀ x ∈ out n.entry.key, x.length = r.cfg.header.recLen.toNat := by
    intro n hn x hx
    obtain ⟨⟨_, _, b2, _⟩, _⟩ := hh n hn
    exact b2 x ((hout n hn).1.subset hx)
  obtain ⟨hopen, hrest⟩ := thin_file (pts := fun k => Spec.within box (ps k)) hw hr ha hall h255 hm hfmt hlen hscale hoff e1
    (fun n hn => ⟨hol n hn, by
      obtain ⟨⟨_, _, _, _, b4⟩, _⟩ := hh n hn
      have h3 := (hcp n hn).count.2
      have := (hout n hn).1.length_le
      rw [b4] at h3
      omega, (hout n hn).2.1⟩)
    (fun n hn => by
      intro ra rb va vb
      unfold trimNode
      by_cases hwi : n.entry.key.within r.cfg.header.min r.cfg.header.max box = true
      · simp only [hwi, if_true]
        have hbw := (boxWithin_iff r n box).1 hwi
        have hsame := within_all fun p hp => (hlies n hn p hp).mono hbw
        refine copy_thins (L := L) (ord := ord') hw.size (hcp n hn) e1 ?_ ra rb va vb
        rw [(hout n hn).2.2 hsame]
        exact (hh n hn).1
      · simp only [hwi]
        by_cases him : n.entry.key.intersects r.cfg.header.min r.cfg.header.max box = true
        · simp only [him, if_true]
          exact filter_thins (L := L) (ord := ord') hw.size (hcp n hn) c1 c2 h255 g1 g2 g3 e1 (hh n hn).1 (hh n hn).2.1
            (by rw [filter_within]; exact (hout n hn).2.1) (hol n hn) ra rb va vb
        · simp only [him]
          have hnone : Spec.within box (ps n.entry.key) = [] := within_none fun p hp hl =>
            him ((boxMeets_iff r n box).2 ((hlies n hn p hp).meets hl))
          have hno : out n.entry.key = [] := by
            have := (hout n hn).2.1
            rw [hnone] at this
            exact List.forall₂_nil_right_iff.1 this
          intro a1 a2 a3 _ _ _ _ hrun
          injection hrun with _ hrun
          injection hrun with h1 h2
          subst h1 h2
          exact ⟨a1, a2, a3, .inl ⟨hno, rfl⟩⟩) hrun hc hst hsize hfew
  refine ⟨hopen, fun s s1 q' hs hq => ?_⟩
  obtain ⟨t1, t2, t3⟩ := hrest s s1 q' hs hq
  refine ⟨fun n hn => ?_, fun key hno => t3 key fun n hn he => absurd he (hno n hn)⟩
  obtain ⟨r4, h4⟩ := (hh n hn).2.2
  exact ⟨ps n.entry.key, r4, h4, t2 n hn, t1 n hn, fun he => t3 _ fun m _ _ => he⟩

end

end Copc
