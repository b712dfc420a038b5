import Verif.Props.ToLazAny
import Verif.Props.Filter
/-! # C92: selecting points of files of other programs -/
namespace Copc
open Spec VoxelKey

section
variable {L : Lazperf} {ord : Order} {data : Bytes} {c : CopcConfig} {o : Writer.Overrides} {v0 : Writer}

/-- A step of a loop returns, whatever was added before. -/
def StepReturns (L : Lazperf) (ord : Order) (hd : LasHeader) (data : Bytes) (v0 : Writer) (step : Node → Act Copier Unit)
    (n : Node) : Prop :=
  ∀ (r : Reader) (v : Writer) (h : List (Op × Res (Option Node))), r.h.str.data = data → r.h.str.fail = false → r.cfg.header = hd →
    History L ord v0 h v → Unclosed h → ∃ r' v', step n (r, v) = (.ok (), (r', v'))

theorem thin_returns {hd : LasHeader} {eb : Nat} {out : VoxelKey → List Bytes} {step : Node → Act Copier Unit}
    (hm : Writer.make OStream.fresh c o = .ok v0)
    (e1 : v0.cfg.header.fmt = hd.fmt) (e2 : v0.cfg.header.recLen = hd.recLen) (e3 : v0.cfg.header.scale = hd.scale)
    (e4 : v0.cfg.header.offset = hd.offset) :
    ∀ (ns : List Node), (∀ n ∈ ns, Thins L ord hd eb data out step n ∧ StepReturns L ord hd data v0 step n) →
    ∀ (r : Reader) (v : Writer) (h : List (Op × Res (Option Node))), r.h.str.data = data → r.h.str.fail = false →
    r.cfg.header = hd → History L ord v0 h v → Unclosed h → ∃ r' v', Act.forEach step ns (r, v) = (.ok (), (r', v'))
  | [], _, r, v, _, _, _, _, _, _ => ⟨r, v, rfl⟩
  | n :: ns, hn, r, v, h, a1, a2, a3, hh, hu => by
    obtain ⟨otpd, ho, hb⟩ := bInv_of_make hm
    obtain ⟨log, hi⟩ := wInv_history ho hb hh hu
    obtain ⟨ht, hr⟩ := hn n (by simp)
    obtain ⟨r1, v1, h1⟩ := hr r v h a1 a2 a3 hh hu
    obtain ⟨b1, b2, b3, b4⟩ := ht r r1 v v1 a1 a2 a3 (hi.edit.fmt.trans e1) (hi.edit.recLen.trans e2)
      (hi.edit.scale.trans e3) (hi.edit.offset.trans e4) h1
    have hrest := fun h => thin_returns hm e1 e2 e3 e4 ns (fun m hm => hn m (by simp [hm])) r1 v1 h b1 b2 b3
    have hcons : ∀ x, Act.forEach step ns (r1, v1) = x → Act.forEach step (n :: ns) (r, v) = x := by
      intro x hx
      show (do step n; Act.forEach step ns) (r, v) = _
      rw [Act.bind_ok h1, hx]
    rcases b4 with ⟨b4, rfl⟩ | ⟨b4, node, b5⟩
    · obtain ⟨r', v', hx⟩ := hrest h hh hu
      exact ⟨r', v', hcons _ hx⟩
    · have hcall := History.call (blobOp (fun n => L.compress hd.fmt eb (out n.entry.key)) (cutTo out n)) hh
        (by rw [b5]; simp)
      rw [b5] at hcall
      obtain ⟨r', v', hx⟩ := hrest _ hcall (by
        intro x hx
        rcases List.mem_append.1 hx with hx | hx
        · exact hu x hx
        · rw [List.mem_singleton.1 hx]; simp [blobOp])
      exact ⟨r', v', hcons _ hx⟩

/-- A step that filters the node returns. -/
theorem filter_returns {hd : LasHeader} {eb : Nat} (hsize : data.length < 2 ^ 63) {n : Node} (cn : Copyable data n)
    (hm : Writer.make OStream.fresh c o = .ok v0) (hcons : Consistent v0.cfg)
    (e1 : v0.cfg.header.fmt = hd.fmt) (e2 : v0.cfg.header.recLen = hd.recLen) (e3 : v0.cfg.header.scale = hd.scale)
    (e4 : v0.cfg.header.offset = hd.offset)
    (hf : hd.fmt = 6 ∨ hd.fmt = 7 ∨ hd.fmt = 8) (hb : lasBaseSize hd.fmt ≤ hd.recLen.toNat) (h255 : hd.recLen.toNat ≤ 255)
    (g1 : GoodScale hd.scale.x hd.offset.x) (g2 : GoodScale hd.scale.y hd.offset.y) (g3 : GoodScale hd.scale.z hd.offset.z)
    (he : hd.ebSize = .ok eb) {recs : List Bytes} {ps : List Point} (hrecs : HoldsRecords L hd data n recs)
    (hps : Holds hd recs ps) {keep : Point → Bool} {out : List Bytes} (ho : Holds hd out (ps.filter keep))
    (hol : ∀ x ∈ out, x.length = hd.recLen.toNat) (hraw : out.length * hd.recLen.toNat ≤ 2147483647)
    (hblob : (L.compress hd.fmt eb out).length ≤ 2147483647) :
    StepReturns L ord hd data v0 (filterNode L ord keep) n := by
  intro r v h a1 a2 a3 hh hu
  obtain ⟨eb', b1, b2, b3, b4⟩ := hrecs
  obtain rfl := Res.ok.inj (b1.symm.trans he)
  obtain ⟨e1', e2', e3'⟩ := ebSize_consistent hf hb
  obtain rfl : eb' = _ := Res.ok.inj (b1.symm.trans e1')
  have k1 := pointData_reads (L := L) a1 a2 hsize cn.valid cn.inside (by rw [a3]; exact e1') (by rw [a3]; exact e2')
    (by rw [a3, e3']; exact h255) (by rw [a3]; exact hf) (recs := recs) (by rw [a3]; exact b3)
    (by rw [a3, e3']; exact b2) b4
  have hcnt := cn.count
  obtain ⟨ps', u1, u2⟩ := unpack_records hf hb b2 (by rw [b4] at hcnt; omega)
  obtain rfl : ps' = ps := forall₂_det (fun a b c h1 h2 => by
      rw [h1] at h2; injection h2 with h2; injection h2) u2 hps
  have k2 : Reader.getPoints L n r = (.ok ps', r.withStr ⟨data, n.entry.offset, false⟩) := by
    unfold Reader.getPoints
    rw [Act.bind_ok k1, Act.bind_ok (Act.gets_apply _ _), Act.lift_apply]
    show (Reader.unpackWith r.cfg.header recs.flatten, _) = _
    rw [a3, u1]
  have k3 : Act.zoom Prod.fst (fun r s => (r, s.2)) (Reader.getPoints L n) ((r, v) : Copier) =
      (.ok ps', (r.withStr ⟨data, n.entry.offset, false⟩, v)) := by
    rw [Act.zoom_apply]; dsimp only; rw [k2]
  unfold filterNode
  rw [Act.bind_ok k3]
  obtain ⟨hpf, hpack⟩ := holds_point hf hb g1 g2 g3 ho hol
  generalize ps'.filter keep = kept at ho hpf hpack
  cases kept with
  | nil => exact ⟨_, _, rfl⟩
  | cons p qs =>
    dsimp only
    obtain ⟨p1, p2⟩ := hpf p (by simp)
    obtain ⟨otpd, ho', hb'⟩ := bInv_of_make hm
    obtain ⟨log, hi⟩ := wInv_history ho' hb' hh hu
    have d1 := hi.edit.fmt.trans e1
    have d2 := hi.edit.recLen.trans e2
    have d3 := hi.edit.scale.trans e3
    have d4 := hi.edit.offset.trans e4
    have hlen : out.length = (p :: qs).length := ho.length_eq
    obtain ⟨w', hw', _⟩ := C74_accepted (L := L) (ord := ord) hm hcons hh hu
      (op := Op.addPoints n.entry.key p.fmt p.recLen (p :: qs) n.pageKey) (key := n.entry.key) (page := n.pageKey)
      (blob := L.compress hd.fmt (hd.recLen.toNat - lasBaseSize hd.fmt) out) (n := ((out.length : Nat) : Int))
      ⟨rfl, cn.add.1, cn.add.2.1, cn.add.2.2,
        ⟨out.flatten, hd.recLen.toNat - lasBaseSize hd.fmt, out, by rw [d3, d4]; exact hpack,
          by rw [← e1']; unfold LasHeader.ebSize; rw [d1, d2], rfl, by rw [d2]; exact hol, by rw [d1], rfl⟩,
        by rw [hlen]; simp; omega,
        ⟨by rw [d1, p1], by rw [d2, p2], by rw [d2]; exact_mod_cast hraw⟩, hblob⟩
    refine ⟨r.withStr ⟨data, n.entry.offset, false⟩, w', ?_⟩
    have a : ∃ x, Act.zoom Prod.snd (fun w s => (s.1, w)) ((Op.addPoints n.entry.key p.fmt p.recLen (p :: qs) n.pageKey).run L ord)
        ((r.withStr ⟨data, n.entry.offset, false⟩, v) : Copier) = (.ok x, (r.withStr ⟨data, n.entry.offset, false⟩, w')) := by
      refine ⟨some ⟨⟨n.entry.key, v.base.out.data.length, (L.compress hd.fmt (hd.recLen.toNat - lasBaseSize hd.fmt) out).length,
        ((out.length : Nat) : Int)⟩, n.pageKey⟩, ?_⟩
      rw [Act.zoom_apply]; dsimp only; rw [hw']
    obtain ⟨x, a⟩ := a
    rw [Act.bind_ok a]
    rfl

end

section
variable {L : Lazperf} {ord : Order} {rord : ROrder} {data : Bytes} {ps : List FPage} {r r1 r2 : Reader} {q : List Query}
  {all : List Node}

/-- What `GetAllNodes` leaves of the configuration. -/
theorem all_cfg (hg : GoodHierarchy data ps) (ho : Opened data ps r) (ha : Asked L r q r1)
    (hall : Run.Ends (fun k => Reader.getAllNodes rord k) r1 (.ok all, r2)) : r2.cfg = r.cfg := by
  obtain ⟨hi, hc⟩ := ha.rInv hg (ho.rInv hg)
  obtain ⟨ns, r'', he, _, hs, _⟩ := (allNodes_gives hg hi rord).ends
  have e1 := Run.Ends.unique hall he
  injection e1 with _ e1
  subst e1
  exact hs.2.trans hc.2

/-- A node of the file that can be filtered: its chunk is inside the file and holds at least one record, not more than fit in 2^31 - 1
bytes, and any selection of the records takes at most as many bytes when compressed. -/
def Format.Selectable (L : Lazperf) (data : Bytes) (n : Node) : Prop :=
  n.entry.offset + n.entry.byteSize.toNat ≤ data.length ∧ 0 < n.entry.pointCount ∧
  n.entry.pointCount * Format.num data 2 105 ≤ 2147483647 ∧
  ∃ recs, Format.NodeHas L data n recs ∧ ∀ l, l.Sublist recs → (Format.chunk L data l).length ≤ 2147483647

/-- What a step may use: the node with its records and points in the file, the records that are kept, the writer. -/
structure StepCase (L : Lazperf) (hd : LasHeader) (data : Bytes) (keep : Point → Bool) (v0 : Writer) (n : Node)
    (recs out : List Bytes) (pts : List Point) : Prop where
  consistent : Consistent v0.cfg
  fmt : v0.cfg.header.fmt = hd.fmt
  recLen : v0.cfg.header.recLen = hd.recLen
  scale : v0.cfg.header.scale = hd.scale
  offset : v0.cfg.header.offset = hd.offset
  format : hd.fmt = 6 ∨ hd.fmt = 7 ∨ hd.fmt = 8
  base : lasBaseSize hd.fmt ≤ hd.recLen.toNat
  small : hd.recLen.toNat ≤ 255
  ebSize : hd.ebSize = .ok (hd.recLen.toNat - lasBaseSize hd.fmt)
  node : Copyable data n
  has : Format.NodeHas L data n recs
  records : HoldsRecords L hd data n recs
  points : Holds hd recs pts
  are : List.Forall₂ (Format.PointIs data) recs pts
  kept : Holds hd out (pts.filter keep)
  whole : pts.filter keep = pts → out = recs
  lengths : ∀ x ∈ out, x.length = hd.recLen.toNat
  raw : out.length * hd.recLen.toNat ≤ 2147483647
  blob : (L.compress hd.fmt (hd.recLen.toNat - lasBaseSize hd.fmt) out).length ≤ 2147483647

/-- Any loop that adds the points of each node for which the test is true. -/
theorem select_any (hc : Format.Conforms data) (hs : Format.Suits data) (hg : GoodHierarchy data ps) (ho : Opened data ps r)
    (hr : Format.ReadAs data r.cfg) (ha : Asked L r q r1)
    (hall : Run.Ends (fun k => Reader.getAllNodes rord k) r1 (.ok all, r2)) (hitems : ItemsFit r.cfg)
    (hext : (Format.found data Format.uCopc 10000).isSome = true ∨ Format.ebCount data = 0) (hbounds : BoundsInOrder r.cfg.header)
    (hsel : ∀ n, NodeOf ps n → Format.Selectable L data n) (h255 : Format.num data 2 105 ≤ 255)
    (hfew : all.length < 2 ^ 25) (keep : Point → Bool) (step : Node → Act Copier Unit)
    (hstep : ∀ v0 n recs pts (out : VoxelKey → List Bytes), Writer.make OStream.fresh r.cfg {} = .ok v0 → NodeOf ps n →
      StepCase L r.cfg.header data keep v0 n recs (out n.entry.key) pts →
      Thins L ord r.cfg.header (r.cfg.header.recLen.toNat - lasBaseSize r.cfg.header.fmt) data out step n ∧
      StepReturns L ord r.cfg.header data v0 step n) :
    ∃ v0 r3 v v', Writer.make OStream.fresh r.cfg {} = .ok v0 ∧
      Act.forEach step all (r2, v0) = (.ok (), (r3, v)) ∧ Writer.close L ord v = (.ok (), v') ∧
      (v'.base.out.data.length < 2 ^ 63 → ∃ s, Reader.init ⟨v'.base.out.data, 0, false⟩ = .ok s ∧ SameMetadata r.cfg s.cfg ∧
        ∀ (q' : List Query) (s1 : Reader), Asked L s q' s1 →
          (∀ n, NodeOf ps n → ∃ recs pts, Format.NodeHas L data n recs ∧ List.Forall₂ (Format.PointIs data) recs pts ∧
            (∃ s2, Run.Ends (fun k => Reader.getPointsAt L k n.entry.key) s1 (.ok (pts.filter keep), s2)) ∧
            (pts.filter keep ≠ [] → ∃ off size s2, Run.Ends (fun k => Reader.findNode k n.entry.key) s1
              (.ok ⟨⟨n.entry.key, off, size, (pts.filter keep).length⟩, n.pageKey⟩, s2)) ∧
            (pts.filter keep = [] → ∃ s2, Run.Ends (fun k => Reader.findNode k n.entry.key) s1 (.ok Node.empty, s2))) ∧
          ∀ key, (∀ n, NodeOf ps n → n.entry.key ≠ key) →
            ∃ s2, Run.Ends (fun k => Reader.findNode k key) s1 (.ok Node.empty, s2)) := by
  obtain ⟨hA, hnd, hd, hf⟩ := all_listed hg ho ha hall
  have hcfg2 := all_cfg hg ho ha hall
  have hst := storable_read hc hs hr hitems hext
  obtain ⟨v0, hm, hcfg⟩ := make_storable hst fun f h => (hitems.types f h).1
  have hst0 : Storable v0.cfg := by
    rw [hcfg]
    exact ⟨⟨hst.fmt, hst.len, hst.items, hst.extents⟩, ⟨hst.header.fmt, hst.header.byReturn, hst.header.guid, hst.header.sys,
      hst.header.gen⟩, hst.extentsFmt, hst.ordered, hst.few, hst.descriptors, hst.wktLen⟩
  have hh := hr.header
  have hfm : (Format.num data 1 104 : Int) - 128 = r.cfg.header.fmt := by have := hh.format; omega
  have hf6 := hst.fmt
  have hbase : lasBaseSize r.cfg.header.fmt ≤ r.cfg.header.recLen.toNat := by rw [hst.len]; omega
  obtain ⟨c1, c2, c3⟩ := ebSize_consistent hf6 hbase
  have h255' : r.cfg.header.recLen.toNat ≤ 255 := by rw [hh.record]; exact h255
  obtain ⟨z1, z2, z3, z4⟩ : v0.cfg.header.fmt = r.cfg.header.fmt ∧ v0.cfg.header.recLen = r.cfg.header.recLen ∧
      v0.cfg.header.scale = r.cfg.header.scale ∧ v0.cfg.header.offset = r.cfg.header.offset := by
    rw [hcfg]; exact ⟨rfl, rfl, rfl, rfl⟩
  have hN : ∀ n, n ∈ all ↔ NodeOf ps n := hA.2
  have hcp : ∀ n ∈ all, Copyable data n ∧ InOctree n.pageKey := by
    intro n hn
    obtain ⟨h1, h2, _⟩ := hsel n ((hN n).1 hn)
    exact NodeOf.copyable hg ((hN n).1 hn) h2 h1
  -- the records and points of the nodes
  obtain ⟨f, hfun⟩ := by_key (α := List Bytes × List Point) (P := fun n a => Format.NodeHas L data n a.1 ∧
      (∀ l, l.Sublist a.1 → (Format.chunk L data l).length ≤ 2147483647) ∧
      HoldsRecords L r.cfg.header data n a.1 ∧ Holds r.cfg.header a.1 a.2 ∧ List.Forall₂ (Format.PointIs data) a.1 a.2) hnd (by
    intro n hn
    obtain ⟨_, h2, _, recs, ⟨k1, k2, k3⟩, k4⟩ := hsel n ((hN n).1 hn)
    have hcn := (hcp n hn).1.count.2
    have hrec : ∀ x ∈ recs, x.length = r.cfg.header.recLen.toNat := by rw [hh.record]; exact k2
    obtain ⟨pts, u1, u2⟩ := points_are hh hf6 ⟨hbase, h255'⟩ hrec (by omega)
    obtain ⟨pts', w1, w2⟩ := unpack_records hf6 hbase hrec (by omega)
    obtain rfl := Res.ok.inj (u1.symm.trans w1)
    refine ⟨(recs, pts), ⟨k1, k2, k3⟩, k4, ⟨_, c1, hrec, ?_, k3⟩, w2, u2⟩
    unfold Format.chunk at k1
    rw [hfm, ← hh.record] at k1
    exact k1)
  obtain ⟨out, hout⟩ := by_key (α := List Bytes) (P := fun n a => a.Sublist (f n.entry.key).1 ∧
    Holds r.cfg.header a ((f n.entry.key).2.filter keep) ∧ ((f n.entry.key).2.filter keep = (f n.entry.key).2 → a = (f n.entry.key).1))
    hnd (fun n hn => by
      by_cases he : (f n.entry.key).2.filter keep = (f n.entry.key).2
      · exact ⟨(f n.entry.key).1, List.Sublist.refl _, by rw [he]; exact (hfun n hn).2.2.2.1, fun _ => rfl⟩
      · obtain ⟨a, a1, a2⟩ := forall₂_filter keep (hfun n hn).2.2.2.1
        exact ⟨a, a1, a2, fun e => absurd e he⟩)
  have hol : ∀ n ∈ all, ∀ x ∈ out n.entry.key, x.length = r.cfg.header.recLen.toNat := by
    intro n hn x hx
    obtain ⟨_, _, ⟨_, _, b2, _⟩, _⟩ := hfun n hn
    exact b2 x ((hout n hn).1.subset hx)
  have holen : ∀ n ∈ all, ((out n.entry.key).length : Int) ≤ n.entry.pointCount := by
    intro n hn
    obtain ⟨⟨_, _, k3⟩, _⟩ := hfun n hn
    have := (hout n hn).1.length_le
    omega
  have hboth : ∀ n ∈ all, Thins L ord r.cfg.header (r.cfg.header.recLen.toNat - lasBaseSize r.cfg.header.fmt) data out step n ∧
      StepReturns L ord r.cfg.header data v0 step n := fun n hn => by
    obtain ⟨k5, k0, k1, k2, k3⟩ := hfun n hn
    obtain ⟨_, _, k4, _⟩ := hsel n ((hN n).1 hn)
    refine hstep v0 n (f n.entry.key).1 (f n.entry.key).2 out hm ((hN n).1 hn) ⟨hst0.toConsistent, z1, z2, z3, z4, hf6, hbase, h255',
      c1, (hcp n hn).1, k5, k1, k2, k3, (hout n hn).2.1, (hout n hn).2.2, hol n hn, ?_, ?_⟩
    · have h1 := holen n hn
      rw [← hh.record] at k4
      have h2 : ((out n.entry.key).length : Int) * r.cfg.header.recLen.toNat ≤ n.entry.pointCount * r.cfg.header.recLen.toNat :=
        Int.mul_le_mul_of_nonneg_right h1 (by omega)
      have h3 : ((out n.entry.key).length : Int) * r.cfg.header.recLen.toNat ≤ 2147483647 := Int.le_trans h2 k4
      exact_mod_cast h3
    · have := k0 _ (hout n hn).1
      unfold Format.chunk at this
      rw [hfm, ← hh.record] at this
      exact this
  have hthin := fun n hn => (hboth n hn).1
  obtain ⟨r3, v, hrun⟩ := thin_returns (L := L) (ord := ord) hm z1 z2 z3 z4 all hboth r2 v0 [] hd hf
    (by rw [hcfg2]) .start (by intro x hx; cases hx)
  obtain ⟨t, t1, t2, t3, t4⟩ := thin_run (L := L) (ord := ord) hm z1 z2 z3 z4 all hthin r2 r3 v0 v [] hd hf
    (by rw [hcfg2]) .start (by intro x hx; cases hx) hrun
  rw [List.nil_append] at t1
  have hop : ∀ x ∈ t, ∃ n ∈ all, x.1 = blobOp (fun n => L.compress r.cfg.header.fmt
      (r.cfg.header.recLen.toNat - lasBaseSize r.cfg.header.fmt) (out n.entry.key)) (cutTo out n) := by
    intro x hx
    have : x.1 ∈ t.map (·.1) := List.mem_map_of_mem hx
    rw [t2] at this
    obtain ⟨m, h1, h2⟩ := List.mem_map.1 this
    obtain ⟨n, h3, rfl⟩ := List.mem_map.1 h1
    exact ⟨n, (List.mem_filter.1 h3).1, h2.symm⟩
  have htl : t.length ≤ all.length := by
    have := congrArg List.length t2
    rw [List.length_map, List.length_map, List.length_map] at this
    rw [this]
    exact List.length_filter_le _ _
  obtain ⟨v', hcl⟩ := C79_closes (L := L) (ord := ord) hm hst0.toConsistent hst0.header.byReturn t1 (by
      intro x hx he
      obtain ⟨n, _, h⟩ := hop x hx
      rw [h] at he
      cases he) (by omega) (by
      intro x hx _ p hp
      obtain ⟨n, h1, h2⟩ := hop x hx
      rw [h2] at hp
      obtain rfl : n.pageKey = p := Option.some.inj hp
      exact (hcp n h1).2) (by rw [t4, hcfg]; exact hbounds)
  refine ⟨v0, r3, v, v', hm, hrun, hcl, fun hsize => ?_⟩
  have hbd := bounded_history (pageInv_make hm) (bounded_make hm) t1
  obtain ⟨⟨s, s0, m3⟩, hrest⟩ := thin_file_any (pts := fun k => (f k).2.filter keep) hf6 hbase h255' hd hf (by rw [hcfg2])
    (fun n hn => (hcp n hn).1.range) hnd hm z1 z2 z3 z4 c1 (fun n hn => ⟨hol n hn, by
      have h1 := holen n hn
      have h2 := (hcp n hn).1.count.2
      omega, (hout n hn).2.1⟩) hthin hrun hcl hst0 hsize (by have := hbd.count; omega)
  have hsame : SameMetadata r.cfg s.cfg := by
    rw [hcfg] at m3
    exact ⟨m3.fileSourceId, m3.globalEncoding, m3.creationDay, m3.creationYear, m3.max, m3.min, m3.pointsByReturn, m3.scale,
      m3.offset, m3.fmt, m3.recLen, m3.guid, m3.systemIdentifier, m3.generatingSoftware, m3.center, m3.halfsize, m3.spacing, m3.wkt,
      m3.eb, m3.extFmt, m3.extStats, m3.minmax, m3.stats⟩
  refine ⟨s, s0, hsame, fun q' s1 hq => ?_⟩
  obtain ⟨u1, u2, u3⟩ := hrest s s1 q' s0 hq
  refine ⟨fun n hn => ?_, fun key hno => u3 key fun n hn he => absurd he (hno n ((hN n).1 hn))⟩
  have hn' := (hN n).2 hn
  obtain ⟨k1, _, _, _, k2⟩ := hfun n hn'
  exact ⟨(f n.entry.key).1, (f n.entry.key).2, k1, k2, u2 n hn', u1 n hn', fun he => u3 _ fun m _ _ => he⟩

/-- Selecting points of a file of another program, with the configuration of its reader: the writer is made, no addition is refused,
`Close` returns; the new file has the same metadata, `GetPoints` of every node gives those points of the original for which the test
is true, in their order and unchanged (every attribute as at its position in the record of the original); a node with such a point is
there with its page and their number, a node without is not there, and no other node is. What is asked of the original beyond what
C90 asks: its nodes are `Selectable`, its records have at most 255 bytes, and its scale gives the stored integers back (C13). -/
theorem C92_filter_partial (hc : Format.Conforms data) (hs : Format.Suits data) (hg : GoodHierarchy data ps) (ho : Opened data ps r)
    (hr : Format.ReadAs data r.cfg) (ha : Asked L r q r1)
    (hall : Run.Ends (fun k => Reader.getAllNodes rord k) r1 (.ok all, r2)) (hitems : ItemsFit r.cfg)
    (hext : (Format.found data Format.uCopc 10000).isSome = true ∨ Format.ebCount data = 0) (hbounds : BoundsInOrder r.cfg.header)
    (hsel : ∀ n, NodeOf ps n → Format.Selectable L data n) (h255 : Format.num data 2 105 ≤ 255)
    (g1 : GoodScale r.cfg.header.scale.x r.cfg.header.offset.x) (g2 : GoodScale r.cfg.header.scale.y r.cfg.header.offset.y)
    (g3 : GoodScale r.cfg.header.scale.z r.cfg.header.offset.z)
    (hfew : all.length < 2 ^ 25) (keep : Point → Bool) :
    ∃ v0 r3 v v', Writer.make OStream.fresh r.cfg {} = .ok v0 ∧
      filterNodes L ord keep all (r2, v0) = (.ok (), (r3, v)) ∧ Writer.close L ord v = (.ok (), v') ∧
      (v'.base.out.data.length < 2 ^ 63 → ∃ s, Reader.init ⟨v'.base.out.data, 0, false⟩ = .ok s ∧ SameMetadata r.cfg s.cfg ∧
        ∀ (q' : List Query) (s1 : Reader), Asked L s q' s1 →
          (∀ n, NodeOf ps n → ∃ recs pts, Format.NodeHas L data n recs ∧ List.Forall₂ (Format.PointIs data) recs pts ∧
            (∃ s2, Run.Ends (fun k => Reader.getPointsAt L k n.entry.key) s1 (.ok (pts.filter keep), s2)) ∧
            (pts.filter keep ≠ [] → ∃ off size s2, Run.Ends (fun k => Reader.findNode k n.entry.key) s1
              (.ok ⟨⟨n.entry.key, off, size, (pts.filter keep).length⟩, n.pageKey⟩, s2)) ∧
            (pts.filter keep = [] → ∃ s2, Run.Ends (fun k => Reader.findNode k n.entry.key) s1 (.ok Node.empty, s2))) ∧
          ∀ key, (∀ n, NodeOf ps n → n.entry.key ≠ key) →
            ∃ s2, Run.Ends (fun k => Reader.findNode k key) s1 (.ok Node.empty, s2)) := by
  refine select_any hc hs hg ho hr ha hall hitems hext hbounds hsel h255 hfew keep (filterNode L ord keep) ?_
  intro v0 n recs pts out hm _ t
  exact ⟨filter_thins hc.fits t.node t.format t.base t.small g1 g2 g3 t.ebSize t.records t.points t.kept t.lengths,
    filter_returns hc.fits t.node hm t.consistent t.fmt t.recLen t.scale t.offset t.format t.base t.small g1 g2 g3 t.ebSize t.records
      t.points t.kept t.lengths t.raw t.blob⟩

/-- A step that copies the node returns. -/
theorem copy_returns {hd : LasHeader} (hsize : data.length < 2 ^ 63) {n : Node} (cn : Copyable data n) {c : CopcConfig}
    {o : Writer.Overrides} {v0 : Writer} (hm : Writer.make OStream.fresh c o = .ok v0) :
    StepReturns L ord hd data v0 (copyNode L ord) n := by
  intro r v h a1 a2 _ hh hu
  obtain ⟨r', v', _, g, _⟩ := copy_run (L := L) (ord := ord) hsize hm [n] (fun m hm => by rw [List.mem_singleton.1 hm]; exact cn)
    r v h a1 a2 hh hu
  refine ⟨r', v', ?_⟩
  unfold copyNodes at g
  rw [Act.forEach_cons] at g
  obtain ⟨_, s, g2, g3⟩ := Act.bind_eq_ok.1 g
  rw [g2]
  exact g3

/-- Trimming a file of another program to a box (`BoundsTrimFileExample`, with a check that a point is left): when the points of every
node lie in its box, all calls return, and `GetPoints` of every node gives, from the new file, the points of the original that lie in
the box of the trim; only nodes with such a point are there. -/
theorem C92_trim_partial (hc : Format.Conforms data) (hs : Format.Suits data) (hg : GoodHierarchy data ps) (ho : Opened data ps r)
    (hr : Format.ReadAs data r.cfg) (ha : Asked L r q r1)
    (hall : Run.Ends (fun k => Reader.getAllNodes rord k) r1 (.ok all, r2)) (hitems : ItemsFit r.cfg)
    (hext : (Format.found data Format.uCopc 10000).isSome = true ∨ Format.ebCount data = 0) (hbounds : BoundsInOrder r.cfg.header)
    (hsel : ∀ n, NodeOf ps n → Format.Selectable L data n) (h255 : Format.num data 2 105 ≤ 255)
    (g1 : GoodScale r.cfg.header.scale.x r.cfg.header.offset.x) (g2 : GoodScale r.cfg.header.scale.y r.cfg.header.offset.y)
    (g3 : GoodScale r.cfg.header.scale.z r.cfg.header.offset.z)
    (hfew : all.length < 2 ^ 25)
    (hlies : ∀ n, NodeOf ps n → ∀ recs pts, Format.NodeHas L data n recs → List.Forall₂ (Format.PointIs data) recs pts →
      ∀ p ∈ pts, Lies (boxOf r n) p) (box : Box Dbl) :
    ∃ v0 r3 v v', Writer.make OStream.fresh r.cfg {} = .ok v0 ∧
      trimNodes L ord r.cfg.header box all (r2, v0) = (.ok (), (r3, v)) ∧ Writer.close L ord v = (.ok (), v') ∧
      (v'.base.out.data.length < 2 ^ 63 → ∃ s, Reader.init ⟨v'.base.out.data, 0, false⟩ = .ok s ∧ SameMetadata r.cfg s.cfg ∧
        ∀ (q' : List Query) (s1 : Reader), Asked L s q' s1 →
          (∀ n, NodeOf ps n → ∃ recs pts, Format.NodeHas L data n recs ∧ List.Forall₂ (Format.PointIs data) recs pts ∧
            (∃ s2, Run.Ends (fun k => Reader.getPointsAt L k n.entry.key) s1 (.ok (Spec.within box pts), s2)) ∧
            (Spec.within box pts ≠ [] → ∃ off size s2, Run.Ends (fun k => Reader.findNode k n.entry.key) s1
              (.ok ⟨⟨n.entry.key, off, size, (Spec.within box pts).length⟩, n.pageKey⟩, s2)) ∧
            (Spec.within box pts = [] → ∃ s2, Run.Ends (fun k => Reader.findNode k n.entry.key) s1 (.ok Node.empty, s2))) ∧
          ∀ key, (∀ n, NodeOf ps n → n.entry.key ≠ key) →
            ∃ s2, Run.Ends (fun k => Reader.findNode k key) s1 (.ok Node.empty, s2)) := by
  simp only [← filter_within]
  refine select_any hc hs hg ho hr ha hall hitems hext hbounds hsel h255 hfew (fun p => p.within box) (trimNode L ord r.cfg.header box) ?_
  intro v0 n recs pts out hm hn t
  have hl := hlies n hn recs pts t.has t.are
  by_cases hwi : n.entry.key.within r.cfg.header.min r.cfg.header.max box = true
  · have hsame := within_all fun p hp => (hl p hp).mono ((boxWithin_iff r n box).1 hwi)
    have hstep : trimNode L ord r.cfg.header box n = copyNode L ord n := by unfold trimNode; rw [if_pos hwi]
    have h1 := copy_thins (L := L) (ord := ord) (out := out) hc.fits t.node t.ebSize (by
      rw [t.whole (by rw [filter_within]; exact hsame)]; exact t.records)
    have h2 := copy_returns (L := L) (ord := ord) (hd := r.cfg.header) hc.fits t.node hm
    unfold Thins StepReturns at *
    rw [hstep]
    exact ⟨h1, h2⟩
  · by_cases him : n.entry.key.intersects r.cfg.header.min r.cfg.header.max box = true
    · have hstep : trimNode L ord r.cfg.header box n = filterNode L ord (fun p => p.within box) n := by
        unfold trimNode; rw [if_neg hwi, if_pos him]
      have h1 := filter_thins (L := L) (ord := ord) (out := out) hc.fits t.node t.format t.base t.small g1 g2 g3 t.ebSize t.records
        t.points t.kept t.lengths
      have h2 := filter_returns (L := L) (ord := ord) hc.fits t.node hm t.consistent t.fmt t.recLen t.scale t.offset t.format t.base
        t.small g1 g2 g3 t.ebSize t.records t.points t.kept t.lengths t.raw t.blob
      unfold Thins StepReturns at *
      rw [hstep]
      exact ⟨h1, h2⟩
    · have hstep : trimNode L ord r.cfg.header box n = pure () := by
        unfold trimNode; rw [if_neg hwi, if_neg him]
      have hnone : Spec.within box pts = [] := within_none fun p hp hlp =>
        him ((boxMeets_iff r n box).2 ((hl p hp).meets hlp))
      have hno : out n.entry.key = [] := by
        have := t.kept
        rw [filter_within, hnone] at this
        exact List.forall₂_nil_right_iff.1 this
      unfold Thins StepReturns
      rw [hstep]
      refine ⟨?_, fun r v h _ _ _ _ _ => ⟨r, v, rfl⟩⟩
      intro r r' v v' a1 a2 a3 _ _ _ _ hrun
      injection hrun with _ hrun
      injection hrun with h1 h2
      subst h1 h2
      exact ⟨a1, a2, a3, .inl ⟨hno, rfl⟩⟩

end
end Copc
