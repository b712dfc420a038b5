import Verif.Spec.Map
import Verif.Props.FilterAny
import Verif.Props.Program
/-! # C93: computing new points from files of other programs -/
namespace Copc
open Spec VoxelKey

section
variable {L : Lazperf} {ord : Order} {data : Bytes} {c : CopcConfig} {o : Writer.Overrides} {v0 : Writer}

/-- What the loop adds. -/
def madeNodes (g : Node → List Point → List Point) (pts : VoxelKey → List Point) (ns : List Node) : List NodePoints :=
  (ns.filter fun n => decide (g n (pts n.entry.key) ≠ [])).map fun n => ⟨n.entry.key, n.pageKey, g n (pts n.entry.key)⟩

theorem made_count (g : Node → List Point → List Point) (pts : VoxelKey → List Point) : ∀ ns : List Node,
    ((madeNodes g pts ns).map (·.points.length)).sum = (ns.map fun n => (g n (pts n.entry.key)).length).sum
  | [] => rfl
  | n :: ns => by
    have ih := made_count g pts ns
    unfold madeNodes at ih ⊢
    rw [List.map_cons, List.sum_cons, ← ih]
    by_cases hne : g n (pts n.entry.key) = []
    · rw [List.filter_cons_of_neg (by simp [hne]), hne]; simp
    · rw [List.filter_cons_of_pos (by simp [hne]), List.map_cons, List.map_cons, List.sum_cons]

theorem map_runs (hm : Writer.make OStream.fresh c o = .ok v0) (hcons : Consistent v0.cfg)
    (hb : lasBaseSize v0.cfg.header.fmt ≤ v0.cfg.header.recLen.toNat) {hd : LasHeader} {g : Node → List Point → List Point}
    {pts : VoxelKey → List Point} : ∀ (ns : List Node),
    (∀ n ∈ ns, ∀ r : Reader, r.h.str.data = data → r.h.str.fail = false → r.cfg.header = hd → ∃ r' : Reader,
      Reader.getPoints L n r = (.ok (pts n.entry.key), r') ∧ r'.h.str.data = data ∧ r'.h.str.fail = false ∧ r'.cfg.header = hd) →
    (∀ n ∈ ns, g n (pts n.entry.key) ≠ [] →
      GoodNode L v0.cfg.header ⟨n.entry.key, n.pageKey, g n (pts n.entry.key)⟩) →
    ∀ (r : Reader) (v : Writer) (h : List (Op × Res (Option Node))), r.h.str.data = data → r.h.str.fail = false →
    r.cfg.header = hd → History L ord v0 h v → Unclosed h → v.cfg = v0.cfg →
    ∃ r' v' t plan, mapNodes L ord g ns (r, v) = (.ok (), (r', v')) ∧ History L ord v0 (h ++ t) v' ∧ Unclosed (h ++ t) ∧
      v'.cfg = v0.cfg ∧ List.Forall₂ (NodePoints.IsDone L v0.cfg.header) (madeNodes g pts ns) plan ∧
      List.Forall₂ (fun (a : Addition) (x : Op × Res (Option Node)) => x.1 = a.op ∧
        ∃ off, x.2 = .ok (some ⟨⟨a.key, off, a.blob.length, a.count⟩, a.page⟩)) plan t
  | [], _, _, r, v, h, _, _, _, hh, hu, hc =>
    ⟨r, v, [], [], rfl, by rw [List.append_nil]; exact hh, by rw [List.append_nil]; exact hu, hc, .nil, .nil⟩
  | n :: ns, hread, hgood, r, v, h, a1, a2, a3, hh, hu, hc => by
    obtain ⟨r1, k1, b1, b2, b3⟩ := hread n (by simp) r a1 a2 a3
    have hrest := fun h => map_runs hm hcons hb ns (fun m hm => hread m (by simp [hm])) (fun m hm => hgood m (by simp [hm])) r1
      (h := h)
    have k3 : Act.zoom Prod.fst (fun r s => (r, s.2)) (Reader.getPoints L n) ((r, v) : Copier) =
        (.ok (pts n.entry.key), (r1, v)) := by
      rw [Act.zoom_apply]; dsimp only; rw [k1]
    have hstep : ∀ v' x, mapNode L ord g n (r, v) = (.ok (), (r1, v')) → mapNodes L ord g ns (r1, v') = x →
        mapNodes L ord g (n :: ns) (r, v) = x := by
      intro v' x h1 h2
      show (do mapNode L ord g n; Act.forEach (mapNode L ord g) ns) (r, v) = _
      rw [Act.bind_ok h1]
      exact h2
    cases hq : g n (pts n.entry.key) with
    | nil =>
      obtain ⟨r', v', t, plan, h1, h2, h3, h4, h5, h6⟩ := hrest h v b1 b2 b3 hh hu hc
      refine ⟨r', v', t, plan, hstep v _ ?_ h1, h2, h3, h4, ?_, h6⟩
      · unfold mapNode
        rw [Act.bind_ok k3]
        simp only [hq]
        rfl
      · unfold madeNodes
        rw [List.filter_cons_of_neg (by simp [hq])]
        exact h5
    | cons p qs =>
      have hgn := hgood n (by simp) (by rw [hq]; simp)
      obtain ⟨a, ha⟩ := node_done (L := L) hcons.fmt hb hgn
      obtain ⟨e1, e2, e3, e4, e5⟩ := ha
      dsimp only at e1
      obtain ⟨w1, f1, _, f3, _⟩ := C74_accepted hm hcons hh hu (hc ▸ e5)
      obtain ⟨_, p1, p2⟩ := hgn.same p (by dsimp only; rw [hq]; simp)
      have hh1 := History.call a.op hh (by rw [f1]; intro h; cases h)
      rw [f1] at hh1
      obtain ⟨r', v', t, plan, h1, h2, h3, h4, h5, h6⟩ := hrest _ w1 b1 b2 b3 hh1 (by
        intro x hx
        rcases List.mem_append.1 hx with hx | hx
        · exact hu x hx
        · rw [List.mem_singleton.1 hx]
          intro he
          have := e5.target
          rw [show a.op = .close from he] at this
          cases this) (f3.trans hc)
      rw [List.append_assoc] at h2 h3
      refine ⟨r', v', _ :: t, a :: plan, hstep w1 _ ?_ h1, h2, h3, h4, ?_, .cons ⟨rfl, _, rfl⟩ h6⟩
      · unfold mapNode
        rw [Act.bind_ok k3]
        simp only [hq]
        have hz : ∃ x, Act.zoom Prod.snd (fun w s => (s.1, w)) ((Op.addPoints n.entry.key p.fmt p.recLen (p :: qs) n.pageKey).run L ord)
            ((r1, v) : Copier) = (.ok x, (r1, w1)) := by
          refine ⟨some ⟨⟨a.key, v.base.out.data.length, a.blob.length, a.count⟩, a.page⟩, ?_⟩
          rw [Act.zoom_apply]
          dsimp only
          rw [p1, p2, ← hq, ← e1, f1]
        obtain ⟨x, hz⟩ := hz
        rw [Act.bind_ok hz]
        rfl
      · unfold madeNodes
        rw [List.filter_cons_of_pos (by simp [hq])]
        exact .cons ⟨e1, e2, e3, e4, e5⟩ h5

end

section
variable {L : Lazperf} {ord : Order} {rord : ROrder} {data : Bytes} {ps : List FPage} {r r1 r2 : Reader} {q : List Query}
  {all : List Node}

/-- A node of the file and its records, by the positions of the formats: no points, or a chunk in the file. -/
def Format.NodeHolds (L : Lazperf) (data : Bytes) (n : Node) (recs : List Bytes) : Prop :=
  (n.entry.pointCount = 0 ∧ n.entry.offset < 2 ^ 63 ∧ recs = []) ∨
  (0 < n.entry.pointCount ∧ n.entry.offset + n.entry.byteSize.toNat ≤ data.length ∧ Format.NodeHas L data n recs)

theorem NodeOf.addable {data : Bytes} {ps : List FPage} (hg : GoodHierarchy data ps) {n : Node} (hn : NodeOf ps n) :
    Addable n.entry.key n.pageKey ∧ InOctree n.pageKey ∧ n.entry.key.InRange := by
  obtain ⟨p, hp', hnp⟩ := hn
  obtain ⟨e, he, rfl⟩ := List.mem_map.1 hnp
  obtain ⟨⟨g1, g2, g3, g4⟩, g5, g6, g7, g8⟩ := hg.entries p hp' e he
  have ht := hg.inTree p hp'
  dsimp only at *
  refine ⟨⟨g5, ?_, g8⟩, ht, g1⟩
  unfold InOctree at ht
  exact ⟨ht.1, ht.2.1, ht.2.2.2.1, ht.2.2.2.2.2.1⟩

/-- `GetPointData` of a node without points. -/
theorem pointData_none {r : Reader} {data : Bytes} (h1 : r.h.str.data = data) (h2 : r.h.str.fail = false) {n : Node}
    (hv : n.isValid = true) (ho : n.entry.offset < 2 ^ 63) (h0 : n.entry.pointCount = 0) {eb size : Nat}
    (he : r.cfg.header.ebSize = .ok eb) (hp : pointByteSize r.cfg.header.fmt eb = .ok size) :
    Reader.getPointData L n r = (.ok [], r.withStr ⟨data, n.entry.offset, false⟩) := by
  have hseek : r.h.str.seekg n.entry.offset = ⟨data, n.entry.offset, false⟩ := by
    rw [str_eta h1 h2]
    exact RecFile.seekg_good ho
  have hdec : Reader.decompressBytes L r.cfg.header n.entry.pointCount ⟨data, n.entry.offset, false⟩ =
      (.ok [], ⟨data, n.entry.offset, false⟩) := by
    unfold Reader.decompressBytes Reader.decompressStream
    rw [he]
    simp only
    rw [hp]
    simp only
    rw [if_pos (by omega)]
  unfold Reader.getPointData
  rw [Act.bind_apply, Act.throwIf_apply, if_neg (by simp [hv])]
  show (fun p : Res Bytes × IStream => (p.1, r.withStr p.2))
    (Reader.decompressBytes L r.cfg.header n.entry.pointCount (r.h.str.seekg n.entry.offset)) = _
  rw [hseek, hdec]

/-- The colours that the format does not have are zero in a point that was read. -/
theorem unpack_colours {fmt : Int} (hf : fmt = 6 ∨ fmt = 7 ∨ fmt = 8) {scale offset : Vec3 Dbl} {eb : Nat} {bs rest : Bytes} {p : Point}
    (h : Point.unpack fmt scale offset eb bs = .ok (p, rest)) :
    (p.fmt = 6 → p.red = 0 ∧ p.green = 0 ∧ p.blue = 0) ∧ (p.fmt ≠ 8 → p.nir = 0) := by
  unfold Point.unpack at h
  obtain ⟨p0, h0, h⟩ := Res.bind_ok_iff.1 h
  obtain ⟨_, _, h⟩ := Res.bind_ok_iff.1 h
  obtain ⟨_, _, h⟩ := Res.bind_ok_iff.1 h
  obtain ⟨_, _, h⟩ := Res.bind_ok_iff.1 h
  obtain ⟨_, _, h⟩ := Res.bind_ok_iff.1 h
  obtain ⟨_, _, h⟩ := Res.bind_ok_iff.1 h
  obtain ⟨_, _, h⟩ := Res.bind_ok_iff.1 h
  obtain ⟨_, _, h⟩ := Res.bind_ok_iff.1 h
  obtain ⟨_, _, h⟩ := Res.bind_ok_iff.1 h
  obtain ⟨_, _, h⟩ := Res.bind_ok_iff.1 h
  obtain ⟨_, _, h⟩ := Res.bind_ok_iff.1 h
  obtain ⟨_, _, h⟩ := Res.bind_ok_iff.1 h
  obtain ⟨⟨rgb, b1⟩, hrgb, h⟩ := Res.bind_ok_iff.1 h
  obtain ⟨⟨nir, b2⟩, hnir, h⟩ := Res.bind_ok_iff.1 h
  dsimp only at h
  split at h
  · cases h
  have h := Res.ok.inj h
  have h := (Prod.mk.inj h).1
  have e0 : p0.fmt = fmt ∧ p0.hasRgb = decide (fmt ≠ 6) ∧ p0.hasNir = decide (fmt = 8) := by
    rw [Point.make_eq, if_pos hf] at h0
    obtain rfl := Res.ok.inj h0
    exact ⟨rfl, rfl, rfl⟩
  obtain ⟨e1, e2, e3⟩ := e0
  subst h
  dsimp only
  constructor
  · intro h6
    rw [e2, if_neg (by rw [← e1, h6]; simp)] at hrgb
    obtain ⟨rfl, _⟩ := Prod.mk.inj (Res.ok.inj hrgb)
    exact ⟨rfl, rfl, rfl⟩
  · intro h8
    rw [e3, if_neg (by rw [← e1]; simp [h8])] at hnir
    obtain ⟨rfl, _⟩ := Prod.mk.inj (Res.ok.inj hnir)
    rfl

/-- `GetPoints` of a node of the file. -/
theorem holds_reads {hd : LasHeader} (hh : Format.HeaderIs data hd) (hfit : data.length < 2 ^ 63)
    (hf : hd.fmt = 6 ∨ hd.fmt = 7 ∨ hd.fmt = 8) (hl : lasBaseSize hd.fmt ≤ hd.recLen.toNat ∧ hd.recLen.toNat ≤ 255)
    (hg : GoodHierarchy data ps) {n : Node} (hn : NodeOf ps n) {recs : List Bytes} (hr : Format.NodeHolds L data n recs) :
    ∃ pts, List.Forall₂ (Format.PointIs data) recs pts ∧ (∀ p ∈ pts, Format.AsRead data p) ∧
      ∀ r : Reader, r.h.str.data = data → r.h.str.fail = false → r.cfg.header = hd → ∃ r' : Reader,
        Reader.getPoints L n r = (.ok pts, r') ∧ r'.h.str.data = data ∧ r'.h.str.fail = false ∧ r'.cfg.header = hd := by
  have hv := NodeOf.isValid hg hn
  obtain ⟨c1, c2, c3⟩ := ebSize_consistent hf hl.1
  have hbl : baseSize hd.fmt + (hd.recLen.toNat - lasBaseSize hd.fmt) = hd.recLen.toNat := c3
  have hrec : (∀ x ∈ recs, x.length = hd.recLen.toNat) ∧ recs.length < 2 ^ 31 := by
    rcases hr with ⟨_, _, rfl⟩ | ⟨h1, h2, h3, h4, h5⟩
    · exact ⟨by simp, by simp⟩
    · have := (NodeOf.copyable hg hn h1 h2).1.count.2
      exact ⟨by rw [hh.record]; exact h4, by omega⟩
  have hpts : ∃ pts, Reader.unpackWith hd recs.flatten = .ok pts ∧ List.Forall₂ (Format.PointIs data) recs pts ∧
      Holds hd recs pts := by
    obtain ⟨pts, u1, u2⟩ := points_are hh hf hl hrec.1 (by omega)
    obtain ⟨pts', w1, w2⟩ := unpack_records hf hl.1 hrec.1 (by omega)
    obtain rfl := Res.ok.inj (u1.symm.trans w1)
    exact ⟨pts, u1, u2, w2⟩
  obtain ⟨pts, u1, u2, u3⟩ := hpts
  refine ⟨pts, u2, ?_, ?_⟩
  · intro p hp
    obtain ⟨x, hx, hu⟩ := forall₂_mem_right u3 hp
    have hlt := hd.recLen.toNat_lt
    have hcol := unpack_colours hf hu
    have hfm := hh.format
    have hrl := hh.record
    obtain ⟨p', t1, t2, t3, _⟩ := unpack_record hf hd.scale hd.offset (eb := hd.recLen.toNat - lasBaseSize hd.fmt) (bs := x)
      (by rw [hbl]; exact hrec.1 x hx)
    have := t1 []
    rw [List.append_nil, hu] at this
    injection this with this
    injection this with this
    subst this
    exact ⟨Reach.unpack (by omega) hu, by omega, by omega, hcol.1, hcol.2⟩
  · intro r a1 a2 a3
    have key : Reader.getPointData L n r = (.ok recs.flatten, r.withStr ⟨data, n.entry.offset, false⟩) := by
      rcases hr with ⟨h1, h2, rfl⟩ | ⟨h1, h2, h3, h4, h5⟩
      · exact pointData_none a1 a2 hv h2 h1 (by rw [a3]; exact c1) (by rw [a3]; exact c2)
      · refine pointData_reads (L := L) a1 a2 hfit hv h2 (by rw [a3]; exact c1) (by rw [a3]; exact c2) (by rw [a3, c3]; exact hl.2)
          (by rw [a3]; exact hf) ?_ (by rw [a3, c3]; exact hrec.1) h5
        have hfm : (Format.num data 1 104 : Int) - 128 = r.cfg.header.fmt := by rw [a3]; have := hh.format; omega
        unfold Format.chunk at h3
        rw [hfm, ← hh.record, a3] at h3
        rw [a3]
        exact h3
    refine ⟨r.withStr ⟨data, n.entry.offset, false⟩, ?_, rfl, rfl, a3⟩
    unfold Reader.getPoints
    rw [Act.bind_ok key, Act.bind_ok (Act.gets_apply _ _), Act.lift_apply]
    show (Reader.unpackWith r.cfg.header recs.flatten, _) = _
    rw [a3, u1]

/-- A program that reads the points of every node of a file of another program, computes new ones by any function and adds them to a
Writer with any configuration: every call returns, the new file has the metadata of the writer and, for every node, `GetPoints` gives
the points that were computed from the points that the original holds (`pts`: every attribute as at its position in the record), as a
file with the new scale stores them (`ReadBack`); a node for which none was computed, and other nodes, are not there. What is asked of
the original beyond C88: fewer than 2^25 nodes, records of at most 255 bytes (C47); nodes may be empty. What is asked of the function:
its points can be written to the new file (`GoodPoints`), for the points of the file. -/
theorem C93_map_partial (hc : Format.Conforms data) (hg : GoodHierarchy data ps) (ho : Opened data ps r)
    (hr : Format.ReadAs data r.cfg) (ha : Asked L r q r1)
    (hall : Run.Ends (fun k => Reader.getAllNodes rord k) r1 (.ok all, r2))
    (hholds : ∀ n, NodeOf ps n → ∃ recs, Format.NodeHolds L data n recs)
    (hlen : baseSize ((Format.num data 1 104 : Int) - 128) ≤ Format.num data 2 105 ∧ Format.num data 2 105 ≤ 255)
    (hfew : all.length < 2 ^ 25) {c : CopcConfig} {o : Writer.Overrides} {v0 : Writer}
    (hm : Writer.make OStream.fresh c o = .ok v0) (hst : Storable v0.cfg) (hbounds : BoundsInOrder v0.cfg.header)
    (h255 : v0.cfg.header.recLen.toNat ≤ 255) (g : Node → List Point → List Point)
    (hgood : ∀ n recs pts, NodeOf ps n → Format.NodeHolds L data n recs → List.Forall₂ (Format.PointIs data) recs pts →
      (∀ p ∈ pts, Format.AsRead data p) →
      GoodPoints L v0.cfg.header (g n pts)) :
    ∃ (pts : VoxelKey → List Point) (r3 : Reader) (v v' : Writer),
      (∀ n, NodeOf ps n → ∃ recs, Format.NodeHolds L data n recs ∧ List.Forall₂ (Format.PointIs data) recs (pts n.entry.key) ∧
        ∀ p ∈ pts n.entry.key, Format.AsRead data p) ∧
      mapNodes L ord g all (r2, v0) = (.ok (), (r3, v)) ∧ Writer.close L ord v = (.ok (), v') ∧
      (v'.base.out.data.length < 2 ^ 63 → ∃ s, Reader.init ⟨v'.base.out.data, 0, false⟩ = .ok s ∧ SameMetadata v0.cfg s.cfg ∧
        s.cfg.header.pointCount.toNat = (all.map fun n => (g n (pts n.entry.key)).length).sum ∧
        ∀ (q' : List Query) (s1 : Reader), Asked L s q' s1 →
          (∀ n, NodeOf ps n →
            (∃ made s2, Run.Ends (fun k => Reader.getPointsAt L k n.entry.key) s1 (.ok made, s2) ∧
              List.Forall₂ (ReadBack v0.cfg.header.scale v0.cfg.header.offset) (g n (pts n.entry.key)) made) ∧
            (g n (pts n.entry.key) ≠ [] → ∃ off size s2, Run.Ends (fun k => Reader.findNode k n.entry.key) s1
              (.ok ⟨⟨n.entry.key, off, size, (g n (pts n.entry.key)).length⟩, n.pageKey⟩, s2)) ∧
            (g n (pts n.entry.key) = [] → ∃ s2, Run.Ends (fun k => Reader.findNode k n.entry.key) s1 (.ok Node.empty, s2))) ∧
          ∀ key, (∀ n, NodeOf ps n → n.entry.key ≠ key) →
            ∃ s2, Run.Ends (fun k => Reader.findNode k key) s1 (.ok Node.empty, s2)) := by
  obtain ⟨hA, hnd, hd, hf⟩ := all_listed hg ho ha hall
  have hcfg2 := all_cfg hg ho ha hall
  have hh := hr.header
  have hfm : (Format.num data 1 104 : Int) - 128 = r.cfg.header.fmt := by have := hh.format; omega
  have hf6 : r.cfg.header.fmt = 6 ∨ r.cfg.header.fmt = 7 ∨ r.cfg.header.fmt = 8 := by
    rcases hc.format with h | h | h <;> omega
  have hN : ∀ n, n ∈ all ↔ NodeOf ps n := hA.2
  have hl : lasBaseSize r.cfg.header.fmt ≤ r.cfg.header.recLen.toNat ∧ r.cfg.header.recLen.toNat ≤ 255 := by
    rw [hfm, ← hh.record] at hlen
    exact hlen
  obtain ⟨pts, hpts⟩ := by_key (α := List Point) (P := fun n a => ∃ recs, Format.NodeHolds L data n recs ∧
      List.Forall₂ (Format.PointIs data) recs a ∧
      (∀ p ∈ a, Format.AsRead data p) ∧
      ∀ r' : Reader, r'.h.str.data = data → r'.h.str.fail = false → r'.cfg.header = r.cfg.header → ∃ r'' : Reader,
        Reader.getPoints L n r' = (.ok a, r'') ∧ r''.h.str.data = data ∧ r''.h.str.fail = false ∧
          r''.cfg.header = r.cfg.header) hnd (by
    intro n hn
    obtain ⟨recs, hrecs⟩ := hholds n ((hN n).1 hn)
    obtain ⟨a, h1, h2, h3⟩ := holds_reads hh hc.fits hf6 hl hg ((hN n).1 hn) hrecs
    exact ⟨a, recs, hrecs, h1, h2, h3⟩)
  have hcons := hst.toConsistent
  have hb : lasBaseSize v0.cfg.header.fmt ≤ v0.cfg.header.recLen.toNat := by have := hcons.len; omega
  have hgn : ∀ n ∈ all, g n (pts n.entry.key) ≠ [] →
      GoodNode L v0.cfg.header ⟨n.entry.key, n.pageKey, g n (pts n.entry.key)⟩ := by
    intro n hn hne
    obtain ⟨recs, h1, h2, h3, _⟩ := hpts n hn
    have hgp := hgood n recs _ ((hN n).1 hn) h1 h2 h3
    obtain ⟨k1, k2, k3⟩ := NodeOf.addable hg ((hN n).1 hn)
    exact ⟨k1.1, k1.2.1, k1.2.2, k2, k3, hne, hgp.same, hgp.coords, hgp.raw, hgp.compressed⟩
  obtain ⟨r3, v, t, plan, m1, m2, m3, m4, m5, m6⟩ := map_runs (L := L) (ord := ord) (data := data) hm hcons hb (hd := r.cfg.header)
    (g := g) (pts := pts) all (fun n hn => by obtain ⟨_, _, _, _, h⟩ := hpts n hn; exact h) hgn r2 v0 [] hd hf (by rw [hcfg2])
    .start (by intro x hx; cases hx) rfl
  rw [List.nil_append] at m2 m3
  have hmade : ∀ x, x ∈ madeNodes g pts all ↔ ∃ n ∈ all, g n (pts n.entry.key) ≠ [] ∧ x = ⟨n.entry.key, n.pageKey, g n (pts n.entry.key)⟩ := by
    intro x
    unfold madeNodes
    rw [List.mem_map]
    constructor
    · rintro ⟨n, h1, rfl⟩
      rw [List.mem_filter] at h1
      exact ⟨n, h1.1, of_decide_eq_true h1.2, rfl⟩
    · rintro ⟨n, h1, h2, rfl⟩
      exact ⟨n, List.mem_filter.2 ⟨h1, decide_eq_true h2⟩, rfl⟩
  have hprog : GoodProgram L v0.cfg.header (madeNodes g pts all) := by
    refine ⟨fun x hx => ?_, ?_, ?_⟩
    · obtain ⟨n, h1, h2, rfl⟩ := (hmade x).1 hx
      exact hgn n h1 h2
    · unfold madeNodes
      rw [List.map_map]
      exact (hnd.sublist (List.filter_sublist.map _))
    · unfold madeNodes
      rw [List.length_map]
      exact Nat.lt_of_le_of_lt (List.length_filter_le _ _) hfew
  obtain ⟨v', hcl, hfile⟩ := plan_file hm hst hbounds (program_plan hb hprog m5) m2 m3 m4 m6
  refine ⟨pts, r3, v, v', fun n hn => ?_, m1, hcl, fun hsize => ?_⟩
  · obtain ⟨recs, h1, h2, h3, _⟩ := hpts n ((hN n).2 hn)
    exact ⟨recs, h1, h2, h3⟩
  obtain ⟨hw, s0, hs0, _⟩ := hfile hsize
  obtain ⟨s, e1, e2, e3⟩ := C35_metadata_partial hm hw.history hw.unclosed (by rw [m4]; exact hst) hcl hsize hw.few
  obtain rfl := Res.ok.inj (hs0.symm.trans e1)
  obtain ⟨f1, f2⟩ := program_file h255 hprog m5 m6 hw hs0
  have hnodes := plan_nodes m6
  have hadded : ∀ m, m ∈ addedNodes t → ∃ n ∈ all, g n (pts n.entry.key) ≠ [] ∧ ∃ off size,
      m = ⟨⟨n.entry.key, off, size, ((g n (pts n.entry.key)).length : Nat)⟩, n.pageKey⟩ := by
    intro m hm
    obtain ⟨a, ha, off, rfl⟩ := forall₂_mem_right hnodes hm
    obtain ⟨x, hx, k1, k2, k3, k4, _⟩ := forall₂_mem_right m5 ha
    obtain ⟨n, h1, h2, rfl⟩ := (hmade x).1 hx
    exact ⟨n, h1, h2, off, _, by rw [k2, k3, k4]⟩
  have hinj : ∀ n ∈ all, ∀ m ∈ all, n.entry.key = m.entry.key → n = m := fun n hn m hm he => List.inj_on_of_nodup_map hnd hn hm he
  rw [m4] at e3
  refine ⟨s0, hs0, e3, ?_, fun q' s1 hq => ⟨fun n hn => ?_, fun key hno => ?_⟩⟩
  · rw [f1, made_count]
  · have hn' := (hN n).2 hn
    by_cases hne : g n (pts n.entry.key) = []
    · have habs : ∀ m ∈ addedNodes t, m.entry.key ≠ n.entry.key := by
        intro m hm he
        obtain ⟨n2, h1, h2, off, size, rfl⟩ := hadded m hm
        obtain rfl := hinj _ h1 _ hn' he
        exact h2 hne
      obtain ⟨s2, u⟩ := absent_points hw hs0 hq habs
      obtain ⟨s3, u', _⟩ := C33_findNode_other hw hs0 hq habs
      exact ⟨⟨[], s2, u, by rw [hne]; exact .nil⟩, fun h => absurd hne h, fun _ => ⟨s3, u'⟩⟩
    · have hx := (hmade _).2 ⟨n, hn', hne, rfl⟩
      obtain ⟨made, s2, u1, u2⟩ := (f2 q' s1 hq).2 _ hx
      refine ⟨⟨made, s2, u1, u2⟩, fun _ => ?_, fun h => absurd h hne⟩
      obtain ⟨a, ha, k1, k2, k3, k4, _⟩ := forall₂_mem_left m5 hx
      obtain ⟨⟨op, res⟩, hx2, ho, off, hres⟩ := forall₂_mem_left m6 ha
      dsimp only at ho hres
      subst ho hres
      obtain ⟨s3, u3⟩ := C33_findNode hw hs0 hq (hw.node hx2).1
      have hmoved := movedTo_nil (h := t) (by
        intro x hx
        obtain ⟨b, hb, he, _⟩ := forall₂_mem_right m6 hx
        obtain ⟨y, _, hd, _⟩ := forall₂_mem_right m5 hb
        rw [he, hd]
        simp [Op.target])
      unfold finalPage at u3
      rw [hmoved] at u3
      rw [k2, k3, k4] at u3
      exact ⟨off, a.blob.length, s3, u3⟩
  · obtain ⟨s3, u, _⟩ := C33_findNode_other hw hs0 hq (key := key) (by
      intro m hm he
      obtain ⟨n2, h1, h2, off, size, rfl⟩ := hadded m hm
      exact hno n2 ((hN n2).1 h1) he)
    exact ⟨s3, u⟩

end
end Copc
