import Verif.Spec.ToLaz
import Verif.Props.Copy
import Verif.Props.MpLaz
import Verif.Props.LazReader
import Verif.Props.RoundTripMeta
/-! # C66: converting a COPC file to a LAZ file -/
namespace Copc
open Spec VoxelKey

/-! ### Unpacking consecutive pieces -/

theorem flatten_nth {k : Nat} : ∀ {recs : List Bytes}, (∀ x ∈ recs, x.length = k) → ∀ (i : Nat) (h : i < recs.length),
    nthRecord recs.flatten k i = recs[i]
  | [], _, i, h => absurd h (by simp)
  | x :: recs, hx, 0, _ => by
    have := hx x (by simp)
    subst this
    simp [nthRecord]
  | x :: recs, hx, i + 1, h => by
    have e := hx x (by simp)
    have := flatten_nth (recs := recs) (fun y hy => hx y (by simp [hy])) i (by simpa using h)
    rw [List.getElem_cons_succ, ← this]
    unfold nthRecord
    rw [List.flatten_cons, show (i + 1) * k = x.length + i * k by rw [e, Nat.succ_mul]; omega, List.drop_append,
      List.drop_eq_nil_of_le (by omega), Nat.add_sub_cancel_left, List.nil_append]

/-- Unpacking whole records gives the points of the records. -/
theorem unpack_records {hd : LasHeader} {recs : List Bytes} (hf : hd.fmt = 6 ∨ hd.fmt = 7 ∨ hd.fmt = 8)
    (hl : lasBaseSize hd.fmt ≤ hd.recLen.toNat) (hrec : ∀ x ∈ recs, x.length = hd.recLen.toNat)
    (hmax : recs.length < 2147483648) :
    ∃ ps, Reader.unpackWith hd recs.flatten = .ok ps ∧
      List.Forall₂ (fun x p => Point.unpack hd.fmt hd.scale hd.offset (hd.recLen.toNat - lasBaseSize hd.fmt) x =
        .ok (p, [])) recs ps := by
  obtain ⟨c1, c2, c3⟩ := ebSize_consistent hf hl
  have hbl : baseSize hd.fmt + (hd.recLen.toNat - lasBaseSize hd.fmt) = hd.recLen.toNat := c3
  have hb : 0 < lasBaseSize hd.fmt := by unfold lasBaseSize; split <;> [decide; split <;> decide]
  have hlen : recs.flatten.length = recs.length * hd.recLen.toNat := by
    rw [List.length_flatten, List.map_congr_left hrec, List.map_const', List.sum_replicate_nat]
  have hu := (C18_unpack recs.flatten hd.fmt hf (hd.recLen.toNat - lasBaseSize hd.fmt) hd.scale hd.offset
    (by rw [hbl]; have := hd.recLen.toNat_lt; omega)
    (by rw [hbl, hlen, Nat.mul_div_cancel _ (by omega)]; exact hmax)).2 (by rw [hbl, hlen]; simp)
  obtain ⟨ps, u1, u2, u3, _⟩ := hu
  rw [hbl, hlen] at u2
  have u2 : ps.length = recs.length := Nat.eq_of_mul_eq_mul_right (by omega) u2
  refine ⟨ps, ?_, ?_⟩
  · unfold Reader.unpackWith
    rw [c1, Res.okBind]; exact u1
  · refine List.forall₂_iff_get.2 ⟨u2.symm, fun i h1 h2 => ?_⟩
    have := (u3 i h2).2.2
    rw [hbl, flatten_nth hrec i h1] at this
    exact this

theorem forall₂_det {α β : Type} {R : α → β → Prop} (hR : ∀ a b c, R a b → R a c → b = c) :
    ∀ {l : List α} {x y : List β}, List.Forall₂ R l x → List.Forall₂ R l y → x = y := by
  intro l x y h
  induction h generalizing y with
  | nil => intro h; cases h; rfl
  | cons h1 _ ih => intro h; cases h with | cons h2 h3 => rw [hR _ _ _ h1 h2, ih h3]

theorem forall₂_flatten {α β : Type} {R : α → β → Prop} :
    ∀ {l : List (List α)} {x : List (List β)}, List.Forall₂ (List.Forall₂ R) l x → List.Forall₂ R l.flatten x.flatten := by
  intro l x h
  induction h with
  | nil => exact .nil
  | cons h1 _ ih => rw [List.flatten_cons, List.flatten_cons]; exact List.rel_append h1 ih

/-! ### The loop -/

theorem toLaz_run {L : Lazperf} {c : LazConfig} {v0 : LazWriter} {data : Bytes}
    (hsize : data.length < 2 ^ 63) (hm : LazWriter.make OStream.fresh c = .ok v0) :
    ∀ (ns : List Node), (∀ n ∈ ns, Copyable data n) → ∀ (r : Reader) (v : LazWriter) (h : List (LazOp × Res Unit)),
    r.h.str.data = data → r.h.str.fail = false → LazHistory L v0 h v → LazUnclosed h →
    ∃ r' v', toLaz L ns (r, v) = (.ok (), (r', v')) ∧
      LazHistory L v0 (h ++ ns.map fun n =>
        (LazOp.compressed (slice data n.entry.offset n.entry.byteSize.toNat) n.entry.pointCount, .ok ())) v' ∧
      v'.cfg = v.cfg ∧ r'.h.str.data = data ∧ r'.h.str.fail = false ∧
      v'.base.chunks.length = v.base.chunks.length + ns.length
  | [], _, r, v, h, h1, h2, hh, _ => ⟨r, v, rfl, by simpa using hh, rfl, h1, h2, rfl⟩
  | n :: ns, hn, r, v, h, h1, h2, hh, hu => by
    obtain ⟨otpd, ho, hb, _⟩ := lazMake_ok hm
    obtain ⟨log, hi⟩ := lInv_history ho hb hh hu
    have cn := hn n (by simp)
    have e1 := compressed_reads h1 h2 hsize cn.valid cn.inside
    have hlen : (slice data n.entry.offset n.entry.byteSize.toNat).length = n.entry.byteSize.toNat := by
      have := cn.inside
      unfold slice; simp; omega
    have e2 := compressed_run (L := L) (bs := slice data n.entry.offset n.entry.byteSize.toNat)
      (c := n.entry.pointCount) hi.base (by omega) (by have := cn.count; omega) (by rw [hlen]; exact cn.small)
    generalize hs : slice data n.entry.offset n.entry.byteSize.toNat = bs at e1 e2 hlen
    have e3 : toLazNode L n (r, v) = (.ok (), (r.withStr ⟨data, n.entry.offset + n.entry.byteSize.toNat, false⟩,
        { v with base := chunkAdded v.base bs n.entry.pointCount })) := by
      unfold toLazNode
      have a1 : Act.zoom Prod.fst (fun r s => (r, s.2)) (Reader.getPointDataCompressed n) ((r, v) : Converter) =
          (.ok bs, (r.withStr ⟨data, n.entry.offset + n.entry.byteSize.toNat, false⟩, v)) := by
        rw [Act.zoom_apply]; dsimp only; rw [e1]
      rw [Act.bind_ok a1, Act.zoom_apply]
      dsimp only
      rw [e2]
    have hcall := LazHistory.call (LazOp.compressed bs n.entry.pointCount) hh (by
      show (LazWriter.writePointsCompressed L bs n.entry.pointCount v).1 ≠ _
      rw [e2]; simp)
    have e4 : (LazOp.compressed bs n.entry.pointCount).run L v =
      (.ok (), { v with base := chunkAdded v.base bs n.entry.pointCount }) := e2
    rw [e4] at hcall
    have hu2 : LazUnclosed (h ++ [(LazOp.compressed bs n.entry.pointCount, Res.ok ())]) := by
      intro x hx
      rcases List.mem_append.1 hx with hx | hx
      · exact hu x hx
      · rw [List.mem_singleton.1 hx]; simp
    obtain ⟨r', v', g1, g2, g3, g4, g5, g6⟩ := toLaz_run hsize hm ns (fun m hm => hn m (by simp [hm]))
      (r.withStr ⟨data, n.entry.offset + n.entry.byteSize.toNat, false⟩) _ _ rfl rfl hcall hu2
    refine ⟨r', v', ?_, by rw [List.map_cons, hs]; rw [List.append_assoc] at g2; exact g2, g3, g4, g5, ?_⟩
    · unfold toLaz at g1 ⊢
      show (do toLazNode L n; Act.forEach (toLazNode L) ns) (r, v) = _
      rw [Act.bind_ok e3, g1]
    · rw [g6, List.length_cons]
      show (chunkAdded v.base bs n.entry.pointCount).chunks.length + _ = _
      simp [chunkAdded]
      omega

section
variable {L : Lazperf} {ord ord' : Order} {w0 w : Writer} {h : List (Op × Res (Option Node))} {data : Bytes}
  {r r1 r2 : Reader} {q : List Query} {rord : ROrder} {all : List Node} {v0 : LazWriter}

theorem Written.metadata (hw : Written L ord w0 w h data) (hr : Reader.init ⟨data, 0, false⟩ = .ok r) :
    SameMetadata w.cfg r.cfg := by
  obtain ⟨c, o, hm⟩ := hw.made
  obtain ⟨w', hc, rfl⟩ := hw.closed
  obtain ⟨r', hr', _, hs⟩ := C35_metadata_partial hm hw.history hw.unclosed hw.storable hc hw.size hw.few
  obtain rfl := Res.ok.inj (hr.symm.trans hr')
  exact hs

/-- The configuration of the reader can be stored in a LAZ file. -/
theorem Written.lazStorable (hw : Written L ord w0 w h data) (hr : Reader.init ⟨data, 0, false⟩ = .ok r) :
    LazStorable (LazConfig.ofCopc r.cfg).forWriter := by
  have hs := hw.metadata hr
  have ht := hw.storable
  refine ⟨⟨?_, ?_, ?_⟩, ⟨?_, ?_, ?_, ?_, ?_⟩, ?_, ?_, ?_⟩
  · show r.cfg.header.fmt = 6 ∨ r.cfg.header.fmt = 7 ∨ r.cfg.header.fmt = 8; rw [hs.fmt]; exact ht.fmt
  · show r.cfg.header.recLen.toNat = lasBaseSize r.cfg.header.fmt + (r.cfg.eb.map lasItemSize).sum
    rw [hs.fmt, hs.recLen, hs.eb]; exact ht.len
  · show ∀ f ∈ r.cfg.eb, _; rw [hs.eb]; exact ht.items
  · show r.cfg.header.fmt = 6 ∨ r.cfg.header.fmt = 7 ∨ r.cfg.header.fmt = 8; rw [hs.fmt]; exact ht.fmt
  · show r.cfg.header.pointsByReturn.length = _; rw [hs.pointsByReturn]; exact ht.header.byReturn
  · show Fits r.cfg.header.guid _; rw [hs.guid]; exact ht.header.guid
  · show Fits r.cfg.header.systemIdentifier _; rw [hs.systemIdentifier]; exact ht.header.sys
  · show Fits r.cfg.header.generatingSoftware _; rw [hs.generatingSoftware]; exact ht.header.gen
  · show r.cfg.eb.length ≤ _; rw [hs.eb]; exact ht.few
  · show ∀ f ∈ r.cfg.eb, _; rw [hs.eb]; exact ht.descriptors
  · show r.cfg.wkt.length < _; rw [hs.wkt]; exact ht.wktLen

/-- A LAZ writer can be given the configuration of the reader, no call of the loop is rejected, and `Close`
returns. -/
theorem C66_converts (hw : Written L ord w0 w h data) (hr : Reader.init ⟨data, 0, false⟩ = .ok r) (ha : Asked L r q r1)
    (hall : Run.Ends (fun k => Reader.getAllNodes rord k) r1 (.ok all, r2)) (hfew : all.length < 2 ^ 32) :
    ∃ v0 r3 v v', LazWriter.make OStream.fresh (LazConfig.ofCopc r.cfg) = .ok v0 ∧
      toLaz L all (r2, v0) = (.ok (), (r3, v)) ∧ r3.h.str.fail = false ∧ LazWriter.close L v = (.ok (), v') := by
  have hst := hw.lazStorable hr
  obtain ⟨e1, _⟩ := lazConsistent_eb hst.toLazConsistent
  obtain ⟨v0, hm⟩ : ∃ v0, LazWriter.make OStream.fresh (LazConfig.ofCopc r.cfg) = .ok v0 := by
    unfold LazWriter.make BaseW.offsetToPointData
    rw [e1, Res.okBind, Res.okBind]
    exact ⟨_, rfl⟩
  obtain ⟨hp, hd, hf⟩ := copy_nodes hw hr ha hall
  obtain ⟨r3, v, g1, g2, g3, _, g5, g6⟩ := toLaz_run (L := L) hw.size hm all (by
    intro n hn
    obtain ⟨m, hm, rfl⟩ := List.mem_map.1 (hp.subset hn)
    exact hw.copyable hm) r2 v0 [] hd hf .start (by intro x hx; cases hx)
  rw [List.nil_append] at g2
  have hun : LazUnclosed (all.map fun n =>
        (LazOp.compressed (slice data n.entry.offset n.entry.byteSize.toNat) n.entry.pointCount, Res.ok ())) := by
    intro x hx
    obtain ⟨n, _, rfl⟩ := List.mem_map.1 hx
    simp
  have hc0 : v0.base.chunks = [] := by
    unfold LazWriter.make at hm
    obtain ⟨n, _, h3⟩ := Res.bind_ok_iff.1 hm
    obtain rfl := Res.ok.inj h3
    rfl
  have hout := C46_outcome hm ⟨hst.fmt, hst.len, hst.items⟩ hst.header.byReturn g2 hun
  rw [g6, hc0] at hout
  refine ⟨v0, r3, v, (LazWriter.close L v).2, hm, g1, g5, ?_⟩
  rcases hout with ho | ⟨ho, _⟩
  · exact Prod.ext ho rfl
  · rw [List.length_nil] at ho
    omega

/-- The file of the conversion. -/
theorem toLaz_written (hw : Written L ord w0 w h data) (hr : Reader.init ⟨data, 0, false⟩ = .ok r) (ha : Asked L r q r1)
    (hall : Run.Ends (fun k => Reader.getAllNodes rord k) r1 (.ok all, r2))
    (hm : LazWriter.make OStream.fresh (LazConfig.ofCopc r.cfg) = .ok v0) {r3 : Reader} {v v' : LazWriter}
    (hconv : toLaz L all (r2, v0) = (.ok (), (r3, v))) (hc : LazWriter.close L v = (.ok (), v'))
    (hsize : v'.base.out.data.length < 2 ^ 63) :
    LazWritten L v0 v (all.map fun n =>
        (LazOp.compressed (slice data n.entry.offset n.entry.byteSize.toNat) n.entry.pointCount, Res.ok ()))
      v'.base.out.data ∧ v.cfg = (LazConfig.ofCopc r.cfg).forWriter ∧ v0.cfg = (LazConfig.ofCopc r.cfg).forWriter := by
  obtain ⟨hp, hd, hf⟩ := copy_nodes hw hr ha hall
  obtain ⟨r3', v1, g1, g2, g3, _⟩ := toLaz_run (L := L) hw.size hm all (by
    intro n hn
    obtain ⟨m, hm, rfl⟩ := List.mem_map.1 (hp.subset hn)
    exact hw.copyable hm) r2 v0 [] hd hf .start (by intro x hx; cases hx)
  rw [hconv] at g1
  injection g1 with _ g1
  injection g1 with _ g1
  subst g1
  rw [List.nil_append] at g2
  obtain ⟨_, _, _, hcfg⟩ := lazMake_ok hm
  refine ⟨⟨⟨_, hm⟩, g2, ?_, ?_, ⟨v', hc, rfl⟩, ?_, hsize⟩, g3.trans hcfg, hcfg⟩
  · intro x hx
    obtain ⟨n, _, rfl⟩ := List.mem_map.1 hx
    simp
  · intro x hx
    obtain ⟨n, _, rfl⟩ := List.mem_map.1 hx
    simp
  · rw [g3, hcfg]; exact hw.lazStorable hr

/-- A node that holds records: what reading it from the COPC file gives. -/
theorem Written.node_points (hw : Written L ord w0 w h data) (hr : Reader.init ⟨data, 0, false⟩ = .ok r)
    (ha : Asked L r q r1) (h255 : r.cfg.header.recLen.toNat ≤ 255) {m : Node} (hx : m ∈ addedNodes h) {recs : List Bytes}
    (hrecs : HoldsRecords L r.cfg.header data (reported h m) recs) :
    recs ≠ [] ∧ recs.length < 2 ^ 31 ∧ ∃ ps, (ps.length : Int) = m.entry.pointCount ∧
      (∃ r4, Run.Ends (fun k => Reader.getPointsAt L k m.entry.key) r1 (.ok ps, r4)) ∧
      List.Forall₂ (fun x p => Point.unpack r.cfg.header.fmt r.cfg.header.scale r.cfg.header.offset
        (r.cfg.header.recLen.toNat - lasBaseSize r.cfg.header.fmt) x = .ok (p, [])) recs ps := by
  obtain ⟨⟨op, res⟩, hxh, he⟩ := List.mem_filterMap.1 hx
  have hres : res = .ok (some m) := by
    cases res with
    | ok a => exact congrArg Res.ok he
    | throw e => cases he
    | ub => cases he
  subst hres
  obtain ⟨eb, b1, b2, b3, b4⟩ := hrecs
  have cn := hw.copyable hx
  have hcnt := cn.count
  obtain ⟨_, _, _, _, _, f1, f2, f3, f4⟩ := hw.asked hr (Asked.none (L := L))
  obtain ⟨_, _, _, _, _, g1, g2, g3, g4⟩ := hw.asked hr ha
  have heb : w0.cfg.header.ebSize = .ok eb := by
    rw [← b1]; unfold LasHeader.ebSize; rw [f1, f2]
  obtain ⟨r4, d1, _, d2⟩ := hw.data_slice (f2 ▸ h255) hr ha hxh heb (f2 ▸ b2) (f1 ▸ b3) b4
  rw [← d2.2] at g1 g2 g3 g4
  obtain ⟨c1, c2⟩ := hw.header_consistent
  rw [← f1] at c1 c2
  rw [← f2] at c2
  have hp : 0 < recs.length := by rw [b4] at hcnt; omega
  have hp2 : recs.length < 2147483648 := by rw [b4] at hcnt; omega
  obtain ⟨ps, p1, p2, p3⟩ := points_of_data (hd := r.cfg.header) c1 c2 b2 hp hp2 d1
    (g1.trans f1.symm) (g2.trans f2.symm) (g3.trans f3.symm) (g4.trans f4.symm)
  obtain ⟨ps', u1, u2⟩ := unpack_records c1 c2 b2 hp2
  obtain rfl := Res.ok.inj (p2.symm.trans u1)
  exact ⟨List.length_pos_iff.1 hp, hp2, ps, by rw [p1]; exact b4.symm, ⟨r4, p3⟩, u2⟩

/-- The file, opened with a LAZ reader, has the metadata of the COPC file that LAZ has (`SameLazMetadata`: LAS
header, WKT, extra-byte descriptors) and, when the nodes hold compressed records of at most 255 bytes, `GetPoints`
returns the points that `GetPoints` of the COPC reader returns for the nodes, node after node in the order of
`GetAllNodes`; the header of the file has their number. -/
theorem C66_points (hw : Written L ord w0 w h data) (hr : Reader.init ⟨data, 0, false⟩ = .ok r) (ha : Asked L r q r1)
    (hall : Run.Ends (fun k => Reader.getAllNodes rord k) r1 (.ok all, r2))
    (hm : LazWriter.make OStream.fresh (LazConfig.ofCopc r.cfg) = .ok v0) {r3 : Reader} {v v' : LazWriter}
    (hconv : toLaz L all (r2, v0) = (.ok (), (r3, v))) (hc : LazWriter.close L v = (.ok (), v'))
    (hsize : v'.base.out.data.length < 2 ^ 63) (h255 : r.cfg.header.recLen.toNat ≤ 255)
    (hrecs : ∀ n ∈ all, ∃ recs, HoldsRecords L r.cfg.header data n recs)
    (htotal : (all.map (·.entry.pointCount)).sum < 2 ^ 31) :
    ∃ lr pss, LazReader.init L ⟨v'.base.out.data, 0, false⟩ = .ok lr ∧
      SameLazMetadata (LazConfig.ofCopc r.cfg) lr.base.las ∧
      List.Forall₂ (fun n ps => (ps.length : Int) = n.entry.pointCount ∧
        ∃ r4, Run.Ends (fun k => Reader.getPointsAt L k n.entry.key) r1 (.ok ps, r4)) all pss ∧
      LazReader.getPoints L lr = .ok pss.flatten ∧
      lr.base.las.header.pointCount.toNat = pss.flatten.length := by
  obtain ⟨hlw, hv, hv0⟩ := toLaz_written hw hr ha hall hm hconv hc hsize
  obtain ⟨hp, _, _⟩ := copy_nodes hw hr ha hall
  have hst := hw.lazStorable hr
  obtain ⟨c1, c2⟩ := hw.header_consistent
  obtain ⟨_, _, _, _, _, f1, f2, _⟩ := hw.asked hr (Asked.none (L := L))
  rw [← f1] at c1 c2
  rw [← f2] at c2
  have hcalls : ∀ ns : List Node, chunkCalls (ns.map fun n =>
      (LazOp.compressed (slice data n.entry.offset n.entry.byteSize.toNat) n.entry.pointCount, Res.ok ())) =
      ns.map fun n => LazOp.compressed (slice data n.entry.offset n.entry.byteSize.toNat) n.entry.pointCount := by
    intro ns
    unfold chunkCalls
    rw [List.filterMap_map]
    induction ns with
    | nil => rfl
    | cons n ns ih => rw [List.map_cons, ← ih]; rfl
  have key : ∀ ns : List Node, (∀ n ∈ ns, n ∈ all) → ∃ (recss : List (List Bytes)) (pss : List (List Point)),
      List.Forall₂ (LazOp.Gives L r.cfg.header) (ns.map fun n =>
        LazOp.compressed (slice data n.entry.offset n.entry.byteSize.toNat) n.entry.pointCount) recss ∧
      List.Forall₂ (fun n ps => (ps.length : Int) = n.entry.pointCount ∧
        ∃ r4, Run.Ends (fun k => Reader.getPointsAt L k n.entry.key) r1 (.ok ps, r4)) ns pss ∧
      List.Forall₂ (List.Forall₂ (fun x p => Point.unpack r.cfg.header.fmt r.cfg.header.scale r.cfg.header.offset
        (r.cfg.header.recLen.toNat - lasBaseSize r.cfg.header.fmt) x = .ok (p, []))) recss pss ∧
      ((recss.flatten.length : Nat) : Int) = (ns.map (·.entry.pointCount)).sum := by
    intro ns
    induction ns with
    | nil => exact fun _ => ⟨[], [], .nil, .nil, .nil, rfl⟩
    | cons n ns ih =>
      intro hns
      obtain ⟨recss, pss, i1, i2, i3, i4⟩ := ih fun m hm => hns m (by simp [hm])
      obtain ⟨recs, hh⟩ := hrecs n (hns n (by simp))
      obtain ⟨m, hmm, rfl⟩ := List.mem_map.1 (hp.subset (hns n (by simp)))
      obtain ⟨n1, n2, ps, n3, n4, n5⟩ := hw.node_points hr ha h255 hmm hh
      obtain ⟨eb, b1, b2, b3, b4⟩ := hh
      refine ⟨recs :: recss, ps :: pss, .cons ⟨n1, by omega, b2, b4, eb, b1, b3⟩ i1, .cons ⟨n3, n4⟩ i2, .cons n5 i3, ?_⟩
      rw [List.flatten_cons, List.length_append, List.map_cons, List.sum_cons, ← i4, b4]
      omega
  obtain ⟨recss, pss, k1, k2, k3, k4⟩ := key all fun _ h => h
  have hhd : v0.cfg.header = r.cfg.header.withCopc false := by rw [hv0]; rfl
  have hgives : List.Forall₂ (LazOp.Gives L v0.cfg.header) (chunkCalls (all.map fun n =>
      (LazOp.compressed (slice data n.entry.offset n.entry.byteSize.toNat) n.entry.pointCount, Res.ok ()))) recss := by
    rw [hcalls, hhd]
    exact k1
  obtain ⟨lr, l1, l2, l3, l4⟩ := C55_data hlw (by rw [hhd]; exact h255) hgives (by omega)
  rw [hv] at l2
  have l2' : SameLazMetadata (LazConfig.ofCopc r.cfg) lr.base.las :=
    ⟨l2.fileSourceId, l2.globalEncoding, l2.creationDay, l2.creationYear, l2.max, l2.min, l2.pointsByReturn, l2.scale,
      l2.offset, l2.fmt, l2.recLen, l2.guid, l2.systemIdentifier, l2.generatingSoftware, l2.wkt, l2.eb⟩
  have hall2 := forall₂_flatten k3
  have hflat : ∀ x ∈ recss.flatten, x.length = r.cfg.header.recLen.toNat := by
    intro x hx
    obtain ⟨recs, hr1, hr2⟩ := List.mem_flatten.1 hx
    exact (gives_each k1 recs hr1).2.2 x hr2
  obtain ⟨ps, u1, u2⟩ := unpack_records c1 c2 hflat (by omega)
  have hps : ps = pss.flatten := forall₂_det (fun a b c h1 h2 => by
    have := h1.symm.trans h2
    injection this with this
    injection this) u2 hall2
  refine ⟨lr, pss, l1, l2', k2, ?_, by rw [l3]; exact hall2.length_eq⟩
  have q1 : lr.base.las.header.fmt = r.cfg.header.fmt := l2'.fmt
  have q2 : lr.base.las.header.recLen = r.cfg.header.recLen := l2'.recLen
  have q3 : lr.base.las.header.scale = r.cfg.header.scale := l2'.scale
  have q4 : lr.base.las.header.offset = r.cfg.header.offset := l2'.offset
  obtain ⟨e1, e2, e3⟩ := ebSize_consistent c1 c2
  have heb : lr.base.las.header.ebSize = .ok (r.cfg.header.recLen.toNat - lasBaseSize r.cfg.header.fmt) := by
    rw [← e1]; unfold LasHeader.ebSize; rw [q1, q2]
  unfold LazReader.getPoints
  simp only
  rw [l4, Res.okBind]
  by_cases h0 : recss.flatten.flatten = []
  · have hz : recss.flatten = [] := by
      rcases hfl : recss.flatten with _ | ⟨x, xs⟩
      · rfl
      · have h1 := hflat x (by rw [hfl]; simp)
        rw [hfl, List.flatten_cons] at h0
        have h2 : x = [] := (List.append_eq_nil_iff.1 h0).1
        have hb : 0 < lasBaseSize r.cfg.header.fmt := by unfold lasBaseSize; split <;> [decide; split <;> decide]
        rw [h2] at h1
        simp only [List.length_nil] at h1
        omega
    rw [hz] at hall2
    have hpe : pss.flatten = [] := List.forall₂_nil_left_iff.1 hall2
    rw [if_pos h0, heb, Res.okBind, q1, hpe]
    unfold Coll.make
    rw [if_neg (by rcases c1 with e | e | e <;> rw [e] <;> omega), e2]
    rfl
  · rw [if_neg h0, ← hps, ← u1]
    unfold Reader.unpackWith LasHeader.ebSize
    rw [q1, q2, q3, q4]

/-- The nodes of a file to which nothing was added with `AddNodeCompressed` hold compressed records. -/
theorem C66_records (hw : Written L ord w0 w h data) (hr : Reader.init ⟨data, 0, false⟩ = .ok r) (ha : Asked L r q r1)
    (hall : Run.Ends (fun k => Reader.getAllNodes rord k) r1 (.ok all, r2))
    (hadd : ∀ k bs c p res, (Op.addCompressed k bs c p, res) ∉ h) {n : Node} (hn : n ∈ all) :
    ∃ recs, HoldsRecords L r.cfg.header data n recs := by
  obtain ⟨hp, _, _⟩ := copy_nodes hw hr ha hall
  obtain ⟨_, _, _, _, _, f1, f2, _⟩ := hw.asked hr (Asked.none (L := L))
  obtain ⟨m, hx, rfl⟩ := List.mem_map.1 (hp.subset hn)
  obtain ⟨⟨op, res⟩, hxh, he⟩ := List.mem_filterMap.1 hx
  have hres : res = .ok (some m) := by
    cases res with
    | ok a => exact congrArg Res.ok he
    | throw e => cases he
    | ub => cases he
  subst hres
  obtain ⟨_, _, _, blob, hst, hb, _, hsl⟩ := hw.node hxh
  have hsz : m.entry.byteSize.toNat = blob.length := by rw [hb]; simp
  have fin : ∀ eb recs, w0.cfg.header.ebSize = .ok eb → (∀ x ∈ recs, x.length = w0.cfg.header.recLen.toNat) →
      blob = L.compress w0.cfg.header.fmt eb recs → m.entry.pointCount = ((recs.length : Nat) : Int) →
      ∃ recs, HoldsRecords L r.cfg.header data (reported h m) recs := by
    intro eb recs t1 t2 t3 t4
    refine ⟨recs, eb, by rw [← t1]; unfold LasHeader.ebSize; rw [f1, f2], f2 ▸ t2, ?_, t4⟩
    rw [f1, ← t3, ← hsl]
    show slice data m.entry.offset m.entry.byteSize.toNat = _
    rw [hsz]
  cases op with
  | addCompressed k bs c p => exact absurd hxh (hadd _ _ _ _ _)
  | add k bs p =>
    obtain ⟨eb, recs, t1, _, t2, t3, t4⟩ := hst
    exact fin eb recs t1 t2 t3 t4
  | addPoints k f l ps p =>
    obtain ⟨_, eb, recs, _, t1, _, t2, t3, t4⟩ := hst
    exact fin eb recs t1 t2 t3 t4
  | move k p => exact hst.elim
  | close => exact hst.elim

end

/-! ### The hypotheses can be met -/

theorem BoxFile.records {r r2 : Reader} {all : List Node} (hr : Reader.init ⟨BoxFile.data, 0, false⟩ = .ok r)
    (hall : Run.Ends (fun k => Reader.getAllNodes ROrder.plain k) r (.ok all, r2)) {n : Node} (hn : n ∈ all) :
    ∃ recs, HoldsRecords Sample.L r.cfg.header BoxFile.data n recs := by
  refine C66_records BoxFile.written.1 hr .none hall ?_ hn
  intro k bs c p res hx
  have hops : BoxFile.hist.map (·.1) = BoxFile.ops := by
    rw [← BoxFile.hist_eq, run_ops]; rfl
  have hmem : Op.addCompressed k bs c p ∈ BoxFile.ops := by
    rw [← hops]; exact List.mem_map_of_mem (f := (·.1)) hx
  simp [BoxFile.ops] at hmem

/-- The two nodes of the sample file, which hold records of 31 bytes, converted. -/
example : ∃ r all r2 v0 r3 v v', Written Sample.L Sample.ord BoxFile.w0 BoxFile.w BoxFile.hist BoxFile.data ∧
    Reader.init ⟨BoxFile.data, 0, false⟩ = .ok r ∧
    Run.Ends (fun k => Reader.getAllNodes ROrder.plain k) r (.ok all, r2) ∧ all.length = 2 ∧
    LazWriter.make OStream.fresh (LazConfig.ofCopc r.cfg) = .ok v0 ∧
    toLaz Sample.L all (r2, v0) = (.ok (), (r3, v)) ∧ LazWriter.close Sample.L v = (.ok (), v') ∧
    r.cfg.header.recLen.toNat ≤ 255 ∧ (∀ n ∈ all, ∃ recs, HoldsRecords Sample.L r.cfg.header BoxFile.data n recs) ∧
    (all.map (·.entry.pointCount)).sum = 5 := by
  have hw := BoxFile.written.1
  obtain ⟨r, hr, _⟩ := C33_opens hw
  obtain ⟨all, r2, hall, hp⟩ := C33_allNodes hw hr .none ROrder.plain
  have hlen : all.length = 2 := by rw [hp.length_eq, BoxFile.written.2.1]; rfl
  obtain ⟨v0, r3, v, v', h1, h2, _, h3⟩ := C66_converts hw hr .none hall (by omega)
  refine ⟨r, all, r2, v0, r3, v, v', hw, hr, hall, hlen, h1, h2, h3, ?_, ?_, ?_⟩
  · obtain ⟨_, _, _, _, _, f1, f2, _⟩ := hw.asked hr (Asked.none (L := Sample.L))
    have e : BoxFile.w0.cfg.header.recLen.toNat = 31 := by decide +kernel
    rw [f2, e]; decide
  · exact fun n hn => BoxFile.records hr hall hn
  · rw [(hp.map (·.entry.pointCount)).sum_eq, List.map_map, BoxFile.written.2.1]
    rfl

end Copc
