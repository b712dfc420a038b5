import Verif.Props.Copy
import Verif.Props.Compress
import Verif.Props.ToLaz
/-! # C67: copying the nodes of a file with decompression and compression -/
namespace Copc
open Spec VoxelKey

/-- Compressing whole records with a header. -/
theorem compress_records (L : Lazperf) {hd : LasHeader} {eb : Nat} {recs : List Bytes}
    (hf : hd.fmt = 6 ∨ hd.fmt = 7 ∨ hd.fmt = 8) (hb : lasBaseSize hd.fmt ≤ hd.recLen.toNat)
    (he : hd.ebSize = .ok eb) (hrec : ∀ x ∈ recs, x.length = hd.recLen.toNat)
    (hm : recs.flatten.length ≤ 2147483647) :
    compressVectorH L recs.flatten hd = .ok (L.compress hd.fmt eb recs) := by
  obtain ⟨e1, e2, e3⟩ := ebSize_consistent hf hb
  obtain rfl : eb = _ := Res.ok.inj (he.symm.trans e1)
  have hpos : 0 < lasBaseSize hd.fmt := by unfold lasBaseSize; split <;> [decide; split <;> decide]
  have hlen : recs.flatten.length = recs.length * hd.recLen.toNat := by
    rw [List.length_flatten, List.map_congr_left hrec, List.map_const', List.sum_replicate_nat]
  unfold compressVectorH
  rw [he, Res.okBind]
  unfold compressVector
  rw [e2, Res.okBind, if_neg (by omega), if_neg (by rw [hlen, Nat.mul_mod_left]; simp), if_neg (by omega)]
  obtain ⟨c1, c2, _⟩ := cut_flatten hd.recLen.toNat recs.length recs.flatten hlen
  rw [hlen, Nat.mul_div_cancel _ (by omega), flatten_inj (by omega : 0 < hd.recLen.toNat) c2 hrec c1]

section
variable {L : Lazperf} {ord ord' : Order} {w0 w : Writer} {h : List (Op × Res (Option Node))} {data : Bytes}
  {r r1 r2 : Reader} {q : List Query} {rord : ROrder} {all : List Node} {keep : Node → Bool}
  {c : CopcConfig} {o : Writer.Overrides} {v0 : Writer}

/-- One node. -/
theorem recompress_step {hd : LasHeader} (hsize : data.length < 2 ^ 63) {n : Node} (cn : Copyable data n)
    (hf : hd.fmt = 6 ∨ hd.fmt = 7 ∨ hd.fmt = 8) (hb : lasBaseSize hd.fmt ≤ hd.recLen.toNat)
    (h255 : hd.recLen.toNat ≤ 255) {recs : List Bytes} (hrecs : HoldsRecords L hd data n recs)
    (hm : recs.flatten.length ≤ 2147483647) {r : Reader} {v : Writer} (h1 : r.h.str.data = data)
    (h2 : r.h.str.fail = false) (hr1 : r.cfg.header.fmt = hd.fmt) (hr2 : r.cfg.header.recLen = hd.recLen)
    (hv1 : v.cfg.header.fmt = hd.fmt) (hv2 : v.cfg.header.recLen = hd.recLen) {ra : Reader}
    (h3 : ra.h.str.data = data) (h4 : ra.h.str.fail = false) :
    (recompressNode L ord n (r, v)).1 = (copyNode L ord n (ra, v)).1 ∧
    (recompressNode L ord n (r, v)).2.2 = (copyNode L ord n (ra, v)).2.2 ∧
    (recompressNode L ord n (r, v)).2.1.h.str.data = data ∧ (recompressNode L ord n (r, v)).2.1.h.str.fail = false ∧
    (recompressNode L ord n (r, v)).2.1.cfg = r.cfg := by
  obtain ⟨eb, b1, b2, b3, b4⟩ := hrecs
  obtain ⟨e1, e2, e3⟩ := ebSize_consistent hf hb
  obtain rfl : eb = _ := Res.ok.inj (b1.symm.trans e1)
  have hre : r.cfg.header.ebSize = .ok (hd.recLen.toNat - lasBaseSize hd.fmt) := by
    rw [← b1]; unfold LasHeader.ebSize; rw [hr1, hr2]
  have hve : v.cfg.header.ebSize = .ok (hd.recLen.toNat - lasBaseSize hd.fmt) := by
    rw [← b1]; unfold LasHeader.ebSize; rw [hv1, hv2]
  have g1 := pointData_reads (L := L) h1 h2 hsize cn.valid cn.inside hre (by rw [hr1]; exact e2)
    (by rw [hr1, e3]; exact h255) (by rw [hr1]; exact hf) (recs := recs) (by rw [hr1]; exact b3)
    (by rw [hr1, e3]; exact b2) b4
  have g2 := compressed_reads h3 h4 hsize cn.valid cn.inside
  have g3 := compress_records L (hd := v.cfg.header) (by rw [hv1]; exact hf) (by rw [hv1, hv2]; exact hb) hve
    (by rw [hv2]; exact b2) hm
  rw [hv1, ← b3] at g3
  have a1 : Act.zoom Prod.fst (fun r s => (r, s.2)) (Reader.getPointDataCompressed n) ((ra, v) : Copier) =
      (.ok (slice data n.entry.offset n.entry.byteSize.toNat),
        (ra.withStr ⟨data, n.entry.offset + n.entry.byteSize.toNat, false⟩, v)) := by
    rw [Act.zoom_apply]; dsimp only; rw [g2]
  have a2 : Act.zoom Prod.fst (fun r s => (r, s.2)) (Reader.getPointData L n) ((r, v) : Copier) =
      (.ok recs.flatten, (r.withStr ⟨data, n.entry.offset, false⟩, v)) := by
    rw [Act.zoom_apply]; dsimp only; rw [g1]
  unfold recompressNode copyNode
  rw [Act.bind_ok a1, Act.bind_ok a2, Act.bind_ok (Act.gets_apply _ _), Act.bind_ok (by rw [Act.lift_apply, g3])]
  generalize slice data n.entry.offset n.entry.byteSize.toNat = bs
  rw [Act.bind_apply, Act.bind_apply, Act.zoom_apply, Act.zoom_apply]
  dsimp only
  generalize (Op.addCompressed n.entry.key bs n.entry.pointCount n.pageKey).run L ord v = p
  obtain ⟨res, v'⟩ := p
  cases res <;> exact ⟨rfl, rfl, rfl, rfl, rfl⟩

/-- The loops. -/
theorem recompress_loop {hd : LasHeader} (hsize : data.length < 2 ^ 63) (hm : Writer.make OStream.fresh c o = .ok v0)
    (hf : hd.fmt = 6 ∨ hd.fmt = 7 ∨ hd.fmt = 8) (hb : lasBaseSize hd.fmt ≤ hd.recLen.toNat) (h255 : hd.recLen.toNat ≤ 255) :
    ∀ (ns : List Node), (∀ n ∈ ns, Copyable data n ∧ ∃ recs, HoldsRecords L hd data n recs ∧
      recs.flatten.length ≤ 2147483647) →
    ∀ (ra rb : Reader) (v : Writer) (h : List (Op × Res (Option Node))),
    ra.h.str.data = data → ra.h.str.fail = false → rb.h.str.data = data → rb.h.str.fail = false →
    rb.cfg.header.fmt = hd.fmt → rb.cfg.header.recLen = hd.recLen → v.cfg.header.fmt = hd.fmt →
    v.cfg.header.recLen = hd.recLen → History L ord v0 h v → Unclosed h →
    ∃ ra' rb' v', copyNodes L ord ns (ra, v) = (.ok (), (ra', v')) ∧
      recompressNodes L ord ns (rb, v) = (.ok (), (rb', v')) ∧ rb'.h.str.fail = false
  | [], _, ra, rb, v, _, _, _, _, g, _, _, _, _, _, _ => ⟨ra, rb, v, rfl, rfl, g⟩
  | n :: ns, hn, ra, rb, v, h, a1, a2, b1, b2, b3, b4, c1, c2, hh, hu => by
    obtain ⟨cn, recs, hrecs, hsm⟩ := hn n (by simp)
    obtain ⟨ra1, v1, t, g1, g2, g3, g4, g5, g6, g7, _⟩ := copy_run (L := L) (ord := ord) hsize hm [n]
      (by intro m hm; rw [List.mem_singleton.1 hm]; exact cn) ra v h a1 a2 hh hu
    obtain ⟨s1, s2, s3, s4, s5⟩ := recompress_step (ord := ord) hsize cn hf hb h255 hrecs hsm b1 b2 b3 b4 c1 c2 a1 a2
    have g1' : copyNode L ord n (ra, v) = (.ok (), (ra1, v1)) := by
      have e : copyNodes L ord [n] (ra, v) = (do copyNode L ord n; pure ()) (ra, v) := rfl
      rw [e, Act.bind_apply] at g1
      generalize copyNode L ord n (ra, v) = p at g1 ⊢
      obtain ⟨res, s⟩ := p
      cases res with
      | ok u => exact g1
      | throw e => cases g1
      | ub => cases g1
    rw [g1'] at s1 s2
    have hu2 : Unclosed (h ++ t) := by
      intro x hx
      rcases List.mem_append.1 hx with hx | hx
      · exact hu x hx
      · have : x.1 ∈ t.map (·.1) := List.mem_map_of_mem hx
        rw [g3] at this
        rw [List.mem_singleton.1 this]
        simp [blobOp]
    obtain ⟨ra', rb', v', k1, k2, k3⟩ := recompress_loop hsize hm hf hb h255 ns (fun m hm => hn m (by simp [hm]))
      ra1 (recompressNode L ord n (rb, v)).2.1 v1 (h ++ t) g6 g7 s3 s4 (by rw [s5]; exact b3) (by rw [s5]; exact b4)
      (by rw [g5]; exact c1) (by rw [g5]; exact c2) g2 hu2
    refine ⟨ra', rb', v', ?_, ?_, k3⟩
    · show (do copyNode L ord n; Act.forEach (copyNode L ord) ns) (ra, v) = _
      rw [Act.bind_ok g1']; exact k1
    · show (do recompressNode L ord n; Act.forEach (recompressNode L ord) ns) (rb, v) = _
      have e : recompressNode L ord n (rb, v) = (.ok (), ((recompressNode L ord n (rb, v)).2.1, v1)) :=
        Prod.ext s1 (Prod.ext rfl s2)
      rw [Act.bind_ok e]; exact k2

/-- Reading the list of nodes does not change the configuration. -/
theorem nodes_cfg (hw : Written L ord w0 w h data) (hr : Reader.init ⟨data, 0, false⟩ = .ok r) (ha : Asked L r q r1)
    (hall : Run.Ends (fun k => Reader.getAllNodes rord k) r1 (.ok all, r2)) : r2.cfg = r.cfg := by
  obtain ⟨ps, rr, k1, _, _, k4, _⟩ := hw.facts
  obtain rfl := Res.ok.inj (k4.init.symm.trans hr)
  obtain ⟨hi, hc⟩ := ha.rInv k1 (k4.rInv k1)
  obtain ⟨ns, r'', he, _, hs, _⟩ := (allNodes_gives k1 hi rord).ends
  have e1 := Run.Ends.unique hall he
  injection e1 with _ e1
  subst e1
  exact hs.2.trans hc.2

/-- Copying any selection of the nodes with decompression and compression leaves the writer in the very state that
copying the compressed bytes does, so that C62 says what the file is: for nodes that hold compressed records of at
most 255 bytes (C47), at most 2^31 - 1 bytes a node (C56), and a writer of the same point format and record length. -/
theorem C67_same (hw : Written L ord w0 w h data) (hr : Reader.init ⟨data, 0, false⟩ = .ok r) (ha : Asked L r q r1)
    (hall : Run.Ends (fun k => Reader.getAllNodes rord k) r1 (.ok all, r2)) (keep : Node → Bool)
    (hm : Writer.make OStream.fresh c o = .ok v0)
    (hfmt : v0.cfg.header.fmt = r.cfg.header.fmt) (hlen : v0.cfg.header.recLen = r.cfg.header.recLen)
    (h255 : r.cfg.header.recLen.toNat ≤ 255)
    (hrecs : ∀ n ∈ all, keep n = true → (∃ recs, HoldsRecords L r.cfg.header data n recs) ∧
      n.entry.pointCount * r.cfg.header.recLen.toNat ≤ 2147483647) :
    ∃ r3 r3' v, copyNodes L ord' (all.filter keep) (r2, v0) = (.ok (), (r3, v)) ∧
      recompressNodes L ord' (all.filter keep) (r2, v0) = (.ok (), (r3', v)) ∧ r3'.h.str.fail = false := by
  obtain ⟨hp, hd, hf⟩ := copy_nodes hw hr ha hall
  obtain ⟨c1, c2⟩ := hw.header_consistent
  obtain ⟨_, _, _, _, _, f1, f2, _⟩ := hw.asked hr (Asked.none (L := L))
  rw [← f1] at c1 c2
  rw [← f2] at c2
  have hcfg := nodes_cfg hw hr ha hall
  obtain ⟨ra, rb, v, k1, k2, k3⟩ := recompress_loop (L := L) (ord := ord') (hd := r.cfg.header) hw.size hm c1 c2 h255
    (all.filter keep) (fun n hn => by
      obtain ⟨g1, g2⟩ := List.mem_filter.1 hn
      obtain ⟨m, hm, rfl⟩ := List.mem_map.1 (hp.subset g1)
      obtain ⟨⟨recs, hrec⟩, hmul⟩ := hrecs _ g1 g2
      refine ⟨hw.copyable hm, recs, hrec, ?_⟩
      obtain ⟨_, _, b2, _, b4⟩ := hrec
      have hl : recs.flatten.length = recs.length * r.cfg.header.recLen.toNat := by
        rw [List.length_flatten, List.map_congr_left b2, List.map_const', List.sum_replicate_nat]
      rw [b4] at hmul
      rw [hl]
      exact_mod_cast hmul) r2 r2 v0 [] hd hf hd hf (by rw [hcfg]) (by rw [hcfg]) hfmt hlen .start
      (by intro x hx; cases hx)
  exact ⟨ra, rb, v, k1, k2, k3⟩

end

/-! ### The hypotheses can be met -/

/-- Both nodes of the sample file. -/
example : ∃ r all r2 r3 r3' v, Written Sample.L Sample.ord BoxFile.w0 BoxFile.w BoxFile.hist BoxFile.data ∧
    Reader.init ⟨BoxFile.data, 0, false⟩ = .ok r ∧
    Run.Ends (fun k => Reader.getAllNodes ROrder.plain k) r (.ok all, r2) ∧ all.length = 2 ∧
    (∀ n ∈ all, (∃ recs, HoldsRecords Sample.L r.cfg.header BoxFile.data n recs) ∧
      n.entry.pointCount * r.cfg.header.recLen.toNat ≤ 2147483647) ∧
    copyNodes Sample.L Sample.ord (all.filter fun _ => true) (r2, BoxFile.w0) = (.ok (), (r3, v)) ∧
    recompressNodes Sample.L Sample.ord (all.filter fun _ => true) (r2, BoxFile.w0) = (.ok (), (r3', v)) := by
  have hw := BoxFile.written.1
  obtain ⟨r, hr, _⟩ := C33_opens hw
  obtain ⟨all, r2, hall, hp⟩ := C33_allNodes hw hr .none ROrder.plain
  obtain ⟨_, _, _, _, _, f1, f2, _⟩ := hw.asked hr (Asked.none (L := Sample.L))
  have e : BoxFile.w0.cfg.header.recLen.toNat = 31 := by decide +kernel
  have hc : ∀ n ∈ all, n.entry.pointCount ≤ 3 := by
    intro n hn
    have := hp.subset hn
    rw [BoxFile.written.2.1] at this
    obtain ⟨m, hm, rfl⟩ := List.mem_map.1 this
    exact (by decide : ∀ m ∈ gotNodes BoxFile.outs, m.entry.pointCount ≤ 3) m hm
  have hh : ∀ n ∈ all, (∃ recs, HoldsRecords Sample.L r.cfg.header BoxFile.data n recs) ∧
      n.entry.pointCount * r.cfg.header.recLen.toNat ≤ 2147483647 := by
    intro n hn
    refine ⟨BoxFile.records hr hall hn, ?_⟩
    have := hc n hn
    rw [f2, e]
    omega
  obtain ⟨r3, r3', v, h1, h2, _⟩ := C67_same (ord' := Sample.ord) hw hr .none hall (fun _ => true) BoxFile.made f1.symm f2.symm
    (by rw [f2, e]; decide) (fun n hn _ => hh n hn)
  exact ⟨r, all, r2, r3, r3', v, hw, hr, hall, by rw [hp.length_eq, BoxFile.written.2.1]; rfl, hh, h1, h2⟩

end Copc
