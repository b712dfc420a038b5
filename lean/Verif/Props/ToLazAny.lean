import Verif.Props.CopyAny
import Verif.Props.ToLaz
/-! # C91: converting COPC files of other programs to LAZ -/
namespace Copc
open Spec VoxelKey

section
variable {L : Lazperf} {rord : ROrder} {data : Bytes} {ps : List FPage} {r r1 r2 : Reader} {q : List Query}
  {all : List Node} {keep : Node → Bool}

/-- The records `recs` are what a node of the file holds, by the positions of the formats. -/
def Format.NodeHas (L : Lazperf) (data : Bytes) (n : Node) (recs : List Bytes) : Prop :=
  Format.text data n.entry.byteSize.toNat n.entry.offset = Format.chunk L data recs ∧
  (∀ x ∈ recs, x.length = Format.num data 2 105) ∧ n.entry.pointCount = recs.length

theorem calls_of (ns : List Node) : chunkCalls (ns.map fun n =>
      (LazOp.compressed (slice data n.entry.offset n.entry.byteSize.toNat) n.entry.pointCount, Res.ok ())) =
      ns.map fun n => LazOp.compressed (slice data n.entry.offset n.entry.byteSize.toNat) n.entry.pointCount := by
  unfold chunkCalls
  rw [List.filterMap_map]
  induction ns with
  | nil => rfl
  | cons n ns ih => rw [List.map_cons, ← ih]; rfl

/-- What `GetPoints` of a LAZ reader gives when its data are whole records. -/
theorem lazPoints_of_records {hd : LasHeader} {lr : LazReader} {recs : List Bytes} {pts : List Point}
    (hf : hd.fmt = 6 ∨ hd.fmt = 7 ∨ hd.fmt = 8) (hl : lasBaseSize hd.fmt ≤ hd.recLen.toNat)
    (hrec : ∀ x ∈ recs, x.length = hd.recLen.toNat) (hu : Reader.unpackWith hd recs.flatten = .ok pts)
    (hlen : recs.length = pts.length) (q1 : lr.base.las.header.fmt = hd.fmt) (q2 : lr.base.las.header.recLen = hd.recLen)
    (q3 : lr.base.las.header.scale = hd.scale) (q4 : lr.base.las.header.offset = hd.offset)
    (hdata : LazReader.getPointData L lr = .ok recs.flatten) : LazReader.getPoints L lr = .ok pts := by
  obtain ⟨e1, e2, e3⟩ := ebSize_consistent hf hl
  have heb : lr.base.las.header.ebSize = .ok (hd.recLen.toNat - lasBaseSize hd.fmt) := by
    rw [← e1]; unfold LasHeader.ebSize; rw [q1, q2]
  have hb : 0 < lasBaseSize hd.fmt := by unfold lasBaseSize; split <;> [decide; split <;> decide]
  unfold LazReader.getPoints
  simp only
  rw [hdata, Res.okBind]
  by_cases h0 : recs.flatten = []
  · have hz : recs = [] := by
      rcases hfl : recs with _ | ⟨x, xs⟩
      · rfl
      · have h1 := hrec x (by rw [hfl]; simp)
        rw [hfl, List.flatten_cons] at h0
        have h2 : x = [] := (List.append_eq_nil_iff.1 h0).1
        rw [h2] at h1
        simp only [List.length_nil] at h1
        omega
    have hpe : pts = [] := by
      rw [hz] at hlen
      exact List.length_eq_zero_iff.1 hlen.symm
    rw [if_pos h0, heb, Res.okBind, q1, hpe]
    unfold Coll.make
    rw [if_neg (by rcases hf with e | e | e <;> rw [e] <;> omega), e2]
    rfl
  · rw [if_neg h0, ← hu]
    unfold Reader.unpackWith LasHeader.ebSize
    rw [q1, q2, q3, q4]

/-- Converting any selection of the nodes of a file of another program to a LAZ file, with the configuration of its reader: the
writer is made, no chunk is refused, `Close` returns, and a LAZ reader of the new file has the LAS header fields, the WKT string and
the extra-byte descriptors of the original, the number of the points, and gives the points of the selected nodes, node after node:
every attribute from its position in the record in the original file. What is asked of the original beyond `Conforms` and `Suits`:
the extra-byte descriptors fit the records (`hitems`), the selected nodes hold (`NodeHas`) at least one record each, of at most 255
bytes, and fewer than 2^31 in all. -/
theorem C91_convert_partial (hc : Format.Conforms data) (hs : Format.Suits data) (hg : GoodHierarchy data ps) (ho : Opened data ps r)
    (hr : Format.ReadAs data r.cfg) (ha : Asked L r q r1)
    (hall : Run.Ends (fun k => Reader.getAllNodes rord k) r1 (.ok all, r2)) (hitems : ItemsFit r.cfg)
    {recss : List (List Bytes)} (hsel : List.Forall₂ (Format.NodeHas L data) (all.filter keep) recss)
    (hin : ∀ n, NodeOf ps n → keep n = true → 0 < n.entry.pointCount ∧ n.entry.offset + n.entry.byteSize.toNat ≤ data.length)
    (h255 : Format.num data 2 105 ≤ 255) (hfew : recss.flatten.length < 2 ^ 31) :
    ∃ v0 r3 v v', LazWriter.make OStream.fresh (LazConfig.ofCopc r.cfg) = .ok v0 ∧
      toLaz L (all.filter keep) (r2, v0) = (.ok (), (r3, v)) ∧ LazWriter.close L v = (.ok (), v') ∧
      (v'.base.out.data.length < 2 ^ 63 → ∃ lr pts, LazReader.init L ⟨v'.base.out.data, 0, false⟩ = .ok lr ∧
        SameLazMetadata (LazConfig.ofCopc r.cfg) lr.base.las ∧ LazReader.getPoints L lr = .ok pts ∧
        lr.base.las.header.pointCount.toNat = pts.length ∧ List.Forall₂ (Format.PointIs data) recss.flatten pts) := by
  obtain ⟨hA, hnd, hd, hf⟩ := all_listed hg ho ha hall
  have hh := hr.header
  have hfm : (Format.num data 1 104 : Int) - 128 = r.cfg.header.fmt := by have := hh.format; omega
  have hf6 : r.cfg.header.fmt = 6 ∨ r.cfg.header.fmt = 7 ∨ r.cfg.header.fmt = 8 := by
    have hfm := hr.header.format
    rcases hc.format with h | h | h <;> omega
  have hbase : lasBaseSize r.cfg.header.fmt ≤ r.cfg.header.recLen.toNat := by rw [hitems.record]; omega
  obtain ⟨p1, p2, p3, p4⟩ := parts_read hc hs hr hitems
  have hst : LazStorable (LazConfig.ofCopc r.cfg).forWriter :=
    ⟨⟨hf6, hitems.record, fun f h => (hitems.types f h).2⟩, ⟨p1.fmt, p1.byReturn, p1.guid, p1.sys, p1.gen⟩, p2, p3, p4⟩
  obtain ⟨e1, _⟩ := lazConsistent_eb hst.toLazConsistent
  obtain ⟨v0, hm⟩ : ∃ v0, LazWriter.make OStream.fresh (LazConfig.ofCopc r.cfg) = .ok v0 := by
    unfold LazWriter.make BaseW.offsetToPointData
    rw [e1, Res.okBind, Res.okBind]
    exact ⟨_, rfl⟩
  have hsel' : ∀ {n : Node}, n ∈ all.filter keep ↔ NodeOf ps n ∧ keep n = true := by
    intro n
    rw [List.mem_filter, hA.2]
  have hcp : ∀ n ∈ all.filter keep, Copyable data n := by
    intro n h
    obtain ⟨h1, h2⟩ := hsel'.1 h
    obtain ⟨h3, h4⟩ := hin n h1 h2
    exact (NodeOf.copyable hg h1 h3 h4).1
  obtain ⟨r3, v, g1, g2, g3, _, g5, g6⟩ := toLaz_run (L := L) hc.fits hm (all.filter keep) hcp r2 v0 [] hd hf .start
    (by intro x hx; cases hx)
  rw [List.nil_append] at g2
  have hun : LazUnclosed ((all.filter keep).map fun n =>
        (LazOp.compressed (slice data n.entry.offset n.entry.byteSize.toNat) n.entry.pointCount, Res.ok ())) := by
    intro x hx
    obtain ⟨n, _, rfl⟩ := List.mem_map.1 hx
    simp
  have hc0 : v0.base.chunks = [] := by
    unfold LazWriter.make at hm
    obtain ⟨n, _, h3⟩ := Res.bind_ok_iff.1 hm
    obtain rfl := Res.ok.inj h3
    rfl
  obtain ⟨_, _, _, hcfg⟩ := lazMake_ok hm
  -- the chunks
  have hgv : ∀ ns : List Node, (∀ n ∈ ns, Copyable data n) → ∀ recss, List.Forall₂ (Format.NodeHas L data) ns recss →
      recss.flatten.length < 2 ^ 31 →
      List.Forall₂ (LazOp.Gives L v0.cfg.header) (ns.map fun n =>
        LazOp.compressed (slice data n.entry.offset n.entry.byteSize.toNat) n.entry.pointCount) recss ∧ ns.length ≤ recss.flatten.length := by
    intro ns
    induction ns with
    | nil => intro _ recss h _; cases h; exact ⟨.nil, by simp⟩
    | cons n ns ih =>
      intro hcp recss h hfew
      cases h with
      | cons h1 h2 =>
        rename_i recs recss
        rw [List.flatten_cons, List.length_append] at hfew
        obtain ⟨i1, i2⟩ := ih (fun m hm => hcp m (by simp [hm])) recss h2 (by omega)
        obtain ⟨b1, b2, b3⟩ := h1
        have cn := hcp n (by simp)
        have hpos : 0 < recs.length := by have := cn.count; omega
        obtain ⟨c1, c2, c3⟩ := ebSize_consistent hf6 hbase
        refine ⟨.cons ⟨List.length_pos_iff.1 hpos, by omega, ?_, b3, r.cfg.header.recLen.toNat - lasBaseSize r.cfg.header.fmt, ?_, ?_⟩ i1, ?_⟩
        · rw [hcfg]; intro x hx; rw [b2 x hx, ← hh.record]; rfl
        · rw [hcfg]; exact c1
        · rw [hcfg]
          unfold Format.chunk at b1
          rw [hfm, ← hh.record] at b1
          exact b1
        · rw [List.flatten_cons, List.length_append, List.length_cons]; omega
  obtain ⟨k1, k2⟩ := hgv _ hcp recss hsel hfew
  have hout := C46_outcome hm ⟨hst.fmt, hst.len, hst.items⟩ hst.header.byReturn g2 hun
  rw [g6, hc0] at hout
  have hclose : LazWriter.close L v = (.ok (), (LazWriter.close L v).2) := by
    rcases hout with ho | ⟨ho, _⟩
    · exact Prod.ext ho rfl
    · rw [List.length_nil] at ho
      omega
  refine ⟨v0, r3, v, (LazWriter.close L v).2, hm, g1, hclose, fun hsize => ?_⟩
  have hlw : LazWritten L v0 v ((all.filter keep).map fun n =>
        (LazOp.compressed (slice data n.entry.offset n.entry.byteSize.toNat) n.entry.pointCount, Res.ok ()))
      (LazWriter.close L v).2.base.out.data := by
    refine ⟨⟨_, hm⟩, g2, hun, ?_, ⟨_, hclose, rfl⟩, ?_, hsize⟩
    · intro x hx
      obtain ⟨n, _, rfl⟩ := List.mem_map.1 hx
      simp
    · rw [g3, hcfg]; exact hst
  obtain ⟨lr, l1, l2, l3, l4⟩ := C55_data hlw (by rw [hcfg]; show r.cfg.header.recLen.toNat ≤ 255; rw [hh.record]; exact h255)
    (by rw [calls_of]; exact k1) (by omega)
  rw [g3, hcfg] at l2
  have l2' : SameLazMetadata (LazConfig.ofCopc r.cfg) lr.base.las :=
    ⟨l2.fileSourceId, l2.globalEncoding, l2.creationDay, l2.creationYear, l2.max, l2.min, l2.pointsByReturn, l2.scale,
      l2.offset, l2.fmt, l2.recLen, l2.guid, l2.systemIdentifier, l2.generatingSoftware, l2.wkt, l2.eb⟩
  have hflat : ∀ x ∈ recss.flatten, x.length = r.cfg.header.recLen.toNat := by
    intro x hx
    obtain ⟨recs, hr1, hr2⟩ := List.mem_flatten.1 hx
    have := (gives_each k1 recs hr1).2.2 x hr2
    rw [hcfg] at this
    exact this
  obtain ⟨pts, u1, u2⟩ := points_are hh hf6 ⟨hbase, by rw [hh.record]; exact h255⟩ hflat (by omega)
  exact ⟨lr, pts, l1, l2', lazPoints_of_records hf6 hbase hflat u1 u2.length_eq l2'.fmt l2'.recLen l2'.scale l2'.offset l4,
    by rw [l3]; exact u2.length_eq, u2⟩

/-- The whole claim fails for every file with a node without points (which the COPC format allows): converting it throws. -/
theorem C91_empty_violated (hsize : data.length < 2 ^ 63) (hg : GoodHierarchy data ps) (ho : Opened data ps r) (ha : Asked L r q r1)
    (hall : Run.Ends (fun k => Reader.getAllNodes rord k) r1 (.ok all, r2)) {c : LazConfig} {v0 : LazWriter}
    (hm : LazWriter.make OStream.fresh c = .ok v0)
    (hin : ∀ n, NodeOf ps n → 0 ≤ n.entry.pointCount ∧ n.entry.offset + n.entry.byteSize.toNat ≤ data.length)
    (hempty : ∃ n, NodeOf ps n ∧ n.entry.pointCount = 0) :
    (toLaz L all (r2, v0)).1 = .throw .zeroCount := by
  obtain ⟨hA, hnd, hd, hf⟩ := all_listed hg ho ha hall
  obtain ⟨n0, hn0, hz0⟩ := hempty
  obtain ⟨a, n, b, rfl, hz, hpre⟩ := first_empty all ⟨n0, (hA.2 n0).2 hn0, hz0⟩
  have hN : ∀ m ∈ a ++ n :: b, NodeOf ps m := fun m h => (hA.2 m).1 h
  obtain ⟨r3, v, g1, _, _, g6, g7, _⟩ := toLaz_run (L := L) hsize hm a (fun m h => by
    have h1 := hN m (List.mem_append_left _ h)
    obtain ⟨h2, h3⟩ := hin m h1
    have := hpre m h
    exact (NodeOf.copyable hg h1 (by omega) h3).1) r2 v0 [] hd hf .start (by intro x hx; cases hx)
  unfold toLaz at g1 ⊢
  have hn := hN n (by simp)
  have e1 := compressed_reads g6 g7 hsize (NodeOf.isValid hg hn) (hin n hn).2
  have a1 : ∀ bs q', Reader.getPointDataCompressed n r3 = (.ok bs, q') →
      Act.zoom Prod.fst (fun r s => (r, s.2)) (Reader.getPointDataCompressed n) ((r3, v) : Converter) = (.ok bs, (q', v)) := by
    intro bs q' h
    rw [Act.zoom_apply]; dsimp only; rw [h]
  have e2 : (toLazNode L n (r3, v)).1 = .throw .zeroCount := by
    unfold toLazNode
    rw [Act.bind_ok (a1 _ _ e1), hz]
    rfl
  rw [Mp.forEach_append, Act.bind_ok g1]
  rw [Act.forEach_cons, Act.bind_apply]
  generalize toLazNode L n (r3, v) = x at e2
  obtain ⟨x1, x2⟩ := x
  dsimp only at e2
  subst e2
  rfl

end
end Copc
