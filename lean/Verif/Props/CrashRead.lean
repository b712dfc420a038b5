import Verif.Props.Crash
import Verif.Lemmas.TornRead
/-! # C61: what a file whose last writes are missing still has -/
namespace Copc
open Spec VoxelKey

/-! ### Nodes and points are those of the finished file -/

/-- A finished file and what is left of it when the run dies within `Close`, with a reader on each; the header
and the COPC information (589 bytes) have been written. Any calls may have been made on the readers. -/
structure TornPair (L : Lazperf) (ord : Order) (w0 w : Writer) (h : List (Op × Res (Option Node)))
    (data : Bytes) (k : Nat) (r r' : Reader) : Prop where
  finished : Written L ord w0 w h data
  start : (Writer.close L ord (w.dying k)).2.base.out.data.take 589 = data.take 589
  opened : ∃ r0 l, Reader.init ⟨(Writer.close L ord (w.dying k)).2.base.out.data, 0, false⟩ = .ok r0 ∧
    r0.h.str.fail = false ∧ Asked L r0 l r
  opened' : ∃ r0 l, Reader.init ⟨data, 0, false⟩ = .ok r0 ∧ Asked L r0 l r'

section
variable {L : Lazperf} {ord : Order} {w0 w : Writer} {h : List (Op × Res (Option Node))} {data : Bytes} {k : Nat}
  {r r' : Reader}

theorem decode_take (d : Bytes) (a b : Nat) {d' : Bytes} {m : Nat} (h : d.take m = d'.take m) (hm : a + b ≤ m) :
    (d.drop a).take b = (d'.drop a).take b := by
  have e : ∀ x : Bytes, (x.drop a).take b = ((x.take m).drop a).take b := by
    intro x
    rw [List.drop_take, List.take_take]
    congr 1
    omega
  rw [e d, e d', h]

/-- The two readers have the same header and the same hierarchy. -/
theorem TornPair.facts (t : TornPair L ord w0 w h data k r r') :
    ∃ d ps, SameFrom (w0.base.out.data.length - 8) data d ∧ GoodHierarchy data ps ∧ GoodHierarchy d ps ∧
      RInv data ps r'.h ∧ RInv d ps r.h ∧
      (∀ m, NodeOf ps m ↔ ∃ n ∈ addedNodes h, m = reported h n) ∧
      r.cfg.header = r'.cfg.header ∧ r.cfg.info = r'.cfg.info := by
  obtain ⟨r0, l, hr, hg, ha⟩ := t.opened
  obtain ⟨r0', l', hr', ha'⟩ := t.opened'
  have hs := t.start
  have hw := t.finished
  obtain ⟨c, o, hm⟩ := hw.made
  obtain ⟨w', hc, hd⟩ := hw.closed
  obtain ⟨j, hj, hz⟩ := C61_closing_partial L ord hm hw.history hw.unclosed hc k ⟨_, hr⟩
  obtain ⟨ps, g1, _, g3, _, g5, q, hq, hqk, hqo, hqs⟩ := closed_good hm hw.history hw.unclosed hw.distinct hw.once
    hw.counted hc (by rw [hd]; exact hw.size)
  rw [hd] at hz g1
  obtain ⟨ps1, r1, _, _, _, o1, _⟩ := hw.facts
  obtain rfl : r1 = r0' := Res.ok.inj (o1.init.symm.trans hr')
  generalize (Writer.close L ord (w.dying k)).2.base.out.data = d at *
  have hsame := hz.sameFrom
  have gd := hsame.good g1 fun q hq => by have := g5 q hq; omega
  obtain ⟨hd1, p1, p2, p3, p4⟩ := opens_parts hr hg
  obtain ⟨hd2, q1, q2, q3, q4⟩ := opens_parts hr' o1.good
  have e375 : d.take 375 = data.take 375 := by
    have := decode_take d 0 375 hs (by omega)
    simpa using this
  rw [e375, q1] at p1
  obtain rfl := Res.ok.inj p1
  have hhd : r0.cfg.header = r1.cfg.header := by rw [p2, q2]
  have hinfo : r0.cfg.info = r1.cfg.info := by rw [p3, q3, decode_take d 429 160 hs (by omega)]
  obtain ⟨r2, a1, _, a3, _⟩ := closed_open hm hw.history hw.unclosed hw.storable hc (by rw [hd]; exact hw.size) hw.few
  rw [hd] at a1
  obtain rfl : r2 = r1 := Res.ok.inj (a1.symm.trans hr')
  have op' : Opened data ps r2 := ⟨hr', o1.good, q, hq, hqk, by rw [a3]; exact hqo, by rw [a3]; exact hqs⟩
  have op : Opened d ps r0 := ⟨hr, hg, q, hq, hqk, by rw [hinfo, a3]; exact hqo, by rw [hinfo, a3]; exact hqs⟩
  obtain ⟨i1, s1⟩ := ha.rInv gd (op.rInv gd)
  obtain ⟨i2, s2⟩ := ha'.rInv g1 (op'.rInv g1)
  exact ⟨d, ps, hsame, g1, gd, i2, i1, g3, by rw [s1.2, s2.2, hhd], by rw [s1.2, s2.2, hinfo]⟩

/-- Header and COPC information. -/
theorem C61_header (t : TornPair L ord w0 w h data k r r') :
    r.cfg.header = r'.cfg.header ∧ r.cfg.info = r'.cfg.info := by
  obtain ⟨_, _, _, _, _, _, _, _, h1, h2⟩ := t.facts
  exact ⟨h1, h2⟩

theorem answer_unique {ps : List FPage} (hg : ∀ m m', NodeOf ps m → NodeOf ps m' → m.key = m'.key → m = m')
    {key : VoxelKey} {m m' : Node} (h : Answer ps key m) (h' : Answer ps key m') : m = m' := by
  rcases h with ⟨h1, h2⟩ | ⟨h1, h2⟩ <;> rcases h' with ⟨h3, h4⟩ | ⟨h3, h4⟩
  · exact hg _ _ h1 h3 (h2.trans h4.symm)
  · exact absurd h2 (h3 _ h1)
  · exact absurd h4 (h1 _ h3)
  · rw [h2, h4]

theorem TornPair.unique (t : TornPair L ord w0 w h data k r r') {ps : List FPage}
    (g6 : ∀ m, NodeOf ps m ↔ ∃ n ∈ addedNodes h, m = reported h n) :
    ∀ m m', NodeOf ps m → NodeOf ps m' → m.key = m'.key → m = m' := by
  intro m m' hm hm' he
  obtain ⟨n, hn, rfl⟩ := (g6 m).1 hm
  obtain ⟨n', hn', rfl⟩ := (g6 m').1 hm'
  rw [addedNodes_unique t.finished.distinct hn hn' he]

/-- A lookup followed by a function of the node that gives the same on both files. -/
theorem TornPair.findThen {α : Type} (t : TornPair L ord w0 w h data k r r') (key : VoxelKey)
    (f : Node → Act Reader α)
    (hf : ∀ (m : Node) (d : Bytes) (s s' : Reader), SameFrom (w0.base.out.data.length - 8) data d →
      (m = Node.empty ∨ ∃ n ∈ addedNodes h, m = reported h n) →
      s.h.str.data = d → s.h.str.fail = false → s'.h.str.data = data → s'.h.str.fail = false →
      s.cfg.header = s'.cfg.header →
      ∃ res u u', f m s = (res, u) ∧ f m s' = (res, u') ∧ u.cfg = s.cfg ∧ u'.cfg = s'.cfg) :
    ∃ res u u', Run.Ends (fun k => Reader.findNode k key >>= fun m => Run.ofAct (f m)) r (res, u) ∧
      Run.Ends (fun k => Reader.findNode k key >>= fun m => Run.ofAct (f m)) r' (res, u') ∧
      u.cfg.header = u'.cfg.header := by
  obtain ⟨d, ps, g1, g2, g3, g4, g5, g6, g7, _⟩ := t.facts
  obtain ⟨m, s, e1, i1, c1, a1⟩ := (findNode_gives g3 g5 key).ends
  obtain ⟨m', s', e2, i2, c2, a2⟩ := (findNode_gives g2 g4 key).ends
  obtain rfl := answer_unique (t.unique g6) a1 a2
  have hm : m = Node.empty ∨ ∃ n ∈ addedNodes h, m = reported h n := by
    rcases a1 with ⟨h1, _⟩ | ⟨_, h2⟩
    · exact .inr ((g6 m).1 h1)
    · exact .inl h2
  obtain ⟨res, u, u', f1, f2, f3, f4⟩ := hf m d s s' g1 hm i1.data i1.good i2.data i2.good (by rw [c1.2, c2.2, g7])
  refine ⟨res, u, u', e1.bind (f := fun _ m => Run.ofAct (f m)) ⟨0, fun _ _ => ?_⟩,
    e2.bind (f := fun _ m => Run.ofAct (f m)) ⟨0, fun _ _ => ?_⟩, by rw [f3, f4, c1.2, c2.2, g7]⟩
  · show some (f m s) = _
    rw [f1]
  · show some (f m s') = _
    rw [f2]

/-- `FindNode` gives the same, for every key. -/
theorem C61_findNode (t : TornPair L ord w0 w h data k r r') (key : VoxelKey) :
    ∃ n u u', Run.Ends (fun k => Reader.findNode k key) r (.ok n, u) ∧
      Run.Ends (fun k => Reader.findNode k key) r' (.ok n, u') := by
  obtain ⟨d, ps, g1, g2, g3, g4, g5, g6, g7, _⟩ := t.facts
  obtain ⟨m, s, e1, i1, c1, a1⟩ := (findNode_gives g3 g5 key).ends
  obtain ⟨m', s', e2, i2, c2, a2⟩ := (findNode_gives g2 g4 key).ends
  obtain rfl := answer_unique (t.unique g6) a1 a2
  exact ⟨m, s, s', e1, e2⟩

/-- `GetAllNodes` gives the same nodes. -/
theorem C61_allNodes (t : TornPair L ord w0 w h data k r r') (ord ord' : ROrder) :
    ∃ ns ns' u u', Run.Ends (fun k => Reader.getAllNodes ord k) r (.ok ns, u) ∧
      Run.Ends (fun k => Reader.getAllNodes ord' k) r' (.ok ns', u') ∧ ns.Perm ns' := by
  obtain ⟨d, ps, g1, g2, g3, g4, g5, g6, g7, _⟩ := t.facts
  obtain ⟨ns, s, e1, _, _, a1⟩ := (allNodes_gives g3 g5 ord).ends
  obtain ⟨ns', s', e2, _, _, a2⟩ := (allNodes_gives g2 g4 ord').ends
  exact ⟨ns, ns', s, s', e1, e2, (List.perm_ext_iff_of_nodup a1.1 a2.1).2 fun m => by rw [a1.2, a2.2]⟩

/-- Where the bytes of a node are. -/
theorem Written.within (hw : Written L ord w0 w h data) {n : Node} (hn : n ∈ addedNodes h) :
    w0.base.out.data.length ≤ n.entry.offset ∧ n.entry.offset + n.entry.byteSize.toNat ≤ data.length := by
  obtain ⟨c, o, hm⟩ := hw.made
  obtain ⟨w', hc, rfl⟩ := hw.closed
  obtain ⟨op, hop⟩ := mem_addedNodes hn
  obtain ⟨⟨_, blob, _, s2, s3, _⟩, s4⟩ := C27_closed hm hw.history hw.unclosed hc hw.size hop
  refine ⟨s4, ?_⟩
  rw [s2]
  simpa using s3

/-- `GetPointDataCompressed` gives the same bytes, for every key. -/
theorem C61_compressed (t : TornPair L ord w0 w h data k r r') (key : VoxelKey) :
    ∃ bs u u', Run.Ends (fun k => Reader.getPointDataCompressedAt k key) r (.ok bs, u) ∧
      Run.Ends (fun k => Reader.getPointDataCompressedAt k key) r' (.ok bs, u') := by
  by_cases hk : key.isValid = false
  · refine ⟨[], r, r', ⟨0, fun k _ => ?_⟩, ⟨0, fun k _ => ?_⟩⟩ <;>
    · show Reader.getPointDataCompressedAt k key _ = _
      unfold Reader.getPointDataCompressedAt
      rw [if_pos hk]
      rfl
  have hfun : (fun k => Reader.getPointDataCompressedAt k key) = (fun k => Reader.findNode k key >>= fun m =>
      Run.ofAct (if m.isValid = false then pure [] else Reader.getPointDataCompressed m)) := by
    funext k
    unfold Reader.getPointDataCompressedAt
    rw [if_neg hk]
    congr 1
    funext m
    split <;> rfl
  rw [hfun]
  have hw := t.finished
  obtain ⟨d, ps, g1, g2, g3, g4, g5, g6, g7, _⟩ := t.facts
  obtain ⟨m, s, e1, i1, c1, a1⟩ := (findNode_gives g3 g5 key).ends
  obtain ⟨m', s', e2, i2, c2, a2⟩ := (findNode_gives g2 g4 key).ends
  obtain rfl := answer_unique (t.unique g6) a1 a2
  have both : ∃ bs u u', (if m.isValid = false then pure [] else Reader.getPointDataCompressed m : Act Reader Bytes) s =
      (.ok bs, u) ∧ (if m.isValid = false then pure [] else Reader.getPointDataCompressed m : Act Reader Bytes) s' =
      (.ok bs, u') := by
    by_cases hv : m.isValid = false
    · rw [if_pos hv]
      exact ⟨[], s, s', rfl, rfl⟩
    · rw [if_neg hv]
      have hv : m.isValid = true := by simpa using hv
      rcases a1 with ⟨h1, _⟩ | ⟨_, h2⟩
      · obtain ⟨n, hn, rfl⟩ := (g6 m).1 h1
        obtain ⟨w1, w2⟩ := hw.within hn
        have w2 : (reported h n).entry.offset + (reported h n).entry.byteSize.toNat ≤ data.length := w2
        rw [compressed_reads i1.data i1.good (by rw [← g1.length]; exact hw.size) hv (by rw [← g1.length]; exact w2),
          compressed_reads i2.data i2.good hw.size hv w2, g1.slice (by show _ ≤ n.entry.offset; omega)]
        exact ⟨_, _, _, rfl, rfl⟩
      · rw [h2] at hv
        exact absurd hv (by decide)
  obtain ⟨bs, u, u', f1, f2⟩ := both
  refine ⟨bs, u, u', e1.bind (f := fun _ (m : Node) => Run.ofAct (if m.isValid = false then pure [] else Reader.getPointDataCompressed m))
      ⟨0, fun _ _ => ?_⟩,
    e2.bind (f := fun _ (m : Node) => Run.ofAct (if m.isValid = false then pure [] else Reader.getPointDataCompressed m)) ⟨0, fun _ _ => ?_⟩⟩
  · exact congrArg some f1
  · exact congrArg some f2

/-- Decompressing depends only on the bytes from the node on. -/
theorem pointData_same {n : Node} {s s' : Reader} {d : Bytes} (h1 : s.h.str.data = d) (h2 : s.h.str.fail = false)
    (h1' : s'.h.str.data = data) (h2' : s'.h.str.fail = false) (hh : s.cfg.header = s'.cfg.header)
    (ho : n.entry.offset < 2 ^ 63) (hd : data.drop n.entry.offset = d.drop n.entry.offset) (L : Lazperf) :
    ∃ res u u', Reader.getPointData L n s = (res, u) ∧ Reader.getPointData L n s' = (res, u') ∧
      u.cfg = s.cfg ∧ u'.cfg = s'.cfg := by
  unfold Reader.getPointData
  rw [Act.bind_apply, Act.throwIf_apply, Act.bind_apply, Act.throwIf_apply]
  by_cases hv : n.isValid = false
  · rw [if_pos hv, if_pos hv]
    exact ⟨_, _, _, rfl, rfl, rfl, rfl⟩
  rw [if_neg hv, if_neg hv]
  have e : ∀ {x : Reader} {b : Bytes}, x.h.str.data = b → x.h.str.fail = false →
      x.h.str.seekg n.entry.offset = ⟨b, n.entry.offset, false⟩ := by
    intro x b hb hf
    rw [str_eta hb hf]
    exact RecFile.seekg_good ho
  have step : ∀ {x : Reader} {b : Bytes}, x.h.str.data = b → x.h.str.fail = false →
      ((Reader.onStream (Act.modify fun s => s.seekg n.entry.offset) >>= fun _ =>
        (Act.gets fun r : Reader => r.cfg.header) >>= fun hd =>
        Reader.onStream (Reader.decompressBytes L hd n.entry.pointCount) : Act Reader Bytes) x) =
      ((Reader.decompressBytes L x.cfg.header n.entry.pointCount ⟨b, n.entry.offset, false⟩).1,
        x.withStr (Reader.decompressBytes L x.cfg.header n.entry.pointCount ⟨b, n.entry.offset, false⟩).2) := by
    intro x b hb hf
    show ((Reader.decompressBytes L x.cfg.header n.entry.pointCount (x.h.str.seekg n.entry.offset)).1,
        x.withStr (Reader.decompressBytes L x.cfg.header n.entry.pointCount (x.h.str.seekg n.entry.offset)).2) = _
    rw [e hb hf]
  have res : (Reader.decompressBytes L s.cfg.header n.entry.pointCount ⟨d, n.entry.offset, false⟩).1 =
      (Reader.decompressBytes L s'.cfg.header n.entry.pointCount ⟨data, n.entry.offset, false⟩).1 := by
    rw [hh]
    unfold Reader.decompressBytes
    split
    · unfold Reader.decompressStream
      dsimp only
      rw [hd]
      split
      · split
        · rfl
        · split
          · rfl
          · generalize L.decompress _ _ _ _ = q
            cases q <;> rfl
      · rfl
      · rfl
    · rfl
    · rfl
  exact ⟨(Reader.decompressBytes L s'.cfg.header n.entry.pointCount ⟨data, n.entry.offset, false⟩).1,
    s.withStr (Reader.decompressBytes L s.cfg.header n.entry.pointCount ⟨d, n.entry.offset, false⟩).2,
    s'.withStr (Reader.decompressBytes L s'.cfg.header n.entry.pointCount ⟨data, n.entry.offset, false⟩).2,
    (step h1 h2).trans (by rw [res]), step h1' h2', rfl, rfl⟩

/-- `GetPointData` gives the same, for every key. -/
theorem C61_data (t : TornPair L ord w0 w h data k r r') (key : VoxelKey) :
    ∃ res u u', Run.Ends (fun k => Reader.getPointDataAt L k key) r (res, u) ∧
      Run.Ends (fun k => Reader.getPointDataAt L k key) r' (res, u') ∧ u.cfg.header = u'.cfg.header := by
  by_cases hk : key.isValid = false
  · refine ⟨.ok [], r, r', ⟨0, fun k _ => ?_⟩, ⟨0, fun k _ => ?_⟩, (C61_header t).1⟩ <;>
    · show Reader.getPointDataAt L k key _ = _
      unfold Reader.getPointDataAt
      rw [if_pos hk]
      rfl
  have hfun : (fun k => Reader.getPointDataAt L k key) = (fun k => Reader.findNode k key >>= fun m =>
      Run.ofAct (if m.isValid = false then pure [] else Reader.getPointData L m)) := by
    funext k
    unfold Reader.getPointDataAt
    rw [if_neg hk]
    congr 1
    funext m
    split <;> rfl
  rw [hfun]
  have hw := t.finished
  refine t.findThen key (fun m => if m.isValid = false then pure [] else Reader.getPointData L m) ?_
  intro m d s s' g1 hm h1 h2 h3 h4 h5
  by_cases hv : m.isValid = false
  · simp only [if_pos hv]
    exact ⟨.ok [], s, s', rfl, rfl, rfl, rfl⟩
  · simp only [if_neg hv]
    rcases hm with rfl | ⟨n, hn, rfl⟩
    · exact absurd (by decide) hv
    · obtain ⟨w1, w2⟩ := hw.within hn
      have := hw.size
      exact pointData_same h1 h2 h3 h4 h5 (by show n.entry.offset < _; omega)
        (g1.at (by show _ ≤ n.entry.offset; omega)) L

/-- `GetPoints` gives the same, for every key. -/
theorem C61_points (t : TornPair L ord w0 w h data k r r') (key : VoxelKey) :
    ∃ res u u', Run.Ends (fun k => Reader.getPointsAt L k key) r (res, u) ∧
      Run.Ends (fun k => Reader.getPointsAt L k key) r' (res, u') := by
  obtain ⟨res, u, u', ⟨k1, e1⟩, ⟨k2, e2⟩, hh⟩ := C61_data t key
  let rest : Bytes → Run Reader (List Point) := fun data => Run.gets (fun r : Reader => r.cfg.header) >>= fun hd =>
    if data = [] then Run.lift (hd.ebSize.bind fun eb => (Coll.make hd.fmt eb).bind fun _ => .ok [])
    else Run.lift (Reader.unpackWith hd data)
  cases res with
  | ok bs =>
    refine ⟨(if bs = [] then u.cfg.header.ebSize.bind fun eb => (Coll.make u.cfg.header.fmt eb).bind fun _ => .ok []
      else Reader.unpackWith u.cfg.header bs), u, u', ?_, ?_⟩
    · refine Run.Ends.bind (f := fun _ d => rest d) ⟨k1, e1⟩ ⟨0, fun _ _ => ?_⟩
      show (if bs = [] then Run.lift _ else Run.lift _ : Run Reader (List Point)) u = _
      split <;> rfl
    · rw [hh]
      refine Run.Ends.bind (f := fun _ d => rest d) ⟨k2, e2⟩ ⟨0, fun _ _ => ?_⟩
      show (if bs = [] then Run.lift _ else Run.lift _ : Run Reader (List Point)) u' = _
      split <;> rfl
  | throw e =>
    refine ⟨.throw e, u, u', ⟨k1, fun n hn => ?_⟩, ⟨k2, fun n hn => ?_⟩⟩
    · exact Run.bind_throw (e1 n hn)
    · exact Run.bind_throw (e2 n hn)
  | ub =>
    refine ⟨.ub, u, u', ⟨k1, fun n hn => ?_⟩, ⟨k2, fun n hn => ?_⟩⟩
    · exact Run.bind_ub (e1 n hn)
    · exact Run.bind_ub (e2 n hn)

end

/-! The sample, of which the last 192 bytes of the header area are missing, is such a file. -/

theorem torn_start : (Writer.close Sample.L Sample.ord (Sample.w.dying 1590)).2.base.out.data.take 589 =
    (Writer.close Sample.L Sample.ord Sample.w).2.base.out.data.take 589 := by decide +kernel

/-- Whether a file is accepted and the stream is good then. -/
def opensGood (d : Bytes) : Bool := match Reader.init ⟨d, 0, false⟩ with
  | .ok r => !r.h.str.fail
  | _ => false

theorem opensGood_iff {d : Bytes} (h : opensGood d = true) :
    ∃ r, Reader.init ⟨d, 0, false⟩ = .ok r ∧ r.h.str.fail = false := by
  unfold opensGood at h
  cases e : Reader.init ⟨d, 0, false⟩ with
  | ok r => rw [e] at h; exact ⟨r, rfl, by simpa using h⟩
  | throw _ => rw [e] at h; cases h
  | ub => rw [e] at h; cases h

theorem torn_good : opensGood (Writer.close Sample.L Sample.ord (Sample.w.dying 1590)).2.base.out.data = true := by
  decide +kernel

example : ∃ r r', TornPair Sample.L Sample.ord Sample.w0 Sample.w Sample.hist
    (Writer.close Sample.L Sample.ord Sample.w).2.base.out.data 1590 r r' := by
  obtain ⟨r, h1, h2⟩ := opensGood_iff torn_good
  obtain ⟨r', h3, _⟩ := C33_opens sample_written
  exact ⟨r, r', sample_written, torn_start, ⟨r, [], h1, h2, .none⟩, ⟨r', [], h3, .none⟩⟩

end Copc
