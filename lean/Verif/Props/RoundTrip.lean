import Verif.Lemmas.ClosedHier
import Verif.Lemmas.ReaderData
import Verif.Props.RoundTripMeta
import Verif.Props.PointArray
import Verif.Props.WriterMove
import Verif.Props.WriterFinal
/-!
# C33, C34: what was written is read back

In all theorems the reader may have answered any queries before (`Asked`).
-/
namespace Copc
open Spec VoxelKey

section
variable {L : Lazperf} {ord : Order} {w0 w : Writer} {h : List (Op × Res (Option Node))} {data : Bytes}

theorem Written.facts (hw : Written L ord w0 w h data) : ∃ ps r, GoodHierarchy data ps ∧
    (∀ m, NodeOf ps m ↔ ∃ n ∈ addedNodes h, m = reported h n) ∧
    (∀ p, p ∈ ps.map (·.key) ↔ PageOf h p) ∧ Opened data ps r ∧
    r.cfg.header.fmt = w0.cfg.header.fmt ∧ r.cfg.header.recLen = w0.cfg.header.recLen ∧
    r.cfg.header.scale = w0.cfg.header.scale ∧ r.cfg.header.offset = w0.cfg.header.offset ∧
    r.cfg.header.pointCount = (Header14.decode data).pointCount14 := by
  obtain ⟨c, o, hm⟩ := hw.made
  obtain ⟨w', hc, rfl⟩ := hw.closed
  obtain ⟨ps, g1, _, g3, g4, _, g5⟩ := closed_good hm hw.history hw.unclosed hw.distinct hw.once hw.counted hc hw.size
  obtain ⟨r, r1, r2, r3, r4⟩ := closed_open hm hw.history hw.unclosed hw.storable hc hw.size hw.few
  refine ⟨ps, r, g1, g3, g4, ⟨r1, r2, ?_⟩, r4⟩
  rw [r3]
  exact g5

/-- The invariants of a reader of the file that has answered any queries. -/
theorem Written.asked (hw : Written L ord w0 w h data) {r r' : Reader}
    (hr : Reader.init ⟨data, 0, false⟩ = .ok r) {l : List Query} (ha : Asked L r l r') :
    ∃ ps, GoodHierarchy data ps ∧ RInv data ps r'.h ∧
    (∀ m, NodeOf ps m ↔ ∃ n ∈ addedNodes h, m = reported h n) ∧
    (∀ p, p ∈ ps.map (·.key) ↔ PageOf h p) ∧
    r'.cfg.header.fmt = w0.cfg.header.fmt ∧ r'.cfg.header.recLen = w0.cfg.header.recLen ∧
    r'.cfg.header.scale = w0.cfg.header.scale ∧ r'.cfg.header.offset = w0.cfg.header.offset := by
  obtain ⟨ps, r1, g1, g2, g3, g4, g5, g6, g7, g8, _⟩ := hw.facts
  have : r1 = r := Res.ok.inj (g4.init.symm.trans hr)
  subst this
  obtain ⟨hi, hc⟩ := ha.rInv g1 (g4.rInv g1)
  rw [← hc.2] at g5 g6 g7 g8
  exact ⟨ps, g1, hi, g2, g3, g5, g6, g7, g8⟩

/-- The file can be opened. -/
theorem C33_opens (hw : Written L ord w0 w h data) :
    ∃ r, Reader.init ⟨data, 0, false⟩ = .ok r ∧ r.h.str.fail = false := by
  obtain ⟨_, r, _, _, _, h4, _⟩ := hw.facts
  exact ⟨r, h4.init, h4.good⟩

theorem addedNodes_unique (hd : DistinctKeys h) {n n' : Node} (hn : n ∈ addedNodes h) (hn' : n' ∈ addedNodes h)
    (he : n.entry.key = n'.entry.key) : n = n' := by
  obtain ⟨i, hi, rfl⟩ := List.getElem_of_mem hn
  obtain ⟨j, hj, rfl⟩ := List.getElem_of_mem hn'
  have := (List.Nodup.getElem_inj_iff hd (hi := by simpa using hi) (hj := by simpa using hj)).1
    (by simpa using he)
  subst this
  rfl

/-- `FindNode` of the key of a node that was added returns its offset, size and number of points, and the
page it is in. -/
theorem C33_findNode (hw : Written L ord w0 w h data) {r r' : Reader}
    (hr : Reader.init ⟨data, 0, false⟩ = .ok r) {l : List Query} (ha : Asked L r l r') {n : Node}
    (hn : n ∈ addedNodes h) :
    ∃ r'', Run.Ends (fun k => Reader.findNode k n.entry.key) r' (.ok ⟨n.entry, finalPage h n⟩, r'') := by
  obtain ⟨ps, g1, hi, g2, _⟩ := hw.asked hr ha
  obtain ⟨m, r'', he, _, _, hA⟩ := (findNode_gives g1 hi n.entry.key).ends
  have : m = reported h n := by
    rcases hA with ⟨hm, hk⟩ | ⟨hno, _⟩
    · obtain ⟨n', hn', rfl⟩ := (g2 m).1 hm
      rw [addedNodes_unique hw.distinct hn' hn hk]
    · exact absurd rfl (hno (reported h n) ((g2 _).2 ⟨n, hn, rfl⟩))
  subst this
  exact ⟨r'', he⟩

/-- `FindNode` of any other key returns the default (invalid) node. -/
theorem C33_findNode_other (hw : Written L ord w0 w h data) {r r' : Reader}
    (hr : Reader.init ⟨data, 0, false⟩ = .ok r) {l : List Query} (ha : Asked L r l r') {key : VoxelKey}
    (hk : ∀ n ∈ addedNodes h, n.entry.key ≠ key) :
    ∃ r'', Run.Ends (fun k => Reader.findNode k key) r' (.ok Node.empty, r'') ∧ Node.empty.isValid = false := by
  obtain ⟨ps, g1, hi, g2, _⟩ := hw.asked hr ha
  obtain ⟨m, r'', he, _, _, hA⟩ := (findNode_gives g1 hi key).ends
  have : m = Node.empty := by
    rcases hA with ⟨hm, he⟩ | ⟨_, he⟩
    · obtain ⟨n', hn', rfl⟩ := (g2 m).1 hm
      exact absurd he (hk n' hn')
    · exact he
  subst this
  exact ⟨r'', he, by decide⟩

/-- `GetAllNodes` returns the nodes that were added, in some order. -/
theorem C33_allNodes (hw : Written L ord w0 w h data) {r r' : Reader}
    (hr : Reader.init ⟨data, 0, false⟩ = .ok r) {l : List Query} (ha : Asked L r l r') (rord : ROrder) :
    ∃ ns r'', Run.Ends (fun k => Reader.getAllNodes rord k) r' (.ok ns, r'') ∧
      ns.Perm ((addedNodes h).map fun n => ⟨n.entry, finalPage h n⟩) := by
  obtain ⟨ps, g1, hi, g2, _⟩ := hw.asked hr ha
  obtain ⟨ns, r'', he, _, _, hA⟩ := (allNodes_gives g1 hi rord).ends
  refine ⟨ns, r'', he, (List.perm_ext_iff_of_nodup hA.1 ?_).2 ?_⟩
  · have hd : ((addedNodes h).map (·.entry.key)).Nodup := hw.distinct
    have : (((addedNodes h).map fun n => (⟨n.entry, finalPage h n⟩ : Node)).map (·.entry.key)).Nodup := by
      rw [List.map_map]; exact hd
    exact List.Nodup.of_map _ this
  · intro m
    rw [hA.2, g2, List.mem_map]
    exact ⟨fun ⟨n, hn, he⟩ => ⟨n, hn, he.symm⟩, fun ⟨n, hn, he⟩ => ⟨n, hn, he.symm⟩⟩

/-- `GetPageList` returns the pages, each once. -/
theorem C33_pageList (hw : Written L ord w0 w h data) {r r' : Reader}
    (hr : Reader.init ⟨data, 0, false⟩ = .ok r) {l : List Query} (ha : Asked L r l r') (rord : ROrder) :
    ∃ ks r'', Run.Ends (fun k => Reader.getPageList rord k) r' (.ok ks, r'') ∧ ks.Nodup ∧
      ∀ p, p ∈ ks ↔ PageOf h p := by
  obtain ⟨ps, g1, hi, _, g3, _⟩ := hw.asked hr ha
  obtain ⟨ks, r'', he, _, _, hA⟩ := (pageList_gives g1 hi rord).ends
  exact ⟨ks, r'', he, hA.nodup_iff.2 g1.distinct, fun p => by rw [hA.mem_iff, g3]⟩

theorem Written.node (hw : Written L ord w0 w h data) {op : Op} {n : Node} (hn : (op, Res.ok (some n)) ∈ h) :
    n ∈ addedNodes h ∧ Valid n.entry.key ∧ NodeStored L w0.cfg.header data op n := by
  obtain ⟨c, o, hm⟩ := hw.made
  obtain ⟨w', hc, rfl⟩ := hw.closed
  have hmem : n ∈ addedNodes h := List.mem_filterMap.2 ⟨_, hn, rfl⟩
  refine ⟨hmem, ?_, (C27_closed hm hw.history hw.unclosed hc hw.size hn).1⟩
  have hv := hInv_history (hInv_start hm) hw.history hw.distinct hw.once
  have hp := pageInv_history (pageInv_make hm) hw.history
  exact (hp.node _ (AList.mem_of_get ((hv.nodes _ _).2 ⟨hmem, rfl⟩))).2

theorem node_isValid {e : Entry} {p : VoxelKey} (hv : Valid e.key) (hb : 0 ≤ e.byteSize) :
    (Node.mk e p).isValid = true := by
  unfold Node.isValid Entry.isValid
  rw [(isValid_iff _).2 hv]
  simpa using hb

/-- `FindNode` first, then a function of the node: what the calls taking a key do. -/
theorem Written.findThen {α : Type} (hw : Written L ord w0 w h data) {r r' : Reader}
    (hr : Reader.init ⟨data, 0, false⟩ = .ok r) {l : List Query} (ha : Asked L r l r') {n : Node}
    (hn : n ∈ addedNodes h) (f : Node → Act Reader α) {a : α}
    (hf : ∀ r1, r1.h.str.data = data → r1.h.str.fail = false → SameCfg r' r1 →
      ∃ r2, f ⟨n.entry, finalPage h n⟩ r1 = (.ok a, r2) ∧ r2.h.str.fail = false ∧ SameCfg r1 r2) :
    ∃ r'', Run.Ends (fun k => Reader.findNode k n.entry.key >>= fun m => Run.ofAct (f m)) r' (.ok a, r'') ∧
      r''.h.str.fail = false ∧ SameCfg r' r'' := by
  obtain ⟨ps, g1, hi, g2, _⟩ := hw.asked hr ha
  obtain ⟨m, r1, he, hi1, hc, hA⟩ := (findNode_gives g1 hi n.entry.key).ends
  have : m = reported h n := by
    rcases hA with ⟨hm, hk⟩ | ⟨hno, _⟩
    · obtain ⟨n', hn', rfl⟩ := (g2 m).1 hm
      rw [addedNodes_unique hw.distinct hn' hn hk]
    · exact absurd rfl (hno (reported h n) ((g2 _).2 ⟨n, hn, rfl⟩))
  subst this
  obtain ⟨r2, h2, h3, h4⟩ := hf r1 hi1.data hi1.good hc
  refine ⟨r2, he.bind (f := fun _ m => Run.ofAct (f m)) ⟨0, fun _ _ => ?_⟩, h3, hc.trans h4⟩
  show some (f (reported h n) r1) = _
  rw [show f (reported h n) r1 = _ from h2]

/-- `GetPointDataCompressed` of a key returns the very bytes stored when the node was added, and the stream
stays good. -/
theorem C33_compressed (hw : Written L ord w0 w h data) {r r' : Reader}
    (hr : Reader.init ⟨data, 0, false⟩ = .ok r) {l : List Query} (ha : Asked L r l r') {op : Op} {n : Node}
    (hn : (op, Res.ok (some n)) ∈ h) :
    ∃ blob r'', op.Stores L w0.cfg.header blob n.entry.pointCount ∧
      Run.Ends (fun k => Reader.getPointDataCompressedAt k n.entry.key) r' (.ok blob, r'') ∧
      r''.h.str.fail = false := by
  obtain ⟨hmem, hv, _, blob, hst, hb, hin, hsl⟩ := hw.node hn
  have hbn : n.entry.byteSize.toNat = blob.length := by rw [hb]; simp
  have hval : ∀ p, (Node.mk n.entry p).isValid = true := fun p => node_isValid hv (by rw [hb]; omega)
  obtain ⟨r'', he, hg, _⟩ := hw.findThen hr ha hmem
    (fun m => if m.isValid = false then pure [] else Reader.getPointDataCompressed m) (a := blob) (by
      intro r1 h1 h2 _
      have := compressed_reads h1 h2 hw.size (hval (finalPage h n)) (by rw [hbn]; exact hin)
      refine ⟨r1.withStr ⟨data, n.entry.offset + blob.length, false⟩, ?_, rfl, rfl, rfl⟩
      rw [if_neg (by simp [hval]), this]
      simp only
      rw [hbn, hsl])
  refine ⟨blob, r'', hst, ?_, hg⟩
  obtain ⟨k0, hk⟩ := he
  refine ⟨k0, fun k hle => ?_⟩
  rw [← hk k hle]
  have hfun : Reader.getPointDataCompressedAt k n.entry.key = (Reader.findNode k n.entry.key >>= fun m =>
      Run.ofAct (if m.isValid = false then pure [] else Reader.getPointDataCompressed m)) := by
    unfold Reader.getPointDataCompressedAt
    rw [if_neg (by rw [(isValid_iff _).2 hv]; simp)]
    congr 1
    funext m
    split <;> rfl
  exact congrFun hfun r'

/-! ### C34 -/

theorem ebSize_consistent {hd : LasHeader} (hf : hd.fmt = 6 ∨ hd.fmt = 7 ∨ hd.fmt = 8)
    (hl : lasBaseSize hd.fmt ≤ hd.recLen.toNat) :
    hd.ebSize = .ok (hd.recLen.toNat - lasBaseSize hd.fmt) ∧
    pointByteSize hd.fmt (hd.recLen.toNat - lasBaseSize hd.fmt) = .ok hd.recLen.toNat ∧
    lazBase hd.fmt + (hd.recLen.toNat - lasBaseSize hd.fmt) = hd.recLen.toNat := by
  have h1 := hd.recLen.toNat_lt
  have hb : lasBaseSize hd.fmt = lazBase hd.fmt := rfl
  have hp : pointBaseByteSize hd.fmt = .ok (lazBase hd.fmt) := by
    unfold pointBaseByteSize lazBase
    rcases hf with e | e | e <;> rw [e] <;> rfl
  unfold LasHeader.ebSize ebByteSize pointByteSize
  rw [hp, Res.okBind, Res.okBind, hb]
  rw [hb] at hl
  refine ⟨?_, ?_, by omega⟩
  · congr 1; omega
  · congr 1; omega

/-- What a call on the file reads for a node whose bytes compress `recs`. -/
theorem Written.data_slice (hw : Written L ord w0 w h data) (hs : w0.cfg.header.recLen.toNat ≤ 255) {r r' : Reader}
    (hr : Reader.init ⟨data, 0, false⟩ = .ok r) {l : List Query} (ha : Asked L r l r') {op : Op} {n : Node}
    (hn : (op, Res.ok (some n)) ∈ h) {eb : Nat} {recs : List Bytes} (he : w0.cfg.header.ebSize = .ok eb)
    (hrec : ∀ x ∈ recs, x.length = w0.cfg.header.recLen.toNat)
    (hblob' : slice data n.entry.offset n.entry.byteSize.toNat = L.compress w0.cfg.header.fmt eb recs)
    (hcnt : n.entry.pointCount = recs.length) :
    ∃ r'', Run.Ends (fun k => Reader.getPointDataAt L k n.entry.key) r' (.ok recs.flatten, r'') ∧
      r''.h.str.fail = false ∧ SameCfg r' r'' := by
  obtain ⟨hmem, hv, _, blob, hst', hb, hin, hsl⟩ := hw.node hn
  have hblob : blob = L.compress w0.cfg.header.fmt eb recs := by
    rw [← hblob', ← hsl]
    congr 1
    rw [hb]; simp
  obtain ⟨_, _, _, _, _, g5, g6, _⟩ := hw.asked hr ha
  have hbn : n.entry.byteSize.toNat = blob.length := by rw [hb]; simp
  have hval : ∀ p, (Node.mk n.entry p).isValid = true := fun p => node_isValid hv (by rw [hb]; omega)
  have hcons : (w0.cfg.header.fmt = 6 ∨ w0.cfg.header.fmt = 7 ∨ w0.cfg.header.fmt = 8) ∧
      lasBaseSize w0.cfg.header.fmt ≤ w0.cfg.header.recLen.toNat := by
    obtain ⟨c, o, hm⟩ := hw.made
    obtain ⟨otpd, h1, h2⟩ := bInv_of_make hm
    obtain ⟨log, hi⟩ := wInv_history h1 h2 hw.history hw.unclosed
    rw [← hi.edit.fmt, ← hi.edit.recLen]
    have := hw.storable.len
    exact ⟨hw.storable.fmt, by omega⟩
  obtain ⟨e1, e2, e3⟩ := ebSize_consistent hcons.1 hcons.2
  obtain rfl : eb = _ := Res.ok.inj (he.symm.trans e1)
  obtain ⟨r'', he', hg⟩ := hw.findThen hr ha hmem
    (fun m => if m.isValid = false then pure [] else Reader.getPointData L m) (a := recs.flatten) (by
      intro r1 h1 h2 hc
      have e : r1.cfg.header.fmt = w0.cfg.header.fmt := by rw [hc.2]; exact g5
      have e' : r1.cfg.header.ebSize = .ok (w0.cfg.header.recLen.toNat - lasBaseSize w0.cfg.header.fmt) := by
        rw [← e1]
        unfold LasHeader.ebSize
        rw [hc.2, g5, g6]
      have := pointData_reads (L := L) h1 h2 hw.size (hval (finalPage h n)) (by rw [hbn]; exact hin) e'
        (by rw [e]; exact e2) (by rw [e, e3]; exact hs) (by rw [e]; exact hcons.1) (recs := recs)
        (by rw [hbn, hsl, e]; exact hblob) (by rw [e, e3]; exact hrec) hcnt
      refine ⟨r1.withStr ⟨data, n.entry.offset, false⟩, ?_, rfl, rfl, rfl⟩
      rw [if_neg (by simp [hval]), this])
  refine ⟨r'', ?_, hg⟩
  obtain ⟨k0, hk⟩ := he'
  refine ⟨k0, fun k hle => ?_⟩
  rw [← hk k hle]
  have hfun : Reader.getPointDataAt L k n.entry.key = (Reader.findNode k n.entry.key >>= fun m =>
      Run.ofAct (if m.isValid = false then pure [] else Reader.getPointData L m)) := by
    unfold Reader.getPointDataAt
    rw [if_neg (by rw [(isValid_iff _).2 hv]; simp)]
    congr 1
    funext m
    split <;> rfl
  exact congrFun hfun r'

theorem Written.data_at (hw : Written L ord w0 w h data) (hs : w0.cfg.header.recLen.toNat ≤ 255) {r r' : Reader}
    (hr : Reader.init ⟨data, 0, false⟩ = .ok r) {l : List Query} (ha : Asked L r l r') {op : Op} {n : Node}
    (hn : (op, Res.ok (some n)) ∈ h) {eb : Nat} {recs : List Bytes} (he : w0.cfg.header.ebSize = .ok eb)
    (hrec : ∀ x ∈ recs, x.length = w0.cfg.header.recLen.toNat)
    (hst : ∀ blob c, op.Stores L w0.cfg.header blob c → blob = L.compress w0.cfg.header.fmt eb recs ∧ c = recs.length) :
    ∃ r'', Run.Ends (fun k => Reader.getPointDataAt L k n.entry.key) r' (.ok recs.flatten, r'') ∧
      r''.h.str.fail = false ∧ SameCfg r' r'' := by
  obtain ⟨_, _, _, blob, hst', hb, _, hsl⟩ := hw.node hn
  obtain ⟨hblob, hcnt⟩ := hst _ _ hst'
  refine hw.data_slice hs hr ha hn he hrec ?_ hcnt
  rw [← hblob, ← hsl]
  congr 1
  rw [hb]; simp

theorem flatten_inj {k : Nat} (hk : 0 < k) : ∀ {a b : List Bytes}, (∀ x ∈ a, x.length = k) →
    (∀ x ∈ b, x.length = k) → a.flatten = b.flatten → a = b
  | [], [], _, _, _ => rfl
  | [], y :: b, _, h2, h => by
    have := congrArg List.length h
    simp [h2 y (by simp)] at this
    omega
  | x :: a, [], h1, _, h => by
    have := congrArg List.length h
    simp [h1 x (by simp)] at this
    omega
  | x :: a, y :: b, h1, h2, h => by
    rw [List.flatten_cons, List.flatten_cons] at h
    obtain ⟨rfl, h3⟩ := List.append_inj h ((h1 x (by simp)).trans (h2 y (by simp)).symm)
    rw [flatten_inj hk (fun z hz => h1 z (by simp [hz])) (fun z hz => h2 z (by simp [hz])) h3]

theorem Written.recLen_pos (hw : Written L ord w0 w h data) : 0 < w0.cfg.header.recLen.toNat := by
  obtain ⟨c, o, hm⟩ := hw.made
  obtain ⟨otpd, h1, h2⟩ := bInv_of_make hm
  obtain ⟨log, hi⟩ := wInv_history h1 h2 hw.history hw.unclosed
  rw [← hi.edit.recLen, hw.storable.len]
  have : 0 < lasBaseSize w.cfg.header.fmt := by unfold lasBaseSize; split <;> [decide; split <;> decide]
  omega

/-- `GetPointData` of a node that was added with `AddNode(key, data)` returns the data. Records of at most
255 bytes (see C47). -/
theorem C34_data (hw : Written L ord w0 w h data) (hs : w0.cfg.header.recLen.toNat ≤ 255) {r r' : Reader}
    (hr : Reader.init ⟨data, 0, false⟩ = .ok r) {l : List Query} (ha : Asked L r l r')
    {key page : VoxelKey} {bs : Bytes} {n : Node} (hn : (Op.add key bs page, Res.ok (some n)) ∈ h) :
    ∃ r'', Run.Ends (fun k => Reader.getPointDataAt L k key) r' (.ok bs, r'') ∧ r''.h.str.fail = false := by
  obtain ⟨_, _, ht, blob, hst, _⟩ := hw.node hn
  obtain ⟨eb, recs, s1, s2, s3, s4, s5⟩ := hst
  obtain ⟨r'', h1, h2, _⟩ := hw.data_at hs hr ha hn s1 s3 (by
    rintro b c ⟨eb', recs', t1, t2, t3, rfl, rfl⟩
    obtain rfl := Res.ok.inj (t1.symm.trans s1)
    obtain rfl := flatten_inj hw.recLen_pos t3 s3 (t2.trans s2.symm)
    exact ⟨rfl, rfl⟩)
  have hk : key = n.entry.key := by
    have := Option.some.inj ht
    exact congrArg Prod.fst this
  rw [s2, ← hk] at h1
  exact ⟨r'', h1, h2⟩

/-- `GetPoints` of a node that was added with `AddNode(key, points)` returns as many points, each what the
original becomes when stored (`ReadBack`: all attributes of the format, coordinates rounded to multiples of
the scale, within the bound of C12). -/
theorem C34_points (hw : Written L ord w0 w h data) (hs : w0.cfg.header.recLen.toNat ≤ 255) {r r' : Reader}
    (hr : Reader.init ⟨data, 0, false⟩ = .ok r) {l : List Query} (ha : Asked L r l r')
    {key page : VoxelKey} {fmt : Int} {len : Nat} {ps : List Point} {n : Node}
    (hn : (Op.addPoints key fmt len ps page, Res.ok (some n)) ∈ h)
    (hp : ∀ p ∈ ps, Reach p ∧ p.fmt = w0.cfg.header.fmt ∧ p.recLen = w0.cfg.header.recLen.toNat) :
    ∃ qs r'', Run.Ends (fun k => Reader.getPointsAt L k key) r' (.ok qs, r'') ∧ r''.h.str.fail = false ∧
      List.Forall₂ (ReadBack w0.cfg.header.scale w0.cfg.header.offset) ps qs := by
  obtain ⟨hmem, _, ht, blob, hst, _⟩ := hw.node hn
  obtain ⟨bs, eb, recs, s0, s1, s2, s3, s4, s5⟩ := hst
  obtain ⟨r'', h1, h2, hc⟩ := hw.data_at hs hr ha hn s1 s3 (by
    rintro b c ⟨bs', eb', recs', t0, t1, t2, t3, rfl, rfl⟩
    obtain rfl := Res.ok.inj (t0.symm.trans s0)
    obtain rfl := Res.ok.inj (t1.symm.trans s1)
    obtain rfl := flatten_inj hw.recLen_pos t3 s3 (t2.trans s2.symm)
    exact ⟨rfl, rfl⟩)
  have hk : key = n.entry.key := by
    have := Option.some.inj ht
    exact congrArg Prod.fst this
  rw [s2, ← hk] at h1
  obtain ⟨_, _, _, _, _, g5, g6, g7, g8⟩ := hw.asked hr ha
  rw [← hc.2] at g5 g6 g7 g8
  have hcons : (w0.cfg.header.fmt = 6 ∨ w0.cfg.header.fmt = 7 ∨ w0.cfg.header.fmt = 8) ∧
      lasBaseSize w0.cfg.header.fmt ≤ w0.cfg.header.recLen.toNat := by
    obtain ⟨c, o, hm⟩ := hw.made
    obtain ⟨otpd, h1, h2⟩ := bInv_of_make hm
    obtain ⟨log, hi⟩ := wInv_history h1 h2 hw.history hw.unclosed
    rw [← hi.edit.fmt, ← hi.edit.recLen]
    have := hw.storable.len
    exact ⟨hw.storable.fmt, by omega⟩
  obtain ⟨e1, e2, e3⟩ := ebSize_consistent hcons.1 hcons.2
  obtain rfl : eb = _ := Res.ok.inj (s1.symm.trans e1)
  have hbl : baseSize w0.cfg.header.fmt + (w0.cfg.header.recLen.toNat - lasBaseSize w0.cfg.header.fmt) =
      w0.cfg.header.recLen.toNat := e3
  have hlen : bs.length = ps.length * w0.cfg.header.recLen.toNat :=
    C18_pack_length ps _ (fun p hp' => ⟨(hp p hp').1, (hp p hp').2.2⟩) _ _ _ s0
  have hlen2 : bs.length = recs.length * w0.cfg.header.recLen.toNat := by
    rw [← s2, List.length_flatten, List.map_congr_left s3, List.map_const', List.sum_replicate_nat]
  have hpos := hw.recLen_pos
  have hcount : ps.length = recs.length := Nat.eq_of_mul_eq_mul_right hpos (hlen.symm.trans hlen2)
  obtain ⟨_, hc1, hc2⟩ := hw.counted n hmem
  rw [s5] at hc1 hc2
  obtain ⟨qs, hq, hall⟩ := C18_roundtrip ps w0.cfg.header.fmt
    (w0.cfg.header.recLen.toNat - lasBaseSize w0.cfg.header.fmt) (by rw [hbl]; have := w0.cfg.header.recLen.toNat_lt; omega)
    hcons.1 (fun p hp' => ⟨(hp p hp').1, (hp p hp').2.1, (hp p hp').2.2.trans hbl.symm⟩) (by omega) _ _ bs s0
  have hne : bs ≠ [] := by
    intro h0
    rw [h0] at hlen
    have : 0 < ps.length := by omega
    have := Nat.mul_pos this hpos
    simp only [List.length_nil] at hlen
    omega
  have hun : Reader.unpackWith r''.cfg.header bs = .ok qs := by
    unfold Reader.unpackWith LasHeader.ebSize
    rw [g5, g6, g7, g8]
    show (w0.cfg.header.ebSize).bind _ = _
    rw [e1, Res.okBind]
    exact hq
  refine ⟨qs, r'', ?_, h2, hall⟩
  refine h1.bind (f := fun _ d => Run.gets (fun r : Reader => r.cfg.header) >>= fun hd =>
    if d = [] then Run.lift (hd.ebSize.bind fun eb => (Coll.make hd.fmt eb).bind fun _ => .ok [])
    else Run.lift (Reader.unpackWith hd d)) ⟨0, fun _ _ => ?_⟩
  show (if bs = [] then Run.lift (r''.cfg.header.ebSize.bind fun eb => (Coll.make r''.cfg.header.fmt eb).bind fun _ => .ok [])
    else Run.lift (Reader.unpackWith r''.cfg.header bs)) r'' = _
  rw [if_neg hne, hun]
  rfl

/-- The `PointCount` of the header read back is the number of points of all nodes (64 bits). -/
theorem C34_count (hw : Written L ord w0 w h data) (hl : NoneTooLarge h) {r : Reader}
    (hr : Reader.init ⟨data, 0, false⟩ = .ok r)
    (hsum : ((addedNodes h).map (·.entry.pointCount)).sum < 2 ^ 64) :
    (r.cfg.header.pointCount.toNat : Int) = ((addedNodes h).map (·.entry.pointCount)).sum := by
  obtain ⟨ps, r1, _, _, _, g4, _, _, _, _, g9⟩ := hw.facts
  have : r1 = r := Res.ok.inj (g4.init.symm.trans hr)
  subst this
  obtain ⟨c, o, hm⟩ := hw.made
  obtain ⟨w', hc, rfl⟩ := hw.closed
  obtain ⟨otpd, h1, h2⟩ := bInv_of_make hm
  obtain ⟨log, hi⟩ := wInv_history h1 h2 hw.history hw.unclosed
  have h15 : w0.cfg.header.pointsByReturn.length = 15 := by
    rw [← hi.edit.returns]; exact hw.storable.header.byReturn
  have := (C31_closed hm h15 hw.history hw.unclosed hl hc hw.size).1
  rw [g9, this]
  have hnn : ∀ l : List Node, (∀ n ∈ l, 0 < n.entry.pointCount) → 0 ≤ (l.map (·.entry.pointCount)).sum := by
    intro l
    induction l with
    | nil => intro _; simp
    | cons a l ih =>
      intro hl
      have h1 := ih fun n hn => hl n (by simp [hn])
      have h2 := hl a (by simp)
      rw [List.map_cons, List.sum_cons]
      omega
  have h0 := hnn (addedNodes h) fun n hn => (hw.counted n hn).2.1
  generalize ((addedNodes h).map (·.entry.pointCount)).sum = z at *
  unfold u64
  omega

end

/-! ### The hypotheses can be met -/

theorem sample_written : Written Sample.L Sample.ord Sample.w0 Sample.w Sample.hist
    (Writer.close Sample.L Sample.ord Sample.w).2.base.out.data where
  made := ⟨_, _, Sample.made⟩
  history := Sample.history
  unclosed := Sample.unclosed
  closed := ⟨_, by rw [← Sample.closes], rfl⟩
  distinct := sample_moves.1
  once := sample_moves.2.1
  counted := by unfold Counted; rw [sample_added]; decide
  storable := sample_storable
  size := by decide +kernel
  few := by decide +kernel

example : Written Sample.L Sample.ord Sample.w0 Sample.w Sample.hist
    (Writer.close Sample.L Sample.ord Sample.w).2.base.out.data ∧ Sample.w0.cfg.header.recLen.toNat ≤ 255 ∧
    (addedNodes Sample.hist).length = 3 ∧ NoneTooLarge Sample.hist ∧
    finalPage Sample.hist ⟨⟨Sample.kB, 1596, 2, 1⟩, VoxelKey.root⟩ = Sample.kA := by
  refine ⟨sample_written, by decide +kernel, by rw [sample_added]; rfl, ?_, ?_⟩
  · intro x hx
    have hm : x.2 ∈ Sample.hist.map (·.2) := List.mem_map_of_mem hx
    rw [Sample.outcomes] at hm
    intro he
    rw [he] at hm
    simp at hm
  · unfold finalPage
    rw [show movedTo Sample.hist Sample.kB = _ from sample_moves.2.2]
    rfl

/-- A point of the format of the sample with one extra byte. -/
def samplePoint : Point := { Point.fresh 6 1 with
  intensity := 7
  extra := [9] }

theorem samplePoint_reach : Reach samplePoint ∧ samplePoint.fmt = 6 ∧ samplePoint.recLen = 31 := by
  have h1 : Reach (Point.fresh 6 1) := Reach.make (fmt := 6) (eb := 1) (by decide) rfl
  have h2 : Reach ((Point.fresh 6 1).setIntensity 7) := h1.setter (Setter.setIntensity _ 7)
  have h3 : ((Point.fresh 6 1).setIntensity 7).setExtraBytes [9] = .ok samplePoint := by decide +kernel
  exact ⟨h2.setter (Setter.setExtraBytes [9] h3), by decide +kernel, by decide +kernel⟩

/-- `AddNode(key, points)` of two such points returns a node: `C34_points` applies to histories with it. -/
example : (Op.run Sample.L Sample.ord
      (.addPoints VoxelKey.root 6 31 [samplePoint, samplePoint] VoxelKey.root) Sample.w0).1 =
    .ok (some ⟨⟨VoxelKey.root, 1531, 62, 2⟩, VoxelKey.root⟩) ∧
    (∀ p ∈ [samplePoint, samplePoint], Reach p ∧ p.fmt = Sample.w0.cfg.header.fmt ∧
      p.recLen = Sample.w0.cfg.header.recLen.toNat) := by
  refine ⟨by decide +kernel, ?_⟩
  have h1 : Sample.w0.cfg.header.fmt = 6 := by decide +kernel
  have h2 : Sample.w0.cfg.header.recLen.toNat = 31 := by decide +kernel
  rw [h1, h2]
  simp [samplePoint_reach]

end Copc
