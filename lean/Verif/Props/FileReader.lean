import Verif.Lemmas.Offline
import Verif.Props.FileIO
import Verif.Props.RoundTrip
import Verif.Props.LazReader
import Verif.Props.BoxSample
import Verif.Spec.Calls
/-!
# C71: the readers on files
-/
namespace Copc
open Spec

/-! ### Opening, reading -/

/-- A path that cannot be opened is refused, with no file left open; else the constructor gives the reader that
`Reader` gives on a stream with the bytes of the file (or throws what that one throws), with one file open. -/
theorem C71_make (data : Bytes) :
    FileReader.make false data = (.throws .badStream, 0) ∧
    (∀ r, (∃ f, FileReader.make true data = (.returns f, 1) ∧ f.rd = r) ↔ Reader.init ⟨data, 0, false⟩ = .ok r) ∧
    (∀ e, (FileReader.make true data).1 = .throws e ↔ Reader.init ⟨data, 0, false⟩ = .throw e) := by
  unfold FileReader.make
  refine ⟨if_pos rfl, fun r => ?_, fun e => ?_⟩
  · rw [if_neg (by simp)]
    cases Reader.init ⟨data, 0, false⟩ with
    | ok r' =>
      constructor
      · rintro ⟨f, h, rfl⟩
        injection h with h _
        injection h with h
        rw [← h]
      · intro h
        injection h with h
        exact ⟨⟨r', true, true⟩, rfl, h⟩
    | throw e => simp
    | ub => simp
  · rw [if_neg (by simp)]
    cases Reader.init ⟨data, 0, false⟩ <;> simp

/-- The calls made on a `FileReader` (and what they returned) leave it in the state they leave a `Reader` in. -/
theorem ask_open {α : Type} {f : FileReader} (ha : f.alive = true) (x : Run Reader α) :
    FileReader.ask x f = (x f.rd).map fun p => (p.1, { f with rd := p.2 }) := by
  unfold FileReader.ask
  rw [if_pos (.inl ha)]

theorem ask_ends {α : Type} {f : FileReader} (ha : f.alive = true) {x : Nat → Run Reader α} {a : Res α} {r : Reader}
    (h : Run.Ends x f.rd (a, r)) : Run.Ends (fun k => FileReader.ask (x k)) f (a, { f with rd := r }) := by
  obtain ⟨n, hn⟩ := h
  refine ⟨n, fun m hm => ?_⟩
  show FileReader.ask (x m) f = _
  rw [ask_open ha, hn m hm]
  rfl

/-- A file made with a `FileWriter` is opened by a `FileReader`, and asked for the data of a node after any other
queries it gives the data that were added. -/
theorem C71_round_trip {L : Lazperf} {ord : Order} {c : CopcConfig} {o : Writer.Overrides}
    {h : List (Op × Res (Option Node))} {f0 f : FileWriter} {data : Bytes} (hf : FileWritten L ord c o h f0 f data)
    (hs : f0.w.cfg.header.recLen.toNat ≤ 255) :
    ∃ g, FileReader.make true data = (.returns g, 1) ∧ ∀ (l : List Query) (r : Reader), Asked L g.rd l r →
      ∀ key page bs n, (Op.add key bs page, Res.ok (some n)) ∈ h →
        ∃ g', Run.Ends (fun k => FileReader.ask (Reader.getPointDataAt L k key)) { g with rd := r } (.ok bs, g') := by
  have hw := (C70_file hf).1
  obtain ⟨r0, hr, _⟩ := C33_opens hw
  obtain ⟨g, hg, rfl⟩ := ((C71_make data).2.1 r0).2 hr
  refine ⟨g, hg, fun l r ha key page bs n hn => ?_⟩
  have hal : g.alive = true := by
    unfold FileReader.make at hg
    rw [if_neg (by simp), hr] at hg
    injection hg with hg _
    injection hg with hg
    rw [← hg]
  obtain ⟨r'', he, _⟩ := C34_data hw hs hr ha hn
  exact ⟨_, ask_ends (f := { g with rd := r }) hal he⟩

/-! ### Closing -/

/-- The states of a `FileReader`: made, asked, closed, any number of times in any order. -/
inductive ReaderUse (data : Bytes) : FileReader → Prop
  | made {f n} : FileReader.make true data = (.returns f, n) → ReaderUse data f
  | asked {α f f'} {x : Run Reader α} {a} : ReaderUse data f → FileReader.ask x f = some (a, f') → a ≠ .ub → ReaderUse data f'
  | closed {f} : ReaderUse data f → ReaderUse data (FileReader.close f).2

theorem use_flags {data : Bytes} {f : FileReader} (h : ReaderUse data f) : f.alive = f.isOpen := by
  induction h with
  | @made f n h =>
    unfold FileReader.make at h
    rw [if_neg (by simp)] at h
    cases hr : Reader.init ⟨data, 0, false⟩ with
    | ok r =>
      rw [hr] at h
      injection h with h _
      injection h with h
      rw [← h]
    | throw e => rw [hr] at h; injection h with h _; cases h
    | ub => rw [hr] at h; injection h with h _; cases h
  | @asked α f f' x a h hx ha ih =>
    unfold FileReader.ask at hx
    split at hx
    · cases hy : x f.rd with
      | none => rw [hy] at hx; cases hx
      | some p =>
        rw [hy] at hx
        injection hx with hx
        injection hx with _ hx
        rw [← hx]; exact ih
    · injection hx with hx
      injection hx with hx _
      exact absurd hx.symm ha
  | @closed f h ih =>
    unfold FileReader.close
    split
    · split
      · rfl
      · exact ih
    · exact ih

/-- `Close` never fails, closes the file, and may be repeated; destroying the reader, closed or not, leaves no file
open. -/
theorem C71_close {data : Bytes} {f : FileReader} (h : ReaderUse data f) :
    (FileReader.close f).1 = .ok () ∧ (FileReader.close f).2.alive = false ∧
    FileReader.close (FileReader.close f).2 = (.ok (), (FileReader.close f).2) ∧
    FileReader.destroy f = .returns 0 ∧ (FileReader.close f).2.rd = f.rd := by
  have hfl := use_flags h
  have hc : FileReader.close f = (.ok (), { f with isOpen := false, alive := false }) := by
    unfold FileReader.close
    cases ho : f.isOpen with
    | true => rw [if_pos rfl, if_pos (hfl.trans ho)]
    | false =>
      rw [if_neg (by simp)]
      obtain ⟨rd, io, al⟩ := f
      dsimp only at ho hfl ⊢
      rw [hfl, ho]
  refine ⟨by rw [hc], by rw [hc], ?_, ?_, by rw [hc]⟩
  · rw [hc]; unfold FileReader.close; rw [if_neg (by simp)]
  · unfold FileReader.destroy Act.noexcept
    rw [hc]
    rfl

theorem hierarchyCall_steady {r : Reader} (hl : AllLoaded r.h.hier) {α : Type} {x : Nat → Run Reader α}
    (hx : HierarchyCall x) (k : Nat) : Steady r (x k) := by
  have hall : ∀ ord, Steady r (Reader.getAllNodes ord k) := fun ord => steady_hier (hSteady_children hl ord k _)
  have hdep : ∀ ord res, Steady r (Reader.getDepthAtResolution ord k res) := fun ord res =>
    steady_bind (hall ord) fun nodes => ⟨some (.ok (Reader.depthAt nodes r.cfg.info.spacing res)), fun _ => rfl⟩
  have hfil : ∀ ord res keep, Steady r (Reader.filterNodes ord k res keep) := fun ord res keep =>
    steady_bind (hdep ord res) fun d => steady_bind (hall ord) fun nodes =>
      ⟨some (.ok (nodes.filter (keep r.cfg.header d))), fun _ => rfl⟩
  cases hx with
  | findNode key => exact steady_hier (hSteady_findNode hl k key)
  | children ord key => exact steady_hier (hSteady_children hl ord k key)
  | allNodes ord => exact hall ord
  | pageList ord => exact steady_hier (hSteady_pages hl ord k)
  | depth ord res => exact hdep ord res
  | maxDepth ord => exact hdep ord _
  | nodesAt ord res => exact hfil ord res _
  | nodesUpTo ord res => exact hfil ord res _
  | nodesWithin ord box res => exact hfil ord res _
  | nodesIntersect ord box res => exact hfil ord res _

theorem allLoaded_after {data : Bytes} {ps : List FPage} {r r' : Reader} (hg : GoodHierarchy data ps)
    (hi : RInv data ps r.h) (ord : ROrder) {a : Res (List Node)}
    (h : Run.Ends (fun k => Reader.getAllNodes ord k) r (a, r')) : AllLoaded r'.h.hier := by
  obtain ⟨n, l, s', h1, h2, _, _, h5⟩ := allNodes_good hg hi ord
  have hs : r'.h = s' := by
    obtain ⟨m, hm⟩ := h
    have e1 := hm (max n m) (by omega)
    have e2 := h1 (max n m) (by omega)
    have e1 : Option.map (fun p => (p.1, ({ r with h := p.2 } : Reader))) (HReader.getAllNodes ord (max n m) r.h) =
        some (a, r') := e1
    rw [e2] at e1
    injection e1 with e1
    injection e1 with _ e1
    rw [← e1]
  rw [hs]
  intro p hp
  obtain ⟨i, hi', he⟩ := List.getElem_of_mem hp
  obtain ⟨q, hq, hm⟩ := h2.page i p (by rw [List.getElem?_eq_getElem hi', he])
  obtain ⟨p', hp', hk, hl⟩ := h5 p.key (h2.key_mem hp)
  have : p' = p := by
    obtain ⟨j, hj, he'⟩ := List.getElem_of_mem hp'
    have := (List.Nodup.getElem_inj_iff h2.distinct (hi := by simpa using hj) (hj := by simpa using hi')).1
      (by simp [he, he', hk])
    subst this
    rw [← he, ← he']
  rw [← this]; exact hl

/-- On a file with an intact hierarchy (`GoodHierarchy`, as for C36): after any queries, and once `GetAllNodes` has
returned, closing the file does no harm to the queries about the hierarchy: they give the answers they would have
given, in any order and any number. -/
theorem C71_closed_partial {L : Lazperf} {data : Bytes} {ps : List FPage} {r r1 r2 : Reader} {l : List Query}
    (hg : GoodHierarchy data ps) (ho : Opened data ps r) (ha : Asked L r l r1) (ord : ROrder) {ns : Res (List Node)}
    (hall : Run.Ends (fun k => Reader.getAllNodes ord k) r1 (ns, r2)) {α : Type} {x : Nat → Run Reader α}
    (hx : HierarchyCall x) {a : Res α} {r3 : Reader} (he : Run.Ends x r2 (a, r3)) :
    Run.Ends (fun k => FileReader.ask (x k)) (FileReader.close ⟨r2, true, true⟩).2
      (a, (FileReader.close ⟨r2, true, true⟩).2) := by
  have hl := allLoaded_after hg (ha.rInv hg (ho.rInv hg)).1 ord hall
  obtain ⟨n, hn⟩ := he
  refine ⟨n, fun m hm => ?_⟩
  have hst := hierarchyCall_steady hl hx m
  have h1 := hn m hm
  have h2 := hst.same h1
  show FileReader.ask (x m) ⟨r2, false, false⟩ = some (a, ⟨r2, false, false⟩)
  unfold FileReader.ask
  rw [if_pos (.inr hst.offline)]
  dsimp only
  rw [h1, h2]
  rfl

/-! ### What goes wrong -/

theorem closed_ub {α : Type} {x : Run Reader α} {f : FileReader} (ha : f.alive = false)
    (hx : ¬ Reader.Offline x f.rd) : FileReader.ask x f = some (.ub, f) := by
  unfold FileReader.ask
  rw [if_neg (by rintro (h | h); · rw [ha] at h; cases h
                 · exact hx h)]

theorem online_of_pos {α : Type} {x : Run Reader α} {r : Reader} {s : IStream} {a : Res α} {r' : Reader}
    (h : x (r.onto s) = some (a, r')) (hp : r'.h.str ≠ s) : ¬ Reader.Offline x r := by
  intro ho
  have := ho s
  rw [h] at this
  cases hx : x r with
  | none => rw [hx] at this; cases this
  | some p =>
    rw [hx] at this
    injection this with this
    injection this with _ this
    exact hp (by rw [this]; rfl)

theorem decompress_pos (L : Lazperf) (hd : LasHeader) (n : Int) (s : IStream) :
    (Reader.decompressBytes L hd n s).2.pos = s.pos := by
  unfold Reader.decompressBytes
  split
  · unfold Reader.decompressStream
    split
    · split
      · rfl
      · split
        · rfl
        · split <;> rfl
    · rfl
    · rfl
  · rfl
  · rfl

theorem getPointData_pos (L : Lazperf) {node : Node} (hv : node.isValid = true) (ho : node.entry.offset < 2 ^ 63)
    (r : Reader) (d : Bytes) (p : Nat) :
    (Reader.getPointData L node (r.onto ⟨d, p, false⟩)).2.h.str.pos = node.entry.offset := by
  unfold Reader.getPointData
  rw [Act.bind_ok (Act.throwIf_neg (by rw [hv]; simp) _ _)]
  have h1 : Reader.onStream (Act.modify fun s => s.seekg node.entry.offset) (r.onto ⟨d, p, false⟩) =
      (.ok (), r.onto ⟨d, node.entry.offset, false⟩) := by
    unfold Reader.onStream
    rw [Act.zoom_apply, Act.modify_apply]
    have hsk : IStream.seekg ⟨d, p, false⟩ node.entry.offset = ⟨d, node.entry.offset, false⟩ := by
      unfold IStream.seekg
      rw [if_neg (by simp), if_pos ho]
    show (_, r.onto (IStream.seekg ⟨d, p, false⟩ node.entry.offset)) = _
    rw [hsk]
  rw [Act.bind_ok h1, Act.bind_ok (Act.gets_apply _ _)]
  unfold Reader.onStream
  rw [Act.zoom_apply]
  exact decompress_pos L _ _ _

/-- After `Close` the pointer to the stream is left dangling: reading the data of any node, by `GetPointData`,
`GetPoints` or `GetPointDataCompressed`, is undefined behaviour instead of an exception (in Python, too). -/
theorem C71_data_violated (L : Lazperf) {f : FileReader} (hf : f.alive = false) {node : Node} (hv : node.isValid = true)
    (ho : node.entry.offset < 2 ^ 63) :
    FileReader.ask (Run.ofAct (Reader.getPointData L node)) f = some (.ub, f) ∧
    FileReader.ask (Run.ofAct (Reader.getPoints L node)) f = some (.ub, f) ∧
    FileReader.ask (Run.ofAct (Reader.getPointDataCompressed node)) f = some (.ub, f) := by
  refine ⟨closed_ub hf ?_, closed_ub hf ?_, closed_ub hf ?_⟩
  · refine online_of_pos (s := ⟨[], node.entry.offset + 1, false⟩) (a := (Reader.getPointData L node _).1)
      (r' := (Reader.getPointData L node _).2) rfl fun h => ?_
    have := getPointData_pos L hv ho f.rd [] (node.entry.offset + 1)
    rw [h] at this
    dsimp only at this
    omega
  · have key : (Reader.getPoints L node (f.rd.onto ⟨[], node.entry.offset + 1, false⟩)).2.h.str.pos =
        node.entry.offset := by
      have hp := getPointData_pos L hv ho f.rd [] (node.entry.offset + 1)
      unfold Reader.getPoints
      rw [Act.bind_apply]
      generalize Reader.getPointData L node (f.rd.onto ⟨[], node.entry.offset + 1, false⟩) = p at hp ⊢
      obtain ⟨a, r'⟩ := p
      cases a <;> exact hp
    refine online_of_pos (s := ⟨[], node.entry.offset + 1, false⟩) (a := (Reader.getPoints L node _).1)
      (r' := (Reader.getPoints L node _).2) rfl fun h => ?_
    rw [h] at key
    dsimp only at key
    omega
  · let n := node.entry.byteSize.toNat
    let s0 : IStream := ⟨[], node.entry.offset + n + 1, false⟩
    have key : (Reader.getPointDataCompressed node (f.rd.onto s0)).2.h.str.pos ≤ node.entry.offset + n := by
      unfold Reader.getPointDataCompressed
      rw [Act.bind_ok (Act.throwIf_neg (by rw [hv]; simp) _ _)]
      have h1 : Reader.onStream (Act.modify fun s => s.seekg node.entry.offset) (f.rd.onto s0) =
          (.ok (), f.rd.onto ⟨[], node.entry.offset, false⟩) := by
        unfold Reader.onStream
        rw [Act.zoom_apply, Act.modify_apply]
        have hsk : IStream.seekg s0 node.entry.offset = ⟨[], node.entry.offset, false⟩ := by
          unfold IStream.seekg
          rw [if_neg (by simp [s0]), if_pos ho]
        show (_, f.rd.onto (IStream.seekg s0 node.entry.offset)) = _
        rw [hsk]
      rw [Act.bind_ok h1]
      show (IStream.read ⟨[], node.entry.offset, false⟩ n).2.pos ≤ _
      unfold IStream.read
      split
      · exact Nat.le_add_right _ _
      · split
        · exact Nat.le_refl _
        · exact Nat.zero_le _
    refine online_of_pos (s := s0) (a := (Reader.getPointDataCompressed node _).1)
      (r' := (Reader.getPointDataCompressed node _).2) rfl fun h => ?_
    rw [h] at key
    dsimp only [s0] at key
    omega

/-- So is looking for a node whose page has not been read (of any non-empty page): closing before `GetAllNodes` is
enough to make `FindNode` undefined. -/
theorem C71_find_violated {f : FileReader} (hf : f.alive = false) {key : VoxelKey} {id : Nat} {p : RPage}
    (h1 : AList.get key f.rd.h.hier.nodes = none) (h2 : f.rd.h.hier.nearest (key.getParents true) = some id)
    (h3 : f.rd.h.hier.heap[id]? = some p) (h4 : p.loaded = false) (h5 : p.isValid = true) (h6 : 32 ≤ p.byteSize)
    (k : Nat) : FileReader.ask (Reader.findNode (k + 1) key) f = some (.ub, f) := by
  refine closed_ub hf ?_
  let s0 : IStream := ⟨[], 0, false⟩
  have hread : ∃ s', readPage s0 p.isValid p.offset p.byteSize = (.throw .invalidEntry, s') ∧ s'.fail = true := by
    unfold readPage
    rw [if_neg (by rw [h5]; simp)]
    have hd : 1 ≤ (p.byteSize.tdiv 32).toNat := by
      have : (1 : Int) ≤ p.byteSize.tdiv 32 := by rw [Int.tdiv_eq_ediv_of_nonneg (by omega)]; omega
      omega
    obtain ⟨m, hm⟩ : ∃ m, (p.byteSize.tdiv 32).toNat = m + 1 := ⟨_, (Nat.sub_add_cancel hd).symm⟩
    rw [hm]
    have hun : ∃ s', Entry.unpackValid (s0.seekg p.offset) = (.throw .invalidEntry, s') ∧ s'.fail = true := by
      by_cases hfl : (s0.seekg p.offset).fail = true
      · exact ⟨_, Entry.unpackValid_of_fail hfl, hfl⟩
      · have hdat : (s0.seekg p.offset).data = [] := by unfold IStream.seekg; split; rfl; split <;> rfl
        obtain ⟨a, b, _⟩ := Entry.unpackValid_short (s := s0.seekg p.offset) (by simpa using hfl) (by
          rw [hdat]; simp)
        rcases a with a | ⟨_, a⟩
        · exact ⟨_, Prod.ext a rfl, b⟩
        · rw [hdat] at a; simp at a
    obtain ⟨s', e1, e2⟩ := hun
    exact ⟨s', by unfold Entry.readEntries; rw [e1], e2⟩
  obtain ⟨s', e1, e2⟩ := hread
  have hfind : HReader.findNode (k + 1) key ⟨s0, f.rd.h.hier⟩ = some (.throw .invalidEntry, ⟨s', f.rd.h.hier⟩) := by
    have hrp : HReader.readAndParsePage id ⟨s0, f.rd.h.hier⟩ = (.throw .invalidEntry, ⟨s', f.rd.h.hier⟩) := by
      unfold HReader.readAndParsePage
      simp only [h3]
      rw [e1]
    unfold HReader.findNode
    simp only [h1, h2, h3]
    rw [if_neg (by rw [h4]; simp)]
    exact Run.bind_throw (congrArg some hrp)
  refine online_of_pos (s := s0) (a := .throw .invalidEntry) (r' := f.rd.onto s') ?_ fun h => ?_
  · show Option.map _ (HReader.findNode (k + 1) key ⟨s0, f.rd.h.hier⟩) = _
    rw [hfind]
    rfl
  · have h : s' = s0 := h
    rw [h] at e2
    cases e2

/-- A constructor that throws leaves the file open: for every file that the reader refuses, for good. -/
theorem C71_leak_violated {data : Bytes} {e : Exc} (h : (FileReader.make true data).1 = .throws e) :
    FileReader.make true data = (.throws e, 1) := by
  unfold FileReader.make at h ⊢
  rw [if_neg (by simp)] at h ⊢
  cases hr : Reader.init ⟨data, 0, false⟩ with
  | ok r => rw [hr] at h; cases h
  | throw e' => rw [hr] at h; injection h with h; rw [← h]
  | ub => rw [hr] at h; cases h

/-! ### LAZ -/

/-- Opening, reading and closing a LAZ file: a file made with a `LazFileWriter` is opened by a `LazFileReader`, which
gives its records; the file is closed by `Close`, which may be repeated, or by destruction. -/
theorem C71_laz {L : Lazperf} {c : LazConfig} {h : List (LazOp × Res Unit)} {f0 f : LazFileWriter} {data : Bytes}
    (hf : LazFileWritten L c h f0 f data) (hs : f0.w.cfg.header.recLen.toNat ≤ 255) {recss : List (List Bytes)}
    (hg : List.Forall₂ (LazOp.Gives L f0.w.cfg.header) (chunkCalls h) recss) (hn : recss.flatten.length < 2 ^ 64) :
    LazFileReader.make L false data = (.throws .badStream, 0) ∧
    ∃ g, LazFileReader.make L true data = (.returns g, 1) ∧
      LazFileReader.getPointData L g = .ok recss.flatten.flatten ∧
      LazFileReader.destroy g = .returns 0 ∧
      ∃ g', LazFileReader.close g = (.ok (), g') ∧ LazFileReader.close g' = (.ok (), g') ∧
        LazFileReader.destroy g' = .returns 0 := by
  refine ⟨by unfold LazFileReader.make; rw [if_pos rfl], ?_⟩
  obtain ⟨r, h1, _, _, h2⟩ := C55_data (C70_file_laz hf).1 hs hg hn
  refine ⟨⟨r, true, true⟩, by unfold LazFileReader.make; rw [if_neg (by simp), h1], h2, rfl, ⟨r, false, false⟩, rfl, rfl,
    rfl⟩

theorem C71_laz_violated (L : Lazperf) (g : LazFileReader) :
    (g.isOpen = true → g.alive = true → LazFileReader.getPointData L (LazFileReader.close g).2 = .ub) ∧
    (∀ data e, (LazFileReader.make L true data).1 = .throws e → LazFileReader.make L true data = (.throws e, 1)) := by
  constructor
  · intro ho ha
    unfold LazFileReader.close
    rw [if_pos ho, if_pos ha]
    rfl
  · intro data e h
    unfold LazFileReader.make at h ⊢
    rw [if_neg (by simp)] at h ⊢
    cases hr : LazReader.init L ⟨data, 0, false⟩ with
    | ok r => rw [hr] at h; cases h
    | throw e' => rw [hr] at h; injection h with h; rw [← h]
    | ub => rw [hr] at h; cases h

/-! ### Samples -/

/-- The sample of the box queries, made with a `FileWriter` and read with a `FileReader`. -/
theorem boxFile_file : FileWritten Sample.L Sample.ord (boxCfg eight) {} BoxFile.hist ⟨BoxFile.w0, false⟩
    ⟨BoxFile.w, false⟩ BoxFile.data := C70_same BoxFile.written.1 BoxFile.made

example : ∃ g, FileReader.make true BoxFile.data = (.returns g, 1) ∧
    ∃ ps ns r2, GoodHierarchy BoxFile.data ps ∧ Opened BoxFile.data ps g.rd ∧
      Asked Sample.L g.rd [] g.rd ∧ Run.Ends (fun k => Reader.getAllNodes ROrder.plain k) g.rd (.ok ns, r2) ∧
      ns.Perm ((addedNodes BoxFile.hist).map fun n => ⟨n.entry, finalPage BoxFile.hist n⟩) := by
  obtain ⟨ps, r, h1, _, _, h2, _⟩ := BoxFile.written.1.facts
  obtain ⟨g, hg, rfl⟩ := ((C71_make BoxFile.data).2.1 r).2 h2.init
  obtain ⟨ns, r2, h3, h4⟩ := C33_allNodes BoxFile.written.1 h2.init (.none (L := Sample.L)) ROrder.plain
  exact ⟨g, hg, ps, ns, r2, h1, h2, .none, h3, h4⟩

/-- A file that is refused, and stays open. -/
def isThrow {α : Type} : Res α → Bool
  | .throw _ => true
  | _ => false
theorem empty_refused : isThrow (Reader.init ⟨[], 0, false⟩) = true := by decide +kernel
example : ∃ e, FileReader.make true [] = (.throws e, 1) := by
  have h := empty_refused
  cases hr : Reader.init ⟨[], 0, false⟩ with
  | ok r => rw [hr] at h; cases h
  | ub => rw [hr] at h; cases h
  | throw e => exact ⟨e, C71_leak_violated (((C71_make []).2.2 e).2 hr)⟩

/-- The sample closed right after it was opened: its root page has not been read. -/
theorem box_unread : BoxFile.reader.map (fun r => (AList.get VoxelKey.root r.h.hier.nodes,
    r.h.hier.nearest (VoxelKey.root.getParents true), r.h.hier.heap.map fun p => (p.loaded, p.isValid, decide (32 ≤ p.byteSize)))) =
    some (none, some 0, [(false, true, true)]) := by decide +kernel

example : ∃ g, FileReader.make true BoxFile.data = (.returns g, 1) ∧
    ∀ k, FileReader.ask (Reader.findNode (k + 1) VoxelKey.root) (FileReader.close g).2 =
      some (.ub, (FileReader.close g).2) := by
  obtain ⟨r, hr, _⟩ := C33_opens BoxFile.written.1
  have hb := box_unread
  have hrd : BoxFile.reader = some r := by unfold BoxFile.reader; rw [hr]
  rw [hrd] at hb
  simp only [Option.map_some, Option.some.injEq, Prod.mk.injEq] at hb
  obtain ⟨h1, h2, h3⟩ := hb
  have hm : FileReader.make true BoxFile.data = (.returns ⟨r, true, true⟩, 1) := by
    unfold FileReader.make; rw [if_neg (by simp), hr]
  refine ⟨_, hm, fun k => ?_⟩
  cases hh : r.h.hier.heap with
  | nil => rw [hh] at h3; cases h3
  | cons p l =>
    rw [hh] at h3
    simp only [List.map_cons, List.cons.injEq, Prod.mk.injEq, decide_eq_true_eq] at h3
    obtain ⟨⟨h4, h5, h6⟩, _⟩ := h3
    refine C71_find_violated (f := ⟨r, false, false⟩) rfl h1 h2 (p := p) ?_ h4 h5 h6 k
    show r.h.hier.heap[0]? = some p
    rw [hh]; rfl

example : LazFileWritten LazSample.L LazSample.cfg LazSample.hist ⟨LazSample.w0, false⟩ ⟨LazSample.w, false⟩
    LazSample.closed.base.out.data := C70_same_laz lazSample_written LazSample.made

end Copc
