import Verif.Lemmas.ReaderQuery
import Verif.Model.Reader
/-! # Histories of calls of a `Reader` -/
namespace Copc
open Spec VoxelKey

/-- The calls of the public interface of `Reader` (each with the iteration order of its containers). -/
inductive Query where
  | findNode (key : VoxelKey)
  | children (ord : ROrder) (key : VoxelKey)
  | allNodes (ord : ROrder)
  | pageList (ord : ROrder)
  | pointData (n : Node)
  | pointDataAt (key : VoxelKey)
  | compressed (n : Node)
  | compressedAt (key : VoxelKey)
  | points (n : Node)
  | pointsAt (key : VoxelKey)
  | allPoints (ord : ROrder) (resolution : Dbl)
  | depthAtResolution (ord : ROrder) (resolution : Dbl)
  | maxDepth (ord : ROrder)
  | nodesAt (ord : ROrder) (resolution : Dbl)
  | nodesUpTo (ord : ROrder) (resolution : Dbl)
  | nodesWithin (ord : ROrder) (box : Box Dbl) (resolution : Dbl)
  | nodesIntersect (ord : ROrder) (box : Box Dbl) (resolution : Dbl)
  | pointsWithin (ord : ROrder) (box : Box Dbl) (resolution : Dbl)
  | validate (ord : ROrder) (verbose : Bool)

/-- A call whose result is not looked at. -/
def Run.void {σ α : Type} (x : Run σ α) : Run σ Unit := x >>= fun _ => pure ()

/-- The call. -/
def Query.run (L : Lazperf) (fuel : Nat) : Query → Run Reader Unit
  | findNode key => (Reader.findNode fuel key).void
  | children ord key => (Reader.getAllChildrenOfPage ord fuel key).void
  | allNodes ord => (Reader.getAllNodes ord fuel).void
  | pageList ord => (Reader.getPageList ord fuel).void
  | pointData n => (Run.ofAct (Reader.getPointData L n)).void
  | pointDataAt key => (Reader.getPointDataAt L fuel key).void
  | compressed n => (Run.ofAct (Reader.getPointDataCompressed n)).void
  | compressedAt key => (Reader.getPointDataCompressedAt fuel key).void
  | points n => (Run.ofAct (Reader.getPoints L n)).void
  | pointsAt key => (Reader.getPointsAt L fuel key).void
  | allPoints ord r => (Reader.getAllPoints L ord fuel r).void
  | depthAtResolution ord r => (Reader.getDepthAtResolution ord fuel r).void
  | maxDepth ord => (Reader.getMaxDepth ord fuel).void
  | nodesAt ord r => (Reader.getNodesAtResolution ord fuel r).void
  | nodesUpTo ord r => (Reader.getNodesWithinResolution ord fuel r).void
  | nodesWithin ord b r => (Reader.getNodesWithinBox ord fuel b r).void
  | nodesIntersect ord b r => (Reader.getNodesIntersectBox ord fuel b r).void
  | pointsWithin ord b r => (Reader.getPointsWithinBox L ord fuel b r).void
  | validate ord verbose => (Reader.validateSpatialBounds L ord fuel verbose).void

/-- Calls made one after the other, each of which returned or threw and left the stream usable. -/
inductive Asked (L : Lazperf) (r : Reader) : List Query → Reader → Prop
  | none : Asked L r [] r
  | ask {l : List Query} {r1 r2 : Reader} {q : Query} {res : Res Unit} : Asked L r l r1 →
    Run.Ends (fun n => q.run L n) r1 (res, r2) → r2.h.str.fail = false → Asked L r (q :: l) r2

/-- `r` is a reader opened on the file `data`, whose COPC info refers to the root page of `ps`; opening
it did not run into the end of the file. -/
structure Opened (data : Bytes) (ps : List FPage) (r : Reader) : Prop where
  init : Reader.init ⟨data, 0, false⟩ = .ok r
  good : r.h.str.fail = false
  root : ∃ q ∈ ps, q.key = VoxelKey.root ∧ r.cfg.info.rootHierOffset.toNat = q.offset ∧
    r.cfg.info.rootHierSize.toNat = q.size

/-! ### Opening keeps the bytes -/

theorem readFilled_data (s : IStream) (n : Nat) : (s.readFilled n).2.data = s.data := IStream.read_data s n

theorem skip64_data (s : IStream) (n : UInt64) : (s.skip64 n).data = s.data := by
  unfold IStream.skip64
  split
  · exact IStream.seekg_data _ _
  · split
    · rfl
    · split <;> rfl

theorem vlrLoop_data : ∀ (n : Nat) (s : IStream) (out : List (Nat × VlrHeader)),
    (BaseReader.vlrLoop n s out).2.data = s.data
  | 0, _, _ => rfl
  | n + 1, s, out => by
    rw [BaseReader.vlrLoop]
    exact (vlrLoop_data n _ _).trans ((skip64_data _ _).trans (readFilled_data s 54))

theorem evlrLoop_data : ∀ (n : Nat) (s : IStream) (out : List (Nat × VlrHeader)),
    (BaseReader.evlrLoop n s out).2.data = s.data
  | 0, _, _ => rfl
  | n + 1, s, out => by
    rw [BaseReader.evlrLoop]
    exact (evlrLoop_data n _ _).trans ((skip64_data _ _).trans (readFilled_data s 60))

theorem readVlrHeaders_data (h : Header14) (s : IStream) : (BaseReader.readVlrHeaders h s).2.data = s.data := by
  have h1 : (BaseReader.vlrLoop h.vlrCount.toNat (s.seekg h.headerSize.toNat) []).2.data = s.data :=
    (vlrLoop_data _ _ _).trans (IStream.seekg_data _ _)
  unfold BaseReader.readVlrHeaders
  simp only
  split
  · exact h1
  · exact ((evlrLoop_data _ _ _).trans (IStream.seekg_data _ _)).trans h1

theorem readPayload_data (s : IStream) (n : Int) : (BaseReader.readPayload s n).2.data = s.data := by
  unfold BaseReader.readPayload
  split
  · rfl
  · exact readFilled_data _ _

theorem readWkt_data (v : List (Nat × VlrHeader)) (s : IStream) : (BaseReader.readWkt v s).2.data = s.data := by
  unfold BaseReader.readWkt
  simp only
  split
  · exact (readPayload_data _ _).trans (IStream.seekg_data _ _)
  · rfl

theorem readEb_data (v : List (Nat × VlrHeader)) (s : IStream) : (BaseReader.readEb v s).2.data = s.data := by
  unfold BaseReader.readEb
  simp only
  split
  · exact (readPayload_data _ _).trans (IStream.seekg_data _ _)
  · rfl

theorem readInfo_data (v : List (Nat × VlrHeader)) (s : IStream) : (Reader.readInfo v s).2.data = s.data := by
  unfold Reader.readInfo
  simp only
  split
  · rfl
  · split
    · rfl
    · exact (readFilled_data _ _).trans (IStream.seekg_data _ _)

theorem readExtentItems_data (v : List (Nat × VlrHeader)) (o : Nat) (s : IStream) :
    (Reader.readExtentItems v o s).2.data = s.data :=
  (IStream.read_data _ _).trans (IStream.seekg_data _ _)

theorem readExtents_data (f : Int) (v : List (Nat × VlrHeader)) (eb : List EbField) (s : IStream) :
    (Reader.readExtents f v eb s).2.data = s.data := by
  have h := readExtentItems_data v
  unfold Reader.readExtents
  simp only
  split
  · split
    · split
      · exact (h _ _).trans (h _ _)
      · exact h _ _
    · exact h _ _
    · exact h _ _
  · rfl

theorem Res.bind_ok_iff {α β : Type} {x : Res α} {f : α → Res β} {b : β} :
    x.bind f = .ok b ↔ ∃ a, x = .ok a ∧ f a = .ok b := by
  cases x with
  | ok a => exact ⟨fun h => ⟨a, rfl, h⟩, fun ⟨_, h, h'⟩ => by cases h; exact h'⟩
  | throw e => exact ⟨fun h => by simp [Res.bind] at h, fun ⟨_, h, _⟩ => by cases h⟩
  | ub => exact ⟨fun h => by simp [Res.bind] at h, fun ⟨_, h, _⟩ => by cases h⟩

theorem baseInit_data {s : IStream} {b : BaseReader} (h : BaseReader.init s = .ok b) : b.str.data = s.data := by
  unfold BaseReader.init at h
  split at h
  · cases h
  · obtain ⟨h14, _, h⟩ := Res.bind_ok_iff.1 h
    obtain ⟨hd, _, h⟩ := Res.bind_ok_iff.1 h
    simp only at h
    obtain ⟨v, _, h⟩ := Res.bind_ok_iff.1 h
    obtain ⟨w, _, h⟩ := Res.bind_ok_iff.1 h
    obtain ⟨e, _, h⟩ := Res.bind_ok_iff.1 h
    cases h
    exact (readEb_data _ _).trans ((readWkt_data _ _).trans (readVlrHeaders_data _ _))

theorem init_facts {s : IStream} {r : Reader} (h : Reader.init s = .ok r) :
    r.h.str.data = s.data ∧ r.h.hier = RHier.make r.cfg.info.rootHierOffset r.cfg.info.rootHierSize := by
  obtain ⟨b, hb, h⟩ := Res.bind_ok_iff.1 h
  unfold Reader.initCopc at h
  split at h
  · cases h
  · simp only at h
    obtain ⟨info, _, h⟩ := Res.bind_ok_iff.1 h
    obtain ⟨ex, _, h⟩ := Res.bind_ok_iff.1 h
    obtain ⟨cfg, hcfg, h⟩ := Res.bind_ok_iff.1 h
    cases h
    refine ⟨(readExtents_data _ _ _ _).trans ((readInfo_data _ _).trans (baseInit_data hb)), ?_⟩
    have : cfg.info = info := by
      obtain ⟨e, _, h⟩ := Res.bind_ok_iff.1 hcfg
      cases h
      rfl
    rw [this]

/-! ### Data calls only touch the stream -/

/-- The reader with another stream. -/
def Reader.withStr (r : Reader) (s : IStream) : Reader := { r with h := { r.h with str := s } }

/-- A computation that always ends and only moves the stream. -/
def StreamOnly {α : Type} (x : Run Reader α) : Prop :=
  ∀ r, ∃ res s, x r = some (res, r.withStr s) ∧ s.data = r.h.str.data

section
variable {α β : Type}

theorem StreamOnly.pure (a : α) : StreamOnly (pure a : Run Reader α) := fun r => ⟨.ok a, r.h.str, rfl, rfl⟩
theorem StreamOnly.lift (a : Res α) : StreamOnly (Run.lift a : Run Reader α) := fun r => ⟨a, r.h.str, rfl, rfl⟩
theorem StreamOnly.gets (f : Reader → α) : StreamOnly (Run.gets f) := fun r => ⟨.ok (f r), r.h.str, rfl, rfl⟩

theorem StreamOnly.bind {x : Run Reader α} {f : α → Run Reader β} (hx : StreamOnly x)
    (hf : ∀ a, StreamOnly (f a)) : StreamOnly (x >>= f) := by
  intro r
  obtain ⟨res, s, h1, h2⟩ := hx r
  cases res with
  | ok a =>
    obtain ⟨res, s', h3, h4⟩ := hf a (r.withStr s)
    exact ⟨res, s', by rw [Run.bind_ok h1, h3]; rfl, h4.trans h2⟩
  | throw e => exact ⟨_, s, Run.bind_throw h1, h2⟩
  | ub => exact ⟨_, s, Run.bind_ub h1, h2⟩

theorem StreamOnly.collect {f : α → Run Reader (List β)} (hf : ∀ a, StreamOnly (f a)) :
    ∀ l, StreamOnly (Run.collect f l)
  | [] => StreamOnly.pure []
  | a :: l => (hf a).bind fun _ => (StreamOnly.collect hf l).bind fun _ => StreamOnly.pure _

theorem StreamOnly.ofAct_bind {x : Act Reader α} {f : α → Act Reader β} (hx : StreamOnly (Run.ofAct x))
    (hf : ∀ a, StreamOnly (Run.ofAct (f a))) : StreamOnly (Run.ofAct (x >>= f)) := by
  intro r
  obtain ⟨res, s, h1, h2⟩ := hx r
  have h1' : x r = (res, r.withStr s) := Option.some.inj h1
  rw [Run.ofAct_apply, Act.bind_apply, h1']
  cases res with
  | ok a => exact (fun ⟨res, s', h3, h4⟩ => ⟨res, s', h3, h4.trans h2⟩) (hf a (r.withStr s))
  | throw e => exact ⟨_, s, rfl, h2⟩
  | ub => exact ⟨_, s, rfl, h2⟩

theorem StreamOnly.onStream {x : Act IStream α} (hx : ∀ s, (x s).2.data = s.data) :
    StreamOnly (Run.ofAct (Reader.onStream x)) :=
  fun r => ⟨(x r.h.str).1, (x r.h.str).2, rfl, hx _⟩

end

theorem throwIf_streamOnly (c : Prop) [Decidable c] (e : Exc) : StreamOnly (Run.ofAct (Act.throwIf c e)) := by
  intro r
  refine ⟨if c then .throw e else .ok (), r.h.str, ?_, rfl⟩
  rw [Run.ofAct_apply, Act.throwIf_apply]
  split <;> rfl

theorem decompressBytes_data (L : Lazperf) (hd : LasHeader) (n : Int) (s : IStream) :
    (Reader.decompressBytes L hd n s).2.data = s.data := by
  unfold Reader.decompressBytes Reader.decompressStream
  repeat' split
  all_goals rfl

theorem getPointData_streamOnly (L : Lazperf) (n : Node) : StreamOnly (Run.ofAct (Reader.getPointData L n)) := by
  unfold Reader.getPointData
  refine (throwIf_streamOnly _ _).ofAct_bind fun _ => ?_
  refine (StreamOnly.onStream fun s => IStream.seekg_data s _).ofAct_bind fun _ => ?_
  refine StreamOnly.ofAct_bind (fun r => ⟨_, r.h.str, rfl, rfl⟩) fun hd => ?_
  exact StreamOnly.onStream fun s => decompressBytes_data L hd _ s

theorem getCompressed_streamOnly (n : Node) : StreamOnly (Run.ofAct (Reader.getPointDataCompressed n)) := by
  unfold Reader.getPointDataCompressed
  refine (throwIf_streamOnly _ _).ofAct_bind fun _ => ?_
  refine (StreamOnly.onStream fun s => IStream.seekg_data s _).ofAct_bind fun _ => ?_
  exact StreamOnly.onStream fun s => readFilled_data s _

theorem getPoints_streamOnly (L : Lazperf) (n : Node) : StreamOnly (Run.ofAct (Reader.getPoints L n)) := by
  unfold Reader.getPoints
  refine (getPointData_streamOnly L n).ofAct_bind fun _ => ?_
  refine StreamOnly.ofAct_bind (fun r => ⟨_, r.h.str, rfl, rfl⟩) fun hd => ?_
  exact fun r => ⟨_, r.h.str, rfl, rfl⟩

theorem nodeValid_streamOnly (L : Lazperf) (n : Node) : StreamOnly (Run.ofAct (Reader.nodeValid L n)) := by
  unfold Reader.nodeValid
  refine StreamOnly.ofAct_bind (fun r => ⟨_, r.h.str, rfl, rfl⟩) fun hd => ?_
  refine StreamOnly.ofAct_bind (fun r => ⟨_, r.h.str, rfl, rfl⟩) fun b => ?_
  split
  · exact fun r => ⟨_, r.h.str, rfl, rfl⟩
  · exact (getPoints_streamOnly L n).ofAct_bind fun _ => fun r => ⟨_, r.h.str, rfl, rfl⟩

theorem validateLoop_streamOnly (L : Lazperf) : ∀ l, StreamOnly (Run.ofAct (Reader.validateLoop L l))
  | [] => fun r => ⟨_, r.h.str, rfl, rfl⟩
  | n :: l => by
    unfold Reader.validateLoop
    refine (nodeValid_streamOnly L n).ofAct_bind fun b => ?_
    split
    · exact validateLoop_streamOnly L l
    · exact fun r => ⟨_, r.h.str, rfl, rfl⟩

theorem verboseNode_streamOnly (L : Lazperf) (n : Node) (t : Bool × Int × Int) :
    StreamOnly (Run.ofAct (Reader.verboseNode L n t)) := by
  unfold Reader.verboseNode
  refine StreamOnly.ofAct_bind (fun r => ⟨_, r.h.str, rfl, rfl⟩) fun hd => ?_
  refine StreamOnly.ofAct_bind (fun r => ⟨_, r.h.str, rfl, rfl⟩) fun b => ?_
  split
  · exact StreamOnly.ofAct_bind (fun r => ⟨_, r.h.str, rfl, rfl⟩) fun _ => fun r => ⟨_, r.h.str, rfl, rfl⟩
  · refine (getPoints_streamOnly L n).ofAct_bind fun _ => ?_
    refine StreamOnly.ofAct_bind (fun r => ⟨_, r.h.str, rfl, rfl⟩) fun _ => ?_
    exact StreamOnly.ofAct_bind (fun r => ⟨_, r.h.str, rfl, rfl⟩) fun _ => fun r => ⟨_, r.h.str, rfl, rfl⟩

theorem verboseLoop_streamOnly (L : Lazperf) : ∀ l t, StreamOnly (Run.ofAct (Reader.verboseLoop L l t))
  | [], _ => fun r => ⟨_, r.h.str, rfl, rfl⟩
  | n :: l, t => by
    unfold Reader.verboseLoop
    exact (verboseNode_streamOnly L n t).ofAct_bind fun t => verboseLoop_streamOnly L l t

theorem validate_streamOnly (L : Lazperf) (verbose : Bool) (l : List Node) : StreamOnly
    (if verbose then Run.ofAct (Reader.verboseLoop L l (true, 0, 0)) >>= fun t => pure t.1
      else Run.ofAct (Reader.validateLoop L l) : Run Reader Bool) := by
  split
  · exact (verboseLoop_streamOnly L l _).bind fun t => StreamOnly.pure _
  · exact validateLoop_streamOnly L l

theorem boxPoints_streamOnly (L : Lazperf) (b : Box Dbl) (d : Int) (n : Node) :
    StreamOnly (Reader.boxPoints L b d n) := by
  unfold Reader.boxPoints
  refine (StreamOnly.gets _).bind fun hd => ?_
  split
  · split
    · exact getPoints_streamOnly L n
    · split
      · exact (getPoints_streamOnly L n).bind fun _ => StreamOnly.pure _
      · exact StreamOnly.pure _
  · exact StreamOnly.pure _

/-! ### Every call ends and keeps the reader in order -/

section
variable {data : Bytes} {ps : List FPage} {α β : Type}

/-- The configuration is not touched. -/
def SameCfg (r r' : Reader) : Prop := r'.vlrs = r.vlrs ∧ r'.cfg = r.cfg

theorem SameCfg.trans {a b c : Reader} (h1 : SameCfg a b) (h2 : SameCfg b c) : SameCfg a c :=
  ⟨h2.1.trans h1.1, h2.2.trans h1.2⟩

/-- The call returns normally with a result satisfying `P`, from any number of nested calls on. -/
def Gives (data : Bytes) (ps : List FPage) (x : Nat → Run Reader α) (r : Reader) (P : α → Prop) : Prop :=
  ∃ n a r', (∀ m, n ≤ m → x m r = some (.ok a, r')) ∧ RInv data ps r'.h ∧ SameCfg r r' ∧ P a

/-- The call ends, and the reader is in order unless its stream failed. -/
def Halts (data : Bytes) (ps : List FPage) (x : Nat → Run Reader α) (r : Reader) : Prop :=
  ∃ n res r', (∀ m, n ≤ m → x m r = some (res, r')) ∧ (r'.h.str.fail = false → RInv data ps r'.h) ∧
    SameCfg r r'

theorem Gives.ends {x : Nat → Run Reader α} {r : Reader} {P : α → Prop} (h : Gives data ps x r P) :
    ∃ a r', Run.Ends x r (.ok a, r') ∧ RInv data ps r'.h ∧ SameCfg r r' ∧ P a := by
  obtain ⟨n, a, r', h1, h2⟩ := h
  exact ⟨a, r', ⟨n, h1⟩, h2⟩

theorem Gives.mono {x : Nat → Run Reader α} {r : Reader} {P Q : α → Prop} (h : Gives data ps x r P)
    (hq : ∀ a, P a → Q a) : Gives data ps x r Q := by
  obtain ⟨n, a, r', h1, h2, h3, h4⟩ := h
  exact ⟨n, a, r', h1, h2, h3, hq a h4⟩

theorem Gives.bind {x : Nat → Run Reader α} {f : Nat → α → Run Reader β} {r : Reader} {P : α → Prop}
    {Q : β → Prop} (h : Gives data ps x r P)
    (hf : ∀ a r', RInv data ps r'.h → SameCfg r r' → P a → Gives data ps (fun n => f n a) r' Q) :
    Gives data ps (fun n => x n >>= f n) r Q := by
  obtain ⟨n, a, r1, h1, h2, h3, h4⟩ := h
  obtain ⟨m, b, r2, g1, g2, g3, g4⟩ := hf a r1 h2 h3 h4
  refine ⟨max n m, b, r2, fun k hk => ?_, g2, h3.trans g3, g4⟩
  show (x k >>= f k) r = _
  rw [Run.bind_ok (h1 k (by omega))]
  exact g1 k (by omega)

theorem Gives.bind_halts {x : Nat → Run Reader α} {f : Nat → α → Run Reader β} {r : Reader} {P : α → Prop}
    (h : Gives data ps x r P)
    (hf : ∀ a r', RInv data ps r'.h → P a → Halts data ps (fun n => f n a) r') :
    Halts data ps (fun n => x n >>= f n) r := by
  obtain ⟨n, a, r1, h1, h2, h3, h4⟩ := h
  obtain ⟨m, b, r2, g1, g2, g3⟩ := hf a r1 h2 h4
  refine ⟨max n m, b, r2, fun k hk => ?_, g2, h3.trans g3⟩
  show (x k >>= f k) r = _
  rw [Run.bind_ok (h1 k (by omega))]
  exact g1 k (by omega)

theorem Gives.gets {r : Reader} (hi : RInv data ps r.h) (f : Reader → α) :
    Gives data ps (fun _ => Run.gets f) r (fun a => a = f r) :=
  ⟨0, f r, r, fun _ _ => rfl, hi, ⟨rfl, rfl⟩, rfl⟩

theorem Gives.pure {r : Reader} (hi : RInv data ps r.h) (a : α) :
    Gives data ps (fun _ => (Pure.pure a : Run Reader α)) r (fun b => b = a) :=
  ⟨0, a, r, fun _ _ => rfl, hi, ⟨rfl, rfl⟩, rfl⟩

theorem RInv.withStr {h : HReader} (hi : RInv data ps h) {s : IStream} (hd : s.data = h.str.data)
    (hf : s.fail = false) : RInv data ps { h with str := s } :=
  ⟨hd.trans hi.data, hf, hi.distinct, hi.seenNodup, hi.seen, hi.page, hi.root, hi.above, hi.nodesNodup, hi.nodes⟩

theorem StreamOnly.halts {x : Run Reader α} (hx : StreamOnly x) {r : Reader} (hi : RInv data ps r.h) :
    Halts data ps (fun _ => x) r := by
  obtain ⟨res, s, h1, h2⟩ := hx r
  exact ⟨0, res, r.withStr s, fun _ _ => h1, fun hf => hi.withStr h2 hf, ⟨rfl, rfl⟩⟩

theorem Gives.halts {x : Nat → Run Reader α} {r : Reader} {P : α → Prop} (h : Gives data ps x r P) :
    Halts data ps x r := by
  obtain ⟨n, a, r', h1, h2, h3, _⟩ := h
  exact ⟨n, _, r', h1, fun _ => h2, h3⟩

theorem Halts.void {x : Nat → Run Reader α} {r : Reader} (h : Halts data ps x r) :
    Halts data ps (fun n => (x n).void) r := by
  obtain ⟨n, res, r', h1, h2, h3⟩ := h
  cases res with
  | ok a => exact ⟨n, .ok (), r', fun m hm => (Run.bind_ok (h1 m hm)).trans rfl, h2, h3⟩
  | throw e => exact ⟨n, .throw e, r', fun m hm => Run.bind_throw (h1 m hm), h2, h3⟩
  | ub => exact ⟨n, .ub, r', fun m hm => Run.bind_ub (h1 m hm), h2, h3⟩

theorem onHier_gives {x : Nat → Run HReader α} {r : Reader} {P : α → Prop}
    (h : ∃ n a s', (∀ m, n ≤ m → x m r.h = some (.ok a, s')) ∧ RInv data ps s' ∧ P a) :
    Gives data ps (fun n => Reader.onHier (x n)) r P := by
  obtain ⟨n, a, s', h1, h2, h3⟩ := h
  refine ⟨n, a, { r with h := s' }, fun m hm => ?_, h2, ⟨rfl, rfl⟩, h3⟩
  show (x m r.h).map _ = _
  rw [h1 m hm]
  rfl

variable (hg : GoodHierarchy data ps) {r : Reader} (hi : RInv data ps r.h)
include hg hi

theorem findNode_gives (key : VoxelKey) : Gives data ps (fun n => Reader.findNode n key) r (Answer ps key) := by
  obtain ⟨n, s', h1, h2, _, h3, _⟩ := findNode_good hg hi key
  exact onHier_gives ⟨_, n, s', h1, h2, h3⟩

theorem allNodes_gives (ord : ROrder) : Gives data ps (fun n => Reader.getAllNodes ord n) r (ListsAll ps) := by
  obtain ⟨n, l, s', h1, h2, _, h3, _⟩ := allNodes_good hg hi ord
  exact onHier_gives ⟨n, l, s', h1, h2, h3⟩

theorem pageList_gives (ord : ROrder) :
    Gives data ps (fun n => Reader.getPageList ord n) r (fun l => l.Perm (ps.map (·.key))) := by
  obtain ⟨n, l, s', h1, h2, _, h3⟩ := pageList_good hg hi ord
  exact onHier_gives ⟨n, l, s', h1, h2, h3⟩

theorem depth_gives (ord : ROrder) (res : Dbl) : Gives data ps (fun n => Reader.getDepthAtResolution ord n res) r
    (fun d => ∃ l, ListsAll ps l ∧ d = Reader.depthAt l r.cfg.info.spacing res) := by
  refine (allNodes_gives hg hi ord).bind fun l r' hi' hc hl => ?_
  exact (Gives.gets hi' _).mono fun d hd => ⟨l, hl, by rw [hd, hc.2]⟩

theorem filter_gives (ord : ROrder) (res : Dbl) (keep : LasHeader → Int → Node → Bool) :
    Gives data ps (fun n => Reader.filterNodes ord n res keep) r
    (fun l => ∃ l1 l2, ListsAll ps l1 ∧ ListsAll ps l2 ∧
      l = l2.filter (keep r.cfg.header (Reader.depthAt l1 r.cfg.info.spacing res))) := by
  refine (depth_gives hg hi ord res).bind fun d r1 hi1 hc1 hd => ?_
  obtain ⟨l1, hl1, rfl⟩ := hd
  refine (allNodes_gives hg hi1 ord).bind fun l2 r2 hi2 hc2 hl2 => ?_
  exact (Gives.gets hi2 _).mono fun l hl => ⟨l1, l2, hl1, hl2, by rw [hl, hc2.2, hc1.2]⟩

theorem pointDataAt_halts (L : Lazperf) (key : VoxelKey) :
    Halts data ps (fun n => Reader.getPointDataAt L n key) r := by
  by_cases hv : key.isValid = false
  · have : (fun n => Reader.getPointDataAt L n key) = fun _ => (Pure.pure [] : Run Reader Bytes) := by
      funext n; unfold Reader.getPointDataAt; rw [if_pos hv]
    rw [this]
    exact (Gives.pure hi _).halts
  · have : (fun n => Reader.getPointDataAt L n key) = fun n => Reader.findNode n key >>= fun node =>
        if node.isValid = false then Pure.pure [] else Run.ofAct (Reader.getPointData L node) := by
      funext n; unfold Reader.getPointDataAt; rw [if_neg hv]
    rw [this]
    refine (findNode_gives hg hi key).bind_halts fun node r' hi' _ => ?_
    split
    · exact (Gives.pure hi' _).halts
    · exact (getPointData_streamOnly L node).halts hi'

theorem compressedAt_halts (key : VoxelKey) :
    Halts data ps (fun n => Reader.getPointDataCompressedAt n key) r := by
  by_cases hv : key.isValid = false
  · have : (fun n => Reader.getPointDataCompressedAt n key) = fun _ => (Pure.pure [] : Run Reader Bytes) := by
      funext n; unfold Reader.getPointDataCompressedAt; rw [if_pos hv]
    rw [this]
    exact (Gives.pure hi _).halts
  · have : (fun n => Reader.getPointDataCompressedAt n key) = fun n => Reader.findNode n key >>= fun node =>
        if node.isValid = false then Pure.pure [] else Run.ofAct (Reader.getPointDataCompressed node) := by
      funext n; unfold Reader.getPointDataCompressedAt; rw [if_neg hv]
    rw [this]
    refine (findNode_gives hg hi key).bind_halts fun node r' hi' _ => ?_
    split
    · exact (Gives.pure hi' _).halts
    · exact (getCompressed_streamOnly node).halts hi'

omit hg hi in
theorem Halts.bind_stream {x : Nat → Run Reader α} {f : α → Run Reader β} {r : Reader} (h : Halts data ps x r)
    (hf : ∀ a r', ∃ res, f a r' = some (res, r')) :
    Halts data ps (fun n => x n >>= f) r := by
  obtain ⟨n, res, r', h1, h2, h3⟩ := h
  cases res with
  | ok a =>
    obtain ⟨res, hr⟩ := hf a r'
    exact ⟨n, res, r', fun m hm => (Run.bind_ok (h1 m hm)).trans hr, h2, h3⟩
  | throw e => exact ⟨n, .throw e, r', fun m hm => Run.bind_throw (h1 m hm), h2, h3⟩
  | ub => exact ⟨n, .ub, r', fun m hm => Run.bind_ub (h1 m hm), h2, h3⟩

theorem pointsAt_halts (L : Lazperf) (key : VoxelKey) :
    Halts data ps (fun n => Reader.getPointsAt L n key) r := by
  refine (pointDataAt_halts hg hi L key).bind_stream fun d r' => ?_
  rw [Run.bind_ok (Run.gets_apply _ _)]
  split <;> exact ⟨_, rfl⟩

theorem query_halts (L : Lazperf) (q : Query) : Halts data ps (fun n => q.run L n) r := by
  cases q with
  | findNode key => exact (findNode_gives hg hi key).halts.void
  | children ord key =>
    obtain ⟨n, l, s', h1, h2, _⟩ := children_good hg hi ord key
    exact (onHier_gives (P := fun _ => True) ⟨n, l, s', h1, h2, trivial⟩).halts.void
  | allNodes ord => exact (allNodes_gives hg hi ord).halts.void
  | pageList ord => exact (pageList_gives hg hi ord).halts.void
  | pointData n => exact ((getPointData_streamOnly L n).halts hi).void
  | pointDataAt key => exact (pointDataAt_halts hg hi L key).void
  | compressed n => exact ((getCompressed_streamOnly n).halts hi).void
  | compressedAt key => exact (compressedAt_halts hg hi key).void
  | points n => exact ((getPoints_streamOnly L n).halts hi).void
  | pointsAt key => exact (pointsAt_halts hg hi L key).void
  | allPoints ord res =>
    refine Halts.void ((depth_gives hg hi ord res).bind_halts fun d r1 hi1 _ => ?_)
    refine (allNodes_gives hg hi1 ord).bind_halts fun l r2 hi2 _ => ?_
    refine (StreamOnly.collect (fun n => ?_) l).halts hi2
    split
    · exact getPoints_streamOnly L n
    · exact StreamOnly.pure _
  | depthAtResolution ord res => exact (depth_gives hg hi ord res).halts.void
  | maxDepth ord => exact (depth_gives hg hi ord _).halts.void
  | nodesAt ord res => exact (filter_gives hg hi ord res _).halts.void
  | nodesUpTo ord res => exact (filter_gives hg hi ord res _).halts.void
  | nodesWithin ord b res => exact (filter_gives hg hi ord res _).halts.void
  | nodesIntersect ord b res => exact (filter_gives hg hi ord res _).halts.void
  | pointsWithin ord b res =>
    refine Halts.void ((depth_gives hg hi ord res).bind_halts fun d r1 hi1 _ => ?_)
    refine (allNodes_gives hg hi1 ord).bind_halts fun l r2 hi2 _ => ?_
    exact (StreamOnly.collect (fun n => boxPoints_streamOnly L b d n) l).halts hi2
  | validate ord verbose =>
    refine Halts.void ((allNodes_gives hg hi ord).bind_halts fun l r2 hi2 _ => ?_)
    exact (validate_streamOnly L verbose l).halts hi2

end

theorem Opened.rInv {data : Bytes} {ps : List FPage} (hg : GoodHierarchy data ps) {r : Reader}
    (h : Opened data ps r) : RInv data ps r.h := by
  obtain ⟨h1, h2, q, hq, hk, ho, hz⟩ := h
  obtain ⟨hd, hh⟩ := init_facts h1
  have := rInv_make hg (str := r.h.str) hd h2 hq hk ho hz
  rw [← hh] at this
  exact this

/-- Whatever was asked before, the reader is in order and has the same configuration. -/
theorem Asked.rInv {data : Bytes} {ps : List FPage} (hg : GoodHierarchy data ps) {L : Lazperf} {r r' : Reader}
    (hi : RInv data ps r.h) {l : List Query} (h : Asked L r l r') : RInv data ps r'.h ∧ SameCfg r r' := by
  induction h with
  | none => exact ⟨hi, rfl, rfl⟩
  | ask hl he hf ih =>
    obtain ⟨n, res, r2, h1, h2, h3⟩ := query_halts hg ih.1 L _
    have := Run.Ends.unique (r := (res, r2)) ⟨n, h1⟩ he
    cases this
    exact ⟨h2 hf, ih.2.trans h3⟩

end Copc
