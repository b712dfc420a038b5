import Verif.Lemmas.WriterPages
/-! # What `Close` writes -/
namespace Copc
open OStream

/-- The stream holds `a ++ b` and is positioned after `a`. -/
def midStream (a b : Bytes) : OStream := ⟨a ++ b, a.length, false, none⟩

@[simp] theorem midStream_write (a b bs : Bytes) :
    (midStream a b).write bs = midStream (a ++ bs) (b.drop bs.length) :=
  HoldsAt.write_any (o := midStream a b) rfl
@[simp] theorem midStream_seek0 (a b : Bytes) : (midStream a b).seekp 0 = midStream [] (a ++ b) := rfl
@[simp] theorem endStream_seek0 (d : Bytes) : (endStream d).seekp 0 = midStream [] d := by
  simp [endStream, midStream, OStream.seekp]
@[simp] theorem midStream_tellp (a b : Bytes) : (midStream a b).tellp = a.length := rfl
@[simp] theorem midStream_seekEnd (a b : Bytes) : (midStream a b).seekEnd = endStream (a ++ b) := rfl
@[simp] theorem midStream_data (a b : Bytes) : (midStream a b).data = a ++ b := rfl

/-- The VLRs of a LAZ file. -/
def lazVlrs (L : Lazperf) (c : LazConfig) (eb : Nat) : Bytes :=
  (if eb > 0 then BaseW.vlrBytes idSpec 4 [] (putEb c.eb) else []) ++
    BaseW.vlrBytes idLaz 22204 BaseW.descLaz (L.lazVlr c.header.fmt eb)

/-- The VLRs of a COPC file. -/
def copcVlrs (L : Lazperf) (c : CopcConfig) (eb : Nat) (gps : Extent) : Bytes :=
  BaseW.vlrBytes idCopc 1 BaseW.descInfo (c.info.encode gps) ++
  (BaseW.vlrBytes idCopc 10000 BaseW.descExtents (Extents.putItems c.extents.toVlr) ++
  ((if c.extents.extStats then
      BaseW.vlrBytes idRock 10001 BaseW.descStats (Extents.putItems c.extents.toVlrExtended) else []) ++
    lazVlrs L c.toLazConfig eb))

/-- The header and VLRs of a COPC file. -/
def headBlock (L : Lazperf) (c : CopcConfig) (eb : Nat) (gps : Extent) (h14 : Header14) : Bytes :=
  h14.encode ++ copcVlrs L c eb gps

theorem emit_base (bs : Bytes) (w : Writer) :
    Writer.onBase (BaseW.emit bs) w = (.ok (), { w with
      base := { w.base with out := w.base.out.write bs } }) := rfl

theorem drop_drop_len (d a b : Bytes) : (d.drop a.length).drop b.length = d.drop (a ++ b).length := by
  rw [List.drop_drop, List.length_append]

theorem writeLazAndEbVlrs_eq (L : Lazperf) (c : LazConfig) (b : BaseW) (eb : Nat)
    (heb : c.header.ebSize = .ok eb) (a d : Bytes) (hb : b.out = midStream a (d.drop a.length)) :
    BaseW.writeLazAndEbVlrs L c b = (.ok (), { b with
      out := midStream (a ++ lazVlrs L c eb) (d.drop (a ++ lazVlrs L c eb).length) }) := by
  unfold BaseW.writeLazAndEbVlrs lazVlrs
  simp only [Act.bind_apply, Act.lift_apply, heb]
  by_cases h : eb > 0
  · simp only [if_pos h, Act.bind_apply, BaseW.emit, BaseW.onOut, Act.modify_apply, hb, midStream_write,
      drop_drop_len, List.append_assoc]
  · simp only [if_neg h, BaseW.emit, BaseW.onOut, Act.modify_apply, hb, midStream_write,
      drop_drop_len, List.nil_append]

/-- `WriteHeader` when everything it computes is defined. -/
theorem writeHeader_eq (L : Lazperf) (w : Writer) (d : Bytes) (hd : w.base.out.seekp 0 = midStream [] d)
    {otpd eb : Nat} {h14 : Header14} {gps : Extent}
    (h1 : Writer.offsetToPointData w.cfg = .ok otpd) (h2 : w.cfg.header.ebSize = .ok eb)
    (h3 : w.cfg.header.toLazPerf (UInt32.ofNat otpd) (UInt64.ofNat w.base.pointCount)
      (UInt64.ofNat w.base.evlrOffset) (UInt32.ofNat w.base.evlrCount) (eb ≠ 0) w.cfg.extents.extStats = .ok h14)
    (h4 : w.cfg.extents.getGpsTime = .ok gps) (h5 : Writer.boundsExtents w.cfg.header = .ok ()) :
    Writer.writeHeader L w =
      (if (headBlock L w.cfg eb gps h14).length > otpd then .throw .headerTooBig else .ok (),
       { w with base := { w.base with
          out := midStream (headBlock L w.cfg eb gps h14) (d.drop (headBlock L w.cfg eb gps h14).length) } }) := by
  unfold Writer.writeHeader
  rw [Act.bind_ok (Act.gets_apply _ _), h1, Act.bind_ok (Act.lift_apply _ _)]
  have e1 : Writer.onBase (BaseW.writeLasHeader w.cfg.header otpd w.cfg.extents.extStats) w =
      (.ok (), { w with base := { w.base with
        out := midStream h14.encode (d.drop h14.encode.length) } }) := by
    unfold Writer.onBase
    rw [Act.zoom_apply]
    unfold BaseW.writeLasHeader
    simp only [Act.bind_apply, Act.lift_apply, h2, Act.gets_apply, id, h3, BaseW.emit, BaseW.onOut,
      Act.modify_apply, hd, midStream_write, List.nil_append]
  rw [Act.bind_ok e1, h4, Act.bind_ok (Act.lift_apply _ _), Act.bind_ok (emit_base _ _), h5,
    Act.bind_ok (Act.lift_apply _ _), Act.bind_ok (emit_base _ _)]
  simp only [midStream_write, drop_drop_len]
  have key : ∀ (a : Bytes), (do
        Writer.onBase (BaseW.writeLazAndEbVlrs L w.cfg.toLazConfig)
        Writer.onBase (BaseW.checkHeaderSize otpd) : Act Writer Unit)
        { w with base := { w.base with out := midStream a (d.drop a.length) } } =
      (if (a ++ lazVlrs L w.cfg.toLazConfig eb).length > otpd then .throw .headerTooBig else .ok (),
       { w with base := { w.base with
          out := midStream (a ++ lazVlrs L w.cfg.toLazConfig eb)
            (d.drop (a ++ lazVlrs L w.cfg.toLazConfig eb).length) } }) := by
    intro a
    have e := writeLazAndEbVlrs_eq L w.cfg.toLazConfig
      { w.base with out := midStream a (d.drop a.length) } eb h2 a d rfl
    have e2 : Writer.onBase (BaseW.writeLazAndEbVlrs L w.cfg.toLazConfig)
        { w with base := { w.base with out := midStream a (d.drop a.length) } } =
        (.ok (), { w with base := { w.base with
          out := midStream (a ++ lazVlrs L w.cfg.toLazConfig eb)
            (d.drop (a ++ lazVlrs L w.cfg.toLazConfig eb).length) } }) := by
      unfold Writer.onBase
      rw [Act.zoom_apply]
      simp only [e]
    rw [Act.bind_ok e2]
    unfold Writer.onBase
    rw [Act.zoom_apply]
    unfold BaseW.checkHeaderSize
    simp only [Act.bind_apply, Act.gets_apply, midStream_tellp]
    by_cases hl : (a ++ lazVlrs L w.cfg.toLazConfig eb).length > otpd
    · rw [Act.throwIf_pos hl, if_pos hl]
    · rw [Act.throwIf_neg hl, if_neg hl]
  by_cases hx : w.cfg.extents.extStats = true
  · simp only [hx, if_true]
    rw [Act.bind_ok (emit_base _ _)]
    simp only [midStream_write, drop_drop_len]
    rw [key]
    simp only [headBlock, copcVlrs, hx, if_true, List.append_assoc]
  · simp only [hx]
    simp only [Bool.false_eq_true, if_false]
    rw [key]
    simp only [headBlock, copcVlrs, hx, if_false, List.append_assoc, List.nil_append, Bool.false_eq_true]

/-- What a successful `WriteHeader` needs. -/
theorem writeHeader_ok {L : Lazperf} {w w' : Writer} (h : Writer.writeHeader L w = (.ok (), w')) :
    ∃ otpd eb h14 gps, Writer.offsetToPointData w.cfg = .ok otpd ∧ w.cfg.header.ebSize = .ok eb ∧
      w.cfg.header.toLazPerf (UInt32.ofNat otpd) (UInt64.ofNat w.base.pointCount)
        (UInt64.ofNat w.base.evlrOffset) (UInt32.ofNat w.base.evlrCount) (eb ≠ 0)
        w.cfg.extents.extStats = .ok h14 ∧
      w.cfg.extents.getGpsTime = .ok gps ∧ Writer.boundsExtents w.cfg.header = .ok () := by
  unfold Writer.writeHeader at h
  rw [Act.bind_ok (Act.gets_apply _ _)] at h
  obtain ⟨otpd, w1, h1, h⟩ := Act.bind_eq_ok.1 h
  obtain ⟨_, w2, h2, h⟩ := Act.bind_eq_ok.1 h
  obtain ⟨gps, w3, h3, h⟩ := Act.bind_eq_ok.1 h
  obtain ⟨_, w4, h4, h⟩ := Act.bind_eq_ok.1 h
  obtain ⟨_, w5, h5, h⟩ := Act.bind_eq_ok.1 h
  rw [Act.lift_apply] at h1 h3 h5
  have hw1 : w1 = w := by injection h1 with _ e; exact e.symm
  subst hw1
  unfold Writer.onBase at h2
  rw [Act.zoom_apply] at h2
  have h2' : (BaseW.writeLasHeader w1.cfg.header otpd w1.cfg.extents.extStats w1.base).1 = .ok () := by
    injection h2
  have h2'' : BaseW.writeLasHeader w1.cfg.header otpd w1.cfg.extents.extStats w1.base = (.ok (),
      (BaseW.writeLasHeader w1.cfg.header otpd w1.cfg.extents.extStats w1.base).2) := by
    rw [← h2']
  unfold BaseW.writeLasHeader at h2''
  obtain ⟨eb, b1, g1, h2''⟩ := Act.bind_eq_ok.1 h2''
  obtain ⟨b, b2, g2, h2''⟩ := Act.bind_eq_ok.1 h2''
  obtain ⟨h14, b3, g3, h2''⟩ := Act.bind_eq_ok.1 h2''
  rw [Act.lift_apply] at g1 g3
  rw [Act.gets_apply] at g2
  injection g1 with g1 g1'
  injection g2 with g2 g2'
  injection g3 with g3 g3'
  injection g2 with g2
  subst g1'
  simp only [id] at g2
  subst g2
  injection h1 with h1
  injection h3 with h3
  injection h5 with h5
  exact ⟨otpd, eb, h14, gps, h1, g1, g3, h3, h5⟩

/-! ### The whole of `Close` -/

/-- The bytes before the hierarchy when the header is not yet written. -/
def bodyBytes (L : Lazperf) (otpd : Nat) (log : List (Nat × Bytes)) : Bytes :=
  leN 8 (otpd + 8 + (chunkData log).length) ++ (chunkData log ++ tableBytes L log)

/-- The WKT record as written. -/
def wktBytes (wkt : Bytes) : Bytes := if wkt = [] then [] else BaseW.wktEvlr wkt

theorem length_bodyBytes (L : Lazperf) (otpd : Nat) (log : List (Nat × Bytes)) :
    (bodyBytes L otpd log).length = 8 + (chunkData log).length + (tableBytes L log).length := by
  simp [bodyBytes]; omega

theorem chunkTable_onBase (L : Lazperf) {otpd : Nat} {w : Writer} {log : List (Nat × Bytes)}
    (hi : BInv (otpd + 8) w.base log) (hl : log.length ≤ 4294967295) :
    (do Writer.onBase (BaseW.writeChunkTable L otpd)
        Writer.onBase (BaseW.onOut OStream.seekEnd) : Act Writer Unit) w =
      (.ok (), { w with base := { w.base with
        out := endStream (List.replicate otpd 0 ++ bodyBytes L otpd log)
        chunks := sizes log } }) := by
  obtain ⟨o, h1, h2⟩ := writeChunkTable_ok L hi hl
  have e : Writer.onBase (BaseW.writeChunkTable L otpd) w = (.ok (), { w with base := { w.base with
        out := o
        chunks := sizes log } }) := by
    unfold Writer.onBase
    rw [Act.zoom_apply, h1]
  rw [Act.bind_ok e]
  unfold Writer.onBase
  rw [Act.zoom_apply]
  simp only [BaseW.onOut, Act.modify_apply]
  have := h2.seekEnd
  rw [holds_eq this]
  simp [bodyBytes, List.append_assoc]

/-- State before the header is written. -/
def preHeader (L : Lazperf) (ord : Order) (otpd : Nat) (log : List (Nat × Bytes))
    (hier : List (VoxelKey × VoxelKey)) (w : Writer) : Writer :=
  let d := List.replicate otpd 0 ++ bodyBytes L otpd log
  let lay := layoutPages ord w.pages hier d.length [] (Writer.visit ord hier (Writer.levels w.pages) VoxelKey.root)
  { w with
    base := { w.base with
      out := endStream (d ++ lay.1 ++ wktBytes w.cfg.wkt)
      chunks := sizes log
      evlrOffset := d.length
      evlrCount := if w.cfg.wkt = [] then w.pages.length % 2 ^ 32
        else (w.pages.length % 2 ^ 32 + 1) % 2 ^ 32 }
    cfg := setRoot lay.2 w.cfg }

/-- `Close` up to the header. -/
theorem close_eq (L : Lazperf) (ord : Order) {otpd : Nat} {w : Writer} {log : List (Nat × Bytes)}
    {hier : List (VoxelKey × VoxelKey)}
    (ho : Writer.offsetToPointData w.cfg = .ok otpd) (hi : BInv (otpd + 8) w.base log)
    (hl : log.length ≤ 4294967295) (hh : Writer.computePageHierarchy w.pages = .ok hier)
    (hsz : ∀ k ∈ Writer.visit ord hier (Writer.levels w.pages) VoxelKey.root,
      pageSize w.pages hier k ≤ 2147483647) :
    Writer.close L ord w = (do
      Writer.writeHeader L
      Writer.onBase (Act.modify fun b => { b with open_ := false }) : Act Writer Unit)
        (preHeader L ord otpd log hier w) := by
  unfold Writer.close
  rw [Act.bind_ok (Act.gets_apply _ _), hi.isOpen]
  simp only [Bool.true_eq_false, if_false]
  rw [Act.bind_ok (Act.gets_apply _ _), ho, Act.bind_ok (Act.lift_apply _ _)]
  obtain ⟨_, w1, e1, e2⟩ := Act.bind_eq_ok.1 (chunkTable_onBase L hi hl)
  rw [Act.bind_ok e1, Act.bind_ok e2, Act.bind_ok (Act.gets_apply _ _)]
  have e3 : ∀ (f : BaseW → BaseW) (s : Writer), Writer.onBase (Act.modify f) s =
      (.ok (), { s with base := f s.base }) := fun _ _ => rfl
  rw [Act.bind_ok (e3 _ _)]
  simp only [endStream_tellp]
  generalize hd : List.replicate otpd 0 ++ bodyBytes L otpd log = d
  have hev : (w.base.evlrCount + w.pages.length) % 2 ^ 32 = w.pages.length % 2 ^ 32 := by
    rw [hi.evlr, Nat.zero_add]
  rw [hev]
  generalize hw1 : ({ w with base := { w.base with
      out := endStream d
      chunks := sizes log
      evlrOffset := d.length
      evlrCount := w.pages.length % 2 ^ 32 } } : Writer) = wa
  have hwp : Writer.writePages ord wa = (.ok (), (pState wa
      (d ++ (layoutPages ord wa.pages hier d.length [] (Writer.visit ord hier (Writer.levels w.pages) VoxelKey.root)).1)
      (layoutPages ord wa.pages hier d.length [] (Writer.visit ord hier (Writer.levels w.pages) VoxelKey.root)).2).w) := by
    unfold Writer.writePages
    have hp : wa.pages = w.pages := by rw [← hw1]
    rw [hp, hh]
    simp only
    have hs : (⟨wa, []⟩ : Writer.PageW) = pState wa d [] := by
      rw [← hw1]; rfl
    rw [hs]
    rcases forEach_writePage ord hier wa (Writer.visit ord hier (Writer.levels w.pages) VoxelKey.root) d []
      with ⟨_, h2⟩ | ⟨⟨k, hk, hk2⟩, _⟩
    · rw [h2, hp]
    · rw [hp] at hk2
      have := hsz k hk
      omega
  rw [Act.bind_ok hwp]
  have hwkt : ∀ (s : Writer) (x : Bytes), s.base.out = endStream x →
      Writer.onBase (BaseW.writeWkt w.cfg.wkt) s = (.ok (), { s with base := { s.base with
        out := endStream (x ++ wktBytes w.cfg.wkt)
        evlrCount := if w.cfg.wkt = [] then s.base.evlrCount else (s.base.evlrCount + 1) % 2 ^ 32 } }) := by
    intro s x hx
    unfold Writer.onBase
    rw [Act.zoom_apply]
    unfold BaseW.writeWkt wktBytes
    by_cases hw : w.cfg.wkt = []
    · simp only [hw, if_true, Act.pure_apply, List.append_nil, ← hx]
    · simp only [hw, if_false, Act.bind_apply, Act.modify_apply, BaseW.emit, BaseW.onOut, hx, endStream_write]
  rw [Act.bind_ok (hwkt _ _ rfl)]
  subst hw1
  unfold preHeader pState
  simp only [hd]

theorem setRoot_header (p : List (VoxelKey × (Nat × Nat))) (c : CopcConfig) :
    (setRoot p c).toLazConfig = c.toLazConfig ∧ (setRoot p c).extents = c.extents := by
  unfold setRoot
  split <;> exact ⟨rfl, rfl⟩

theorem offsetToPointData_congr {c c' : CopcConfig} (h1 : c'.header.fmt = c.header.fmt)
    (h2 : c'.header.recLen = c.header.recLen) (h3 : c'.eb = c.eb)
    (h4 : c'.extents.extStats = c.extents.extStats) :
    Writer.offsetToPointData c' = Writer.offsetToPointData c := by
  unfold Writer.offsetToPointData BaseW.offsetToPointData LasHeader.ebSize
  rw [h1, h2, h3, h4]

/-- The outcome of a `Close` that returns. -/
structure CloseOk (L : Lazperf) (ord : Order) (otpd : Nat) (log : List (Nat × Bytes)) (w w' : Writer)
    (hier : List (VoxelKey × VoxelKey)) (eb : Nat) (h14 : Header14) (gps : Extent) : Prop where
  few : log.length ≤ 4294967295
  hier_ok : Writer.computePageHierarchy w.pages = .ok hier
  small : ∀ k ∈ Writer.visit ord hier (Writer.levels w.pages) VoxelKey.root,
    pageSize w.pages hier k ≤ 2147483647
  eb_ok : w.cfg.header.ebSize = .ok eb
  header : w.cfg.header.toLazPerf (UInt32.ofNat otpd) (UInt64.ofNat w.base.pointCount)
      (UInt64.ofNat (preHeader L ord otpd log hier w).base.evlrOffset)
      (UInt32.ofNat (preHeader L ord otpd log hier w).base.evlrCount) (eb ≠ 0)
      w.cfg.extents.extStats = .ok h14
  gps_ok : w.cfg.extents.getGpsTime = .ok gps
  bounds : Writer.boundsExtents w.cfg.header = .ok ()
  fits : (headBlock L (preHeader L ord otpd log hier w).cfg eb gps h14).length ≤ otpd
  result : w' = { preHeader L ord otpd log hier w with
    base := { (preHeader L ord otpd log hier w).base with
      out := midStream (headBlock L (preHeader L ord otpd log hier w).cfg eb gps h14)
        ((preHeader L ord otpd log hier w).base.out.data.drop
          (headBlock L (preHeader L ord otpd log hier w).cfg eb gps h14).length)
      open_ := false } }

theorem close_few {L : Lazperf} {ord : Order} {otpd : Nat} {w w' : Writer} {log : List (Nat × Bytes)}
    (ho : Writer.offsetToPointData w.cfg = .ok otpd) (hi : BInv (otpd + 8) w.base log)
    (hc : Writer.close L ord w = (.ok (), w')) : log.length ≤ 4294967295 := by
  refine Decidable.byContradiction fun hl => ?_
  have hl' : w.base.chunks.length > 4294967295 := by
    rw [hi.chunks, length_chunkEnds]; omega
  have := writeChunkTable_too_many L (otpd := otpd) hl'
  unfold Writer.close at hc
  rw [Act.bind_ok (Act.gets_apply _ _), hi.isOpen] at hc
  simp only [Bool.true_eq_false, if_false] at hc
  rw [Act.bind_ok (Act.gets_apply _ _), ho, Act.bind_ok (Act.lift_apply _ _)] at hc
  obtain ⟨_, w1, e1, _⟩ := Act.bind_eq_ok.1 hc
  unfold Writer.onBase at e1
  rw [Act.zoom_apply, this] at e1
  injection e1 with e1
  cases e1

/-- `Close` when the pages cannot be arranged or are too large. -/
theorem close_pages {L : Lazperf} {ord : Order} {otpd : Nat} {w : Writer} {log : List (Nat × Bytes)}
    (ho : Writer.offsetToPointData w.cfg = .ok otpd) (hi : BInv (otpd + 8) w.base log)
    (hl : log.length ≤ 4294967295) :
    (∀ e, Writer.computePageHierarchy w.pages = .throw e → (Writer.close L ord w).1 = .throw e) ∧
    (Writer.computePageHierarchy w.pages = .ub → (Writer.close L ord w).1 = .ub) ∧
    (∀ hier, Writer.computePageHierarchy w.pages = .ok hier →
      (∃ k ∈ Writer.visit ord hier (Writer.levels w.pages) VoxelKey.root,
        pageSize w.pages hier k > 2147483647) → (Writer.close L ord w).1 = .throw .pageTooLarge) := by
  unfold Writer.close
  rw [Act.bind_ok (Act.gets_apply _ _), hi.isOpen]
  simp only [Bool.true_eq_false, if_false]
  rw [Act.bind_ok (Act.gets_apply _ _), ho, Act.bind_ok (Act.lift_apply _ _)]
  obtain ⟨_, w1, e1, e2⟩ := Act.bind_eq_ok.1 (chunkTable_onBase L hi hl)
  rw [Act.bind_ok e1, Act.bind_ok e2, Act.bind_ok (Act.gets_apply _ _)]
  have e3 : ∀ (f : BaseW → BaseW) (s : Writer), Writer.onBase (Act.modify f) s =
      (.ok (), { s with base := f s.base }) := fun _ _ => rfl
  rw [Act.bind_ok (e3 _ _)]
  simp only [endStream_tellp]
  generalize hd : List.replicate otpd 0 ++ bodyBytes L otpd log = d
  generalize hw1 : ({ w with base := { w.base with
      out := endStream d
      chunks := sizes log
      evlrOffset := d.length
      evlrCount := (w.base.evlrCount + w.pages.length) % 2 ^ 32 } } : Writer) = wa
  have hp : wa.pages = w.pages := by rw [← hw1]
  refine ⟨?_, ?_, ?_⟩
  · intro e he
    have : Writer.writePages ord wa = (.throw e, wa) := by
      unfold Writer.writePages; rw [hp, he]
    rw [Act.bind_throw this]
  · intro he
    have : Writer.writePages ord wa = (.ub, wa) := by
      unfold Writer.writePages; rw [hp, he]
    rw [Act.bind_ub this]
  · rintro hier hh ⟨k, hk, hk2⟩
    have hs : (⟨wa, []⟩ : Writer.PageW) = pState wa d [] := by
      rw [← hw1]; rfl
    have : (Writer.writePages ord wa).1 = .throw .pageTooLarge := by
      unfold Writer.writePages
      rw [hp, hh]
      simp only
      rw [hs]
      rcases forEach_writePage ord hier wa (Writer.visit ord hier (Writer.levels w.pages) VoxelKey.root) d []
        with ⟨h1, _⟩ | ⟨_, h2⟩
      · have := h1 k hk
        rw [hp] at this
        omega
      · exact h2
    rcases hr : Writer.writePages ord wa with ⟨r, s⟩
    rw [hr] at this
    simp only at this
    subst this
    rw [Act.bind_throw hr]

theorem close_ok {L : Lazperf} {ord : Order} {otpd : Nat} {w w' : Writer} {log : List (Nat × Bytes)}
    (ho : Writer.offsetToPointData w.cfg = .ok otpd) (hi : BInv (otpd + 8) w.base log)
    (hc : Writer.close L ord w = (.ok (), w')) :
    ∃ hier eb h14 gps, CloseOk L ord otpd log w w' hier eb h14 gps := by
  have hl := close_few ho hi hc
  obtain ⟨p1, p2, p3⟩ := close_pages (L := L) (ord := ord) ho hi hl
  have hc1 : (Writer.close L ord w).1 = .ok () := by rw [hc]
  cases hh : Writer.computePageHierarchy w.pages with
  | throw e => rw [p1 e hh] at hc1; cases hc1
  | ub => rw [p2 hh] at hc1; cases hc1
  | ok hier =>
    have hsz : ∀ k ∈ Writer.visit ord hier (Writer.levels w.pages) VoxelKey.root,
        pageSize w.pages hier k ≤ 2147483647 := by
      intro k hk
      refine Decidable.byContradiction fun hn => ?_
      rw [p3 hier hh ⟨k, hk, by omega⟩] at hc1
      cases hc1
    rw [close_eq L ord ho hi hl hh hsz] at hc
    obtain ⟨_, w1, e1, e2⟩ := Act.bind_eq_ok.1 hc
    obtain ⟨otpd', eb, h14, gps, g1, g2, g3, g4, g5⟩ := writeHeader_ok e1
    have hcfg := setRoot_header (layoutPages ord w.pages hier
      (List.replicate otpd 0 ++ bodyBytes L otpd log).length []
      (Writer.visit ord hier (Writer.levels w.pages) VoxelKey.root)).2 w.cfg
    have hc1 : (preHeader L ord otpd log hier w).cfg.toLazConfig = w.cfg.toLazConfig := hcfg.1
    have hc2 : (preHeader L ord otpd log hier w).cfg.extents = w.cfg.extents := hcfg.2
    have hhd : (preHeader L ord otpd log hier w).cfg.header = w.cfg.header := by rw [hc1]
    have hot : otpd' = otpd := by
      rw [offsetToPointData_congr (c := w.cfg) (by rw [hhd]) (by rw [hhd]) (by rw [hc1]) (by rw [hc2]),
        ho] at g1
      injection g1 with g1
      exact g1.symm
    subst hot
    have hseek : (preHeader L ord otpd' log hier w).base.out.seekp 0 =
        midStream [] (preHeader L ord otpd' log hier w).base.out.data := by
      have : (preHeader L ord otpd' log hier w).base.out =
          endStream (preHeader L ord otpd' log hier w).base.out.data := rfl
      rw [this, endStream_seek0]; rfl
    have hw := writeHeader_eq L _ _ hseek g1 g2 g3 g4 g5
    rw [hw] at e1
    have hfit : (headBlock L (preHeader L ord otpd' log hier w).cfg eb gps h14).length ≤ otpd' := by
      refine Decidable.byContradiction fun hn => ?_
      rw [if_pos (by omega)] at e1
      injection e1 with e1
      cases e1
    injection e1 with e1 e1'
    rw [hhd] at g2 g3 g5
    rw [hc2] at g3 g4
    refine ⟨hier, eb, h14, gps, hl, hh, hsz, g2, g3, g4, g5, hfit, ?_⟩
    have e3 : ∀ (f : BaseW → BaseW) (s : Writer), Writer.onBase (Act.modify f) s =
      (.ok (), { s with base := f s.base }) := fun _ _ => rfl
    rw [e3] at e2
    injection e2 with _ e2
    rw [← e2, ← e1']

end Copc
