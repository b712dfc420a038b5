import Verif.Lemmas.LazWriter
/-! # `Close` of a LAZ writer -/
namespace Copc
open OStream

/-- Header and VLRs of a LAZ file. -/
def lazHead (L : Lazperf) (c : LazConfig) (eb : Nat) (h14 : Header14) : Bytes := h14.encode ++ lazVlrs L c eb

/-- The header that `Close` writes. -/
def lazHeader14 (c : LazConfig) (otpd eb count evlrOffset : Nat) : Res Header14 :=
  c.header.toLazPerf (UInt32.ofNat otpd) (UInt64.ofNat count) (UInt64.ofNat evlrOffset)
    (UInt32.ofNat (if c.wkt = [] then 0 else 1)) (eb ≠ 0) false

theorem lazHeader14_ok (c : LazConfig) (otpd eb count evlrOffset : Nat) :
    ∃ h14, lazHeader14 c otpd eb count evlrOffset = .ok h14 := by
  unfold lazHeader14 LasHeader.toLazPerf
  simp

/-- The base writer before the header is written. -/
def lazPre (L : Lazperf) (otpd : Nat) (log : List (Nat × Bytes)) (c : LazConfig) (b : BaseW) : BaseW :=
  { b with
    out := endStream (List.replicate otpd 0 ++ bodyBytes L otpd log ++ wktBytes c.wkt)
    chunks := sizes log
    evlrOffset := otpd + (bodyBytes L otpd log).length
    evlrCount := if c.wkt = [] then 0 else 1 }

theorem lazClose_pre (L : Lazperf) {otpd : Nat} {c : LazConfig} {b : BaseW} {log : List (Nat × Bytes)}
    (ho : BaseW.offsetToPointData c = .ok otpd) (hi : BInv (otpd + 8) b log) (hl : log.length ≤ 4294967295) :
    BaseW.close L c b = (do
      BaseW.writeHeader L c
      Act.modify fun b => { b with open_ := false } : Act BaseW Unit) (lazPre L otpd log c b) := by
  unfold BaseW.close
  rw [Act.bind_ok (Act.gets_apply _ _), hi.isOpen]
  simp only [Bool.true_eq_false, if_false]
  rw [ho, Act.bind_ok (Act.lift_apply _ _)]
  obtain ⟨o, h1, h2⟩ := writeChunkTable_ok L hi hl
  rw [Act.bind_ok h1]
  have h3 := holds_eq h2.seekEnd
  rw [Act.bind_ok (show BaseW.onOut OStream.seekEnd _ = (.ok (), _) from rfl)]
  rw [Act.bind_ok (Act.modify_apply _ _)]
  simp only [h3]
  have hw : ∀ (s : BaseW) (x : Bytes), s.out = endStream x → s.evlrCount = 0 →
      BaseW.writeWkt c.wkt s = (.ok (), { s with
        out := endStream (x ++ wktBytes c.wkt)
        evlrCount := if c.wkt = [] then 0 else 1 }) := by
    intro s x hx he
    unfold BaseW.writeWkt wktBytes
    by_cases hw : c.wkt = []
    · simp only [hw, if_true, Act.pure_apply, List.append_nil, ← hx, ← he]
    · simp only [hw, if_false, Act.bind_apply, Act.modify_apply, BaseW.emit, BaseW.onOut, hx, endStream_write, he]
  rw [Act.bind_ok (hw _ _ rfl (by exact hi.evlr))]
  unfold lazPre
  have e : (List.replicate otpd 0 ++ leN 8 (otpd + 8 + (chunkData log).length) ++ (chunkData log ++ tableBytes L log)) =
      List.replicate otpd 0 ++ bodyBytes L otpd log := by simp [bodyBytes]
  rw [e]
  simp only [endStream_tellp, List.length_append, List.length_replicate]

theorem lazClose_eq (L : Lazperf) {otpd eb : Nat} {c : LazConfig} {b : BaseW} {log : List (Nat × Bytes)}
    {h14 : Header14} (ho : BaseW.offsetToPointData c = .ok otpd) (he : c.header.ebSize = .ok eb)
    (hi : BInv (otpd + 8) b log) (hl : log.length ≤ 4294967295)
    (h14e : lazHeader14 c otpd eb b.pointCount (otpd + (bodyBytes L otpd log).length) = .ok h14) :
    BaseW.close L c b =
      if (lazHead L c eb h14).length > otpd then
        (.throw .headerTooBig, { lazPre L otpd log c b with
          out := midStream (lazHead L c eb h14) ((lazPre L otpd log c b).out.data.drop (lazHead L c eb h14).length) })
      else (.ok (), { lazPre L otpd log c b with
          out := midStream (lazHead L c eb h14) ((lazPre L otpd log c b).out.data.drop (lazHead L c eb h14).length)
          open_ := false }) := by
  rw [lazClose_pre L ho hi hl]
  generalize hp : lazPre L otpd log c b = p
  have h1 : p.out = endStream p.out.data := by rw [← hp]; rfl
  have h2 : p.pointCount = b.pointCount := by rw [← hp]; rfl
  have h3 : p.evlrOffset = otpd + (bodyBytes L otpd log).length := by rw [← hp]; rfl
  have h4 : p.evlrCount = if c.wkt = [] then 0 else 1 := by rw [← hp]; rfl
  have hw : BaseW.writeLasHeader c.header otpd false p = (.ok (), { p with
      out := midStream h14.encode (p.out.data.drop h14.encode.length) }) := by
    unfold BaseW.writeLasHeader
    unfold lazHeader14 at h14e
    rw [he, Act.bind_ok (Act.lift_apply _ _), Act.bind_ok (Act.gets_apply _ _)]
    simp only [id, h2, h3, h4]
    rw [h14e, Act.bind_ok (Act.lift_apply _ _)]
    simp only [BaseW.emit, BaseW.onOut, Act.bind_apply, Act.modify_apply]
    rw [h1]
    simp only [endStream_seek0, midStream_write, List.nil_append, endStream_data, h2, h3, h4]
  have hv := writeLazAndEbVlrs_eq L c { p with
      out := midStream h14.encode (p.out.data.drop h14.encode.length) } eb he h14.encode p.out.data rfl
  have hh : BaseW.writeHeader L c p =
      (if (lazHead L c eb h14).length > otpd then .throw .headerTooBig else .ok (), { p with
        out := midStream (lazHead L c eb h14) (p.out.data.drop (lazHead L c eb h14).length) }) := by
    unfold BaseW.writeHeader
    rw [ho, Act.bind_ok (Act.lift_apply _ _), Act.bind_ok hw, Act.bind_ok hv]
    unfold BaseW.checkHeaderSize
    rw [Act.bind_ok (Act.gets_apply _ _)]
    simp only [midStream_tellp]
    show Act.throwIf ((lazHead L c eb h14).length > otpd) _ _ = _
    by_cases hl : (lazHead L c eb h14).length > otpd
    · rw [Act.throwIf_pos hl, if_pos hl]; rfl
    · rw [Act.throwIf_neg hl, if_neg hl]; rfl
  by_cases hx : (lazHead L c eb h14).length > otpd
  · rw [if_pos hx] at hh ⊢
    rw [Act.bind_throw hh]
  · rw [if_neg hx] at hh ⊢
    rw [Act.bind_ok hh]
    rfl

/-- The bytes of a closed LAZ file. -/
def lazFile (L : Lazperf) (c : LazConfig) (eb : Nat) (h14 : Header14) (otpd : Nat) (log : List (Nat × Bytes)) : Bytes :=
  (lazHead L c eb h14 ++ List.replicate (otpd - (lazHead L c eb h14).length) 0) ++
    (bodyBytes L otpd log ++ wktBytes c.wkt)

theorem offset_ebSize {c : LazConfig} {otpd : Nat} (ho : BaseW.offsetToPointData c = .ok otpd) :
    ∃ eb, c.header.ebSize = .ok eb := by
  unfold BaseW.offsetToPointData at ho
  cases h : c.header.ebSize with
  | ok eb => exact ⟨eb, rfl⟩
  | throw e => rw [h] at ho; cases ho
  | ub => rw [h] at ho; cases ho

theorem lazClose_few {L : Lazperf} {otpd : Nat} {c : LazConfig} {b : BaseW} {log : List (Nat × Bytes)}
    (ho : BaseW.offsetToPointData c = .ok otpd) (hi : BInv (otpd + 8) b log) (hl : 4294967295 < log.length) :
    (BaseW.close L c b).1 = .throw .tooManyChunks := by
  have hl' : b.chunks.length > 4294967295 := by rw [hi.chunks, length_chunkEnds]; omega
  have := writeChunkTable_too_many L (otpd := otpd) hl'
  unfold BaseW.close
  rw [Act.bind_ok (Act.gets_apply _ _), hi.isOpen]
  simp only [Bool.true_eq_false, if_false]
  rw [ho, Act.bind_ok (Act.lift_apply _ _)]
  rcases hr : BaseW.writeChunkTable L otpd b with ⟨r, s⟩
  rw [hr] at this
  simp only at this
  subst this
  rw [Act.bind_throw hr]

/-- The outcome of a `Close` that returns. -/
theorem lazClose_ok {L : Lazperf} {otpd : Nat} {c : LazConfig} {b b' : BaseW} {log : List (Nat × Bytes)}
    (ho : BaseW.offsetToPointData c = .ok otpd) (hi : BInv (otpd + 8) b log)
    (hc : BaseW.close L c b = (.ok (), b')) :
    ∃ eb h14, log.length ≤ 4294967295 ∧ c.header.ebSize = .ok eb ∧
      lazHeader14 c otpd eb b.pointCount (otpd + (bodyBytes L otpd log).length) = .ok h14 ∧
      (lazHead L c eb h14).length ≤ otpd ∧ b'.out.data = lazFile L c eb h14 otpd log ∧ b'.open_ = false ∧
      b'.pointCount = b.pointCount ∧ b'.out.fail = false := by
  have hl : log.length ≤ 4294967295 := by
    refine Decidable.byContradiction fun hn => ?_
    have := lazClose_few (L := L) ho hi (by omega)
    rw [hc] at this
    cases this
  obtain ⟨eb, he⟩ := offset_ebSize ho
  obtain ⟨h14, h14e⟩ := lazHeader14_ok c otpd eb b.pointCount (otpd + (bodyBytes L otpd log).length)
  have e := lazClose_eq L ho he hi hl h14e
  rw [hc] at e
  by_cases hx : (lazHead L c eb h14).length > otpd
  · rw [if_pos hx] at e
    injection e with e _
    cases e
  · rw [if_neg hx] at e
    injection e with _ e
    subst e
    refine ⟨eb, h14, hl, he, h14e, by omega, ?_, rfl, rfl, rfl⟩
    simp only [midStream_data, lazFile, lazPre, endStream_data]
    generalize lazHead L c eb h14 = H at *
    have : List.replicate otpd (0 : UInt8) = List.replicate H.length 0 ++ List.replicate (otpd - H.length) 0 := by
      rw [List.replicate_append_replicate]; congr 1; omega
    rw [this]
    simp only [List.append_assoc]
    rw [List.drop_left' (by simp)]

end Copc
