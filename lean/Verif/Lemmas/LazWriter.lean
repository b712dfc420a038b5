import Verif.Spec.LazWriter
import Verif.Lemmas.WriterHead
import Verif.Lemmas.WriterClosed
/-! # Histories of a LAZ writer, and its `Close` -/
namespace Copc

theorem LazEdit.refl (c : LazConfig) : LazEdit c c := ⟨rfl, rfl, rfl, rfl, rfl, rfl, rfl, rfl⟩

theorem LazEdit.trans {a b c : LazConfig} (h1 : LazEdit a b) (h2 : LazEdit b c) : LazEdit a c :=
  ⟨h2.1.trans h1.1, h2.2.trans h1.2, h2.3.trans h1.3, h2.4.trans h1.4, h2.5.trans h1.5,
    h2.6.trans h1.6, h2.7.trans h1.7, h2.8.trans h1.8⟩

theorem LazEdit.ebSize {a b : LazConfig} (h : LazEdit a b) : b.header.ebSize = a.header.ebSize := by
  unfold LasHeader.ebSize; rw [h.fmt, h.recLen]

theorem LazEdit.offset_eq {a b : LazConfig} (h : LazEdit a b) :
    BaseW.offsetToPointData b = BaseW.offsetToPointData a := by
  unfold BaseW.offsetToPointData; rw [h.ebSize, h.eb, h.fmt]

theorem LazEdit.stores {a b : LazConfig} (h : LazEdit a b) (L : Lazperf) (op : LazOp) (x : Int × Bytes) :
    op.Stores L b.header x ↔ op.Stores L a.header x := by
  obtain ⟨n, blob⟩ := x
  cases op <;> simp only [LazOp.Stores, h.ebSize, h.fmt, h.recLen, h.scale, h.offset]

/-- The three things a writing call can do: nothing, write an oversized chunk and throw, write a chunk. -/
def LazEffect (L : Lazperf) (op : LazOp) (w : LazWriter) (r : Res Unit × LazWriter) : Prop :=
  (r.2 = w ∧ ((∃ fmt len, op = .points fmt len [] ∧ r.1 = .ok ()) ∨
    ((∀ fmt len, op ≠ .points fmt len []) ∧ ∀ a, r.1 ≠ .ok a))) ∨
  ∃ blob c, op.Stores L w.cfg.header (c, blob) ∧ (∀ fmt len, op ≠ .points fmt len []) ∧
    ((blob.length % 2 ^ 64 > 2147483647 ∧ r = (.throw .chunkTooLarge, { w with base := chunkAdded w.base blob c })) ∨
     (¬ blob.length % 2 ^ 64 > 2147483647 ∧ r = (.ok (), { w with base := chunkAdded w.base blob c })))

theorem lazChunk_effect (L : Lazperf) {op : LazOp} (hne : ∀ fmt len, op ≠ .points fmt len []) {w : LazWriter}
    {n0 : Nat} {log : List (Nat × Bytes)}
    (hi : BInv n0 w.base log) (hn : 0 < n0) (bs : Bytes) (count : Int) (compressed : Bool)
    (hs : ∀ blob c, ChunkOf L w.cfg.header bs count compressed blob c → op.Stores L w.cfg.header (c, blob)) :
    LazEffect L op w ((do
      let _ ← LazWriter.onBase (BaseW.writeChunk L w.cfg.header bs count compressed)
      pure () : Act LazWriter Unit) w) := by
  rcases writeChunk_cases L w.cfg.header bs count compressed hi hn with ⟨e1, e2⟩ | ⟨blob, c, hc, e⟩
  · left
    have hz : LazWriter.onBase (BaseW.writeChunk L w.cfg.header bs count compressed) w =
        ((BaseW.writeChunk L w.cfg.header bs count compressed w.base).1, w) := by
      simp only [LazWriter.onBase, Act.zoom_apply, e1]
    cases hr : (BaseW.writeChunk L w.cfg.header bs count compressed w.base).1 with
    | ok a => exact absurd hr (e2 a)
    | throw x =>
      rw [hr] at hz
      rw [Act.bind_throw hz]
      exact ⟨rfl, .inr ⟨hne, by simp⟩⟩
    | ub =>
      rw [hr] at hz
      rw [Act.bind_ub hz]
      exact ⟨rfl, .inr ⟨hne, by simp⟩⟩
  · right
    refine ⟨blob, c, hs _ _ hc, hne, ?_⟩
    have hz : LazWriter.onBase (BaseW.writeChunk L w.cfg.header bs count compressed) w =
        (chunkResult (n0 + (chunkData log).length) blob c, { w with base := chunkAdded w.base blob c }) := by
      simp only [LazWriter.onBase, Act.zoom_apply, e]
    unfold chunkResult at hz
    by_cases hl : blob.length % 2 ^ 64 > 2147483647
    · rw [if_pos hl] at hz
      exact .inl ⟨hl, Act.bind_throw hz⟩
    · rw [if_neg hl] at hz
      refine .inr ⟨hl, ?_⟩
      rw [Act.bind_ok hz]
      rfl

theorem laz_effect (L : Lazperf) {op : LazOp} (hc : op ≠ .close) {w : LazWriter} {n0 : Nat} {log : List (Nat × Bytes)}
    (hi : BInv n0 w.base log) (hn : 0 < n0) : LazEffect L op w (op.run L w) := by
  cases op with
  | close => exact absurd rfl hc
  | compressed bs count =>
    show LazEffect L _ w (LazWriter.writePointsCompressed L bs count w)
    unfold LazWriter.writePointsCompressed
    rw [Act.bind_ok (Act.gets_apply _ _)]
    by_cases h0 : count = 0
    · rw [Act.bind_throw (Act.throwIf_pos h0 _ _)]
      exact .inl ⟨rfl, .inr ⟨by simp, by simp⟩⟩
    · rw [Act.bind_ok (Act.throwIf_neg h0 _ _)]
      exact lazChunk_effect L (by simp) hi hn bs count true fun blob c hc => hc.comp rfl
  | points fmt len ps =>
    show LazEffect L _ w (LazWriter.writePoints L fmt len ps w)
    unfold LazWriter.writePoints
    rw [Act.bind_ok (Act.gets_apply _ _)]
    by_cases h0 : ps = []
    · subst h0
      rw [if_pos rfl]
      exact .inl ⟨rfl, .inl ⟨fmt, len, rfl, rfl⟩⟩
    · have hne : ∀ f l, LazOp.points fmt len ps ≠ .points f l [] := by
        intro f l e
        injection e with _ _ e
        exact h0 e
      rw [if_neg h0]
      by_cases h1 : fmt ≠ w.cfg.header.fmt ∨ len ≠ w.cfg.header.recLen.toNat
      · rw [Act.bind_throw (Act.throwIf_pos h1 _ _)]
        exact .inl ⟨rfl, .inr ⟨hne, by simp⟩⟩
      · rw [Act.bind_ok (Act.throwIf_neg h1 _ _)]
        cases hp : packPoints ps w.cfg.header.scale w.cfg.header.offset with
        | throw e =>
          rw [Act.bind_throw (Act.lift_apply _ _)]
          exact .inl ⟨rfl, .inr ⟨hne, by simp⟩⟩
        | ub =>
          rw [Act.bind_ub (Act.lift_apply _ _)]
          exact .inl ⟨rfl, .inr ⟨hne, by simp⟩⟩
        | ok bs =>
          rw [Act.bind_ok (Act.lift_apply _ _)]
          exact lazChunk_effect L hne hi hn bs 0 false fun blob c hc => by
            obtain ⟨eb, recs, h⟩ := chunkOf_records hc
            exact ⟨bs, eb, recs, hp, h⟩

/-- The chunks written by a history. -/
inductive LazLogged (L : Lazperf) (hd : LasHeader) : List (LazOp × Res Unit) → List (Int × Bytes) → Prop
  | nil : LazLogged L hd [] []
  | empty {h log fmt len r} : LazLogged L hd h log → LazLogged L hd (h ++ [(.points fmt len [], r)]) log
  | skip {h log op r} : LazLogged L hd h log → (∀ a, r ≠ .ok a) → LazLogged L hd (h ++ [(op, r)]) log
  | large {h log op blob c} : LazLogged L hd h log → op.Stores L hd (c, blob) →
      blob.length % 2 ^ 64 > 2147483647 →
      LazLogged L hd (h ++ [(op, .throw .chunkTooLarge)]) (log ++ [(c, blob)])
  | chunk {h log op blob c} : LazLogged L hd h log → op.Stores L hd (c, blob) →
      (∀ fmt len, op ≠ .points fmt len []) → ¬ blob.length % 2 ^ 64 > 2147483647 →
      LazLogged L hd (h ++ [(op, .ok ())]) (log ++ [(c, blob)])

/-- The log as the base writer keeps it. -/
def ulog (log : List (Int × Bytes)) : List (Nat × Bytes) := log.map fun x => (u64 x.1, x.2)

@[simp] theorem ulog_append (a b : List (Int × Bytes)) : ulog (a ++ b) = ulog a ++ ulog b := by simp [ulog]
@[simp] theorem length_ulog (a : List (Int × Bytes)) : (ulog a).length = a.length := by simp [ulog]

structure LInv (L : Lazperf) (w0 : LazWriter) (otpd : Nat) (h : List (LazOp × Res Unit)) (w : LazWriter)
    (log : List (Int × Bytes)) : Prop where
  base : BInv (otpd + 8) w.base (ulog log)
  offset : BaseW.offsetToPointData w.cfg = .ok otpd
  edit : LazEdit w0.cfg w.cfg
  logged : LazLogged L w0.cfg.header h log

theorem lazMake_ok {c : LazConfig} {w : LazWriter} (h : LazWriter.make OStream.fresh c = .ok w) :
    ∃ otpd, BaseW.offsetToPointData w.cfg = .ok otpd ∧ BInv (otpd + 8) w.base [] ∧ w.cfg = c.forWriter := by
  unfold LazWriter.make at h
  cases h2 : BaseW.offsetToPointData c.forWriter with
  | throw e => rw [h2] at h; cases h
  | ub => rw [h2] at h; cases h
  | ok n =>
    rw [h2, Res.okBind] at h
    injection h with h
    subst h
    exact ⟨n, h2, bInv_init _, rfl⟩

theorem lInv_call {L : Lazperf} {w0 w : LazWriter} {otpd : Nat} {h} {log}
    (hi : LInv L w0 otpd h w log) (op : LazOp) (hc : op ≠ .close) :
    ∃ log', LInv L w0 otpd (h ++ [(op, (op.run L w).1)]) (op.run L w).2 log' := by
  rcases laz_effect L hc hi.base (by omega) with ⟨e1, e2⟩ | ⟨blob, c, hs, hne, he⟩
  · refine ⟨log, ?_, ?_, ?_, ?_⟩
    · rw [e1]; exact hi.base
    · rw [e1]; exact hi.offset
    · rw [e1]; exact hi.edit
    · rcases e2 with ⟨f, l, rfl, _⟩ | ⟨_, e2⟩
      · exact .empty hi.logged
      · exact .skip hi.logged e2
  · have hs' := (hi.edit.stores L op (c, blob)).1 hs
    have hb := bInv_chunkAdded hi.base blob c
    have hu : ulog (log ++ [(c, blob)]) = ulog log ++ [(u64 c, blob)] := by simp [ulog]
    rcases he with ⟨hl, e⟩ | ⟨hl, e⟩
    · refine ⟨log ++ [(c, blob)], ?_, ?_, ?_, ?_⟩
      · rw [e, hu]; exact hb
      · rw [e]; exact hi.offset
      · rw [e]; exact hi.edit
      · rw [e]; exact .large hi.logged hs' hl
    · refine ⟨log ++ [(c, blob)], ?_, ?_, ?_, ?_⟩
      · rw [e, hu]; exact hb
      · rw [e]; exact hi.offset
      · rw [e]; exact hi.edit
      · rw [e]; exact .chunk hi.logged hs' hne hl

theorem lInv_history {L : Lazperf} {w0 w : LazWriter} {otpd : Nat} {h}
    (ho : BaseW.offsetToPointData w0.cfg = .ok otpd) (hb : BInv (otpd + 8) w0.base [])
    (hh : LazHistory L w0 h w) (hu : LazUnclosed h) : ∃ log, LInv L w0 otpd h w log := by
  induction hh with
  | start => exact ⟨[], hb, ho, LazEdit.refl _, .nil⟩
  | call op hh hub ih =>
    obtain ⟨log1, hi1⟩ := ih fun x hx => hu x (by simp [hx])
    exact lInv_call hi1 op (hu _ (List.mem_append_right _ (List.mem_singleton.2 rfl)))
  | edit hh he ih =>
    obtain ⟨log1, hi1⟩ := ih hu
    exact ⟨log1, hi1.base, he.offset_eq.trans hi1.offset, hi1.edit.trans he, hi1.logged⟩

/-- The chunks are those of the calls that return. -/
theorem LazLogged.chunks {L : Lazperf} {hd : LasHeader} {h log} (hl : LazLogged L hd h log)
    (hn : LazNoneTooLarge h) :
    List.Forall₂ (fun op x => op.Stores L hd x) (chunkCalls h) log ∧ ∀ x ∈ log, x.2.length % 2 ^ 64 ≤ 2147483647 := by
  have app : ∀ h x, chunkCalls (h ++ [x]) = chunkCalls h ++ chunkCalls [x] := fun h x => by
    unfold chunkCalls; rw [List.filterMap_append]
  induction hl with
  | nil => exact ⟨.nil, by simp⟩
  | empty hl ih =>
    have := ih fun x hx => hn x (by simp [hx])
    rw [app]
    simpa [chunkCalls] using this
  | @skip h log op r hl hr ih =>
    have := ih fun x hx => hn x (by simp [hx])
    rw [app]
    have e : chunkCalls [(op, r)] = [] := by
      cases r with
      | ok a => exact absurd rfl (hr a)
      | throw e => unfold chunkCalls; cases op with
        | points f l ps => cases ps <;> rfl
        | _ => rfl
      | ub => unfold chunkCalls; cases op with
        | points f l ps => cases ps <;> rfl
        | _ => rfl
    rw [e, List.append_nil]
    exact this
  | large hl hs hlen ih => exact absurd rfl (hn _ (List.mem_append_right _ (List.mem_singleton.2 rfl)))
  | @chunk h log op blob c hl hs hne hlen ih =>
    obtain ⟨i1, i2⟩ := ih fun x hx => hn x (by simp [hx])
    have e : chunkCalls [(op, Res.ok ())] = [op] := by
      unfold chunkCalls
      cases op with
      | points f l ps =>
        cases ps with
        | nil => exact absurd rfl (hne f l)
        | cons a ps => rfl
      | compressed bs c => rfl
      | close => rfl
    rw [app, e]
    refine ⟨?_, ?_⟩
    · exact List.rel_append i1 (List.Forall₂.cons hs .nil)
    · intro x hx
      rcases List.mem_append.1 hx with hx | hx
      · exact i2 x hx
      · rw [List.mem_singleton.1 hx]
        simp only
        omega

end Copc
