import Verif.Lemmas.CloseAgain
import Verif.Props.Overrides
import Verif.Props.LazWriter
import Verif.Spec.Lifetime
/-!
# C63, C64, C65: construction and destruction of writers
-/
namespace Copc
open Spec

/-! ### Calls on a stream that takes nothing -/

section
variable {σ α β γ : Type} {f : σ → BaseW}

/-- On a failed stream the call writes nothing, and does not open or close the writer. -/
def Still (f : σ → BaseW) (x : Act σ α) : Prop :=
  ∀ s, (f s).out.fail = true → (f (x s).2).out = (f s).out ∧ (f (x s).2).open_ = (f s).open_

theorem still_bind {x : Act σ α} {g : α → Act σ β} (hx : Still f x) (hg : ∀ a, Still f (g a)) : Still f (x >>= g) := by
  intro s h
  rw [Act.bind_apply]
  have h1 := hx s h
  generalize x s = p at h1 ⊢
  obtain ⟨r, s'⟩ := p
  cases r with
  | ok a =>
    obtain ⟨h1, h2⟩ := h1
    have h3 := hg a s' (by rw [h1]; exact h)
    exact ⟨h3.1.trans h1, h3.2.trans h2⟩
  | throw e => exact h1
  | ub => exact h1

theorem still_same {x : Act σ α} (h : ∀ s, f (x s).2 = f s) : Still f x := fun s _ => by rw [h s]; exact ⟨rfl, rfl⟩
theorem still_throwIf {c : Prop} [Decidable c] {e : Exc} : Still f (Act.throwIf c e : Act σ Unit) :=
  still_same fun s => by rw [Act.throwIf_apply]; split <;> rfl
end

theorem still_emit (bs : Bytes) : Still id (BaseW.emit bs) := fun _ h => ⟨write_fail h bs, rfl⟩

theorem still_chunk (L : Lazperf) (h : LasHeader) (bs : Bytes) (n : Int) (z : Bool) :
    Still id (BaseW.writeChunk L h bs n z) := by
  have hfin : ∀ st n, Still id (BaseW.finishChunk st n) := by
    intro st n
    unfold BaseW.finishChunk
    refine still_bind (fun _ _ => ⟨rfl, rfl⟩) fun _ => still_bind (still_same fun _ => rfl) fun _ => ?_
    refine still_bind still_throwIf fun _ => still_bind (fun _ _ => ⟨rfl, rfl⟩) fun _ => ?_
    exact still_bind still_throwIf fun _ => still_same fun _ => rfl
  unfold BaseW.writeChunk
  refine still_bind (still_same fun _ => rfl) fun _ => still_bind still_throwIf fun _ => ?_
  split
  · exact still_bind (still_emit _) fun _ => hfin _ _
  · refine still_bind ?_ fun _ => hfin _ _
    unfold BaseW.compressBytes
    refine still_bind (still_same fun _ => rfl) fun _ => still_bind (still_same fun _ => rfl) fun _ => ?_
    split
    · exact still_same fun _ => rfl
    · refine still_bind still_throwIf fun _ => still_bind still_throwIf fun _ => ?_
      exact still_bind (still_emit _) fun _ => still_same fun _ => rfl

theorem still_base {α : Type} {x : Act BaseW α} (h : Still id x) : Still (·.base) (Writer.onBase x) :=
  fun s hs => h s.base hs
theorem still_lazBase {α : Type} {x : Act BaseW α} (h : Still id x) : Still (·.base) (LazWriter.onBase x) :=
  fun s hs => h s.base hs

theorem still_doAdd (L : Lazperf) (k : VoxelKey) (bs : Bytes) (n : Int) (z : Bool) (p : VoxelKey) :
    Still (·.base) (Writer.doAddNode L k bs n z p) := by
  unfold Writer.doAddNode
  refine still_bind still_throwIf fun _ => still_bind still_throwIf fun _ => ?_
  refine still_bind (still_same fun _ => rfl) fun _ => still_bind (still_base (still_chunk _ _ _ _ _)) fun _ => ?_
  refine still_bind (still_same fun _ => rfl) fun _ => ?_
  refine still_bind (still_same fun s => ?_) fun _ => ?_
  · unfold Writer.ensurePage
    rw [Act.modify_apply]
    dsimp only
    split <;> rfl
  · exact still_bind (still_same fun _ => rfl) fun _ => still_same fun _ => rfl

theorem still_op (L : Lazperf) (ord : Order) (op : Op) (hc : op ≠ .close) : Still (·.base) (op.run L ord) := by
  have hadd : ∀ k bs p, Still (·.base) (Writer.addNode L k bs p) := by
    intro k bs p
    unfold Writer.addNode
    refine still_bind (still_same fun _ => rfl) fun c => still_bind still_throwIf fun _ => ?_
    split
    · exact still_same fun _ => rfl
    · exact still_bind still_throwIf fun _ => still_doAdd _ _ _ _ _ _
  cases op with
  | close => exact absurd rfl hc
  | add k bs p => exact still_bind (hadd k bs p) fun _ => still_same fun _ => rfl
  | addPoints k fmt len ps p =>
    refine still_bind ?_ fun _ => still_same fun _ => rfl
    unfold Writer.addNodePoints
    refine still_bind (still_same fun _ => rfl) fun c => still_bind still_throwIf fun _ => ?_
    refine still_bind still_throwIf fun _ => still_bind (still_same fun _ => rfl) fun _ => hadd _ _ _
  | addCompressed k bs n p =>
    refine still_bind ?_ fun _ => still_same fun _ => rfl
    unfold Writer.addNodeCompressed
    exact still_bind still_throwIf fun _ => still_doAdd _ _ _ _ _ _
  | move k p => exact still_bind (still_same fun s => (changeNodePage_frame k p s).1) fun _ => still_same fun _ => rfl

theorem still_lazOp (L : Lazperf) (op : LazOp) (hc : op ≠ .close) : Still (·.base) (op.run L) := by
  cases op with
  | close => exact absurd rfl hc
  | points fmt len ps =>
    show Still _ (LazWriter.writePoints L fmt len ps)
    unfold LazWriter.writePoints
    refine still_bind (still_same fun _ => rfl) fun c => ?_
    split
    · exact still_same fun _ => rfl
    · refine still_bind still_throwIf fun _ => still_bind (still_same fun _ => rfl) fun _ => ?_
      exact still_bind (still_lazBase (still_chunk _ _ _ _ _)) fun _ => still_same fun _ => rfl
  | compressed bs n =>
    show Still _ (LazWriter.writePointsCompressed L bs n)
    unfold LazWriter.writePointsCompressed
    refine still_bind (still_same fun _ => rfl) fun c => still_bind still_throwIf fun _ => ?_
    exact still_bind (still_lazBase (still_chunk _ _ _ _ _)) fun _ => still_same fun _ => rfl

/-! ### C63: destroying a writer is closing it -/

theorem baseClose_closed {L : Lazperf} {c : LazConfig} {b : BaseW} (h : b.open_ = false) :
    BaseW.close L c b = (.ok (), b) := by
  unfold BaseW.close
  rw [Act.bind_ok (Act.gets_apply _ _), if_pos h]
  rfl

theorem baseDestroy_closed {L : Lazperf} {c : LazConfig} {b : BaseW} (h : b.open_ = false) :
    BaseW.destroy L c b = .returns b.out := by
  unfold BaseW.destroy Act.noexcept
  rw [baseClose_closed h]

theorem destroy_closed {L : Lazperf} {ord : Order} {w : Writer} (h : w.base.open_ = false) :
    Writer.destroy L ord w = .returns w.base.out := by
  unfold Writer.destroy Act.noexcept
  rw [close_closed h]
  dsimp only
  rw [close_closed h]
  exact baseDestroy_closed h

theorem baseClose_open {L : Lazperf} {c : LazConfig} {b : BaseW} (h : (BaseW.close L c b).1 = .ok ()) :
    (BaseW.close L c b).2.open_ = false := by
  unfold BaseW.close at h ⊢
  rw [Act.bind_ok (Act.gets_apply _ _)] at h ⊢
  by_cases ho : b.open_ = false
  · rw [if_pos ho] at h ⊢; exact ho
  · rw [if_neg ho] at h ⊢
    let P : BaseW → Prop := fun b => b.open_ = false
    refine ok_bind (P := P) (fun c s h => ?_) h
    refine ok_bind (P := P) (fun c s h => ?_) h
    refine ok_bind (P := P) (fun c s h => ?_) h
    refine ok_bind (P := P) (fun c s h => ?_) h
    refine ok_bind (P := P) (fun c s h => ?_) h
    refine ok_bind (P := P) (fun c s h => ?_) h
    rfl

theorem close_closed_after {L : Lazperf} {ord : Order} {w w' : Writer} (h : Writer.close L ord w = (.ok (), w')) :
    w'.base.open_ = false := by
  have := close_open (L := L) (ord := ord) (w := w) (by rw [h])
  rw [h] at this
  exact this

theorem lazClose_open {L : Lazperf} {w w' : LazWriter} (h : LazWriter.close L w = (.ok (), w')) :
    w'.base.open_ = false ∧ BaseW.close L w.cfg w.base = (.ok (), w'.base) := by
  unfold LazWriter.close at h
  rw [Act.bind_ok (Act.gets_apply _ _)] at h
  unfold LazWriter.onBase at h
  rw [Act.zoom_apply] at h
  injection h with e1 e2
  have := baseClose_open (L := L) (c := w.cfg) (b := w.base) e1
  rw [← e2]
  exact ⟨this, Prod.ext e1 rfl⟩

/-- Destroying a writer writes the file that `Close` would have written. -/
theorem C63_destroy {L : Lazperf} {ord : Order} {w w' : Writer} (h : Writer.close L ord w = (.ok (), w')) :
    Writer.destroy L ord w = .returns w'.base.out := by
  rw [← destroy_closed (L := L) (ord := ord) (close_closed_after h)]
  show Act.noexcept _ _ w = _
  unfold Act.noexcept
  rw [h]
  dsimp only
  unfold Writer.destroy Act.noexcept
  rw [close_closed (close_closed_after h)]
  dsimp only
  rw [close_closed (close_closed_after h)]

/-- Destroying a writer that has been closed changes nothing (none of the three destructors writes again). -/
theorem C63_destroy_closed {L : Lazperf} {ord : Order} {w w' : Writer} (h : Writer.close L ord w = (.ok (), w')) :
    Writer.destroy L ord w' = .returns w'.base.out := destroy_closed (close_closed_after h)

/-- The same for the LAZ writer, closed or not. -/
theorem C63_destroy_laz {L : Lazperf} {w w' : LazWriter} (h : LazWriter.close L w = (.ok (), w')) :
    LazWriter.destroy L w = .returns w'.base.out ∧ LazWriter.destroy L w' = .returns w'.base.out := by
  obtain ⟨h1, h2⟩ := lazClose_open h
  refine ⟨?_, baseDestroy_closed h1⟩
  unfold LazWriter.destroy BaseW.destroy Act.noexcept
  rw [h2]

theorem fileClose_ok {L : Lazperf} {ord : Order} {f f' : FileWriter} (h : FileWriter.close L ord f = (.ok (), f')) :
    ∃ w', Writer.close L ord f.w = (.ok (), w') ∧ (FileWriter.closeStream ⟨w', f.shut⟩).2 = f' := by
  unfold FileWriter.close at h
  obtain ⟨_, f1, h1, h2⟩ := Act.bind_eq_ok.1 h
  unfold FileWriter.onWriter at h1
  rw [Act.zoom_apply] at h1
  injection h1 with e1 e2
  refine ⟨(Writer.close L ord f.w).2, Prod.ext e1 rfl, ?_⟩
  rw [show (⟨(Writer.close L ord f.w).2, f.shut⟩ : FileWriter) = f1 from e2, h2]

theorem lazFileClose_ok {L : Lazperf} {f f' : LazFileWriter} (h : LazFileWriter.close L f = (.ok (), f')) :
    ∃ w', LazWriter.close L f.w = (.ok (), w') ∧ (LazFileWriter.closeStream ⟨w', f.shut⟩).2 = f' := by
  unfold LazFileWriter.close at h
  obtain ⟨_, f1, h1, h2⟩ := Act.bind_eq_ok.1 h
  unfold LazFileWriter.onWriter at h1
  rw [Act.zoom_apply] at h1
  injection h1 with e1 e2
  refine ⟨(LazWriter.close L f.w).2, Prod.ext e1 rfl, ?_⟩
  rw [show (⟨(LazWriter.close L f.w).2, f.shut⟩ : LazFileWriter) = f1 from e2, h2]

/-- The stream is closed only when the flag says so, and then takes nothing: what calls keep. -/
def FileWriter.Whole (f : FileWriter) : Prop := f.shut = true → f.w.base.out.fail = true ∧ f.w.base.open_ = false
def LazFileWriter.Whole (f : LazFileWriter) : Prop := f.shut = true → f.w.base.out.fail = true ∧ f.w.base.open_ = false

theorem closeStream_state (f : FileWriter) (h : f.Whole) (ho : f.w.base.open_ = false) :
    (FileWriter.closeStream f).2.shut = true ∧ (FileWriter.closeStream f).2.w.base.out.fail = true ∧
    (FileWriter.closeStream f).2.w.base.open_ = false ∧ (FileWriter.closeStream f).2.contents = f.contents := by
  unfold FileWriter.closeStream
  rw [Act.modify_apply]
  dsimp only
  split
  · rename_i hs; exact ⟨hs, (h hs).1, ho, rfl⟩
  · exact ⟨rfl, rfl, ho, rfl⟩

theorem lazCloseStream_state (f : LazFileWriter) (h : f.Whole) (ho : f.w.base.open_ = false) :
    (LazFileWriter.closeStream f).2.shut = true ∧ (LazFileWriter.closeStream f).2.w.base.out.fail = true ∧
    (LazFileWriter.closeStream f).2.w.base.open_ = false ∧ (LazFileWriter.closeStream f).2.contents = f.contents := by
  unfold LazFileWriter.closeStream
  rw [Act.modify_apply]
  dsimp only
  split
  · rename_i hs; exact ⟨hs, (h hs).1, ho, rfl⟩
  · exact ⟨rfl, rfl, ho, rfl⟩

/-- A file writer after `Close` returned. -/
structure FileWriter.Done (f : FileWriter) : Prop where
  shut : f.shut = true
  fail : f.w.base.out.fail = true
  closed : f.w.base.open_ = false
structure LazFileWriter.Done (f : LazFileWriter) : Prop where
  shut : f.shut = true
  fail : f.w.base.out.fail = true
  closed : f.w.base.open_ = false

theorem done_close {L : Lazperf} {ord : Order} {f : FileWriter} (h : f.Done) :
    FileWriter.close L ord f = (.ok (), f) := by
  unfold FileWriter.close FileWriter.onWriter
  rw [Act.bind_apply, Act.zoom_apply, close_closed h.closed]
  dsimp only
  unfold FileWriter.closeStream
  rw [Act.modify_apply, if_pos h.shut]

theorem lazDone_close {L : Lazperf} {f : LazFileWriter} (h : f.Done) : LazFileWriter.close L f = (.ok (), f) := by
  have hc : LazWriter.close L f.w = (.ok (), f.w) := by
    unfold LazWriter.close
    rw [Act.bind_ok (Act.gets_apply _ _)]
    unfold LazWriter.onBase
    rw [Act.zoom_apply, baseClose_closed h.closed]
  unfold LazFileWriter.close LazFileWriter.onWriter
  rw [Act.bind_apply, Act.zoom_apply, hc]
  dsimp only
  unfold LazFileWriter.closeStream
  rw [Act.modify_apply, if_pos h.shut]

theorem whole_history {L : Lazperf} {ord : Order} {f0 f : FileWriter} (h : FileHistory L ord f0 f) (h0 : f0.Whole) :
    f.Whole := by
  induction h with
  | start => exact h0
  | @call f op hh ih =>
    by_cases hs : f.shut = true
    · have hd : f.Done := ⟨hs, (ih hs).1, (ih hs).2⟩
      by_cases hc : op = .close
      · subst hc
        intro _
        have : (Op.close.runFile L ord f).2 = f := by
          show ((FileWriter.close L ord >>= fun _ => pure none : Act FileWriter (Option Node)) f).2 = f
          rw [Act.bind_ok (done_close hd)]; rfl
        rw [this]; exact ih hs
      · have e : op.runFile L ord f = FileWriter.onWriter (op.run L ord) f := by
          cases op <;> first | rfl | exact absurd rfl hc
        intro _
        rw [e]
        have := still_op L ord op hc f.w hd.fail
        exact ⟨by rw [show (FileWriter.onWriter (op.run L ord) f).2.w = (op.run L ord f.w).2 from rfl, this.1]; exact hd.fail,
          by rw [show (FileWriter.onWriter (op.run L ord) f).2.w = (op.run L ord f.w).2 from rfl, this.2]; exact hd.closed⟩
    · by_cases hc : op = .close
      · subst hc
        intro hs'
        have hr : (Op.close.runFile L ord f).2 = (FileWriter.close L ord f).2 := by
          show ((FileWriter.close L ord >>= fun _ => pure none : Act FileWriter (Option Node)) f).2 = _
          rw [Act.bind_apply]
          generalize FileWriter.close L ord f = p
          obtain ⟨r, s⟩ := p
          cases r <;> rfl
        rw [hr] at hs' ⊢
        cases hcl : Writer.close L ord f.w with
        | mk r w' =>
          unfold FileWriter.close FileWriter.onWriter at hs' ⊢
          rw [Act.bind_apply, Act.zoom_apply, hcl] at hs' ⊢
          cases r with
          | ok u =>
            exact let t := closeStream_state ⟨w', f.shut⟩ (fun h => absurd h hs) (close_closed_after hcl)
              ⟨t.2.1, t.2.2.1⟩
          | throw e => exact absurd hs' hs
          | ub => exact absurd hs' hs
      · have e : op.runFile L ord f = FileWriter.onWriter (op.run L ord) f := by
          cases op <;> first | rfl | exact absurd rfl hc
        rw [e]
        exact fun h => absurd h hs
  | edit hh he ih => exact ih

theorem lazRunFile {L : Lazperf} {op : LazOp} (hc : op ≠ .close) (f : LazFileWriter) :
    op.runFile L f = LazFileWriter.onWriter (op.run L) f := by
  cases op <;> first | rfl | exact absurd rfl hc

theorem lazWhole_history {L : Lazperf} {f0 f : LazFileWriter} (h : LazFileHistory L f0 f) (h0 : f0.Whole) :
    f.Whole := by
  induction h with
  | start => exact h0
  | @call f op hh ih =>
    by_cases hs : f.shut = true
    · have hd : f.Done := ⟨hs, (ih hs).1, (ih hs).2⟩
      by_cases hc : op = .close
      · subst hc
        intro _
        show _ ∧ _
        rw [show (LazOp.close.runFile L f).2 = f from congrArg Prod.snd (lazDone_close hd)]
        exact ih hs
      · intro _
        rw [lazRunFile hc]
        have := still_lazOp L op hc f.w hd.fail
        exact ⟨by rw [show (LazFileWriter.onWriter (op.run L) f).2.w = (op.run L f.w).2 from rfl, this.1]; exact hd.fail,
          by rw [show (LazFileWriter.onWriter (op.run L) f).2.w = (op.run L f.w).2 from rfl, this.2]; exact hd.closed⟩
    · by_cases hc : op = .close
      · subst hc
        intro hs'
        rw [show (LazOp.close.runFile L f).2 = (LazFileWriter.close L f).2 from rfl] at hs' ⊢
        cases hcl : LazWriter.close L f.w with
        | mk r w' =>
          unfold LazFileWriter.close LazFileWriter.onWriter at hs' ⊢
          rw [Act.bind_apply, Act.zoom_apply, hcl] at hs' ⊢
          cases r with
          | ok u =>
            exact let t := lazCloseStream_state ⟨w', f.shut⟩ (fun h => absurd h hs) (lazClose_open hcl).1
              ⟨t.2.1, t.2.2.1⟩
          | throw e => exact absurd hs' hs
          | ub => exact absurd hs' hs
      · rw [lazRunFile hc]
        exact fun h => absurd h hs
  | edit hh he ih => exact ih

theorem make_fresh {L : Lazperf} {b : Bool} {cap : Option Limit} {c : CopcConfig} {o : Writer.Overrides} {old : Bytes}
    {f : FileWriter} (h : (FileWriter.make L b cap c o old).1 = .returns f) : f.shut = false := by
  unfold FileWriter.make at h
  split at h
  · cases h
  · dsimp only at h
    split at h
    · injection h with h; rw [← h]
    · cases h
    · cases h
    · cases h

theorem lazMake_fresh {L : Lazperf} {b : Bool} {cap : Option Limit} {c : LazConfig} {old : Bytes}
    {f : LazFileWriter} (h : (LazFileWriter.make L b cap c old).1 = .returns f) : f.shut = false := by
  unfold LazFileWriter.make at h
  split at h
  · cases h
  · dsimp only at h
    split at h
    · injection h with h; rw [← h]
    · cases h
    · cases h
    · cases h

/-- A file writer with any past writes with `Close` what a writer on a stream in its place writes. -/
theorem C63_file_close {L : Lazperf} {ord : Order} {b : Bool} {cap : Option Limit} {c : CopcConfig}
    {o : Writer.Overrides} {old : Bytes} {f0 f f' : FileWriter}
    (hm : (FileWriter.make L b cap c o old).1 = .returns f0) (hh : FileHistory L ord f0 f)
    (hc : FileWriter.close L ord f = (.ok (), f')) :
    (Writer.close L ord f.w).1 = .ok () ∧ f'.contents = (Writer.close L ord f.w).2.base.out.data := by
  have hw := whole_history hh (fun h => by rw [make_fresh hm] at h; cases h)
  obtain ⟨w', h1, h2⟩ := fileClose_ok hc
  rw [h1]
  refine ⟨rfl, ?_⟩
  have := (closeStream_state ⟨w', f.shut⟩ (fun hs => by
    have := hw hs
    rw [close_closed this.2] at h1
    injection h1 with _ h1
    rw [← h1]; exact this) (close_closed_after h1)).2.2.2
  rw [h2] at this
  exact this

theorem done_of_close {L : Lazperf} {ord : Order} {f f' : FileWriter} (hw : f.Whole)
    (hc : FileWriter.close L ord f = (.ok (), f')) : f'.Done := by
  obtain ⟨w', h1, h2⟩ := fileClose_ok hc
  have := closeStream_state ⟨w', f.shut⟩ (fun hs => by
    have := hw hs
    rw [close_closed this.2] at h1
    injection h1 with _ h1
    rw [← h1]; exact this) (close_closed_after h1)
  rw [h2] at this
  exact ⟨this.1, this.2.1, this.2.2.1⟩

theorem lazDone_of_close {L : Lazperf} {f f' : LazFileWriter} (hw : f.Whole)
    (hc : LazFileWriter.close L f = (.ok (), f')) : f'.Done := by
  obtain ⟨w', h1, h2⟩ := lazFileClose_ok hc
  have := lazCloseStream_state ⟨w', f.shut⟩ (fun hs => by
    have := hw hs
    have hc : LazWriter.close L f.w = (.ok (), f.w) := by
      unfold LazWriter.close
      rw [Act.bind_ok (Act.gets_apply _ _)]
      unfold LazWriter.onBase
      rw [Act.zoom_apply, baseClose_closed this.2]
    rw [hc] at h1
    injection h1 with _ h1
    rw [← h1]; exact this) (lazClose_open h1).1
  rw [h2] at this
  exact ⟨this.1, this.2.1, this.2.2.1⟩

theorem done_history {L : Lazperf} {ord : Order} {f0 f : FileWriter} (h : FileHistory L ord f0 f) (h0 : f0.Done) :
    f.Done ∧ f.contents = f0.contents := by
  induction h with
  | start => exact ⟨h0, rfl⟩
  | @call f op hh ih =>
    obtain ⟨hd, he⟩ := ih
    by_cases hc : op = .close
    · subst hc
      have : (Op.close.runFile L ord f).2 = f := by
        show ((FileWriter.close L ord >>= fun _ => pure none : Act FileWriter (Option Node)) f).2 = f
        rw [Act.bind_ok (done_close hd)]; rfl
      rw [this]; exact ⟨hd, he⟩
    · have e : op.runFile L ord f = FileWriter.onWriter (op.run L ord) f := by
        cases op <;> first | rfl | exact absurd rfl hc
      have e2 : (FileWriter.onWriter (op.run L ord) f).2.w = (op.run L ord f.w).2 := rfl
      have := still_op L ord op hc f.w hd.fail
      rw [e]
      refine ⟨⟨hd.shut, by rw [e2, this.1]; exact hd.fail, by rw [e2, this.2]; exact hd.closed⟩, ?_⟩
      rw [← he]
      unfold FileWriter.contents
      rw [e2, this.1]
  | edit hh he ih => exact ⟨⟨ih.1.shut, ih.1.fail, ih.1.closed⟩, ih.2⟩

theorem lazDone_history {L : Lazperf} {f0 f : LazFileWriter} (h : LazFileHistory L f0 f) (h0 : f0.Done) :
    f.Done ∧ f.contents = f0.contents := by
  induction h with
  | start => exact ⟨h0, rfl⟩
  | @call f op hh ih =>
    obtain ⟨hd, he⟩ := ih
    by_cases hc : op = .close
    · subst hc
      rw [show (LazOp.close.runFile L f).2 = f from congrArg Prod.snd (lazDone_close hd)]
      exact ⟨hd, he⟩
    · have e2 : (LazFileWriter.onWriter (op.run L) f).2.w = (op.run L f.w).2 := rfl
      have := still_lazOp L op hc f.w hd.fail
      rw [lazRunFile hc]
      refine ⟨⟨hd.shut, by rw [e2, this.1]; exact hd.fail, by rw [e2, this.2]; exact hd.closed⟩, ?_⟩
      rw [← he]
      unfold LazFileWriter.contents
      rw [e2, this.1]
  | edit hh he ih => exact ⟨⟨ih.1.shut, ih.1.fail, ih.1.closed⟩, ih.2⟩

theorem done_destroy {L : Lazperf} {ord : Order} {f : FileWriter} (h : f.Done) :
    FileWriter.destroy L ord f = .returns f.contents := by
  unfold FileWriter.destroy Act.noexcept
  rw [done_close h]
  dsimp only
  have : FileWriter.closeStream f = (.ok (), f) := by
    unfold FileWriter.closeStream; rw [Act.modify_apply, if_pos h.shut]
  rw [this]
  dsimp only
  rw [destroy_closed h.closed]
  rfl

theorem lazDone_destroy {L : Lazperf} {f : LazFileWriter} (h : f.Done) :
    LazFileWriter.destroy L f = .returns f.contents := by
  unfold LazFileWriter.destroy Act.noexcept
  rw [lazDone_close h]
  dsimp only
  unfold LazWriter.destroy
  rw [baseDestroy_closed h.closed]
  rfl

/-- After `Close` of a file writer returned, whatever is called on it (additions, too), and its destruction, leave
the file as it is. -/
theorem C63_file_final {L : Lazperf} {ord : Order} {b : Bool} {cap : Option Limit} {c : CopcConfig}
    {o : Writer.Overrides} {old : Bytes} {f0 f f' f'' : FileWriter}
    (hm : (FileWriter.make L b cap c o old).1 = .returns f0) (hh : FileHistory L ord f0 f)
    (hc : FileWriter.close L ord f = (.ok (), f')) (hh' : FileHistory L ord f' f'') :
    f''.contents = f'.contents ∧ FileWriter.destroy L ord f'' = .returns f'.contents := by
  have hw := whole_history hh (fun h => by rw [make_fresh hm] at h; cases h)
  obtain ⟨h1, h2⟩ := done_history hh' (done_of_close hw hc)
  exact ⟨h2, h2 ▸ done_destroy h1⟩

/-- Destroying a file writer that was not closed leaves the file that `Close` would have written. -/
theorem C63_file_destroy {L : Lazperf} {ord : Order} {b : Bool} {cap : Option Limit} {c : CopcConfig}
    {o : Writer.Overrides} {old : Bytes} {f0 f f' : FileWriter}
    (hm : (FileWriter.make L b cap c o old).1 = .returns f0) (hh : FileHistory L ord f0 f)
    (hc : FileWriter.close L ord f = (.ok (), f')) : FileWriter.destroy L ord f = .returns f'.contents := by
  have hw := whole_history hh (fun h => by rw [make_fresh hm] at h; cases h)
  have hd := done_of_close hw hc
  rw [← done_destroy (L := L) (ord := ord) hd]
  unfold FileWriter.destroy Act.noexcept
  rw [hc]
  dsimp only
  rw [done_close hd]

/-- The same for LAZ files. -/
theorem C63_laz_file {L : Lazperf} {b : Bool} {cap : Option Limit} {c : LazConfig} {old : Bytes}
    {f0 f f' f'' : LazFileWriter} (hm : (LazFileWriter.make L b cap c old).1 = .returns f0)
    (hh : LazFileHistory L f0 f) (hc : LazFileWriter.close L f = (.ok (), f')) (hh' : LazFileHistory L f' f'') :
    f'.contents = (LazWriter.close L f.w).2.base.out.data ∧ f''.contents = f'.contents ∧
    LazFileWriter.destroy L f = .returns f'.contents ∧ LazFileWriter.destroy L f'' = .returns f'.contents := by
  have hw := lazWhole_history hh (fun h => by rw [lazMake_fresh hm] at h; cases h)
  have hd := lazDone_of_close hw hc
  obtain ⟨h1, h2⟩ := lazDone_history hh' hd
  refine ⟨?_, h2, ?_, h2 ▸ lazDone_destroy h1⟩
  · obtain ⟨w', e1, e2⟩ := lazFileClose_ok hc
    rw [e1]
    rw [← e2]
    unfold LazFileWriter.closeStream
    rw [Act.modify_apply]
    dsimp only
    split <;> rfl
  · rw [← lazDone_destroy (L := L) hd]
    unfold LazFileWriter.destroy Act.noexcept
    rw [hc]
    dsimp only
    rw [lazDone_close hd]

/-! ### C64: exceptions of `Close` -/

/-- A `Close` that threw throws the same exception when called again (the configuration not having been
changed in between), for every writer and on every stream. The bound on the number of extra-byte items stands for
sizes that fit into memory. -/
theorem C64_again {L : Lazperf} {ord : Order} {w w' : Writer} {e : Exc} (heb : w.cfg.eb.length < 2 ^ 32)
    (h : Writer.close L ord w = (.throw e, w')) : (Writer.close L ord w').1 = .throw e := (close_again heb h).2

theorem C64_again_laz {L : Lazperf} {w w' : LazWriter} {e : Exc} (heb : w.cfg.eb.length < 2 ^ 32)
    (h : LazWriter.close L w = (.throw e, w')) : (LazWriter.close L w').1 = .throw e := by
  unfold LazWriter.close at h ⊢
  rw [Act.bind_ok (Act.gets_apply _ _)] at h ⊢
  unfold LazWriter.onBase at h ⊢
  rw [Act.zoom_apply] at h ⊢
  injection h with h1 h2
  have := (baseClose_again (w := w.base) heb (Prod.ext h1 rfl)).2
  rw [← h2]
  exact this

/-- The destructor returns exactly when `Close` would, and ends the program when `Close` would throw. -/
theorem C64_destroy_partial (L : Lazperf) (ord : Order) (w : Writer) :
    ((∃ o, Writer.destroy L ord w = .returns o) ↔ (Writer.close L ord w).1 = .ok ()) ∧
    (Writer.destroy L ord w = .terminates ↔ ∃ e, (Writer.close L ord w).1 = .throw e) := by
  cases h : Writer.close L ord w with
  | mk r w' =>
    cases r with
    | ok u => rw [C63_destroy h]; simp
    | throw e =>
      have hd : Writer.destroy L ord w = .terminates := by
        show Act.noexcept _ _ w = _
        unfold Act.noexcept
        rw [h]
      rw [hd]; simp
    | ub =>
      have hd : Writer.destroy L ord w = .ub := by
        show Act.noexcept _ _ w = _
        unfold Act.noexcept
        rw [h]
      rw [hd]; simp

/-- Catching an exception of `Close` does not help: for every writer, destroying it afterwards ends the program. -/
theorem C64_terminates_violated {L : Lazperf} {ord : Order} {w w' : Writer} {e : Exc} (heb : w.cfg.eb.length < 2 ^ 32)
    (h : Writer.close L ord w = (.throw e, w')) : Writer.destroy L ord w' = .terminates :=
  (C64_destroy_partial L ord w').2.2 ⟨e, C64_again heb h⟩

/-- The same for `FileWriter` (and so the Python program), whose stream the failed `Close` leaves open, -/
theorem C64_file_violated {L : Lazperf} {ord : Order} {f f' : FileWriter} {e : Exc} (heb : f.w.cfg.eb.length < 2 ^ 32)
    (h : FileWriter.close L ord f = (.throw e, f')) :
    f'.shut = f.shut ∧ FileWriter.destroy L ord f' = .terminates := by
  have hsh : FileWriter.onWriter (Writer.close L ord) f = (.throw e, f') := by
    unfold FileWriter.close at h
    rw [Act.bind_apply] at h
    generalize FileWriter.onWriter (Writer.close L ord) f = p at h ⊢
    obtain ⟨r, s⟩ := p
    cases r with
    | ok u => cases h
    | throw e' => exact h
    | ub => cases h
  unfold FileWriter.onWriter at hsh
  rw [Act.zoom_apply] at hsh
  injection hsh with h1 h2
  have ha := C64_again (L := L) (ord := ord) (w := f.w) heb (Prod.ext h1 rfl)
  rw [← h2]
  refine ⟨rfl, ?_⟩
  unfold FileWriter.destroy Act.noexcept FileWriter.close
  have hx : FileWriter.onWriter (Writer.close L ord) { f with w := (Writer.close L ord f.w).2 } =
      (.throw e, { f with w := (Writer.close L ord (Writer.close L ord f.w).2).2 }) := by
    unfold FileWriter.onWriter
    rw [Act.zoom_apply]
    exact Prod.ext ha rfl
  rw [Act.bind_throw hx]

/-- and for `LazWriter`. -/
theorem C64_laz_violated {L : Lazperf} {w w' : LazWriter} {e : Exc} (heb : w.cfg.eb.length < 2 ^ 32)
    (h : LazWriter.close L w = (.throw e, w')) : LazWriter.destroy L w' = .terminates := by
  have hcfg : w'.cfg = w.cfg := by
    unfold LazWriter.close LazWriter.onBase at h
    rw [Act.bind_ok (Act.gets_apply _ _), Act.zoom_apply] at h
    injection h with _ h
    rw [← h]
  have := C64_again_laz heb h
  unfold LazWriter.close LazWriter.onBase at this
  rw [Act.bind_ok (Act.gets_apply _ _), Act.zoom_apply] at this
  unfold LazWriter.destroy BaseW.destroy Act.noexcept
  cases hb : BaseW.close L w'.cfg w'.base with
  | mk r b =>
    rw [hb] at this
    dsimp only at this
    rw [this]

/-- Three ways to get there: the sample writer with bounds in the wrong order, the sample writer on a full disk
(its third addition threw, the exception was caught), and a node of a page outside the octree. -/
example : tried.1 = .throw .extentOrder ∧ Writer.destroy Sample.L Sample.ord tried.2 = .terminates := by
  refine ⟨tried_throws, C64_terminates_violated (e := .extentOrder) ?_ (Prod.ext tried_throws rfl)⟩
  decide +kernel

def fullTried := Writer.close Sample.L Sample.ord
  ((Op.addCompressed Sample.kB [4, 5] 1 VoxelKey.root).run Sample.L Sample.ord fullRun.2).2
theorem fullTried_throws : fullTried.1 = .throw .headerTooBig := by decide +kernel
example : Writer.destroy Sample.L Sample.ord fullTried.2 = .terminates :=
  C64_terminates_violated (e := .headerTooBig) (by decide +kernel) (Prod.ext fullTried_throws rfl)

def astray : Res Unit × Writer := Writer.close Sample.L Sample.ord
  ((Op.addCompressed ⟨1, 5, 0, 0⟩ [4, 5] 1 ⟨1, 5, 0, 0⟩).run Sample.L Sample.ord Sample.w).2
theorem astray_throws : astray.1 = .throw .noParentPage := by decide +kernel
example : Writer.destroy Sample.L Sample.ord astray.2 = .terminates :=
  C64_terminates_violated (e := .noParentPage) (by decide +kernel) (Prod.ext astray_throws rfl)

/-! ### C65: refused constructions -/

/-- A path that cannot be opened is refused, and a LAZ file writer with a header of point format 6 to 8 never refuses
anything else: an exception of these constructors has no effect on the file. -/
theorem C65_laz (L : Lazperf) (b : Bool) (cap : Option Limit) (c : LazConfig) (old : Bytes)
    (hf : c.header.fmt = 6 ∨ c.header.fmt = 7 ∨ c.header.fmt = 8) :
    (b = true ∧ ∃ f, (LazFileWriter.make L b cap c old).1 = .returns f) ∨
    (b = false ∧ LazFileWriter.make L b cap c old = (.throws .badStream, old)) := by
  cases b with
  | false => right; exact ⟨rfl, by unfold LazFileWriter.make; rw [if_pos rfl]⟩
  | true =>
    left
    refine ⟨rfl, ?_⟩
    have ho : ∃ n, BaseW.offsetToPointData c.forWriter = .ok n := by
      unfold BaseW.offsetToPointData
      have h1 : c.forWriter.header.ebSize =
          .ok ((c.forWriter.header.recLen.toNat + 65536 - lasBaseSize c.forWriter.header.fmt) % 65536) := by
        unfold LasHeader.ebSize ebByteSize
        have hf : c.forWriter.header.fmt = 6 ∨ c.forWriter.header.fmt = 7 ∨ c.forWriter.header.fmt = 8 := hf
        rcases hf with e | e | e <;> rw [e] <;> rfl
      rw [h1]
      exact ⟨_, rfl⟩
    obtain ⟨n, ho⟩ := ho
    unfold LazFileWriter.make LazWriter.construct
    rw [if_neg (by simp), ho]
    exact ⟨_, rfl⟩

theorem C65_unopened_partial (L : Lazperf) (cap : Option Limit) (c : CopcConfig) (o : Writer.Overrides) (old : Bytes) :
    FileWriter.make L false cap c o old = (.throws .badStream, old) := by
  unfold FileWriter.make; rw [if_pos rfl]

/-- The full claim is false of `FileWriter`: whenever it refuses its arguments, the file that was at the path has
already been emptied. -/
theorem C65_refused_violated (L : Lazperf) (cap : Option Limit) {c : CopcConfig} {o : Writer.Overrides} {e : Exc}
    (h : Writer.initConfig c o = .throw e) (old : Bytes) : FileWriter.make L true cap c o old = (.throws e, []) := by
  unfold FileWriter.make Writer.construct
  rw [if_neg (by simp), h]
  rfl

/-- In particular for a point format outside 6 to 8 given as an override. -/
theorem C65_format_violated (L : Lazperf) (cap : Option Limit) (c : CopcConfig) (o : Writer.Overrides) {f : Int}
    (hf : o.fmt = some f) (hb : f < 6 ∨ 8 < f) (old : Bytes) :
    FileWriter.make L true cap c o old = (.throws .badFormat, []) := by
  refine C65_refused_violated L cap ?_ old
  have hany : o.any = true := by unfold Writer.Overrides.any; rw [hf]; simp
  unfold Writer.initConfig
  rw [if_pos hany, hf]
  simp only [Option.getD_some]
  unfold recordLength pointBaseByteSize
  rw [if_neg (by omega), if_neg (by omega), if_neg (by omega)]
  rfl

/-- The constructor of a writer agrees with the simpler description used elsewhere whenever it returns, and it does
not throw where that one does but `initConfig` returns: there the program ends. -/
theorem construct_iff (L : Lazperf) (out : OStream) (c : CopcConfig) (o : Writer.Overrides) (w : Writer) :
    Writer.construct L out c o = .returns w ↔ Writer.make out c o = .ok w := by
  unfold Writer.construct Writer.make
  cases Writer.initConfig c o with
  | throw e => simp [Res.bind]
  | ub => simp [Res.bind]
  | ok c' =>
    simp only [Res.bind]
    cases Writer.offsetToPointData c' with
    | ok n => simp
    | ub => simp
    | throw e =>
      simp only [reduceCtorEq, iff_false]
      generalize BaseW.destroy L c'.toLazConfig ⟨out, [], 0, 0, 0, true⟩ = f
      cases f <;> simp

theorem badFormat_offset {c : LazConfig} (h : ¬ (c.header.fmt = 6 ∨ c.header.fmt = 7 ∨ c.header.fmt = 8)) :
    BaseW.offsetToPointData c = .throw .badFormat := by
  unfold BaseW.offsetToPointData LasHeader.ebSize ebByteSize pointBaseByteSize
  rw [if_neg (by omega), if_neg (by omega), if_neg (by omega)]
  rfl

theorem badFormat_destroy {L : Lazperf} {c : LazConfig} (out : OStream)
    (h : ¬ (c.header.fmt = 6 ∨ c.header.fmt = 7 ∨ c.header.fmt = 8)) :
    BaseW.destroy L c ⟨out, [], 0, 0, 0, true⟩ = .terminates := by
  unfold BaseW.destroy Act.noexcept
  rw [baseClose_throws L rfl (badFormat_offset h)]

/-- A header of another point format (which only C++ programs can make) is not refused with an exception: the
constructor of the LAZ writer ends the program, and so does that of the COPC writer. -/
theorem C65_header_violated (L : Lazperf) (out : OStream) {c : LazConfig} {d : CopcConfig}
    (hc : ¬ (c.header.fmt = 6 ∨ c.header.fmt = 7 ∨ c.header.fmt = 8))
    (hd : ¬ (d.header.fmt = 6 ∨ d.header.fmt = 7 ∨ d.header.fmt = 8))
    (he : ∀ x ∈ d.extents.extents, Ordered x ∧ VarOk x) :
    LazWriter.construct L out c = .terminates ∧ Writer.construct L out d {} = .terminates := by
  refine ⟨?_, ?_⟩
  · unfold LazWriter.construct
    rw [badFormat_offset (c := c.forWriter) hc]
    dsimp only
    rw [badFormat_destroy out (c := c.forWriter) hc]
  · have hi : Writer.initConfig d {} = .ok { d with header := d.header.withCopc true } := by
      show d.copy = _
      unfold CopcConfig.copy CopcConfig.ofParts
      rw [extents_copy he]
      rfl
    unfold Writer.construct
    rw [hi]
    dsimp only
    have ho : Writer.offsetToPointData { d with header := d.header.withCopc true } = .throw .badFormat := by
      unfold Writer.offsetToPointData
      rw [badFormat_offset (c := CopcConfig.toLazConfig { d with header := d.header.withCopc true }) hd]
      rfl
    rw [ho]
    dsimp only
    rw [badFormat_destroy out (c := CopcConfig.toLazConfig { d with header := d.header.withCopc true }) hd]

/-! ### The sample on a file -/

theorem ok_pair {σ : Type} {p : Res Unit × σ} (h : p.1 = .ok ()) : p = (.ok (), p.2) := Prod.ext h rfl

namespace FileSample

/-- A writer for a path where three bytes are stored. -/
def made := FileWriter.make Sample.L true none Sample.cfg {} [1, 2, 3]
def f0 : FileWriter := ⟨Sample.w0, false⟩
def f1 := (Op.runFile Sample.L Sample.ord (.addCompressed Sample.kA [1, 2, 3] 5 Sample.kA) f0).2
def closed := FileWriter.close Sample.L Sample.ord f1

theorem made_ok : made.1 = .returns f0 := by decide +kernel
theorem closes : closed.1 = .ok () := by decide +kernel
theorem closed_eq : FileWriter.close Sample.L Sample.ord f1 = (.ok (), closed.2) := ok_pair closes
theorem past : FileHistory Sample.L Sample.ord f0 f1 := .call _ .start

/-- The premises of the theorems of C63 hold here; a node added after `Close` is accepted and leaves the file alone. -/
example : ∃ n, ((Op.addCompressed Sample.kB [4, 5] 1 VoxelKey.root).runFile Sample.L Sample.ord closed.2).1 = .ok n := by
  refine ⟨some ⟨⟨Sample.kB, 2 ^ 64 - 1, 0, 1⟩, VoxelKey.root⟩, ?_⟩
  decide +kernel
example : ((Op.addCompressed Sample.kB [4, 5] 1 VoxelKey.root).runFile Sample.L Sample.ord closed.2).2.contents =
    closed.2.contents :=
  (C63_file_final made_ok past closed_eq (.call _ .start)).1
example : FileWriter.destroy Sample.L Sample.ord f1 = .returns closed.2.contents :=
  C63_file_destroy made_ok past closed_eq
/-- A refused override: the three bytes are gone. -/
example : FileWriter.make Sample.L true none Sample.cfg { fmt := some 5 } [1, 2, 3] = (.throws .badFormat, []) :=
  C65_format_violated _ _ _ _ rfl (by omega) _
example : ∃ f, (LazFileWriter.make LazSample.L true none LazSample.cfg [1, 2, 3]).1 = .returns f ∧
    (LazFileWriter.close LazSample.L f).1 = .ok () := by
  refine ⟨⟨Sample.getOk (LazWriter.make OStream.fresh LazSample.cfg), false⟩, ?_⟩
  decide +kernel

end FileSample
end Copc
