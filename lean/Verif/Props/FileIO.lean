import Verif.Props.Lifetime
import Verif.Spec.FileIO
/-!
# C70: the writers on files are the writers on streams
-/
namespace Copc
open Spec

theorem fileMake_writer {L : Lazperf} {cap : Option Limit} {c : CopcConfig} {o : Writer.Overrides} {old : Bytes}
    {f : FileWriter} :
    (FileWriter.make L true cap c o old).1 = .returns f ↔
      Writer.make (OStream.created cap) c o = .ok f.w ∧ f.shut = false := by
  unfold FileWriter.make
  rw [if_neg (by simp)]
  dsimp only
  rw [← construct_iff L]
  cases Writer.construct L (OStream.created cap) c o with
  | returns w =>
    obtain ⟨v, s⟩ := f
    simp only [Fate.returns.injEq, FileWriter.mk.injEq]
    exact ⟨fun h => ⟨h.1, h.2.symm⟩, fun h => ⟨h.1, h.2.symm⟩⟩
  | throws e => simp
  | ub => simp
  | terminates => simp

theorem lazConstruct_iff (L : Lazperf) (out : OStream) (c : LazConfig) (w : LazWriter) :
    LazWriter.construct L out c = .returns w ↔ LazWriter.make out c = .ok w := by
  unfold LazWriter.construct LazWriter.make
  cases BaseW.offsetToPointData c.forWriter with
  | ok n => simp [Res.bind]
  | ub => simp [Res.bind]
  | throw e =>
    simp only [Res.bind, reduceCtorEq, iff_false]
    generalize BaseW.destroy L c.forWriter ⟨out, [], 0, 0, 0, true⟩ = f
    cases f <;> simp

theorem lazFileMake_writer {L : Lazperf} {cap : Option Limit} {c : LazConfig} {old : Bytes} {f : LazFileWriter} :
    (LazFileWriter.make L true cap c old).1 = .returns f ↔
      LazWriter.make (OStream.created cap) c = .ok f.w ∧ f.shut = false := by
  unfold LazFileWriter.make
  rw [if_neg (by simp)]
  dsimp only
  rw [← lazConstruct_iff L]
  cases LazWriter.construct L (OStream.created cap) c with
  | returns w =>
    obtain ⟨v, s⟩ := f
    simp only [Fate.returns.injEq, LazFileWriter.mk.injEq]
    exact ⟨fun h => ⟨h.1, h.2.symm⟩, fun h => ⟨h.1, h.2.symm⟩⟩
  | throws e => simp
  | ub => simp
  | terminates => simp

/-- Constructing a `FileWriter` on a path that can be opened returns exactly when constructing a `Writer` with the
same arguments on a new, empty stream does, and gives that writer: nothing of a file that was there before is left. -/
theorem C70_make {L : Lazperf} {c : CopcConfig} {o : Writer.Overrides} (old : Bytes) (w : Writer) :
    (∃ f, (FileWriter.make L true none c o old).1 = .returns f ∧ f.w = w) ↔ Writer.make OStream.fresh c o = .ok w := by
  constructor
  · rintro ⟨f, h, rfl⟩
    exact (fileMake_writer.1 h).1
  · intro h
    exact ⟨⟨w, false⟩, fileMake_writer.2 ⟨h, rfl⟩, rfl⟩

theorem C70_make_laz {L : Lazperf} {c : LazConfig} (old : Bytes) (w : LazWriter) :
    (∃ f, (LazFileWriter.make L true none c old).1 = .returns f ∧ f.w = w) ↔ LazWriter.make OStream.fresh c = .ok w := by
  constructor
  · rintro ⟨f, h, rfl⟩
    exact (lazFileMake_writer.1 h).1
  · intro h
    exact ⟨⟨w, false⟩, lazFileMake_writer.2 ⟨h, rfl⟩, rfl⟩

theorem runFile_other {L : Lazperf} {ord : Order} {op : Op} (hc : op ≠ .close) (f : FileWriter) :
    op.runFile L ord f = ((op.run L ord f.w).1, { f with w := (op.run L ord f.w).2 }) := by
  cases op <;> first | rfl | exact absurd rfl hc

theorem lazRunFile_other {L : Lazperf} {op : LazOp} (hc : op ≠ .close) (f : LazFileWriter) :
    op.runFile L f = ((op.run L f.w).1, { f with w := (op.run L f.w).2 }) := by
  cases op <;> first | rfl | exact absurd rfl hc

/-- Until `Close`, the calls on a `FileWriter` have the outcomes they have on the `Writer`, and bring it to the same
state. -/
theorem C70_calls {L : Lazperf} {ord : Order} {f0 f : FileWriter} {h : List (Op × Res (Option Node))}
    (hc : FileCalls L ord f0 h f) (hu : Unclosed h) : History L ord f0.w h f.w ∧ f.shut = f0.shut := by
  induction hc with
  | start => exact ⟨.start, rfl⟩
  | @call h f op hh hub ih =>
    have hop : op ≠ .close := hu (op, _) (List.mem_append_right _ (List.mem_singleton.2 rfl))
    obtain ⟨h1, h2⟩ := ih fun x hx => hu x (List.mem_append_left _ hx)
    rw [runFile_other hop] at hub ⊢
    exact ⟨.call op h1 hub, h2⟩
  | edit hh he ih => exact ⟨.edit (ih hu).1 he, (ih hu).2⟩

theorem C70_calls_laz {L : Lazperf} {f0 f : LazFileWriter} {h : List (LazOp × Res Unit)}
    (hc : LazFileCalls L f0 h f) (hu : LazUnclosed h) : LazHistory L f0.w h f.w ∧ f.shut = f0.shut := by
  induction hc with
  | start => exact ⟨.start, rfl⟩
  | @call h f op hh hub ih =>
    have hop : op ≠ .close := hu (op, _) (List.mem_append_right _ (List.mem_singleton.2 rfl))
    obtain ⟨h1, h2⟩ := ih fun x hx => hu x (List.mem_append_left _ hx)
    rw [lazRunFile_other hop] at hub ⊢
    exact ⟨.call op h1 hub, h2⟩
  | edit hh he ih => exact ⟨.edit (ih hu).1 he, (ih hu).2⟩

theorem open_close {L : Lazperf} {ord : Order} {f : FileWriter} (hs : f.shut = false) :
    FileWriter.close L ord f = match Writer.close L ord f.w with
      | (.ok _, w') => (.ok (), ⟨{ w' with base := { w'.base with out := w'.base.out.shut } }, true⟩)
      | (.throw e, w') => (.throw e, ⟨w', false⟩)
      | (.ub, w') => (.ub, ⟨w', false⟩) := by
  unfold FileWriter.close FileWriter.onWriter
  rw [Act.bind_apply, Act.zoom_apply]
  generalize Writer.close L ord f.w = p
  obtain ⟨r, w'⟩ := p
  cases r with
  | ok u =>
    dsimp only
    unfold FileWriter.closeStream
    rw [Act.modify_apply]
    dsimp only
    rw [if_neg (by rw [hs]; simp)]
  | throw e => dsimp only; rw [hs]
  | ub => dsimp only; rw [hs]

theorem open_lazClose {L : Lazperf} {f : LazFileWriter} (hs : f.shut = false) :
    LazFileWriter.close L f = match LazWriter.close L f.w with
      | (.ok _, w') => (.ok (), ⟨{ w' with base := { w'.base with out := w'.base.out.shut } }, true⟩)
      | (.throw e, w') => (.throw e, ⟨w', false⟩)
      | (.ub, w') => (.ub, ⟨w', false⟩) := by
  unfold LazFileWriter.close LazFileWriter.onWriter
  rw [Act.bind_apply, Act.zoom_apply]
  generalize LazWriter.close L f.w = p
  obtain ⟨r, w'⟩ := p
  cases r with
  | ok u =>
    dsimp only
    unfold LazFileWriter.closeStream
    rw [Act.modify_apply]
    dsimp only
    rw [if_neg (by rw [hs]; simp)]
  | throw e => dsimp only; rw [hs]
  | ub => dsimp only; rw [hs]

/-- A `FileWriter` that has not been closed: its `Close` returns, throws or is undefined as that of the `Writer`,
and either way leaves the bytes in the file that the `Writer` leaves in its stream. -/
theorem C70_close {L : Lazperf} {ord : Order} {f : FileWriter} (hs : f.shut = false) :
    (FileWriter.close L ord f).1 = (Writer.close L ord f.w).1 ∧
    (FileWriter.close L ord f).2.contents = (Writer.close L ord f.w).2.base.out.data := by
  rw [open_close hs]
  generalize Writer.close L ord f.w = p
  obtain ⟨r, w'⟩ := p
  cases r <;> exact ⟨rfl, rfl⟩

theorem C70_close_laz {L : Lazperf} {f : LazFileWriter} (hs : f.shut = false) :
    (LazFileWriter.close L f).1 = (LazWriter.close L f.w).1 ∧
    (LazFileWriter.close L f).2.contents = (LazWriter.close L f.w).2.base.out.data := by
  rw [open_lazClose hs]
  generalize LazWriter.close L f.w = p
  obtain ⟨r, w'⟩ := p
  cases r <;> exact ⟨rfl, rfl⟩

/-- Ending a `FileWriter`, by `Close` or by destruction, ends the `Writer`. -/
theorem ended_close {L : Lazperf} {ord : Order} {f : FileWriter} {data : Bytes} (hs : f.shut = false)
    (h : (∃ f', FileWriter.close L ord f = (.ok (), f') ∧ f'.contents = data) ∨
      FileWriter.destroy L ord f = .returns data) :
    ∃ w', Writer.close L ord f.w = (.ok (), w') ∧ w'.base.out.data = data := by
  have hcl := C70_close (L := L) (ord := ord) hs
  rcases h with ⟨f', h1, h2⟩ | h
  · rw [h1] at hcl
    exact ⟨(Writer.close L ord f.w).2, Prod.ext hcl.1.symm rfl, by rw [← h2, ← hcl.2]⟩
  · have hok : (FileWriter.close L ord f).1 = .ok () := by
      unfold FileWriter.destroy Act.noexcept at h
      generalize FileWriter.close L ord f = p at h
      obtain ⟨r, s⟩ := p
      cases r with
      | ok u => rfl
      | throw e => cases h
      | ub => cases h
    refine ⟨(Writer.close L ord f.w).2, Prod.ext (hcl.1.symm.trans hok) rfl, ?_⟩
    rw [← hcl.2]
    have hd : (FileWriter.close L ord f).2.Done := done_of_close (fun h => by rw [hs] at h; cases h) (ok_pair hok)
    have h2 := done_destroy (L := L) (ord := ord) hd
    have h3 : FileWriter.destroy L ord f = FileWriter.destroy L ord (FileWriter.close L ord f).2 := by
      unfold FileWriter.destroy Act.noexcept
      rw [done_close hd]
      generalize FileWriter.close L ord f = p at hok
      obtain ⟨r, s⟩ := p
      dsimp only at hok
      rw [hok]
    rw [h3, h2] at h
    exact Fate.returns.inj h

theorem ended_lazClose {L : Lazperf} {f : LazFileWriter} {data : Bytes} (hs : f.shut = false)
    (h : (∃ f', LazFileWriter.close L f = (.ok (), f') ∧ f'.contents = data) ∨
      LazFileWriter.destroy L f = .returns data) :
    ∃ w', LazWriter.close L f.w = (.ok (), w') ∧ w'.base.out.data = data := by
  have hcl := C70_close_laz (L := L) hs
  rcases h with ⟨f', h1, h2⟩ | h
  · rw [h1] at hcl
    exact ⟨(LazWriter.close L f.w).2, Prod.ext hcl.1.symm rfl, by rw [← h2, ← hcl.2]⟩
  · have hok : (LazFileWriter.close L f).1 = .ok () := by
      unfold LazFileWriter.destroy Act.noexcept at h
      generalize LazFileWriter.close L f = p at h
      obtain ⟨r, s⟩ := p
      cases r with
      | ok u => rfl
      | throw e => cases h
      | ub => cases h
    refine ⟨(LazWriter.close L f.w).2, Prod.ext (hcl.1.symm.trans hok) rfl, ?_⟩
    rw [← hcl.2]
    have hd : (LazFileWriter.close L f).2.Done := lazDone_of_close (fun h => by rw [hs] at h; cases h) (ok_pair hok)
    have h2 := lazDone_destroy (L := L) hd
    have h3 : LazFileWriter.destroy L f = LazFileWriter.destroy L (LazFileWriter.close L f).2 := by
      unfold LazFileWriter.destroy Act.noexcept
      rw [lazDone_close hd]
      generalize LazFileWriter.close L f = p at hok
      obtain ⟨r, s⟩ := p
      dsimp only at hok
      rw [hok]
    rw [h3, h2] at h
    exact Fate.returns.inj h

/-- A file made with a `FileWriter`, closed or just destroyed, is the file a `Writer` on a stream makes by the same
calls: everything known of those (`Written`: C26 to C35, C40 to C43) holds for it. -/
theorem C70_file {L : Lazperf} {ord : Order} {c : CopcConfig} {o : Writer.Overrides}
    {h : List (Op × Res (Option Node))} {f0 f : FileWriter} {data : Bytes} (hf : FileWritten L ord c o h f0 f data) :
    Written L ord f0.w f.w h data ∧ Writer.make OStream.fresh c o = .ok f0.w := by
  obtain ⟨old, hm⟩ := hf.made
  obtain ⟨hm, hs⟩ := fileMake_writer.1 hm
  obtain ⟨hh, hs'⟩ := C70_calls hf.calls hf.unclosed
  exact ⟨⟨⟨c, o, hm⟩, hh, hf.unclosed, ended_close (hs'.trans hs) hf.ended, hf.distinct, hf.once, hf.counted,
    hf.storable, hf.size, hf.few⟩, hm⟩

theorem C70_file_laz {L : Lazperf} {c : LazConfig} {h : List (LazOp × Res Unit)} {f0 f : LazFileWriter} {data : Bytes}
    (hf : LazFileWritten L c h f0 f data) :
    LazWritten L f0.w f.w h data ∧ LazWriter.make OStream.fresh c = .ok f0.w := by
  obtain ⟨old, hm⟩ := hf.made
  obtain ⟨hm, hs⟩ := lazFileMake_writer.1 hm
  obtain ⟨hh, hs'⟩ := C70_calls_laz hf.calls hf.unclosed
  exact ⟨⟨⟨c, hm⟩, hh, hf.unclosed, hf.noneTooLarge, ended_lazClose (hs'.trans hs) hf.ended, hf.storable, hf.size⟩, hm⟩

/-! The other direction: every file of a `Writer` is made by a `FileWriter`, so the hypotheses above are met by the
samples of the other files. -/

theorem file_of_history {L : Lazperf} {ord : Order} {f0 : FileWriter} {w : Writer} {h : List (Op × Res (Option Node))}
    (hh : History L ord f0.w h w) (hu : Unclosed h) : FileCalls L ord f0 h { f0 with w := w } := by
  induction hh with
  | start => exact .start
  | @call h w op hh hub ih =>
    have hop : op ≠ .close := hu (op, _) (List.mem_append_right _ (List.mem_singleton.2 rfl))
    have := FileCalls.call op (ih fun x hx => hu x (List.mem_append_left _ hx)) (by rw [runFile_other hop]; exact hub)
    rw [runFile_other hop] at this
    exact this
  | edit hh he ih => exact .edit (ih hu) he

theorem C70_same {L : Lazperf} {ord : Order} {c : CopcConfig} {o : Writer.Overrides}
    {h : List (Op × Res (Option Node))} {w0 w : Writer} {data : Bytes} (hw : Written L ord w0 w h data)
    (hm : Writer.make OStream.fresh c o = .ok w0) : FileWritten L ord c o h ⟨w0, false⟩ ⟨w, false⟩ data := by
  obtain ⟨w', h1, h2⟩ := hw.closed
  refine ⟨⟨[], fileMake_writer.2 ⟨hm, rfl⟩⟩, file_of_history (f0 := ⟨w0, false⟩) hw.history hw.unclosed, hw.unclosed,
    .inl ⟨_, open_close rfl |>.trans (by rw [h1]), ?_⟩, hw.distinct, hw.once, hw.counted, hw.storable, hw.size, hw.few⟩
  exact h2

theorem lazFile_of_history {L : Lazperf} {f0 : LazFileWriter} {w : LazWriter} {h : List (LazOp × Res Unit)}
    (hh : LazHistory L f0.w h w) (hu : LazUnclosed h) : LazFileCalls L f0 h { f0 with w := w } := by
  induction hh with
  | start => exact .start
  | @call h w op hh hub ih =>
    have hop : op ≠ .close := hu (op, _) (List.mem_append_right _ (List.mem_singleton.2 rfl))
    have := LazFileCalls.call op (ih fun x hx => hu x (List.mem_append_left _ hx)) (by rw [lazRunFile_other hop]; exact hub)
    rw [lazRunFile_other hop] at this
    exact this
  | edit hh he ih => exact .edit (ih hu) he

theorem C70_same_laz {L : Lazperf} {c : LazConfig} {h : List (LazOp × Res Unit)} {w0 w : LazWriter} {data : Bytes}
    (hw : LazWritten L w0 w h data) (hm : LazWriter.make OStream.fresh c = .ok w0) :
    LazFileWritten L c h ⟨w0, false⟩ ⟨w, false⟩ data := by
  obtain ⟨w', h1, h2⟩ := hw.closed
  refine ⟨⟨[], lazFileMake_writer.2 ⟨hm, rfl⟩⟩, lazFile_of_history (f0 := ⟨w0, false⟩) hw.history hw.unclosed,
    hw.unclosed, .inl ⟨_, open_lazClose rfl |>.trans (by rw [h1]), ?_⟩, hw.noneTooLarge, hw.storable, hw.size⟩
  exact h2

end Copc
