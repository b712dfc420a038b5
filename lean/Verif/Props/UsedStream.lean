import Verif.Lemmas.LazSample
import Verif.Lemmas.WriterHist
import Verif.Lemmas.Sample
import Verif.Model.LazReader
/-! # C77: a writer on a stream that holds something already -/
namespace Copc
open Spec VoxelKey

/-- A stream, at its start, that holds `old`: a file opened for updating, or a stream used before. -/
def OStream.used (old : Bytes) : OStream := ⟨old, 0, false, none⟩

/-- The stream after the same calls if it held `old` at first. -/
def OStream.over (old : Bytes) (o : OStream) : OStream := { o with data := o.data ++ old.drop o.data.length }

def BaseW.over (old : Bytes) (b : BaseW) : BaseW := { b with out := b.out.over old }
def Writer.over (old : Bytes) (w : Writer) : Writer := { w with base := w.base.over old }
def LazWriter.over (old : Bytes) (w : LazWriter) : LazWriter := { w with base := w.base.over old }

theorem over_write {o : OStream} {d : Bytes} (old : Bytes) (h : o.Holds d) (bs : Bytes) :
    (o.over old).write bs = (o.write bs).over old := by
  have h' := h.write bs
  unfold OStream.Holds at h h'
  rw [h']
  subst h
  unfold OStream.over OStream.write OStream.patch
  simp [List.drop_append]

section
variable {σ τ α β : Type}

/-- On states with `P`, the call does the same to the state and to its image. -/
def Mirror (P : σ → Prop) (g : σ → σ) (x : Act σ α) : Prop := ∀ s, P s → x (g s) = ((x s).1, g (x s).2) ∧ P (x s).2

variable {P : σ → Prop} {g : σ → σ}

theorem mirror_bind {x : Act σ α} {f : α → Act σ β} (hx : Mirror P g x) (hf : ∀ a, Mirror P g (f a)) : Mirror P g (x >>= f) := by
  intro s hs
  obtain ⟨h1, h2⟩ := hx s hs
  rw [Act.bind_apply, Act.bind_apply, h1]
  cases hr : x s with
  | mk r s' =>
    rw [hr] at h2
    cases r with
    | ok a => exact hf a s' h2
    | throw e => exact ⟨rfl, h2⟩
    | ub => exact ⟨rfl, h2⟩

theorem mirror_gets {f : σ → α} (h : ∀ s, P s → f (g s) = f s) : Mirror P g (Act.gets f) := fun s hs => by
  rw [Act.gets_apply, Act.gets_apply, h s hs]; exact ⟨rfl, hs⟩
theorem mirror_pure (a : α) : Mirror P g (pure a) := fun _ hs => ⟨rfl, hs⟩
theorem mirror_lift (r : Res α) : Mirror P g (Act.lift r) := fun _ hs => ⟨rfl, hs⟩
theorem mirror_undef : Mirror P g (Act.undef : Act σ α) := fun _ hs => ⟨rfl, hs⟩
theorem mirror_raise (e : Exc) : Mirror P g (Act.raise e : Act σ α) := fun _ hs => ⟨rfl, hs⟩
theorem mirror_throwIf {c : Prop} [Decidable c] (e : Exc) : Mirror P g (Act.throwIf c e) := fun s hs => by
  rw [Act.throwIf_apply, Act.throwIf_apply]; split <;> exact ⟨rfl, hs⟩
theorem mirror_modify {f : σ → σ} (h : ∀ s, P s → f (g s) = g (f s) ∧ P (f s)) : Mirror P g (Act.modify f) := fun s hs => by
  rw [Act.modify_apply, Act.modify_apply, (h s hs).1]; exact ⟨rfl, (h s hs).2⟩
theorem mirror_ite {c : Prop} [Decidable c] {x y : Act σ α} (hx : Mirror P g x) (hy : Mirror P g y) :
    Mirror P g (if c then x else y) := by split <;> assumption
end

/-- The position is at the end of what was written. -/
def BaseW.AtEnd (b : BaseW) : Prop := ∃ d, b.out.Holds d

section
variable {old : Bytes}

theorem mirror_emit (bs : Bytes) : Mirror BaseW.AtEnd (BaseW.over old) (BaseW.emit bs) :=
  mirror_modify fun b hb => by
    obtain ⟨d, hd⟩ := hb
    exact ⟨by simp only [BaseW.over]; rw [over_write old hd], d ++ bs, hd.write bs⟩

theorem mirror_writeChunk (L : Lazperf) (h : LasHeader) (bs : Bytes) (count : Int) (compressed : Bool) :
    Mirror BaseW.AtEnd (BaseW.over old) (BaseW.writeChunk L h bs count compressed) := by
  have tell : Mirror BaseW.AtEnd (BaseW.over old) (Act.gets fun b => b.out.tellp) := mirror_gets fun b _ => rfl
  have fin : ∀ start n, Mirror BaseW.AtEnd (BaseW.over old) (BaseW.finishChunk start n) := by
    intro start n
    unfold BaseW.finishChunk
    refine mirror_bind (mirror_modify fun b hb => ⟨rfl, hb⟩) fun _ => mirror_bind tell fun e => mirror_bind (mirror_throwIf _) fun _ => ?_
    exact mirror_bind (mirror_modify fun b hb => ⟨rfl, hb⟩) fun _ => mirror_bind (mirror_throwIf _) fun _ => mirror_pure _
  unfold BaseW.writeChunk
  refine mirror_bind tell fun start => mirror_bind (mirror_throwIf _) fun _ => mirror_ite ?_ ?_
  · exact mirror_bind (mirror_emit _) fun _ => fin _ _
  · refine mirror_bind ?_ fun n => fin _ _
    unfold BaseW.compressBytes
    refine mirror_bind (mirror_lift _) fun eb => mirror_bind (mirror_lift _) fun size => mirror_ite mirror_undef ?_
    exact mirror_bind (mirror_throwIf _) fun _ => mirror_bind (mirror_throwIf _) fun _ => mirror_bind (mirror_emit _) fun _ => mirror_pure _

theorem mirror_onBase {α : Type} {x : Act BaseW α} (h : Mirror BaseW.AtEnd (BaseW.over old) x) :
    Mirror (fun w : Writer => w.base.AtEnd) (Writer.over old) (Writer.onBase x) := fun w hw => by
  obtain ⟨h1, h2⟩ := h w.base hw
  unfold Writer.onBase
  rw [Act.zoom_apply, Act.zoom_apply]
  refine ⟨?_, h2⟩
  show ((x (w.base.over old)).1, { w.over old with base := (x (w.base.over old)).2 }) = _
  rw [h1]
  rfl

theorem mirror_lazBase {α : Type} {x : Act BaseW α} (h : Mirror BaseW.AtEnd (BaseW.over old) x) :
    Mirror (fun w : LazWriter => w.base.AtEnd) (LazWriter.over old) (LazWriter.onBase x) := fun w hw => by
  obtain ⟨h1, h2⟩ := h w.base hw
  unfold LazWriter.onBase
  rw [Act.zoom_apply, Act.zoom_apply]
  refine ⟨?_, h2⟩
  show ((x (w.base.over old)).1, { w.over old with base := (x (w.base.over old)).2 }) = _
  rw [h1]
  rfl

theorem mirror_ensure (page : VoxelKey) : Mirror (fun w : Writer => w.base.AtEnd) (Writer.over old) (Writer.ensurePage page) :=
  mirror_modify fun w hw => by
    show (if w.pageExists page = true then _ else _) = Writer.over old (if w.pageExists page = true then _ else _) ∧ _
    split
    · exact ⟨rfl, hw⟩
    · exact ⟨rfl, hw⟩

theorem mirror_doAdd (L : Lazperf) (key : VoxelKey) (bs : Bytes) (count : Int) (compressed : Bool) (page : VoxelKey) :
    Mirror (fun w : Writer => w.base.AtEnd) (Writer.over old) (Writer.doAddNode L key bs count compressed page) := by
  unfold Writer.doAddNode
  refine mirror_bind (mirror_throwIf _) fun _ => mirror_bind (mirror_throwIf _) fun _ => mirror_bind (mirror_gets fun _ _ => rfl) fun c => ?_
  refine mirror_bind (mirror_onBase (mirror_writeChunk _ _ _ _ _)) fun r => mirror_bind (mirror_modify fun _ h => ⟨rfl, h⟩) fun _ => ?_
  exact mirror_bind (mirror_ensure _) fun _ => mirror_bind (mirror_modify fun _ h => ⟨rfl, h⟩) fun _ => mirror_pure _

theorem mirror_add (L : Lazperf) (key : VoxelKey) (bs : Bytes) (page : VoxelKey) :
    Mirror (fun w : Writer => w.base.AtEnd) (Writer.over old) (Writer.addNode L key bs page) := by
  unfold Writer.addNode
  refine mirror_bind (mirror_gets fun _ _ => rfl) fun c => mirror_bind (mirror_throwIf _) fun _ => mirror_ite mirror_undef ?_
  exact mirror_bind (mirror_throwIf _) fun _ => mirror_doAdd _ _ _ _ _ _

theorem mirror_op (L : Lazperf) (ord : Order) {op : Op} (hc : op ≠ .close) :
    Mirror (fun w : Writer => w.base.AtEnd) (Writer.over old) (op.run L ord) := by
  cases op with
  | add k bs p => exact mirror_bind (mirror_add _ _ _ _) fun _ => mirror_pure _
  | addPoints k fmt len ps p =>
    refine mirror_bind ?_ fun _ => mirror_pure _
    unfold Writer.addNodePoints
    refine mirror_bind (mirror_gets fun _ _ => rfl) fun c => mirror_bind (mirror_throwIf _) fun _ => mirror_bind (mirror_throwIf _) fun _ => ?_
    exact mirror_bind (mirror_lift _) fun _ => mirror_add _ _ _ _
  | addCompressed k bs c p =>
    refine mirror_bind ?_ fun _ => mirror_pure _
    unfold Writer.addNodeCompressed
    exact mirror_bind (mirror_throwIf _) fun _ => mirror_doAdd _ _ _ _ _ _
  | move k p =>
    refine mirror_bind ?_ fun _ => mirror_pure _
    have leave : ∀ o k, Mirror (fun w : Writer => w.base.AtEnd) (Writer.over old) (Writer.leavePage o k) := by
      intro o k w hw
      unfold Writer.leavePage
      show (match AList.get o w.pages with | none => _ | some ns => _) = _ ∧ _
      cases AList.get o w.pages with
      | none => exact ⟨rfl, hw⟩
      | some ns =>
        dsimp only
        split
        · exact ⟨rfl, hw⟩
        · exact ⟨rfl, hw⟩
    intro w hw
    have hmain : ∀ v : Writer, v.nodes = w.nodes → Mirror (fun w : Writer => w.base.AtEnd) (Writer.over old) (match AList.get k v.nodes with
        | none => Act.raise .unknownNode
        | some n => do
          Act.throwIf (k.childOf p = false) .notChild
          if n.pageKey = p then pure ()
          else do
            Writer.ensurePage p
            Writer.addToPage p k n
            Writer.leavePage n.pageKey k : Act Writer Unit) := by
      intro v _
      cases AList.get k v.nodes with
      | none => exact mirror_raise _
      | some n =>
        refine mirror_bind (mirror_throwIf _) fun _ => mirror_ite (mirror_pure _) ?_
        exact mirror_bind (mirror_ensure _) fun _ => mirror_bind (mirror_modify fun _ h => ⟨rfl, h⟩) fun _ => leave _ _
    have whole : ∀ v : Writer, Writer.changeNodePage k p v = (Act.throwIf (k.isValid = false) .invalidKey >>= fun _ =>
        Act.throwIf (p.isValid = false) .invalidKey >>= fun _ => (match AList.get k v.nodes with
        | none => Act.raise .unknownNode
        | some n => do
          Act.throwIf (k.childOf p = false) .notChild
          if n.pageKey = p then pure ()
          else do
            Writer.ensurePage p
            Writer.addToPage p k n
            Writer.leavePage n.pageKey k : Act Writer Unit)) v := by
      intro v
      unfold Writer.changeNodePage
      rw [Act.bind_apply, Act.bind_apply, Act.throwIf_apply]
      split <;> rename_i h0 <;> split at h0
      · cases h0
      · injection h0 with _ h0
        subst h0
        rw [Act.bind_apply, Act.bind_apply, Act.throwIf_apply]
        split <;> rename_i h1 <;> split at h1
        · cases h1
        · injection h1 with _ h1
          subst h1
          rfl
        · cases h1; rfl
        · cases h1
        · cases h1
        · cases h1
      · cases h0; rfl
      · cases h0
      · cases h0
      · cases h0
    rw [whole, whole]
    exact mirror_bind (mirror_throwIf _) (fun _ => mirror_bind (mirror_throwIf _) fun _ => hmain w rfl) w hw
  | close => exact absurd rfl hc

theorem mirror_lazOp (L : Lazperf) {op : LazOp} (hc : op ≠ .close) :
    Mirror (fun w : LazWriter => w.base.AtEnd) (LazWriter.over old) (op.run L) := by
  cases op with
  | points fmt len ps =>
    show Mirror _ _ (LazWriter.writePoints L fmt len ps)
    unfold LazWriter.writePoints
    refine mirror_bind (mirror_gets fun _ _ => rfl) fun c => mirror_ite (mirror_pure _) ?_
    refine mirror_bind (mirror_throwIf _) fun _ => mirror_bind (mirror_lift _) fun _ => ?_
    exact mirror_bind (mirror_lazBase (mirror_writeChunk _ _ _ _ _)) fun _ => mirror_pure _
  | compressed bs c =>
    show Mirror _ _ (LazWriter.writePointsCompressed L bs c)
    unfold LazWriter.writePointsCompressed
    refine mirror_bind (mirror_gets fun _ _ => rfl) fun c => mirror_bind (mirror_throwIf _) fun _ => ?_
    exact mirror_bind (mirror_lazBase (mirror_writeChunk _ _ _ _ _)) fun _ => mirror_pure _
  | close => exact absurd rfl hc

theorem init_used (n : Nat) : BaseW.init (OStream.used old) n = (BaseW.init OStream.fresh n).over old ∧
    (BaseW.init OStream.fresh n).AtEnd := by
  have h : OStream.fresh.Holds [] := rfl
  refine ⟨?_, List.replicate n 0, by have := h.write (List.replicate n 0); simpa [BaseW.init] using this⟩
  have e : OStream.used old = OStream.fresh.over old := rfl
  unfold BaseW.init
  rw [e, over_write old h]
  rfl

theorem used_history {L : Lazperf} {ord : Order} {w0 w : Writer} {h : List (Op × Res (Option Node))} (h0 : w0.base.AtEnd)
    (hh : History L ord w0 h w) (hu : Unclosed h) : History L ord (w0.over old) h (w.over old) ∧ w.base.AtEnd := by
  induction hh with
  | start => exact ⟨.start, h0⟩
  | @call h w op hh hn ih =>
    obtain ⟨i1, i2⟩ := ih fun x hx => hu x (List.mem_append_left _ hx)
    have hc : op ≠ .close := hu _ (List.mem_append_right _ (List.mem_singleton.2 rfl))
    obtain ⟨m1, m2⟩ := mirror_op (old := old) L ord hc w i2
    have := History.call op i1 (by rw [m1]; exact hn)
    rw [m1] at this
    exact ⟨this, m2⟩
  | @edit h w c hh he ih =>
    obtain ⟨i1, i2⟩ := ih hu
    exact ⟨i1.edit (c := c) he, i2⟩

theorem used_lazHistory {L : Lazperf} {w0 w : LazWriter} {h : List (LazOp × Res Unit)} (h0 : w0.base.AtEnd)
    (hh : LazHistory L w0 h w) (hu : LazUnclosed h) : LazHistory L (w0.over old) h (w.over old) ∧ w.base.AtEnd := by
  induction hh with
  | start => exact ⟨.start, h0⟩
  | @call h w op hh hn ih =>
    obtain ⟨i1, i2⟩ := ih fun x hx => hu x (List.mem_append_left _ hx)
    have hc : op ≠ .close := hu _ (List.mem_append_right _ (List.mem_singleton.2 rfl))
    obtain ⟨m1, m2⟩ := mirror_lazOp (old := old) L hc w i2
    have := LazHistory.call op i1 (by rw [m1]; exact hn)
    rw [m1] at this
    exact ⟨this, m2⟩
  | @edit h w c hh he ih =>
    obtain ⟨i1, i2⟩ := ih hu
    exact ⟨i1.edit (c := c) he, i2⟩

end

theorem make_used {c : CopcConfig} {o : Writer.Overrides} {w0 : Writer} (old : Bytes) (hm : Writer.make OStream.fresh c o = .ok w0) :
    Writer.make (OStream.used old) c o = .ok (w0.over old) ∧ w0.base.AtEnd := by
  unfold Writer.make at hm ⊢
  cases h1 : Writer.initConfig c o with
  | throw e => rw [h1] at hm; cases hm
  | ub => rw [h1] at hm; cases hm
  | ok c' =>
    rw [h1, Res.okBind] at hm
    rw [Res.okBind]
    cases h2 : Writer.offsetToPointData c' with
    | throw e => rw [h2] at hm; cases hm
    | ub => rw [h2] at hm; cases hm
    | ok n =>
      rw [h2, Res.okBind] at hm
      rw [Res.okBind]
      injection hm with hm
      subst hm
      rw [(init_used (old := old) _).1]
      exact ⟨rfl, (init_used (old := old) _).2⟩

theorem lazMake_used {c : LazConfig} {w0 : LazWriter} (old : Bytes) (hm : LazWriter.make OStream.fresh c = .ok w0) :
    LazWriter.make (OStream.used old) c = .ok (w0.over old) ∧ w0.base.AtEnd := by
  unfold LazWriter.make at hm ⊢
  cases h2 : BaseW.offsetToPointData c.forWriter with
  | throw e => rw [h2] at hm; cases hm
  | ub => rw [h2] at hm; cases hm
  | ok n =>
    rw [h2, Res.okBind] at hm
    rw [Res.okBind]
    injection hm with hm
    subst hm
    rw [(init_used (old := old) _).1]
    exact ⟨rfl, (init_used (old := old) _).2⟩

theorem over_grown {old : Bytes} {b : BaseW} (h : old.length ≤ b.out.data.length) : b.over old = b := by
  unfold BaseW.over OStream.over
  rw [List.drop_eq_nil_of_le h, List.append_nil]

/-- **C77**: on a stream at its start that holds `old`, a writer can be made exactly as on a new one, every history of
calls up to `Close` has the same outcomes, and leaves in the stream the same bytes, followed by what is left of `old`. -/
theorem C77_before_close {L : Lazperf} {ord : Order} {c : CopcConfig} {o : Writer.Overrides} {w0 w : Writer}
    {h : List (Op × Res (Option Node))} (old : Bytes) (hm : Writer.make OStream.fresh c o = .ok w0) (hh : History L ord w0 h w)
    (hu : Unclosed h) : ∃ v0 v, Writer.make (OStream.used old) c o = .ok v0 ∧ History L ord v0 h v ∧
      v.base.out.data = w.base.out.data ++ old.drop w.base.out.data.length ∧ v.nodes = w.nodes ∧ v.pages = w.pages := by
  obtain ⟨h1, h2⟩ := make_used old hm
  exact ⟨w0.over old, w.over old, h1, (used_history h2 hh hu).1, rfl, rfl, rfl⟩

/-- **C77**, the proved part of the claim on the file: once more has been written than the stream held, the writer is in
the very state it would be in on a new stream, so that all it does from then on, `Close` included, is the same. -/
theorem C77_same_partial {L : Lazperf} {ord : Order} {c : CopcConfig} {o : Writer.Overrides} {w0 w : Writer}
    {h : List (Op × Res (Option Node))} (old : Bytes) (hm : Writer.make OStream.fresh c o = .ok w0) (hh : History L ord w0 h w)
    (hu : Unclosed h) (hlen : old.length ≤ w.base.out.data.length) :
    ∃ v0, Writer.make (OStream.used old) c o = .ok v0 ∧ History L ord v0 h w := by
  obtain ⟨h1, h2⟩ := make_used old hm
  have := (used_history (old := old) h2 hh hu).1
  have e : w.over old = w := by unfold Writer.over; rw [over_grown hlen]
  rw [e] at this
  exact ⟨_, h1, this⟩

/-- **C77** for `LazWriter`. -/
theorem C77_laz_same_partial {L : Lazperf} {c : LazConfig} {w0 w : LazWriter}
    {h : List (LazOp × Res Unit)} (old : Bytes) (hm : LazWriter.make OStream.fresh c = .ok w0) (hh : LazHistory L w0 h w)
    (hu : LazUnclosed h) (hlen : old.length ≤ w.base.out.data.length) :
    ∃ v0, LazWriter.make (OStream.used old) c = .ok v0 ∧ LazHistory L v0 h w := by
  obtain ⟨h1, h2⟩ := lazMake_used old hm
  have := (used_lazHistory (old := old) h2 hh hu).1
  have e : w.over old = w := by unfold LazWriter.over; rw [over_grown hlen]
  rw [e] at this
  exact ⟨_, h1, this⟩


/-! ### Otherwise the file is another -/

namespace UsedSample

/-- Longer than the file. -/
def old : Bytes := List.replicate 2000 7

def file (out : OStream) : Option Bytes := match Writer.make out Sample.cfg {} with
  | .ok w0 => match Writer.close Sample.L Sample.ord w0 with
    | (.ok _, w) => some w.base.out.data
    | _ => none
  | _ => none

theorem differs : (file OStream.fresh).isSome = true ∧ (file (OStream.used old)).isSome = true ∧
    ((file OStream.fresh).getD []).isPrefixOf ((file (OStream.used old)).getD []) = false := by decide +kernel

/-- One point, given compressed, and the file read back. -/
def back (out : OStream) : Res Bytes := (LazWriter.make out LazSample.cfg).bind fun w0 =>
  (LazReader.init LazSample.L ⟨(LazWriter.close LazSample.L (LazWriter.writePointsCompressed LazSample.L (List.replicate 31 4) 1 w0).2).2.base.out.data,
    0, false⟩).bind (LazReader.getPointData LazSample.L)

theorem shifted : back OStream.fresh = .ok (List.replicate 31 4) ∧ back ⟨[7], 1, false, none⟩ = .ok (0 :: List.replicate 30 4) := by
  decide +kernel

end UsedSample

open UsedSample in
/-- **C77** is false in general: if the stream held more than is written, `Close` puts the chunk table and the hierarchy
after the old data, so that the new file does not even begin with what it is on a new stream. -/
theorem C77_violated : ∃ (c : CopcConfig) (old : Bytes) (v0 v w0 w : Writer),
    Writer.make OStream.fresh c {} = .ok w0 ∧ Writer.close Sample.L Sample.ord w0 = (.ok (), w) ∧
    Writer.make (OStream.used old) c {} = .ok v0 ∧ Writer.close Sample.L Sample.ord v0 = (.ok (), v) ∧
    ¬ w.base.out.data <+: v.base.out.data := by
  obtain ⟨h1, h2, h3⟩ := differs
  have get : ∀ out, (file out).isSome = true → ∃ w0 w, Writer.make out Sample.cfg {} = .ok w0 ∧
      Writer.close Sample.L Sample.ord w0 = (.ok (), w) ∧ file out = some w.base.out.data := by
    intro out h
    unfold file at h ⊢
    cases hm : Writer.make out Sample.cfg {} with
    | throw e => rw [hm] at h; cases h
    | ub => rw [hm] at h; cases h
    | ok w0 =>
      rw [hm] at h
      dsimp only at h ⊢
      cases hc : Writer.close Sample.L Sample.ord w0 with
      | mk r w =>
        rw [hc] at h
        cases r with
        | ok a => exact ⟨w0, w, rfl, hc, rfl⟩
        | throw e => cases h
        | ub => cases h
  obtain ⟨w0, w, a1, a2, a3⟩ := get _ h1
  obtain ⟨v0, v, b1, b2, b3⟩ := get _ h2
  rw [a3, b3] at h3
  refine ⟨Sample.cfg, old, v0, v, w0, w, a1, a2, b1, b2, fun hp => ?_⟩
  rw [← List.isPrefixOf_iff_prefix] at hp
  simp only [Option.getD_some] at h3
  rw [hp] at h3
  cases h3

open UsedSample in
/-- **C77** is false of a stream that is not at its start: the reserved space is put at the position of the stream, the
header at the start, and the points of the LAZ file read back are not those written. -/
theorem C77_position_violated : ∃ (c : LazConfig) (out : OStream) (bs : Bytes), out.fail = false ∧ out.cap = none ∧
    out.pos = out.data.length ∧
    ∃ w0 w1 w, LazWriter.make out c = .ok w0 ∧ LazWriter.writePointsCompressed LazSample.L bs 1 w0 = (.ok (), w1) ∧
      LazWriter.close LazSample.L w1 = (.ok (), w) ∧
      (∃ r, LazReader.init LazSample.L ⟨w.base.out.data, 0, false⟩ = .ok r ∧ ∃ d, LazReader.getPointData LazSample.L r = .ok d ∧ d ≠ bs) := by
  have hm : (LazWriter.make ⟨[7], 1, false, none⟩ LazSample.cfg).isOk = true := by decide +kernel
  have hs := shifted.2
  unfold back at hs
  cases h0 : LazWriter.make ⟨[7], 1, false, none⟩ LazSample.cfg with
  | throw e => rw [h0] at hm; cases hm
  | ub => rw [h0] at hm; cases hm
  | ok w0 =>
    have hw : ((LazWriter.make ⟨[7], 1, false, none⟩ LazSample.cfg).bind fun w0 =>
        (LazWriter.writePointsCompressed LazSample.L (List.replicate 31 4) 1 w0).1) = .ok () := by decide +kernel
    have hc : ((LazWriter.make ⟨[7], 1, false, none⟩ LazSample.cfg).bind fun w0 =>
        (LazWriter.close LazSample.L (LazWriter.writePointsCompressed LazSample.L (List.replicate 31 4) 1 w0).2).1) = .ok () := by decide +kernel
    rw [h0, Res.okBind] at hs hw hc
    refine ⟨LazSample.cfg, _, List.replicate 31 4, rfl, rfl, rfl, w0, _, _, h0, Prod.ext hw rfl, Prod.ext hc rfl, ?_⟩
    cases hr : LazReader.init LazSample.L ⟨(LazWriter.close LazSample.L (LazWriter.writePointsCompressed LazSample.L (List.replicate 31 4) 1 w0).2).2.base.out.data,
        0, false⟩ with
    | throw e => rw [hr] at hs; cases hs
    | ub => rw [hr] at hs; cases hs
    | ok r =>
      rw [hr, Res.okBind] at hs
      exact ⟨r, rfl, _, hs, by decide⟩

/-- The hypotheses can be met: a history on a stream that held less, with additions that return. -/
example : ∃ v0, Writer.make (OStream.used [1, 2, 3]) Sample.cfg {} = .ok v0 ∧ History Sample.L Sample.ord v0 Sample.hist Sample.w :=
  C77_same_partial [1, 2, 3] Sample.made Sample.history Sample.unclosed (by decide +kernel)

example : ∃ v0, LazWriter.make (OStream.used [1, 2, 3]) LazSample.cfg = .ok v0 ∧ LazHistory LazSample.L v0 LazSample.hist LazSample.w :=
  C77_laz_same_partial [1, 2, 3] LazSample.made LazSample.history LazSample.unclosed (by decide +kernel)

end Copc
