import Verif.Lemmas.HeldBytes
import Verif.Props.WriterChunks
/-!
# C53: what is left of a writer whose `Close` failed
-/
namespace Copc
open Spec Refuse

theorem slice_of_bytes {a b : Bytes} {p n : Nat} (ha : p + n ≤ a.length) (hb : p + n ≤ b.length)
    (h : ∀ i, p ≤ i → i < p + n → byteAt a i = byteAt b i) : slice a p n = slice b p n := by
  unfold slice
  refine List.ext_getElem (by simp; omega) fun i h1 h2 => ?_
  simp only [List.length_take, List.length_drop] at h1
  have := h (p + i) (by omega) (by omega)
  unfold byteAt at this
  rw [List.getElem?_eq_getElem (by omega), List.getElem?_eq_getElem (by omega)] at this
  simpa using this

/-- What stays true of the writer through attempts to close. -/
structure HeldInv (otpd : Nat) (d : Bytes) (hi : Nat) (w : Writer) : Prop where
  cons : Consistent w.cfg
  offset : Writer.offsetToPointData w.cfg = .ok otpd
  returns : w.cfg.header.pointsByReturn.length = 15
  held : Held d (otpd + 8) hi w.base.out

theorem HeldInv.history {L : Lazperf} {ord : Order} {otpd : Nat} {d : Bytes} {hi : Nat} {w w' : Writer}
    {t : List (Op × Res (Option Node))} (h : HeldInv otpd d hi w) (hh : History L ord w t w')
    (ht : ∀ x ∈ t, x.1.target = none) : HeldInv otpd d hi w' := by
  induction hh with
  | start => exact h
  | @call t v op hh hub ih =>
    have hv := ih fun x hx => ht x (List.mem_append_left _ hx)
    have hop := ht _ (List.mem_append_right _ (List.mem_singleton.2 rfl))
    cases op with
    | move k p =>
      rw [run_move]
      have h1 := changeNodePage_frame k p v
      refine ⟨?_, ?_, ?_, ?_⟩
      · rw [h1.2.1]; exact hv.cons
      · rw [h1.2.1]; exact hv.offset
      · rw [h1.2.1]; exact hv.returns
      · rw [h1.1]; exact hv.held
    | close =>
      rw [run_close]
      have h1 := keeps_close L ord v
      have e1 : (Writer.close L ord v).2.cfg.toLazConfig = v.cfg.toLazConfig := congrArg (fun k => k.2.1) h1
      have e2 : (Writer.close L ord v).2.cfg.extents = v.cfg.extents := congrArg (fun k => k.2.2) h1
      refine ⟨⟨?_, ?_, ?_, ?_⟩, ?_, ?_, ?_⟩
      · rw [e1]; exact hv.cons.fmt
      · rw [e1]; exact hv.cons.len
      · rw [e1]; exact hv.cons.items
      · rw [e1, e2]; exact hv.cons.extents
      · rw [← hv.offset]; unfold Writer.offsetToPointData; rw [e1, e2]
      · rw [e1]; exact hv.returns
      · exact held_close L ord hv.cons hv.offset hv.returns (Nat.le_refl _) hv.held
    | _ => simp [Op.target] at hop
  | edit hh he ih =>
    have hv := ih ht
    exact ⟨hv.cons.edit he, (he.offset_eq).trans hv.offset, by rw [he.returns]; exact hv.returns, hv.held⟩

/-- However often `Close` is attempted, with whatever outcomes and edits of the configuration and moves of
nodes in between, the file keeps the data of every node added before the first attempt, where the node
says. Missing from the full claim: that after a repair `Close` writes a file that describes them, see the
`C53_…_violated` below. -/
theorem C53_data_partial {L : Lazperf} {ord : Order} {c : CopcConfig} {o : Writer.Overrides} {w0 w w' : Writer}
    {h t : List (Op × Res (Option Node))} (hm : Writer.make OStream.fresh c o = .ok w0)
    (hcons : Consistent w0.cfg) (hr : w0.cfg.header.pointsByReturn.length = 15)
    (hh : History L ord w0 h w) (hu : Unclosed h) (hlen : w.base.out.data.length < 2 ^ 63)
    (ht : History L ord w t w') (hnone : ∀ x ∈ t, x.1.target = none)
    {op : Op} {n : Node} (hn : (op, Res.ok (some n)) ∈ h) :
    NodeStored L w0.cfg.header w'.base.out.data op n := by
  obtain ⟨⟨h1, blob, h2, h3, h4, h5⟩, h6⟩ := C27_stored hm hh hu hlen hn
  obtain ⟨otpd, g1, g2⟩ := bInv_of_make hm
  obtain ⟨log, hi⟩ := wInv_history g1 g2 hh hu
  have h0 : w0.base.out.data.length = otpd + 8 := by rw [g2.out.data]; simp [chunkData]
  have hv : HeldInv otpd w.base.out.data w.base.out.data.length w :=
    ⟨hcons.edit hi.edit, hi.offset, by rw [hi.edit.returns]; exact hr, fun _ _ _ => rfl, Nat.le_refl _⟩
  have hk := (hv.history ht hnone).held
  have := hk.len
  refine ⟨h1, blob, h2, h3, by omega, ?_⟩
  refine Eq.trans ?_ h5
  exact slice_of_bytes (by omega) (by omega) fun i a b => hk.same i (by omega) (by omega)

/-- A `Close` that throws leaves the writer open, with its nodes, their pages and its configuration (but for the
place of the root page). -/
theorem C53_kept_partial {L : Lazperf} {ord : Order} {w w' : Writer} {e : Exc} (heb : w.cfg.eb.length < 2 ^ 32)
    (h : Writer.close L ord w = (.throw e, w')) :
    w'.base.open_ = true ∧ w'.nodes = w.nodes ∧ w'.pages = w.pages ∧ w'.cfg.header = w.cfg.header ∧
    w'.cfg.wkt = w.cfg.wkt ∧ w'.cfg.eb = w.cfg.eb ∧ w'.cfg.extents = w.cfg.extents ∧
    ∀ k, w'.findNode k = w.findNode k := by
  have hk := keeps_close L ord w
  rw [h] at hk
  have e1 : w'.cfg.toLazConfig = w.cfg.toLazConfig := congrArg (fun k => k.2.1) hk
  have e2 : w'.nodes = w.nodes := congrArg (fun k => k.1.1) hk
  refine ⟨(close_again heb h).1, e2, congrArg (fun k => k.1.2) hk, by rw [e1], by rw [e1], by rw [e1],
    congrArg (fun k => k.2.2) hk, fun k => ?_⟩
  unfold Writer.findNode
  rw [e2]

/-! ### A node added after a failed `Close` -/

/-- A node given to the sample writer after its `Close` failed and the bounds were repaired. -/
def lateOp : Op := .addCompressed ⟨1, 1, 1, 1⟩ [1, 2, 3, 4] 2 VoxelKey.root
def late : Res (Option Node) × Writer := lateOp.run Sample.L Sample.ord { tried.2 with cfg := mended }
def lateClosed : Res Unit × Writer := Writer.close Sample.L Sample.ord late.2

def lateNode : Node := ⟨⟨⟨1, 1, 1, 1⟩, 589, 4, 2⟩, VoxelKey.root⟩
theorem late_node : late.1 = .ok (some lateNode) := by decide +kernel
theorem late_closed : lateClosed.1 = .ok () := by decide +kernel
theorem late_bytes : slice lateClosed.2.base.out.data 589 4 ≠ [1, 2, 3, 4] := by decide +kernel

/-- A node added after a failed `Close`, once the cause is repaired, is accepted and a place returned for it, but
this place is in the header, and the next `Close`, which returns, overwrites its data. -/
theorem C53_add_violated : ∃ (L : Lazperf) (ord : Order) (c : CopcConfig) (w0 w w1 w2 w3 : Writer)
    (h : List (Op × Res (Option Node))) (cb cg : CopcConfig) (e : Exc) (op : Op) (n : Node),
    Writer.make OStream.fresh c {} = .ok w0 ∧ Consistent w0.cfg ∧ History L ord w0 h w ∧ Unclosed h ∧
    PublicEdit w.cfg cb ∧ Writer.close L ord { w with cfg := cb } = (.throw e, w1) ∧
    PublicEdit w1.cfg cg ∧ op.run L ord { w1 with cfg := cg } = (.ok (some n), w2) ∧
    Writer.close L ord w2 = (.ok (), w3) ∧ ¬ NodeStored L w0.cfg.header w3.base.out.data op n := by
  have h1 : Writer.close Sample.L Sample.ord { Sample.w with cfg := badBounds Sample.w.cfg } =
      (.throw .extentOrder, tried.2) := by rw [← tried_throws]; rfl
  have h2 : lateOp.run Sample.L Sample.ord { tried.2 with cfg := mended } = (.ok (some lateNode), late.2) := by
    rw [← late_node]; rfl
  have h3 : Writer.close Sample.L Sample.ord late.2 = (.ok (), lateClosed.2) := by rw [← late_closed]; rfl
  refine ⟨Sample.L, Sample.ord, Sample.cfg, Sample.w0, Sample.w, tried.2, late.2, lateClosed.2, Sample.hist,
    badBounds Sample.w.cfg, mended, .extentOrder, lateOp, lateNode, Sample.made, sample_consistent, Sample.history,
    Sample.unclosed, ⟨rfl, rfl, rfl, rfl, rfl, rfl, rfl, rfl, rfl, rfl, rfl⟩, h1, mended_edit, h2, h3, ?_⟩
  rintro ⟨_, blob, h4, _, _, h5⟩
  have : blob = [1, 2, 3, 4] := h4.1
  subst this
  exact late_bytes h5

/-- The premises of `C53_data_partial` and `C53_kept_partial` hold of the sample: an edit, a `Close` that
throws, another edit and a `Close` that returns. -/
theorem retry_history : ∃ t, History Sample.L Sample.ord Sample.w t retried.2 ∧ (∀ x ∈ t, x.1.target = none) ∧
    t.map (·.2) = [.throw .extentOrder, .ok none] := by
  have h1 : (Op.close.run Sample.L Sample.ord { Sample.w with cfg := badBounds Sample.w.cfg }).1 = .throw .extentOrder := by
    decide +kernel
  have h2 : (Op.close.run Sample.L Sample.ord { tried.2 with cfg := mended }).1 = .ok none := by decide +kernel
  have e : (Op.close.run Sample.L Sample.ord { Sample.w with cfg := badBounds Sample.w.cfg }).2 = tried.2 := by
    rw [run_close]; rfl
  have e2 : (Op.close.run Sample.L Sample.ord { tried.2 with cfg := mended }).2 = retried.2 := by
    rw [run_close]; rfl
  have s1 : History Sample.L Sample.ord Sample.w [] { Sample.w with cfg := badBounds Sample.w.cfg } :=
    .edit .start ⟨rfl, rfl, rfl, rfl, rfl, rfl, rfl, rfl, rfl, rfl, rfl⟩
  have s2 := s1.call Op.close (by rw [h1]; simp)
  rw [e] at s2
  have s3 := s2.edit mended_edit
  have s4 := s3.call Op.close (by rw [h2]; simp)
  rw [e2, h1, h2] at s4
  refine ⟨_, s4, ?_, rfl⟩
  intro x hx
  simp only [List.nil_append, List.cons_append, List.mem_cons, List.not_mem_nil, or_false] at hx
  rcases hx with rfl | rfl <;> rfl

end Copc
