import Verif.Lemmas.WriterAny
import Verif.Lemmas.WriterHier
import Verif.Lemmas.WriterInv
import Verif.Props.WriterHead
import Verif.Props.WriterReject
/-!
# C32: a closed file is final
-/
namespace Copc
open Spec VoxelKey

theorem close_closed {L : Lazperf} {ord : Order} {w : Writer} (h : w.base.open_ = false) :
    Writer.close L ord w = (.ok (), w) := by
  unfold Writer.close
  rw [Act.bind_ok (Act.gets_apply _ _), if_pos h]
  rfl

theorem ok_last {σ α : Type} {x : Act σ α} {f : σ → σ} {P : σ → Prop} (hf : ∀ s, P (f s)) {s : σ}
    (h : ((x >>= fun _ => Act.modify f) s).1 = .ok ()) : P ((x >>= fun _ => Act.modify f) s).2 := by
  rw [Act.bind_apply] at h ⊢
  generalize x s = p at h ⊢
  obtain ⟨r, s'⟩ := p
  cases r with
  | ok a => exact hf s'
  | throw e => cases h
  | ub => cases h

theorem ok_bind {σ α β : Type} {x : Act σ α} {f : α → Act σ β} {P : σ → Prop} {b : β}
    (hf : ∀ a s, (f a s).1 = .ok b → P (f a s).2) {s : σ}
    (h : ((x >>= f) s).1 = .ok b) : P ((x >>= f) s).2 := by
  rw [Act.bind_apply] at h ⊢
  generalize x s = p at h ⊢
  obtain ⟨r, s'⟩ := p
  cases r with
  | ok a => exact hf a s' h
  | throw e => cases h
  | ub => cases h

theorem close_open {L : Lazperf} {ord : Order} {w : Writer} (h : (Writer.close L ord w).1 = .ok ()) :
    (Writer.close L ord w).2.base.open_ = false := by
  unfold Writer.close at h ⊢
  rw [Act.bind_ok (Act.gets_apply _ _)] at h ⊢
  by_cases ho : w.base.open_ = false
  · rw [if_pos ho] at h ⊢; exact ho
  · rw [if_neg ho] at h ⊢
    refine ok_bind (P := fun w => w.base.open_ = false) (fun c s h => ?_) h
    refine ok_bind (P := fun w => w.base.open_ = false) (fun _ s h => ?_) h
    refine ok_bind (P := fun w => w.base.open_ = false) (fun _ s h => ?_) h
    refine ok_bind (P := fun w => w.base.open_ = false) (fun _ s h => ?_) h
    refine ok_bind (P := fun w => w.base.open_ = false) (fun _ s h => ?_) h
    refine ok_bind (P := fun w => w.base.open_ = false) (fun _ s h => ?_) h
    refine ok_bind (P := fun w => w.base.open_ = false) (fun _ s h => ?_) h
    refine ok_bind (P := fun w => w.base.open_ = false) (fun _ s h => ?_) h
    refine ok_bind (P := fun w => w.base.open_ = false) (fun _ s h => ?_) h
    rfl

/-- After a `Close` that returned, every further `Close` (also that of a destructor) returns and changes
neither the file nor anything else of the writer. -/
theorem C32_idempotent {L L' : Lazperf} {ord ord' : Order} {w w' : Writer}
    (h : Writer.close L ord w = (.ok (), w')) : Writer.close L' ord' w' = (.ok (), w') := by
  refine close_closed ?_
  have := close_open (L := L) (ord := ord) (w := w) (by rw [h])
  rw [h] at this
  exact this

/-- After `Close`, no history of `Close` and `ChangeNodePage` calls, configuration edits and rejected
additions changes the file. Missing from the full claim: additions that are not rejected, see
`C32_add_violated`. -/
theorem C32_final_partial {L : Lazperf} {ord : Order} {w w' w'' : Writer} {t : List (Op × Res (Option Node))}
    (h : Writer.close L ord w = (.ok (), w')) (hh : History L ord w' t w'')
    (hr : ∀ x ∈ t, x.1.target.isSome → ∃ e, x.2 = .throw e ∧ e ≠ .chunkTooLarge ∧ e ≠ .chunkError) :
    w''.base = w'.base := by
  have h0 : w'.base.open_ = false := by
    have := close_open (L := L) (ord := ord) (w := w) (by rw [h])
    rw [h] at this
    exact this
  induction hh with
  | start => rfl
  | @call t w1 op hh hub ih =>
    have hi := ih fun x hx => hr x (List.mem_append_left _ hx)
    rw [← hi]
    cases ht : op.target with
    | some k =>
      obtain ⟨e, h1, h2, h3⟩ := hr _ (List.mem_append_right _ (List.mem_singleton.2 rfl)) (by rw [ht]; rfl)
      rw [C28_unchanged L ord op w1 e (by rw [ht]; rfl) h1 h2 h3]
    | none =>
      cases op with
      | move k p => rw [run_move]; exact (changeNodePage_frame k p w1).1
      | close =>
        rw [run_close, close_closed (by rw [hi]; exact h0)]
      | _ => simp [Op.target] at ht
  | edit hh he ih => exact ih hr

/-- The full claim is false: a closed writer still accepts nodes. Any compressed node with an acceptable
key, added after `Close`, is accepted, and its bytes are written at the start of the point data of the
closed file, over the pointer to the chunk table and the first chunks (which the node's offset also says).
The writer is closed, so no later `Close` adds the node to the hierarchy. -/
theorem C32_add_violated {L : Lazperf} {ord : Order} {c : CopcConfig} {o : Writer.Overrides} {w0 w w' : Writer}
    {h : List (Op × Res (Option Node))} (hm : Writer.make OStream.fresh c o = .ok w0)
    (hcons : Consistent w0.cfg) (hr : w0.cfg.header.pointsByReturn.length = 15)
    (hl : w0.cfg.eb.length ≤ 341)
    (hh : History L ord w0 h w) (hu : Unclosed h) (hc : Writer.close L ord w = (.ok (), w'))
    {key page : VoxelKey} {bs : Bytes} {n : Int} (hk : Valid key) (hp : Valid page) (hb : Below key page)
    (hn : n ≠ 0) (hs : bs.length ≤ 2147483647) :
    ∃ node, ((Op.addCompressed key bs n page).run L ord w').1 = .ok (some node) ∧
      let data := w'.base.out.data
      let data' := ((Op.addCompressed key bs n page).run L ord w').2.base.out.data
      let start := (Header14.decode data).pointOffset.toNat
      node.entry.offset = start ∧ slice data' start bs.length = bs ∧
      (Writer.close L ord ((Op.addCompressed key bs n page).run L ord w').2).2.base.out.data = data' := by
  obtain ⟨otpd, h1, h2⟩ := bInv_of_make hm
  obtain ⟨log, hi⟩ := wInv_history h1 h2 hh hu
  obtain ⟨hier, eb, h14, gps, hco⟩ := close_ok hi.offset hi.base hc
  have hcl := hco.closed
  obtain ⟨hf, hd, hfa, hcap, hpos, hop, hcfg, hnod, hpg⟩ := hcl
  have hx : w0.cfg.extents.extents.length ≤ 4095 := by
    rw [hcons.extents]
    have : baseDims w0.cfg.header.fmt ≤ 20 := by
      rcases hcons.fmt with e | e | e <;> rw [e] <;> decide
    omega
  obtain ⟨a1, a2, a3, a4⟩ := C26_area hm hr hl hx hh hu hc
  have h0 : w0.base.out.data.length = otpd + 8 := by rw [h2.out.data]; simp [chunkData]
  have hce : Consistent (closedCfg L ord otpd log hier w) := by
    obtain ⟨g1, g2⟩ := setRoot_header (closeLayout L ord otpd log hier w).2 w.cfg
    have hcw := hcons.edit hi.edit
    unfold closedCfg
    exact ⟨by rw [g1]; exact hcw.fmt, by rw [g1]; exact hcw.len, by rw [g1]; exact hcw.items,
      by rw [g1, g2]; exact hcw.extents⟩
  have hoc : Writer.offsetToPointData (closedCfg L ord otpd log hier w) = .ok otpd := by
    obtain ⟨g1, g2⟩ := setRoot_header (closeLayout L ord otpd log hier w).2 w.cfg
    unfold closedCfg
    rw [← hi.offset]
    exact offsetToPointData_congr (by rw [g1]) (by rw [g1]) (by rw [g1]) (by rw [g2])
  have heb : eb = ((closedCfg L ord otpd log hier w).eb.map lasItemSize).sum := by
    have e1 := hce.eb.1
    have e2 := hco.eb_ok
    obtain ⟨g1, _⟩ := setRoot_header (closeLayout L ord otpd log hier w).2 w.cfg
    unfold closedCfg at e1
    rw [g1] at e1
    rw [e2] at e1
    injection e1 with e1
    unfold closedCfg
    rw [g1]
    exact e1
  have hd' := hco.headerDecoded (by rw [hi.edit.returns]; exact hr)
  have hpo : w'.base.out.pos = otpd := by
    rw [hpos, headBlock, List.length_append, hd'.2, heb]
    exact hce.exact hoc L gps
  have hop0 : 375 ≤ otpd := by
    have := hce.exact hoc L gps
    omega
  have hlen : otpd ≤ w'.base.out.data.length := by
    rw [hd, fileBytes, List.length_append, length_headArea hf]; omega
  have ht : w'.base.out.tellp = otpd := by
    unfold OStream.tellp; rw [hfa, hpo]; rfl
  have hw : w'.base.out.write bs = { w'.base.out with
      data := OStream.patch w'.base.out.data otpd bs
      pos := otpd + bs.length } := by
    rw [OStream.write_good ⟨hfa, hcap⟩, hpo]
  have hsp : spanOf w'.base.out bs = bs.length := by
    unfold spanOf
    rw [ht, hw]
    unfold OStream.tellp
    simp only [hfa, Bool.false_eq_true, if_false]
    omega
  have hrun := addCompressed_any L ord (w := w') (bs := bs) ((isValid_iff key).2 hk) ((isValid_iff page).2 hp)
    ((childOf_iff _ _).2 ⟨hk, hb⟩) hn (by rw [ht]; omega) (by rw [hsp]; omega)
  rw [hrun]
  refine ⟨_, rfl, ?_⟩
  dsimp only
  rw [a1, h0, Nat.add_sub_cancel]
  refine ⟨ht, ?_, ?_⟩
  · show slice (w'.base.out.write bs).data otpd bs.length = bs
    rw [hw]
    refine slice_at (a := w'.base.out.data.take otpd) (c := w'.base.out.data.drop (otpd + bs.length)) ?_
      (by rw [List.length_take]; omega) rfl
    unfold OStream.patch
    rw [Nat.sub_eq_zero_of_le hlen]
    simp
  · rw [close_closed (w := nodeAdded w' page _ _) (by exact hop)]

/-- The premises of `C32_add_violated` hold of the sample writer (format 6, an extra byte, three nodes);
here an added node overwrites the chunk table pointer, which was 1598. -/
example : Consistent Sample.w0.cfg ∧ Sample.w0.cfg.header.pointsByReturn.length = 15 ∧
    Sample.w0.cfg.eb.length ≤ 341 ∧ Unclosed Sample.hist ∧
    (Writer.close Sample.L Sample.ord Sample.w).1 = .ok () ∧ Valid Sample.kA ∧ Below Sample.kA Sample.kA :=
  ⟨⟨by decide +kernel, by decide +kernel, by decide +kernel, by decide +kernel⟩, by decide +kernel,
    by decide +kernel, Sample.unclosed, Sample.closes, by decide, below_refl (by decide)⟩

example : getN 8 (((Op.addCompressed Sample.kA [1, 2, 3, 4, 5, 6, 7, 8] 1 Sample.kA).run Sample.L Sample.ord
    (Writer.close Sample.L Sample.ord Sample.w).2).2.base.out.data.drop 1523) = 0x0807060504030201 := by
  decide +kernel

/-! ### C53: a second attempt to close -/

/-- The sample configuration with bounds in the wrong order. -/
def badBounds (c : CopcConfig) : CopcConfig := { c with header := { c.header with
  min := ⟨Flt.ofInt 1, Flt.ofInt 0, Flt.ofInt 0⟩
  max := ⟨Flt.ofInt 0, Flt.ofInt 0, Flt.ofInt 0⟩ } }

def tried : Res Unit × Writer := Writer.close Sample.L Sample.ord { Sample.w with cfg := badBounds Sample.w.cfg }
def mended : CopcConfig := { tried.2.cfg with header := Sample.w.cfg.header }
def retried : Res Unit × Writer := Writer.close Sample.L Sample.ord { tried.2 with cfg := mended }

theorem tried_throws : tried.1 = .throw .extentOrder := by decide +kernel
theorem retried_ok : retried.1 = .ok () := by decide +kernel
theorem mended_edit : PublicEdit tried.2.cfg mended := by
  unfold mended
  exact ⟨by decide +kernel, by decide +kernel, by decide +kernel, by decide +kernel, by decide +kernel,
    rfl, rfl, rfl, rfl, rfl, by decide +kernel⟩
theorem retried_table : Lazperf.plain.readTable 3 (retried.2.base.out.data.drop
    (getN 8 (retried.2.base.out.data.drop (Sample.w0.base.out.data.length - 8)) + 8)) ≠
    [(2, 62), (5, 3), (1, 2)] := by decide +kernel
theorem sample_added : addedNodes Sample.hist = [⟨⟨VoxelKey.root, 1531, 62, 2⟩, VoxelKey.root⟩,
    ⟨⟨Sample.kA, 1593, 3, 5⟩, Sample.kA⟩, ⟨⟨Sample.kB, 1596, 2, 1⟩, VoxelKey.root⟩] := by
  have : addedNodes Sample.hist = (Sample.hist.map (·.2)).filterMap (fun x => match x with
      | .ok r => r
      | _ => none) := by
    rw [List.filterMap_map]; rfl
  rw [this, Sample.outcomes]
  rfl
theorem sample_consistent : Consistent Sample.w0.cfg :=
  ⟨by decide +kernel, by decide +kernel, by decide +kernel, by decide +kernel⟩
theorem retried_evlrs : retried.2.base.evlrCount ≠ Sample.w.pages.length + 1 := by decide +kernel

/-- A failed `Close` cannot be repeated: there are a history, bounds with which `Close` throws, and an
edit repairing them after which `Close` returns but leaves a chunk table that does not describe the chunks
and a declared number of EVLRs that is not that of the pages and the WKT string. -/
theorem C53_retry_violated : ∃ (L : Lazperf) (ord : Order) (c : CopcConfig) (w0 w w1 w2 : Writer)
    (h : List (Op × Res (Option Node))) (cb cg : CopcConfig) (e : Exc),
    Writer.make OStream.fresh c {} = .ok w0 ∧ Consistent w0.cfg ∧ History L ord w0 h w ∧ Unclosed h ∧
    NoneTooLarge h ∧
    PublicEdit w.cfg cb ∧ Writer.close L ord { w with cfg := cb } = (.throw e, w1) ∧
    PublicEdit w1.cfg cg ∧ Writer.close L ord { w1 with cfg := cg } = (.ok (), w2) ∧
    L.readTable (addedNodes h).length
        (w2.base.out.data.drop (getN 8 (w2.base.out.data.drop (w0.base.out.data.length - 8)) + 8)) ≠
      (addedNodes h).map (fun n => (n.entry.pointCount.toNat, n.entry.byteSize.toNat)) ∧
    w2.base.evlrCount ≠ w.pages.length + 1 := by
  have h1 : Writer.close Sample.L Sample.ord { Sample.w with cfg := badBounds Sample.w.cfg } =
      (.throw .extentOrder, tried.2) := by rw [← tried_throws]; rfl
  have h2 : Writer.close Sample.L Sample.ord { tried.2 with cfg := mended } = (.ok (), retried.2) := by
    rw [← retried_ok]; rfl
  refine ⟨Sample.L, Sample.ord, Sample.cfg, Sample.w0, Sample.w, tried.2, retried.2, Sample.hist,
    badBounds Sample.w.cfg, mended, .extentOrder, Sample.made, sample_consistent, Sample.history,
    Sample.unclosed, ?_, ⟨rfl, rfl, rfl, rfl, rfl, rfl, rfl, rfl, rfl, rfl, rfl⟩, h1, mended_edit, h2, ?_,
    retried_evlrs⟩
  · intro x hx
    have hm : x.2 ∈ Sample.hist.map (·.2) := List.mem_map_of_mem hx
    rw [Sample.outcomes] at hm
    intro he
    rw [he] at hm
    simp at hm
  · rw [sample_added]
    exact retried_table

end Copc
