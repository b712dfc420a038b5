import Verif.Props.WriterFinal
/-!
# C44: output failures

`OStream.cap` is the room on the device: a write past it stores what fits and sets the stream's fail bit.
Nothing is assumed about it here, so every failure point is covered. Buffering is not modelled: with a
`std::ofstream` a failure may only show when its buffer is flushed.
-/
namespace Copc
open Spec VoxelKey

/-- If the stream fails during an addition (at whatever byte), the call throws, and the hierarchy does not
list the node. -/
theorem C44_add_partial (L : Lazperf) (ord : Order) (op : Op) (w : Writer) (ht : op.target.isSome)
    (h0 : w.base.out.fail = false) (hp : w.base.out.pos < 2 ^ 63)
    (hf : (op.run L ord w).2.base.out.fail = true) :
    (∃ e, (op.run L ord w).1 = .throw e) ∧ (op.run L ord w).2.nodes = w.nodes ∧
    (op.run L ord w).2.pages = w.pages := by
  obtain ⟨⟨key, page⟩, ht⟩ := Option.isSome_iff_exists.1 ht
  rcases add_any L ord ht w with ⟨h1, _⟩ | ⟨blob, c, _, ⟨hs, h⟩ | ⟨hs, h⟩⟩
  · rw [h1, h0] at hf; cases hf
  · rw [h]; exact ⟨⟨_, rfl⟩, rfl, rfl⟩
  · rw [h] at hf
    have hf : (w.base.out.write blob).fail = true := hf
    exfalso
    apply hs
    unfold spanOf
    have h1 : (w.base.out.write blob).tellp = 2 ^ 64 - 1 := by unfold OStream.tellp; rw [if_pos hf]
    have h2 : w.base.out.tellp = w.base.out.pos := by unfold OStream.tellp; rw [h0]; rfl
    rw [h1, h2]
    omega

theorem ok_step {α β : Type} {x : Act Writer α} {f : α → Act Writer β} {P : Writer → Prop} {b : β} {s : Writer}
    (hk : Keeps keptParts x)
    (hf : ∀ a s', keptParts s' = keptParts s → (f a s').1 = .ok b → P (f a s').2)
    (h : ((x >>= f) s).1 = .ok b) : P ((x >>= f) s).2 := by
  rw [Act.bind_apply] at h ⊢
  have hk := hk s
  generalize x s = p at h hk ⊢
  obtain ⟨r, s'⟩ := p
  cases r with
  | ok a => exact hf a s' hk h
  | throw e => cases h
  | ub => cases h

theorem checked_stream {otpd : Nat} (ho : otpd < 2 ^ 64 - 1) {s : Writer}
    (h : (Writer.onBase (BaseW.checkHeaderSize otpd) s).1 = .ok ()) :
    (Writer.onBase (BaseW.checkHeaderSize otpd) s).2.base.out.fail = false := by
  unfold Writer.onBase BaseW.checkHeaderSize at h ⊢
  rw [Act.zoom_apply, Act.bind_ok (Act.gets_apply _ _)] at h ⊢
  rw [Act.throwIf_apply] at h ⊢
  by_cases hp : s.base.out.tellp > otpd
  · rw [if_pos hp] at h; cases h
  · rw [if_neg hp]
    cases hf : s.base.out.fail with
    | false => rfl
    | true =>
      unfold OStream.tellp at hp
      rw [hf, if_pos rfl] at hp
      omega

theorem otpd_fits {c : CopcConfig} {otpd : Nat} (h : Writer.offsetToPointData c = .ok otpd)
    (heb : c.eb.length < 2 ^ 32) : otpd < 2 ^ 64 - 1 := by
  have hf := fmt_of_offset h
  have he : ∃ eb, c.header.ebSize = .ok eb := by
    unfold Writer.offsetToPointData BaseW.offsetToPointData at h
    cases he : c.header.ebSize with
    | ok eb => exact ⟨eb, rfl⟩
    | throw e => rw [he] at h; cases h
    | ub => rw [he] at h; cases h
  obtain ⟨eb, he⟩ := he
  rw [offset_eq hf he] at h
  injection h with h
  have h1 : lazItems c.header.fmt eb ≤ 3 := by unfold lazItems; split <;> split <;> omega
  have h2 : baseDims c.header.fmt ≤ 20 := by rcases hf with e | e | e <;> rw [e] <;> decide
  have h3 : c.eb.length % 65536 < 65536 := Nat.mod_lt _ (by omega)
  rw [← h]
  split <;> split <;> omega

/-- A `Close` that returns has not lost anything: the stream did not fail before or during it. The bound on
the number of extra-byte items stands for sizes that fit into memory. -/
theorem C44_close_partial {L : Lazperf} {ord : Order} {w : Writer} (ho : w.base.open_ = true)
    (heb : w.cfg.eb.length < 2 ^ 32) (hc : (Writer.close L ord w).1 = .ok ()) :
    (Writer.close L ord w).2.base.out.fail = false := by
  unfold Writer.close at hc ⊢
  rw [Act.bind_ok (Act.gets_apply _ _), if_neg (by rw [ho]; simp)] at hc ⊢
  let P : Writer → Prop := fun w => w.base.out.fail = false
  refine ok_step (P := P) (keeps_gets _) (fun c s1 k1 h => ?_) hc
  refine ok_step (P := P) (keeps_lift _) (fun otpd s2 k2 h => ?_) h
  refine ok_step (P := P) (keeps_onBase' _) (fun _ s3 k3 h => ?_) h
  refine ok_step (P := P) (keeps_onBase' _) (fun _ s4 k4 h => ?_) h
  refine ok_step (P := P) (keeps_gets _) (fun _ s5 k5 h => ?_) h
  refine ok_step (P := P) (keeps_onBase' _) (fun _ s6 k6 h => ?_) h
  refine ok_step (P := P) (keeps_writePages _) (fun _ s7 k7 h => ?_) h
  refine ok_step (P := P) (keeps_onBase' _) (fun _ s8 k8 h => ?_) h
  have hk : keptParts s8 = keptParts w := k8.trans (k7.trans (k6.trans (k5.trans (k4.trans (k3.trans (k2.trans k1))))))
  have heb8 : s8.cfg.eb.length < 2 ^ 32 := by
    have : s8.cfg.toLazConfig = w.cfg.toLazConfig := congrArg (fun k => k.2.1) hk
    rw [this]; exact heb
  have key : ∀ s, s.cfg.eb.length < 2 ^ 32 → ∀ u, (Writer.writeHeader L s).1 = .ok u →
      P (Writer.writeHeader L s).2 := by
    intro s hs u h
    unfold Writer.writeHeader at h ⊢
    rw [Act.bind_ok (Act.gets_apply _ _)] at h ⊢
    cases hof : Writer.offsetToPointData s.cfg with
    | throw e => rw [hof, Act.bind_throw (Act.lift_apply _ _)] at h; cases h
    | ub => rw [hof, Act.bind_ub (Act.lift_apply _ _)] at h; cases h
    | ok n =>
      have hn := otpd_fits hof hs
      rw [hof, Act.bind_ok (Act.lift_apply _ _)] at h
      rw [Act.bind_ok (Act.lift_apply _ _)]
      refine ok_bind (P := P) (fun _ t1 h => ?_) h
      refine ok_bind (P := P) (fun _ t2 h => ?_) h
      refine ok_bind (P := P) (fun _ t3 h => ?_) h
      refine ok_bind (P := P) (fun _ t4 h => ?_) h
      refine ok_bind (P := P) (fun _ t5 h => ?_) h
      split at h
      · rename_i hx
        rw [if_pos hx]
        refine ok_bind (P := P) (fun _ t6 h => ?_) h
        refine ok_bind (P := P) (fun _ t7 h => ?_) h
        exact checked_stream hn h
      · rename_i hx
        rw [if_neg hx]
        refine ok_bind (P := P) (fun _ t7 h => ?_) h
        exact checked_stream hn h
  rw [Act.bind_apply] at h ⊢
  have := key s8 heb8
  generalize Writer.writeHeader L s8 = p at h this ⊢
  obtain ⟨r, s9⟩ := p
  cases r with
  | ok a => exact this a rfl
  | throw e => cases h
  | ub => cases h

/-- The full claim is false of a stream that has already failed (for instance when the exception of the
first failing call was caught): every acceptable compressed node is then "added", with offset 2^64 - 1 and
size 0, although nothing is stored. -/
theorem C44_failed_violated (L : Lazperf) (ord : Order) {w : Writer} (hf : w.base.out.fail = true)
    {key page : VoxelKey} {bs : Bytes} {n : Int} (hk : Valid key) (hp : Valid page) (hb : Below key page)
    (hn : n ≠ 0) :
    ((Op.addCompressed key bs n page).run L ord w).1 = .ok (some ⟨⟨key, 2 ^ 64 - 1, 0, n⟩, page⟩) ∧
    ((Op.addCompressed key bs n page).run L ord w).2.base.out = w.base.out := by
  have ht : w.base.out.tellp = 2 ^ 64 - 1 := by unfold OStream.tellp; rw [if_pos hf]
  have hs : spanOf w.base.out bs = 0 := by
    unfold spanOf; rw [write_fail hf, ht]; omega
  have := addCompressed_any L ord (w := w) (bs := bs) ((isValid_iff key).2 hk) ((isValid_iff page).2 hp)
    ((childOf_iff _ _).2 ⟨hk, hb⟩) hn (by rw [ht]; omega) (by rw [hs]; omega)
  rw [this]
  refine ⟨?_, write_fail hf bs⟩
  unfold nodeAt
  rw [ht, hs]
  rfl

/-- A disk with room for 1597 bytes: the third node of the sample does not fit. -/
def fullDisk : OStream := ⟨[], 0, false, some (.size 1597)⟩
def fullW : Writer := Sample.getOk (Writer.make fullDisk Sample.cfg {})
def fullRun := Sample.run Sample.L Sample.ord (Sample.ops.take 2) fullW []

example : (Writer.make fullDisk Sample.cfg {}).isOk = true ∧ fullRun.2.base.out.fail = false ∧
    fullRun.2.base.out.pos = 1596 ∧
    ((Op.addCompressed Sample.kB [4, 5] 1 VoxelKey.root).run Sample.L Sample.ord fullRun.2).2.base.out.fail = true ∧
    ((Op.addCompressed Sample.kB [4, 5] 1 VoxelKey.root).run Sample.L Sample.ord fullRun.2).1 =
      .throw .chunkTooLarge := by decide +kernel

/-- The sample closes on a disk with room for it. -/
example : Sample.w.base.open_ = true ∧ (Writer.close Sample.L Sample.ord Sample.w).1 = .ok () := by decide +kernel

end Copc
