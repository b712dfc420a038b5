import Verif.Model.Copies
import Verif.Spec.Format
import Verif.Props.Lifetime
import Verif.Props.WriterFinal
import Verif.Props.LazReader
/-! # C85: copies of a writer -/
namespace Copc
open Spec

/-- The call of the one writer that an action amounts to. -/
def CopyAct.asCall : CopyAct → Option Op
  | .copy => none
  | .call op => some op
  | .drop => some .close

section
variable {L : Lazperf} {ord : Order}

theorem history_append {w0 w w' : Writer} {h h' : List (Op × Res (Option Node))} (h1 : History L ord w0 h w)
    (h2 : History L ord w h' w') : History L ord w0 (h ++ h') w' := by
  induction h2 with
  | start => rw [List.append_nil]; exact h1
  | call op hh hub ih => rw [← List.append_assoc]; exact .call op ih hub
  | edit hh he ih => exact .edit ih he

/-- While a copy is left, a program on the copies of a writer has the effect of the same calls on one writer, with a `Close`
for each copy that was destroyed. -/
theorem C85_calls_partial : ∀ (as : List CopyAct) (w w' : Writer) (n m : Nat),
    Copies.exec L ord as (w, n) = .returns (w', m) → 0 < m →
    ∃ h, History L ord w h w' ∧ h.map (·.1) = as.filterMap CopyAct.asCall := by
  intro as
  induction as with
  | nil =>
    intro w w' n m he hm
    unfold Copies.exec at he
    injection he with he
    injection he with h1 h2
    subst h1
    exact ⟨[], .start, rfl⟩
  | cons a as ih =>
    intro w w' n m he hm
    cases a with
    | copy =>
      unfold Copies.exec at he
      split at he
      · cases he
      · obtain ⟨h, h1, h2⟩ := ih _ _ _ _ he hm
        exact ⟨h, h1, h2⟩
    | call op =>
      unfold Copies.exec at he
      split at he
      · cases he
      · rename_i hn
        obtain ⟨h, h1, h2⟩ := ih _ _ _ _ he hm
        have hub : (op.run L ord w).1 ≠ .ub := fun e => hn (.inr e)
        have hs : History L ord w ([] ++ [(op, (op.run L ord w).1)]) (op.run L ord w).2 := .call op .start hub
        exact ⟨_, history_append hs h1, by rw [List.map_append, h2]; rfl⟩
    | drop =>
      unfold Copies.exec at he
      split at he
      · cases he
      · split at he
        · split at he
          · -- the last copy: nothing is left to be done
            exfalso
            have : ∀ (as : List CopyAct) (w w' : Writer) (m : Nat), Copies.exec L ord as (w, 0) = .returns (w', m) → m = 0 := by
              intro as
              cases as with
              | nil =>
                intro w w' m he
                unfold Copies.exec at he
                injection he with he
                injection he with _ h2
                exact h2.symm
              | cons a as =>
                intro w w' m he
                cases a <;> unfold Copies.exec at he <;> simp at he
            have := this _ _ _ _ he
            omega
          · cases he
          · cases he
          · cases he
        · unfold Act.noexcept at he
          split at he
          · rename_i w1 hc
            obtain ⟨h, h1, h2⟩ := ih _ _ _ _ he hm
            have hrun : (Op.close.run L ord w) = (.ok none, w1) := by
              show (do Writer.close L ord; pure none : Act Writer (Option Node)) w = _
              rw [Act.bind_ok hc]; rfl
            have hs : History L ord w ([] ++ [(Op.close, (Op.close.run L ord w).1)]) (Op.close.run L ord w).2 :=
              .call .close .start (by rw [hrun]; simp)
            rw [hrun] at hs
            exact ⟨_, history_append hs h1, by rw [List.map_append, h2]; rfl⟩
          · cases he
          · cases he

theorem exec_append : ∀ (as bs : List CopyAct) (s t : Writer × Nat), Copies.exec L ord as s = .returns t →
    Copies.exec L ord (as ++ bs) s = Copies.exec L ord bs t := by
  intro as
  induction as with
  | nil =>
    intro bs s t h
    unfold Copies.exec at h
    injection h with h
    rw [h]; rfl
  | cons a as ih =>
    intro bs s t h
    obtain ⟨w, n⟩ := s
    generalize hR : Copies.exec L ord bs t = R
    cases a with
    | copy =>
      rw [List.cons_append]
      unfold Copies.exec at h ⊢
      split at h
      · cases h
      · rename_i hn
        rw [if_neg hn]; exact (ih _ _ _ h).trans hR
    | call op =>
      rw [List.cons_append]
      unfold Copies.exec at h ⊢
      split at h
      · cases h
      · rename_i hn
        rw [if_neg hn]; exact (ih _ _ _ h).trans hR
    | drop =>
      rw [List.cons_append]
      unfold Copies.exec at h ⊢
      split at h
      · cases h
      · rename_i hn
        rw [if_neg hn]
        split at h
        · rename_i h1
          rw [if_pos h1]
          split at h
          · rename_i o ho
            exact (ih _ _ _ h).trans hR
          · cases h
          · cases h
          · cases h
        · rename_i h1
          rw [if_neg h1]
          unfold Act.noexcept at h ⊢
          split at h
          · rename_i w1 hc
            exact (ih _ _ _ h).trans hR
          · cases h
          · cases h

/-- A writer whose last copy has been destroyed, with the file as it was left. -/
def ended (w : Writer) (o : OStream) : Writer :=
  { w with base := { w.base with
      out := o
      open_ := false } }

theorem exec_last {w : Writer} {o : OStream} (h : Writer.destroy L ord w = .returns o) :
    Copies.exec L ord [.drop] (w, 1) = .returns (ended w o, 0) := by
  unfold Copies.exec
  rw [if_neg (by simp), if_pos rfl, h]
  rfl

/-- Destroying a closed writer's copies changes nothing. -/
theorem exec_drops {w w' : Writer} (hc : Writer.close L ord w = (.ok (), w')) : ∀ n : Nat,
    ∃ v, Copies.exec L ord (List.replicate (n + 1) .drop) (w', n + 1) = .returns (v, 0) ∧ v.base.out = w'.base.out
  | 0 => by
    refine ⟨ended w' w'.base.out, ?_, rfl⟩
    exact exec_last (C63_destroy_closed hc)
  | n + 1 => by
    obtain ⟨v, h1, h2⟩ := exec_drops hc n
    refine ⟨v, ?_, h2⟩
    rw [List.replicate_succ]
    unfold Copies.exec
    rw [if_neg (by omega), if_neg (by omega)]
    unfold Act.noexcept
    rw [C32_idempotent hc]
    exact h1

/-- Copies that are only destroyed when all calls have been made do no harm: any calls through any of them (no `Close`
before the end) are a history of one writer, and destroying all of them leaves the file that its `Close` leaves. -/
theorem C85_file_partial {as : List CopyAct} {w0 w w' : Writer} {n : Nat} (hd : ∀ a ∈ as, a ≠ .drop ∧ a ≠ .call .close)
    (he : Copies.exec L ord as (w0, 1) = .returns (w, n)) (hc : Writer.close L ord w = (.ok (), w')) :
    (∃ h, History L ord w0 h w ∧ Unclosed h ∧ h.map (·.1) = as.filterMap CopyAct.asCall) ∧
    ∃ v, Copies.exec L ord (as ++ List.replicate n .drop) (w0, 1) = .returns (v, 0) ∧ v.base.out = w'.base.out := by
  have hpos : ∀ (as : List CopyAct) (s t : Writer × Nat), (∀ a ∈ as, a ≠ .drop) → Copies.exec L ord as s = .returns t →
      0 < s.2 → 0 < t.2 := by
    intro as
    induction as with
    | nil =>
      intro s t _ h h0
      unfold Copies.exec at h
      injection h with h
      rw [← h]; exact h0
    | cons a as ih =>
      intro s t hd h h0
      obtain ⟨w, n⟩ := s
      cases a with
      | copy =>
        unfold Copies.exec at h
        split at h
        · cases h
        · exact ih _ _ (fun b hb => hd b (by simp [hb])) h (by show 0 < n + 1; omega)
      | call op =>
        unfold Copies.exec at h
        split at h
        · cases h
        · exact ih _ _ (fun b hb => hd b (by simp [hb])) h h0
      | drop => exact absurd rfl (hd .drop (by simp))
  have hn : 0 < n := hpos _ _ _ (fun a ha => (hd a ha).1) he Nat.one_pos
  obtain ⟨h, h1, h2⟩ := C85_calls_partial _ _ _ _ _ he hn
  refine ⟨⟨h, h1, ?_, h2⟩, ?_⟩
  · intro x hx hcl
    have : Op.close ∈ as.filterMap CopyAct.asCall := by
      rw [← h2, ← hcl]
      exact List.mem_map_of_mem hx
    obtain ⟨a, ha, e⟩ := List.mem_filterMap.1 this
    obtain ⟨d1, d2⟩ := hd a ha
    cases a with
    | copy => cases e
    | call op => injection e with e; exact d2 (by rw [e])
    | drop => exact d1 rfl
  · rw [exec_append _ _ _ _ he]
    obtain ⟨k, rfl⟩ : ∃ k, n = k + 1 := ⟨n - 1, by omega⟩
    rw [List.replicate_succ]
    cases k with
    | zero =>
      refine ⟨ended w w'.base.out, ?_, rfl⟩
      exact exec_last (C63_destroy hc)
    | succ k =>
      obtain ⟨v, e1, e2⟩ := exec_drops hc k
      refine ⟨v, ?_, e2⟩
      unfold Copies.exec
      rw [if_neg (by omega), if_neg (by omega)]
      unfold Act.noexcept
      rw [hc]
      exact e1

theorem keeps_open_chunk (h : LasHeader) (bs : Bytes) (n : Int) :
    Keeps (fun b : BaseW => b.open_) (BaseW.writeChunk L h bs n true) := by
  unfold BaseW.writeChunk BaseW.finishChunk
  refine keeps_bind (keeps_gets _) fun _ => keeps_bind keeps_throwIf fun _ => ?_
  rw [if_pos rfl]
  · refine keeps_bind (fun _ => rfl) fun _ => keeps_bind (keeps_modify fun _ => rfl) fun _ => keeps_bind (keeps_gets _) fun _ => ?_
    exact keeps_bind keeps_throwIf fun _ => keeps_bind (keeps_modify fun _ => rfl) fun _ =>
      keeps_bind keeps_throwIf fun _ => keeps_pure _

/-- An addition neither opens nor closes the writer. -/
theorem keeps_open_add (L : Lazperf) (ord : Order) (key : VoxelKey) (bs : Bytes) (n : Int) (page : VoxelKey) :
    Keeps (fun w : Writer => w.base.open_) ((Op.addCompressed key bs n page).run L ord) := by
  refine keeps_bind ?_ fun _ => keeps_pure _
  unfold Writer.addNodeCompressed
  refine keeps_bind keeps_throwIf fun _ => ?_
  unfold Writer.doAddNode
  refine keeps_bind keeps_throwIf fun _ => keeps_bind keeps_throwIf fun _ => keeps_bind (keeps_gets _) fun c => ?_
  refine keeps_bind (fun w => ?_) fun r => keeps_bind (keeps_modify fun _ => rfl) fun _ => ?_
  · exact keeps_open_chunk _ _ _ w.base
  · refine keeps_bind (keeps_modify fun w => ?_) fun _ => keeps_bind (keeps_modify fun _ => rfl) fun _ => keeps_pure _
    show (if _ then _ else _ : Writer).base.open_ = _
    split <;> rfl

/-- The full claim is false: when a copy is destroyed, the file is closed for the others too, without an error. Any
compressed node added through the original afterwards is accepted and written over the start of the point data, and no
later `Close` or destruction mends the file. -/
theorem C85_violated {c : CopcConfig} {o : Writer.Overrides} {w0 w w' : Writer}
    {h : List (Op × Res (Option Node))} (hm : Writer.make OStream.fresh c o = .ok w0)
    (hcons : Consistent w0.cfg) (hr : w0.cfg.header.pointsByReturn.length = 15) (hl : w0.cfg.eb.length ≤ 341)
    (hh : History L ord w0 h w) (hu : Unclosed h) (hc : Writer.close L ord w = (.ok (), w'))
    {key page : VoxelKey} {bs : Bytes} {n : Int} (hk : Valid key) (hp : Valid page) (hb : Below key page)
    (hn : n ≠ 0) (hs : bs.length ≤ 2147483647) :
    ∃ v, Copies.exec L ord [.copy, .drop, .call (.addCompressed key bs n page)] (w, 1) = .returns (v, 1) ∧
      let start := (Header14.decode w'.base.out.data).pointOffset.toNat
      slice v.base.out.data start bs.length = bs ∧
      ∃ u, Copies.exec L ord [.drop] (v, 1) = .returns (u, 0) ∧ u.base.out.data = v.base.out.data := by
  obtain ⟨node, a1, a2, a3, a4⟩ := C32_add_violated hm hcons hr hl hh hu hc hk hp hb hn hs
  have hopen : ((Op.addCompressed key bs n page).run L ord w').2.base.open_ = false := by
    exact (keeps_open_add L ord key bs n page w').trans (close_closed_after hc)
  have hcl := close_closed (L := L) (ord := ord) hopen
  refine ⟨((Op.addCompressed key bs n page).run L ord w').2, ?_, a3, ?_⟩
  · unfold Copies.exec
    rw [if_neg (by simp)]
    unfold Copies.exec
    rw [if_neg (by simp), if_neg (by simp)]
    unfold Act.noexcept
    rw [hc]
    dsimp only
    unfold Copies.exec
    rw [if_neg (by rw [a1]; simp)]
    rfl
  · refine ⟨ended ((Op.addCompressed key bs n page).run L ord w').2
      ((Op.addCompressed key bs n page).run L ord w').2.base.out, ?_, rfl⟩
    exact exec_last (C63_destroy hcl)

end

/-- The calls of the sample, made through the writer and two copies of it, lead to a writer that can be closed; so
`C85_file_partial` and `C85_violated` can be used for it. -/
def copiedOps : List CopyAct := .copy :: (Sample.ops.map CopyAct.call ++ [.copy])

example : (∀ a ∈ copiedOps, a ≠ .drop ∧ a ≠ .call .close) ∧
    (match Copies.exec Sample.L Sample.ord copiedOps (Sample.w0, 1) with
      | .returns (w, n) => decide (n = 3 ∧ (Writer.close Sample.L Sample.ord w).1 = .ok ())
      | _ => false) = true := by
  refine ⟨?_, by decide +kernel⟩
  intro a ha
  simp only [copiedOps, List.mem_cons, List.mem_append, List.mem_map, List.not_mem_nil, or_false] at ha
  rcases ha with rfl | ⟨op, ho, rfl⟩ | rfl
  · exact ⟨by simp, by simp⟩
  · refine ⟨by simp, fun e => ?_⟩
    injection e with e
    subst e
    simp [Sample.ops] at ho
  · exact ⟨by simp, by simp⟩

example : Valid Sample.kA ∧ Below Sample.kA Sample.kA ∧ (Writer.close Sample.L Sample.ord Sample.w).1 = .ok () ∧
    (1 : Int) ≠ 0 ∧ [1, 2, 3, 4, 5, 6, 7, 8].length ≤ 2147483647 :=
  ⟨by decide, below_refl (by decide), Sample.closes, by decide, by decide⟩

/-! ### LAZ -/

/-- A `LazWriter`, a chunk of one point through it and one through a copy of it, and both closed. -/
def lazCopied : List (Res Unit) × LazCopies :=
  let L := LazSample.L
  let s0 : LazCopies := LazCopies.copy 0 ⟨LazSample.w0.base.out, [LazSample.w0]⟩
  let s1 := s0.call L 0 (.compressed (List.replicate 31 4) 1)
  let s2 := s1.2.call L 1 (.compressed (List.replicate 31 5) 1)
  let s3 := s2.2.call L 1 .close
  let s4 := s3.2.call L 0 .close
  ([s1.1, s2.1, s3.1, s4.1], s4.2)

/-- Nor for `LazWriter`: a copy has the stream in common but its own counts and list of chunks. All calls of the program
return, two points were written, and the header of the file says one. -/
theorem C85_laz_violated : lazCopied.1 = [.ok (), .ok (), .ok (), .ok ()] ∧
    Format.num lazCopied.2.out.data 8 247 = 1 := by decide +kernel

end Copc
