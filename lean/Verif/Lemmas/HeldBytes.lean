import Verif.Lemmas.CloseAgain
import Verif.Props.Header
/-! # Bytes that no attempt to close changes -/
namespace Copc
open Refuse HasOut Spec

/-- The bytes from `lo` to `hi` are those of `d`. -/
structure Held (d : Bytes) (lo hi : Nat) (o : OStream) : Prop where
  same : ∀ i, lo ≤ i → i < hi → byteAt o.data i = byteAt d i
  len : hi ≤ o.data.length

/-- Also the stream stands behind them. -/
structure HeldPast (d : Bytes) (lo hi : Nat) (o : OStream) : Prop extends Held d lo hi o where
  past : o.fail = true ∨ hi ≤ o.pos

/-- Also the stream stands at `p`. -/
structure HeldAt (d : Bytes) (lo hi p : Nat) (o : OStream) : Prop extends Held d lo hi o where
  at_ : o.fail = true ∨ o.pos = p

theorem patch_behind {d : Bytes} {p i : Nat} {bs : Bytes} (h : p + bs.length ≤ i) (hi : i < d.length) :
    byteAt (OStream.patch d p bs) i = byteAt d i := by
  unfold byteAt OStream.patch
  have h0 : p - d.length = 0 := by omega
  rw [h0]
  simp only [List.replicate_zero, List.append_nil]
  have e : (d.take p ++ bs).length = p + bs.length := by simp; omega
  rw [List.getElem?_append_right (by rw [e]; exact h), e, List.getElem?_drop]
  congr 2
  omega

variable {d : Bytes} {lo hi : Nat}

theorem HeldPast.write {o : OStream} (h : HeldPast d lo hi o) (bs : Bytes) : HeldPast d lo hi (o.write bs) := by
  rcases write_cases o bs with ⟨_, e⟩ | ⟨hf, j, e, h2⟩
  · rw [e]; exact h
  · have hp : hi ≤ o.pos := by
      rcases h.past with h | h
      · rw [hf] at h; cases h
      · exact h
    have := patch_length o.data o.pos (bs.take j)
    have := h.len
    refine ⟨⟨fun i h1 h3 => ?_, by rw [e]; omega⟩, ?_⟩
    · rw [e, patch_before _ (by omega)]
      exact h.same i h1 h3
    · rcases h2 with h2 | ⟨h2, _⟩
      · exact .inl h2
      · exact .inr (by omega)

theorem HeldPast.foldl {α : Type} (f : α → Bytes) : ∀ (l : List α) {o : OStream}, HeldPast d lo hi o →
    HeldPast d lo hi (l.foldl (fun o a => o.write (f a)) o)
  | [], _, h => h
  | a :: l, _, h => HeldPast.foldl f l (h.write (f a))

theorem Held.seekEnd {o : OStream} (h : Held d lo hi o) : HeldPast d lo hi o.seekEnd := by
  unfold OStream.seekEnd
  cases hf : o.fail with
  | true => exact ⟨h, .inl hf⟩
  | false => exact ⟨⟨h.same, h.len⟩, .inr h.len⟩

theorem Held.seekp {o : OStream} (h : Held d lo hi o) (p : Nat) : HeldAt d lo hi p (o.seekp p) := by
  unfold OStream.seekp
  cases hf : o.fail with
  | true => exact ⟨h, .inl hf⟩
  | false => exact ⟨⟨h.same, h.len⟩, .inr rfl⟩

theorem HeldAt.write {o : OStream} {p : Nat} (h : HeldAt d lo hi p o) {bs : Bytes} (hb : p + bs.length ≤ lo) :
    HeldAt d lo hi (p + bs.length) (o.write bs) := by
  rcases write_cases o bs with ⟨hf, e⟩ | ⟨hf, j, e, h2⟩
  · rw [e]; exact ⟨h.toHeld, .inl hf⟩
  · have hp : o.pos = p := by
      rcases h.at_ with h | h
      · rw [hf] at h; cases h
      · exact h
    have := patch_length o.data o.pos (bs.take j)
    have := h.len
    refine ⟨⟨fun i h1 h3 => ?_, by rw [e]; omega⟩, ?_⟩
    · rw [e, patch_behind (by simp; omega) (by omega)]
      exact h.same i h1 h3
    · rcases h2 with h2 | ⟨h2, _⟩
      · exact .inl h2
      · exact .inr (by omega)

/-! ### Calls -/

section
variable {σ α β : Type} [HasOut σ] {K P Q R : OStream → Prop}

/-- From a stream with `P` the call leads to one with `Q` if it returns, and to one with `K` anyway. -/
def Leads (K P Q : OStream → Prop) (x : Act σ α) : Prop :=
  ∀ s, P (out s) → K (out (x s).2) ∧ ∀ a, (x s).1 = .ok a → Q (out (x s).2)

theorem leads_bind {x : Act σ α} {f : α → Act σ β} (hx : Leads K P Q x) (hf : ∀ a, Leads K Q R (f a)) :
    Leads K P R (x >>= f) := by
  intro s h
  rw [Act.bind_apply]
  have h1 := hx s h
  generalize x s = p at h1 ⊢
  obtain ⟨r, s'⟩ := p
  cases r with
  | ok a => exact hf a s' (h1.2 a rfl)
  | throw e => exact ⟨h1.1, fun a h => by cases h⟩
  | ub => exact ⟨h1.1, fun a h => by cases h⟩

theorem leads_gets (hK : ∀ o, P o → K o) (g : σ → α) : Leads K P P (Act.gets g) := fun _ h => ⟨hK _ h, fun _ _ => h⟩
theorem leads_pure (hK : ∀ o, P o → K o) (a : α) : Leads K P P (pure a : Act σ α) := fun _ h => ⟨hK _ h, fun _ _ => h⟩
theorem leads_lift (hK : ∀ o, P o → K o) (r : Res α) : Leads K P P (Act.lift r : Act σ α) :=
  fun _ h => ⟨hK _ h, fun _ _ => h⟩
theorem leads_throwIf (hK : ∀ o, P o → K o) {c : Prop} [Decidable c] {e : Exc} :
    Leads K P P (Act.throwIf c e : Act σ Unit) := by
  intro s h
  rw [Act.throwIf_apply]
  split <;> exact ⟨hK _ h, fun _ _ => h⟩
theorem leads_other (hK : ∀ o, P o → K o) {g : σ → σ} (hg : ∀ s, out (g s) = out s) :
    Leads K P P (Act.modify g) := by
  intro s h
  have : P (out (g s)) := by rw [hg]; exact h
  exact ⟨hK _ this, fun _ _ => this⟩
theorem leads_stream {f : OStream → OStream} (hK : ∀ o, Q o → K o) (hf : ∀ o, P o → Q (f o)) {g : σ → σ}
    (hg : ∀ s, out (g s) = f (out s)) : Leads K P Q (Act.modify g) := by
  intro s h
  have : Q (out (g s)) := by rw [hg]; exact hf _ h
  exact ⟨hK _ this, fun _ _ => this⟩
theorem leads_forEach (hK : ∀ o, P o → K o) {x : β → Act σ Unit} (h : ∀ b, Leads K P P (x b)) :
    ∀ l : List β, Leads K P P (Act.forEach x l)
  | [] => leads_pure hK ()
  | b :: l => leads_bind (h b) fun _ => leads_forEach hK h l
theorem Leads.weaken {x : Act σ α} (h : Leads K P Q x) {P' Q' : OStream → Prop} (hp : ∀ o, P' o → P o)
    (hq : ∀ o, Q o → Q' o) : Leads K P' Q' x :=
  fun s hs => ⟨(h s (hp _ hs)).1, fun a e => hq _ ((h s (hp _ hs)).2 a e)⟩
end

theorem leads_onBase {α : Type} {K P Q : OStream → Prop} {x : Act BaseW α} (h : Leads K P Q x) :
    Leads K P Q (Writer.onBase x) := fun s hs => h s.base hs

theorem leads_emit (bs : Bytes) : Leads (Held d lo hi) (HeldPast d lo hi) (HeldPast d lo hi) (BaseW.emit bs) :=
  leads_stream (fun _ h => h.toHeld) (f := fun o => o.write bs) (fun _ h => h.write bs) fun _ => rfl

theorem leads_seekEnd : Leads (Held d lo hi) (Held d lo hi) (HeldPast d lo hi) (BaseW.onOut OStream.seekEnd) :=
  leads_stream (fun _ h => h.toHeld) (f := OStream.seekEnd) (fun _ h => h.seekEnd) fun _ => rfl

theorem leads_seekp (p : Nat) : Leads (Held d lo hi) (Held d lo hi) (HeldAt d lo hi p) (BaseW.onOut fun o => o.seekp p) :=
  leads_stream (fun _ h => h.toHeld) (f := fun o => o.seekp p) (fun _ h => h.seekp p) fun _ => rfl

theorem leads_emitAt {p n : Nat} {bs : Bytes} (hb : p + bs.length ≤ lo) (hn : n = p + bs.length) :
    Leads (Held d lo hi) (HeldAt d lo hi p) (HeldAt d lo hi n) (BaseW.emit bs) :=
  leads_stream (fun _ h => h.toHeld) (f := fun o => o.write bs) (fun _ h => by rw [hn]; exact h.write hb) fun _ => rfl

abbrev past (d : Bytes) (lo hi : Nat) : ∀ o, HeldPast d lo hi o → Held d lo hi o := fun _ h => h.toHeld
abbrev at_ (d : Bytes) (lo hi p : Nat) : ∀ o, HeldAt d lo hi p o → Held d lo hi o := fun _ h => h.toHeld

theorem leads_chunkTable (L : Lazperf) {otpd : Nat} (h : otpd + 8 ≤ lo) :
    Leads (Held d lo hi) (Held d lo hi) (Held d lo hi) (BaseW.writeChunkTable L otpd) := by
  unfold BaseW.writeChunkTable
  refine leads_bind leads_seekEnd fun _ => leads_bind (leads_gets (past _ _ _) _) fun off => ?_
  refine leads_bind (leads_other (past _ _ _) fun _ => rfl) fun _ => leads_bind (leads_emit _) fun _ => ?_
  refine leads_bind (leads_gets (past _ _ _) _) fun n => leads_bind (leads_throwIf (past _ _ _)) fun _ => ?_
  refine leads_bind (leads_emit _) fun _ => leads_bind (leads_gets (past _ _ _) _) fun t => ?_
  refine leads_bind (leads_emit _) fun _ => leads_bind ((leads_seekp otpd).weaken (past _ _ _) fun _ h => h) fun _ => ?_
  exact (leads_emitAt (by simp; omega) rfl).weaken (fun _ h => h) fun _ h => h.toHeld

theorem leads_wkt (t : Bytes) :
    Leads (Held d lo hi) (HeldPast d lo hi) (HeldPast d lo hi) (BaseW.writeWkt t) := by
  unfold BaseW.writeWkt
  split
  · exact leads_pure (past _ _ _) _
  · exact leads_bind (leads_other (past _ _ _) fun _ => rfl) fun _ => leads_emit _

theorem leads_page (ord : Order) (hier : List (VoxelKey × VoxelKey)) (k : VoxelKey) :
    Leads (Held d lo hi) (HeldPast d lo hi) (HeldPast d lo hi) (Writer.writePage ord hier k) := by
  unfold Writer.writePage
  dsimp only
  refine leads_bind (leads_gets (past _ _ _) _) fun ns => ?_
  refine leads_bind (leads_stream (past _ _ _) (f := OStream.seekEnd) (fun _ h => h.toHeld.seekEnd) fun _ => rfl) fun _ => ?_
  refine leads_bind (leads_stream (past _ _ _) (f := fun o => o.write _) (fun _ h => h.write _) fun _ => rfl) fun _ => ?_
  refine leads_bind (leads_gets (past _ _ _) _) fun off => leads_bind (leads_throwIf (past _ _ _)) fun _ => ?_
  refine leads_bind (leads_other (past _ _ _) fun _ => rfl) fun _ => ?_
  have hrest : Leads (Held d lo hi) (HeldPast d lo hi) (HeldPast d lo hi) (do
      Act.modify fun s : Writer.PageW => { s with w := { s.w with base := { s.w.base with
        out := (ord.nodes k ns).foldl (fun o p => o.write p.2.entry.pack) s.w.base.out } } }
      let placed ← Act.gets (·.placed)
      Act.modify fun s : Writer.PageW => { s with w := { s.w with base := { s.w.base with
        out := (ord.subs k (Writer.subPages hier k)).foldl (fun o q => o.write (Writer.pageEntry placed q).pack)
          s.w.base.out } } } : Act Writer.PageW Unit) := by
    refine leads_bind (leads_stream (past _ _ _)
      (f := fun o => (ord.nodes k ns).foldl (fun o p => o.write p.2.entry.pack) o)
      (fun _ h => HeldPast.foldl (fun p : VoxelKey × Node => p.2.entry.pack) _ h) fun _ => rfl) fun _ => ?_
    refine leads_bind (leads_gets (past _ _ _) _) fun placed => ?_
    exact leads_stream (past _ _ _)
      (f := fun o => (ord.subs k (Writer.subPages hier k)).foldl (fun o q => o.write (Writer.pageEntry placed q).pack) o)
      (fun _ h => HeldPast.foldl (fun q => (Writer.pageEntry placed q).pack) _ h) fun _ => rfl
  split
  · exact leads_bind (leads_other (past _ _ _) fun _ => rfl) fun _ => hrest
  · exact hrest

theorem leads_pages (ord : Order) :
    Leads (Held d lo hi) (HeldPast d lo hi) (HeldPast d lo hi) (Writer.writePages ord) := by
  intro s h
  unfold Writer.writePages
  split
  · exact leads_forEach (past _ _ _) (fun k => leads_page ord _ k) _ ⟨s, []⟩ h
  · exact ⟨h.toHeld, fun _ e => by cases e⟩
  · exact ⟨h.toHeld, fun _ e => by cases e⟩

/-- `Close` up to the header. -/
def closeStart (L : Lazperf) (ord : Order) (c : CopcConfig) (otpd : Nat) : Act Writer Unit := do
  Writer.onBase (BaseW.writeChunkTable L otpd)
  Writer.onBase (BaseW.onOut OStream.seekEnd)
  let n ← Act.gets fun w : Writer => w.pages.length
  Writer.onBase (Act.modify fun b => { b with
    evlrOffset := b.out.tellp
    evlrCount := (b.evlrCount + n) % 2 ^ 32 })
  Writer.writePages ord
  Writer.onBase (BaseW.writeWkt c.wkt)

theorem closeBody_start (L : Lazperf) (ord : Order) (c : CopcConfig) (otpd : Nat) :
    closeBody L ord c otpd = (closeStart L ord c otpd >>= fun _ => Writer.writeHeader L >>= fun _ =>
      Writer.onBase (Act.modify fun b => { b with open_ := false })) := by
  unfold closeBody closeStart
  simp only [act_assoc]

theorem leads_start (L : Lazperf) (ord : Order) (c : CopcConfig) {otpd : Nat} (h : otpd + 8 ≤ lo) :
    Leads (Held d lo hi) (Held d lo hi) (Held d lo hi) (closeStart L ord c otpd) := by
  unfold closeStart
  refine leads_bind (leads_onBase (leads_chunkTable L h)) fun _ => leads_bind (leads_onBase leads_seekEnd) fun _ => ?_
  refine leads_bind (leads_gets (past _ _ _) _) fun n => ?_
  refine leads_bind (leads_onBase (leads_other (past _ _ _) fun _ => rfl)) fun _ => leads_bind (leads_pages ord) fun _ => ?_
  exact (leads_onBase (leads_wkt _)).weaken (fun _ h => h) (past _ _ _)

theorem keeps_start (L : Lazperf) (ord : Order) (c : CopcConfig) (otpd : Nat) :
    Keeps keptParts (closeStart L ord c otpd) := by
  unfold closeStart
  refine keeps_bind (keeps_onBase' _) fun _ => keeps_bind (keeps_onBase' _) fun _ => ?_
  refine keeps_bind (keeps_gets _) fun n => keeps_bind (keeps_onBase' _) fun _ => ?_
  exact keeps_bind (keeps_writePages ord) fun _ => keeps_onBase' _

/-! ### The header -/

section
variable {σ α β : Type} [HasOut σ] {K P Q : OStream → Prop}

theorem leads_lifted (hK : ∀ o, P o → K o) {r : Res α} {f : α → Act σ β} (h : ∀ a, r = .ok a → Leads K P Q (f a)) :
    Leads K P Q (Act.lift r >>= f) := by
  intro s hs
  rw [Act.bind_apply, Act.lift_apply]
  cases hr : r with
  | ok a => exact h a hr s hs
  | throw e => exact ⟨hK _ hs, fun _ e => by cases e⟩
  | ub => exact ⟨hK _ hs, fun _ e => by cases e⟩
end

theorem leads_lasHeader {hd : LasHeader} (hr : hd.pointsByReturn.length = 15) (otpd : Nat) (x : Bool) (hlo : 375 ≤ lo) :
    Leads (Held d lo hi) (Held d lo hi) (HeldAt d lo hi 375) (BaseW.writeLasHeader hd otpd x) := by
  unfold BaseW.writeLasHeader
  refine leads_bind (leads_lift (fun _ h => h) _) fun eb => leads_bind (leads_gets (fun _ h => h) _) fun b => ?_
  refine leads_lifted (fun _ h => h) fun h14 he => ?_
  have hl := Header14.length_encode (toLazPerf_sized hr he)
  exact leads_bind (leads_seekp 0) fun _ => leads_emitAt (by omega) (by omega)

theorem leads_lazVlrs (L : Lazperf) {c : LazConfig} {eb p : Nat} (he : c.header.ebSize = .ok eb)
    (hp : p + (lazVlrs L c eb).length ≤ lo) :
    Leads (Held d lo hi) (HeldAt d lo hi p) (HeldAt d lo hi (p + (lazVlrs L c eb).length))
      (BaseW.writeLazAndEbVlrs L c) := by
  unfold BaseW.writeLazAndEbVlrs
  refine leads_lifted (at_ _ _ _ _) fun eb' h => ?_
  rw [he] at h
  obtain rfl := Res.ok.inj h
  unfold lazVlrs at hp ⊢
  split at hp <;> rename_i h
  · rw [if_pos h, if_pos h]
    rw [List.length_append] at hp ⊢
    exact leads_bind (leads_emitAt (by omega) rfl) fun _ => leads_emitAt (by omega) (by omega)
  · rw [if_neg h, if_neg h]
    rw [List.length_append] at hp ⊢
    simp only [List.length_nil] at hp ⊢
    exact leads_emitAt (by omega) (by omega)

theorem leads_check {p : Nat} (otpd : Nat) :
    Leads (Held d lo hi) (HeldAt d lo hi p) (HeldAt d lo hi p) (BaseW.checkHeaderSize otpd) := by
  unfold BaseW.checkHeaderSize
  exact leads_bind (leads_gets (at_ _ _ _ _) _) fun _ => leads_throwIf (at_ _ _ _ _)

theorem held_header (L : Lazperf) {w : Writer} {otpd : Nat} (hc : Consistent w.cfg)
    (ho : Writer.offsetToPointData w.cfg = .ok otpd) (hr : w.cfg.header.pointsByReturn.length = 15) (hlo : otpd ≤ lo)
    (h : Held d lo hi w.base.out) : Held d lo hi (Writer.writeHeader L w).2.base.out := by
  unfold Writer.writeHeader
  rw [Act.bind_ok (Act.gets_apply _ _), ho, Act.bind_ok (Act.lift_apply _ _)]
  have hex := hc.exact ho L
  have hlen : ∀ gps, (copcVlrs L w.cfg (w.cfg.eb.map lasItemSize).sum gps).length ≤ lo - 375 := fun gps => by
    have := hex gps; omega
  have h375 : 375 ≤ lo := by have := hex ⟨Flt.ofInt 0, Flt.ofInt 0, Flt.ofInt 0, Flt.ofInt 0⟩; omega
  refine And.left (leads_bind (Q := HeldAt d lo hi 375) (R := Held d lo hi) (leads_onBase (leads_lasHeader hr otpd _ h375))
    (fun _ => ?_) w h)
  refine leads_bind (leads_lift (at_ _ _ _ _) _) fun gps => ?_
  have hl := hlen gps
  have hx : (copcVlrs L w.cfg (w.cfg.eb.map lasItemSize).sum gps).length =
      (BaseW.vlrBytes idCopc 1 BaseW.descInfo (w.cfg.info.encode gps)).length +
      ((BaseW.vlrBytes idCopc 10000 BaseW.descExtents (Extents.putItems w.cfg.extents.toVlr)).length +
      ((if w.cfg.extents.extStats then
        BaseW.vlrBytes idRock 10001 BaseW.descStats (Extents.putItems w.cfg.extents.toVlrExtended) else []).length +
        (lazVlrs L w.cfg.toLazConfig (w.cfg.eb.map lasItemSize).sum).length)) := by
    unfold copcVlrs
    simp only [List.length_append]
  rw [hx] at hl
  clear hx
  refine leads_bind (leads_onBase (leads_emitAt (by omega) rfl)) fun _ => ?_
  refine leads_bind (leads_lift (at_ _ _ _ _) _) fun _ => ?_
  refine leads_bind (leads_onBase (leads_emitAt (by omega) rfl)) fun _ => ?_
  have hend : ∀ p, p + (lazVlrs L w.cfg.toLazConfig (w.cfg.eb.map lasItemSize).sum).length ≤ lo →
      Leads (Held d lo hi) (HeldAt d lo hi p) (Held d lo hi)
        (Writer.onBase (BaseW.writeLazAndEbVlrs L w.cfg.toLazConfig) >>= fun _ =>
          Writer.onBase (BaseW.checkHeaderSize otpd)) := fun p hp =>
    leads_bind (leads_onBase (leads_lazVlrs L hc.eb.1 hp)) fun _ =>
      (leads_onBase (leads_check otpd)).weaken (fun _ h => h) (at_ _ _ _ _)
  split at hl <;> rename_i hs
  · rw [if_pos hs]
    refine leads_bind (leads_onBase (leads_emitAt (by omega) rfl)) fun _ => ?_
    exact hend _ (by omega)
  · rw [if_neg hs]
    simp only [List.length_nil] at hl
    exact hend _ (by omega)

/-- No `Close`, whatever its outcome, changes the bytes behind the pointer to the chunk table. -/
theorem held_close (L : Lazperf) (ord : Order) {w : Writer} {otpd : Nat} (hc : Consistent w.cfg)
    (ho : Writer.offsetToPointData w.cfg = .ok otpd) (hr : w.cfg.header.pointsByReturn.length = 15)
    (hlo : otpd + 8 ≤ lo) (h : Held d lo hi w.base.out) : Held d lo hi (Writer.close L ord w).2.base.out := by
  cases hop : w.base.open_ with
  | false => rw [close_closed hop]; exact h
  | true =>
    rw [close_body L ord hop ho, closeBody_start, Act.bind_apply]
    have h1 := leads_start L ord w.cfg hlo (otpd := otpd) w h
    have h2 := keeps_start L ord w.cfg otpd w
    generalize closeStart L ord w.cfg otpd w = p at h1 h2 ⊢
    obtain ⟨r, s⟩ := p
    cases r with
    | throw e => exact h1.1
    | ub => exact h1.1
    | ok a =>
      have h3 : Held d lo hi s.base.out := h1.1
      have e1 : s.cfg.toLazConfig = w.cfg.toLazConfig := congrArg (fun k => k.2.1) h2
      have e2 : s.cfg.extents = w.cfg.extents := congrArg (fun k => k.2.2) h2
      have hc' : Consistent s.cfg := by
        refine ⟨?_, ?_, ?_, ?_⟩
        · rw [e1]; exact hc.fmt
        · rw [e1]; exact hc.len
        · rw [e1]; exact hc.items
        · rw [e1, e2]; exact hc.extents
      have ho' : Writer.offsetToPointData s.cfg = .ok otpd := by
        rw [← ho]; unfold Writer.offsetToPointData; rw [e1, e2]
      have h4 := held_header L hc' ho' (by rw [e1]; exact hr) (by omega) h3
      dsimp only
      rw [Act.bind_apply]
      generalize Writer.writeHeader L s = q at h4 ⊢
      obtain ⟨r', s'⟩ := q
      cases r' with
      | throw e => exact h4
      | ub => exact h4
      | ok a => exact h4

end Copc
