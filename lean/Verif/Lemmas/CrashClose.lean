import Verif.Lemmas.Crash
/-! # Closing a writer whose output ends at some byte -/
namespace Copc
open Refuse HasOut

/-! ### The part before the header -/

theorem safe_onBase {α : Type} {m : Nat} {x : Act BaseW α} (h : Safe m x) : Safe m (Writer.onBase x) where
  stuck s hs := h.stuck s.base hs
  blank s hs := h.blank s.base hs
  good s hs := h.good s.base hs
  twin s k hs := by
    rcases h.twin s.base k hs with ⟨k', e⟩ | e
    · left
      refine ⟨k', ?_⟩
      unfold Writer.onBase
      rw [Act.zoom_apply, Act.zoom_apply]
      have e' : x (doomed k s).base = ((x s.base).1, doomed k' (x s.base).2) := e
      rw [e']
      rfl
    · exact .inr e

theorem tellp_dies {o : OStream} (k : Nat) : (o.dies k).tellp = o.tellp := rfl

theorem safe_onOut {m : Nat} {f : OStream → OStream} (hf : Calm m f) : Safe m (BaseW.onOut f) := safe_stream (σ := BaseW) hf

theorem safe_emit (m : Nat) (bs : Bytes) : Safe m (BaseW.emit bs) := safe_onOut (calm_write m bs)

theorem safe_chunkTable (L : Lazperf) {m otpd : Nat} (h : m ≤ otpd) : Safe m (BaseW.writeChunkTable L otpd) := by
  unfold BaseW.writeChunkTable
  refine safe_bind (safe_onOut (calm_seekEnd m)) fun _ => ?_
  refine safe_bind (safe_gets ?_) fun off => ?_
  · rintro s o _ ⟨k, rfl⟩; rfl
  refine safe_bind (safe_other (fun _ => rfl) fun _ _ _ => rfl) fun _ => ?_
  refine safe_bind (safe_emit m _) fun _ => ?_
  refine safe_bind (safe_gets ?_) fun n => ?_
  · rintro s o _ ⟨k, rfl⟩; rfl
  refine safe_bind safe_throwIf fun _ => safe_bind (safe_emit m _) fun _ => ?_
  refine safe_bind (safe_gets ?_) fun t => ?_
  · rintro s o _ ⟨k, rfl⟩; rfl
  exact safe_bind (safe_emit m _) fun _ => safe_bind (safe_onOut (calm_seekp h)) fun _ => safe_emit m _

theorem safe_wkt (m : Nat) (wkt : Bytes) : Safe m (BaseW.writeWkt wkt) := by
  unfold BaseW.writeWkt
  refine safe_ite (safe_pure _) ?_
  exact safe_bind (safe_other (fun _ => rfl) fun _ _ _ => rfl) fun _ => safe_emit m _

theorem safe_writePage (m : Nat) (ord : Order) (hier : List (VoxelKey × VoxelKey)) (k : VoxelKey) :
    Safe m (Writer.writePage ord hier k) := by
  unfold Writer.writePage
  dsimp only
  refine safe_bind (safe_gets ?_) fun ns => ?_
  · rintro s o _ ⟨k, rfl⟩; rfl
  refine safe_bind (safe_stream (σ := Writer.PageW) (calm_seekEnd m)) fun _ => ?_
  refine safe_bind (safe_stream (σ := Writer.PageW) (calm_write m _)) fun _ => ?_
  refine safe_bind (safe_gets ?_) fun off => ?_
  · rintro s o _ ⟨k, rfl⟩; rfl
  refine safe_bind safe_throwIf fun _ => ?_
  refine safe_bind (safe_other (fun _ => rfl) fun _ _ _ => rfl) fun _ => ?_
  have hrest : Safe m (do
      Act.modify fun s : Writer.PageW => { s with w := { s.w with base := { s.w.base with
        out := (ord.nodes k ns).foldl (fun o p => o.write p.2.entry.pack) s.w.base.out } } }
      let placed ← Act.gets (·.placed)
      Act.modify fun s : Writer.PageW => { s with w := { s.w with base := { s.w.base with
        out := (ord.subs k (Writer.subPages hier k)).foldl (fun o q => o.write (Writer.pageEntry placed q).pack)
          s.w.base.out } } } : Act Writer.PageW Unit) := by
    refine safe_bind (safe_stream (σ := Writer.PageW) (calm_foldl m (fun p : VoxelKey × Node => p.2.entry.pack) _)) fun _ => ?_
    refine safe_bind (safe_gets ?_) fun placed => ?_
    · rintro s o _ ⟨k, rfl⟩; rfl
    exact safe_stream (σ := Writer.PageW) (calm_foldl m (fun q => (Writer.pageEntry placed q).pack) _)
  split
  · exact safe_bind (safe_other (fun _ => rfl) fun _ _ _ => rfl) fun _ => hrest
  · exact hrest

theorem safe_writePages (m : Nat) (ord : Order) : Safe m (Writer.writePages ord) := by
  have hF : ∀ hier l, Safe m (Act.forEach (Writer.writePage ord hier) l) :=
    fun hier l => safe_forEach (fun k => safe_writePage m ord hier k) l
  refine ⟨fun s h => ?_, fun s h => ?_, fun s h => ?_, fun s k h => ?_⟩
  · unfold Writer.writePages
    split
    · exact (hF _ _).stuck ⟨s, []⟩ h
    · rfl
    · rfl
  · unfold Writer.writePages
    split
    · exact (hF _ _).blank ⟨s, []⟩ h
    · exact h
    · exact h
  · unfold Writer.writePages
    split
    · exact (hF _ _).good ⟨s, []⟩ h
    · exact h
    · exact h
  · unfold Writer.writePages
    have hp : (doomed k s).pages = s.pages := rfl
    rw [hp]
    split
    · rename_i hier _
      dsimp only
      rcases (hF hier (Writer.visit ord hier (Writer.levels s.pages) VoxelKey.root)).twin ⟨s, []⟩ k h with ⟨k', e⟩ | e
      · left
        refine ⟨k', ?_⟩
        have e' : Act.forEach (Writer.writePage ord hier) (Writer.visit ord hier (Writer.levels s.pages) VoxelKey.root)
          ⟨doomed k s, []⟩ = _ := e
        rw [e']
        rfl
      · exact .inr e
    · exact .inl ⟨k, rfl⟩
    · exact .inl ⟨k, rfl⟩

/-! ### Programs on a failed stream -/

section
variable {σ α β : Type} [HasOut σ]

/-- On a failed stream the call writes nothing. -/
def Stuck (x : Act σ α) : Prop := ∀ s, (out s).fail = true → out (x s).2 = out s

theorem stuck_bind {x : Act σ α} {f : α → Act σ β} (hx : Stuck x) (hf : ∀ a, Stuck (f a)) : Stuck (x >>= f) := by
  intro s h
  rw [Act.bind_apply]
  have h1 := hx s h
  generalize x s = p at h1 ⊢
  obtain ⟨r, s'⟩ := p
  cases r with
  | ok a =>
    dsimp only at h1 ⊢
    rw [hf a s' (by rw [h1]; exact h), h1]
  | throw e => exact h1
  | ub => exact h1

theorem stuck_gets (g : σ → α) : Stuck (Act.gets g) := fun _ _ => rfl
theorem stuck_lift (r : Res α) : Stuck (Act.lift r : Act σ α) := fun _ _ => rfl
end

theorem stuck_emit (bs : Bytes) : Stuck (BaseW.emit bs) := (safe_emit 0 bs).stuck
theorem stuck_onBase {α : Type} {x : Act BaseW α} (h : Stuck x) : Stuck (Writer.onBase x) := fun s hs => h s.base hs

theorem stuck_lasHeader (h : LasHeader) (otpd : Nat) (ext : Bool) : Stuck (BaseW.writeLasHeader h otpd ext) := by
  unfold BaseW.writeLasHeader
  refine stuck_bind (stuck_lift _) fun _ => stuck_bind (stuck_gets _) fun _ => stuck_bind (stuck_lift _) fun _ => ?_
  exact stuck_bind (safe_onOut (calm_seekp (Nat.le_refl 0))).stuck fun _ => stuck_emit _

theorem stuck_lazVlrs (L : Lazperf) (c : LazConfig) : Stuck (BaseW.writeLazAndEbVlrs L c) := by
  unfold BaseW.writeLazAndEbVlrs
  refine stuck_bind (stuck_lift _) fun _ => ?_
  split
  · exact stuck_bind (stuck_emit _) fun _ => stuck_emit _
  · exact stuck_emit _

theorem stuck_check (otpd : Nat) : Stuck (BaseW.checkHeaderSize otpd) := by
  unfold BaseW.checkHeaderSize
  exact stuck_bind (stuck_gets _) fun _ => (safe_throwIf (m := 0)).stuck

theorem stuck_writeHeader (L : Lazperf) : Stuck (Writer.writeHeader L) := by
  unfold Writer.writeHeader
  refine stuck_bind (stuck_gets _) fun c => stuck_bind (stuck_lift _) fun otpd => ?_
  refine stuck_bind (stuck_onBase (stuck_lasHeader _ _ _)) fun _ => stuck_bind (stuck_lift _) fun gps => ?_
  refine stuck_bind (stuck_onBase (stuck_emit _)) fun _ => stuck_bind (stuck_lift _) fun _ => ?_
  refine stuck_bind (stuck_onBase (stuck_emit _)) fun _ => ?_
  have hrest := stuck_bind (stuck_onBase (stuck_lazVlrs L c.toLazConfig)) fun _ => stuck_onBase (stuck_check otpd)
  split
  · exact stuck_bind (stuck_onBase (stuck_emit _)) fun _ => hrest
  · exact hrest

/-! ### The header -/

/-- A stream that held `d`, was at its beginning and could take `k` bytes, after a write of `a`. -/
def torn (d : Bytes) (k : Nat) (a : Bytes) : OStream :=
  if a.length ≤ k then ⟨a ++ d.drop a.length, a.length, false, some (.total (k - a.length))⟩
  else ⟨a.take k ++ d.drop k, k, true, some (.total 0)⟩

theorem torn_nil (d : Bytes) (k : Nat) : torn d k [] = ⟨d, 0, false, some (.total k)⟩ := by
  unfold torn; simp

theorem torn_write (d : Bytes) (k : Nat) (a bs : Bytes) : (torn d k a).write bs = torn d k (a ++ bs) := by
  unfold torn
  by_cases h : a.length ≤ k
  · rw [if_pos h]
    unfold OStream.write
    simp only [Bool.false_eq_true, if_false]
    by_cases h2 : bs.length ≤ k - a.length
    · rw [if_pos h2, if_pos (by simp; omega)]
      simp only [List.length_append, OStream.mk.injEq, true_and, Option.some.injEq, Limit.total.injEq]
      refine ⟨?_, by omega⟩
      unfold OStream.patch
      have : a.length - (a.length + (d.length - a.length)) = 0 := by omega
      simp only [List.take_left', List.length_append, List.length_drop, this, List.replicate_zero, List.append_nil,
        List.append_assoc, List.append_cancel_left_eq]
      rw [List.drop_append]
      simp [List.drop_drop]
    · rw [if_neg h2, if_neg (by simp; omega)]
      have e1 : a.length + (k - a.length) = k := by omega
      have e2 : (a ++ bs).take k = a ++ bs.take (k - a.length) := by
        rw [List.take_append, List.take_of_length_le h]
      rw [e2]
      simp only [OStream.mk.injEq, and_true]
      refine ⟨?_, e1⟩
      unfold OStream.patch
      have : a.length - (a.length + (d.length - a.length)) = 0 := by omega
      simp only [List.take_left', List.length_append, List.length_drop, this, List.replicate_zero, List.append_nil,
        List.append_assoc, List.append_cancel_left_eq]
      rw [List.drop_append]
      have h3 : (bs.take (k - a.length)).length = k - a.length := by simp; omega
      rw [h3]
      simp [List.drop_drop, e1]
      exact h
  · rw [if_neg h, if_neg (by simp; omega), write_fail rfl]
    rw [List.take_append_of_le_length (by omega)]

theorem torn_data (d : Bytes) (k : Nat) (a : Bytes) : (torn d k a).data = a.take k ++ d.drop (min k a.length) := by
  unfold torn
  split
  · rename_i h
    rw [Nat.min_eq_right h, List.take_of_length_le h]
  · rename_i h
    rw [Nat.min_eq_left (by omega)]

theorem emit_torn (d : Bytes) (k : Nat) (a bs : Bytes) (w : Writer) :
    Writer.onBase (BaseW.emit bs) { w with base := { w.base with out := torn d k a } } =
      (.ok (), { w with base := { w.base with out := torn d k (a ++ bs) } }) := by
  rw [← torn_write]
  rfl

/-- The stream after `WriteHeader` on a stream that is to die. -/
theorem writeHeader_torn (L : Lazperf) (w : Writer) (d : Bytes) (k : Nat)
    (hd : w.base.out.seekp 0 = torn d k [])
    {otpd eb : Nat} {h14 : Header14} {gps : Extent}
    (h1 : Writer.offsetToPointData w.cfg = .ok otpd) (h2 : w.cfg.header.ebSize = .ok eb)
    (h3 : w.cfg.header.toLazPerf (UInt32.ofNat otpd) (UInt64.ofNat w.base.pointCount)
      (UInt64.ofNat w.base.evlrOffset) (UInt32.ofNat w.base.evlrCount) (eb ≠ 0) w.cfg.extents.extStats = .ok h14)
    (h4 : w.cfg.extents.getGpsTime = .ok gps) (h5 : Writer.boundsExtents w.cfg.header = .ok ()) :
    (Writer.writeHeader L w).2.base.out = torn d k (headBlock L w.cfg eb gps h14) := by
  unfold Writer.writeHeader
  rw [Act.bind_ok (Act.gets_apply _ _), h1, Act.bind_ok (Act.lift_apply _ _)]
  have e1 : Writer.onBase (BaseW.writeLasHeader w.cfg.header otpd w.cfg.extents.extStats) w =
      (.ok (), { w with base := { w.base with out := torn d k h14.encode } }) := by
    unfold Writer.onBase
    rw [Act.zoom_apply]
    unfold BaseW.writeLasHeader
    simp only [Act.bind_apply, Act.lift_apply, h2, Act.gets_apply, id, h3, BaseW.emit, BaseW.onOut,
      Act.modify_apply, hd, torn_write, List.nil_append]
  rw [Act.bind_ok e1, h4, Act.bind_ok (Act.lift_apply _ _), Act.bind_ok (emit_torn _ _ _ _ _), h5,
    Act.bind_ok (Act.lift_apply _ _), Act.bind_ok (emit_torn _ _ _ _ _)]
  have key : ∀ (a : Bytes), ((do
        Writer.onBase (BaseW.writeLazAndEbVlrs L w.cfg.toLazConfig)
        Writer.onBase (BaseW.checkHeaderSize otpd) : Act Writer Unit)
        { w with base := { w.base with out := torn d k a } }).2.base.out =
      torn d k (a ++ lazVlrs L w.cfg.toLazConfig eb) := by
    intro a
    have e2 : Writer.onBase (BaseW.writeLazAndEbVlrs L w.cfg.toLazConfig)
        { w with base := { w.base with out := torn d k a } } =
        (.ok (), { w with base := { w.base with out := torn d k (a ++ lazVlrs L w.cfg.toLazConfig eb) } }) := by
      unfold Writer.onBase
      rw [Act.zoom_apply]
      unfold BaseW.writeLazAndEbVlrs lazVlrs
      simp only [Act.bind_apply, Act.lift_apply, h2]
      by_cases h : eb > 0
      · simp only [if_pos h, Act.bind_apply, BaseW.emit, BaseW.onOut, Act.modify_apply, torn_write, List.append_assoc]
      · simp only [if_neg h, BaseW.emit, BaseW.onOut, Act.modify_apply, torn_write, List.nil_append]
    rw [Act.bind_ok e2]
    unfold Writer.onBase
    rw [Act.zoom_apply]
    unfold BaseW.checkHeaderSize
    simp only [Act.bind_apply, Act.gets_apply]
    rw [Act.throwIf_apply]
    split <;> rfl
  by_cases hx : w.cfg.extents.extStats = true
  · simp only [hx, if_true]
    rw [Act.bind_ok (emit_torn _ _ _ _ _), key]
    simp only [headBlock, copcVlrs, hx, if_true, List.append_assoc]
  · simp only [hx]
    simp only [Bool.false_eq_true, if_false]
    rw [key]
    simp only [headBlock, copcVlrs, hx, if_false, List.append_assoc, List.nil_append, Bool.false_eq_true]

/-- A file whose first `n` bytes are those of `F` up to `j`, then zeros, and the rest that of `F`. -/
def TornAt (F : Bytes) (n j : Nat) (d : Bytes) : Prop :=
  j ≤ n ∧ d = F.take j ++ (List.replicate (n - j) 0 ++ F.drop n)

theorem blank_split {n : Nat} {o : OStream} (hb : Blank n o) (hf : o.fail = false) :
    o.data = List.replicate n 0 ++ o.data.drop n := by
  have hl : n ≤ o.data.length := by
    rcases hb.past with h | h
    · rw [hf] at h; cases h
    · exact h.2
  conv_lhs => rw [← List.take_append_drop n o.data]
  congr 1
  refine List.ext_getElem (by simp; omega) fun i h1 h2 => ?_
  have hi : i < n := by simp at h2; exact h2
  have := hb.zero i hi
  unfold byteAt at this
  rw [List.getElem?_eq_getElem (by omega)] at this
  simpa using this

theorem torn_torn {G H : Bytes} {n : Nat} (hG : G = List.replicate n 0 ++ G.drop n) (hH : H.length ≤ n) (k : Nat) :
    TornAt (H ++ G.drop H.length) n (min k H.length) (H.take k ++ G.drop (min k H.length)) := by
  have hd : ∀ i, i ≤ n → G.drop i = List.replicate (n - i) 0 ++ G.drop n := by
    intro i hi
    conv_lhs => rw [hG]
    rw [List.drop_append_of_le_length (by simp; exact hi), List.drop_replicate]
  refine ⟨by omega, ?_⟩
  have hF : (H ++ G.drop H.length).drop n = G.drop n := by
    rw [List.drop_append]
    rw [List.drop_eq_nil_of_le hH, List.nil_append, List.drop_drop]
    congr 1; omega
  rw [hF, hd (min k H.length) (by omega), List.take_append_of_le_length (by omega)]
  congr 1
  rw [List.take_eq_take_iff]
  omega

/-- The rest of `Close` on an open writer. -/
def closeBody (L : Lazperf) (ord : Order) (c : CopcConfig) (otpd : Nat) : Act Writer Unit := do
  Writer.onBase (BaseW.writeChunkTable L otpd)
  Writer.onBase (BaseW.onOut OStream.seekEnd)
  let n ← Act.gets fun w : Writer => w.pages.length
  Writer.onBase (Act.modify fun b => { b with
    evlrOffset := b.out.tellp
    evlrCount := (b.evlrCount + n) % 2 ^ 32 })
  Writer.writePages ord
  Writer.onBase (BaseW.writeWkt c.wkt)
  Writer.writeHeader L
  Writer.onBase (Act.modify fun b => { b with open_ := false })

theorem close_body (L : Lazperf) (ord : Order) {w : Writer} {otpd : Nat} (hop : w.base.open_ = true)
    (ho : Writer.offsetToPointData w.cfg = .ok otpd) :
    Writer.close L ord w = closeBody L ord w.cfg otpd w := by
  unfold Writer.close closeBody
  rw [Act.bind_ok (Act.gets_apply _ _), hop]
  simp only [Bool.true_eq_false, if_false]
  rw [Act.bind_ok (Act.gets_apply _ _), ho, Act.bind_ok (Act.lift_apply _ _)]

theorem keeps_res {σ α β : Type} {f : σ → β} {x : Act σ α} (h : Keeps f x) {s s' : σ} {a : Res α} (e : x s = (a, s')) :
    f s' = f s := by
  have := h s
  rw [e] at this
  exact this

/-- What a `Close` that dies leaves: a file whose header area has not been touched, or the finished file
with only a part of the header area written. -/
theorem close_ends (L : Lazperf) (ord : Order) {w w' : Writer} {otpd : Nat}
    (ho : Writer.offsetToPointData w.cfg = .ok otpd) (hg : w.base.out.Good) (hb : Blank otpd w.base.out)
    (hop : w.base.open_ = true) (hc : Writer.close L ord w = (.ok (), w')) (k : Nat) :
    (∃ o, Blank otpd o ∧ o.data = (Writer.close L ord (doomed k w)).2.base.out.data) ∨
    ∃ j, TornAt w'.base.out.data otpd j (Writer.close L ord (doomed k w)).2.base.out.data := by
  have hQ : ∀ o : OStream, Blank otpd o → (fun d => (∃ o, Blank otpd o ∧ o.data = d) ∨
    ∃ j, TornAt w'.base.out.data otpd j d) o.data := fun o h => .inl ⟨o, h, rfl⟩
  have stuck_done : ∀ (f : BaseW → BaseW), (∀ b, (f b).out = b.out) → Stuck (Writer.onBase (Act.modify f)) :=
    fun f hf s _ => hf s.base
  have hdone := stuck_done (fun b => { b with open_ := false }) fun _ => rfl
  have hhead : Stuck (do
      Writer.writeHeader L
      Writer.onBase (Act.modify fun b => { b with open_ := false }) : Act Writer Unit) :=
    stuck_bind (stuck_writeHeader L) fun _ => hdone
  have hwkt : ∀ t, Safe otpd (Writer.onBase (BaseW.writeWkt t)) := fun t => safe_onBase (safe_wkt otpd t)
  have hs5 : ∀ t, Stuck (do
      Writer.onBase (BaseW.writeWkt t)
      Writer.writeHeader L
      Writer.onBase (Act.modify fun b => { b with open_ := false }) : Act Writer Unit) :=
    fun t => stuck_bind (hwkt t).stuck fun _ => hhead
  have hpag := safe_writePages otpd ord
  have hs4 : ∀ t, Stuck (do
      Writer.writePages ord
      Writer.onBase (BaseW.writeWkt t)
      Writer.writeHeader L
      Writer.onBase (Act.modify fun b => { b with open_ := false }) : Act Writer Unit) :=
    fun t => stuck_bind hpag.stuck fun _ => hs5 t
  have hevl : ∀ n : Nat, Safe otpd (Writer.onBase (Act.modify fun b => { b with
      evlrOffset := b.out.tellp
      evlrCount := (b.evlrCount + n) % 2 ^ 32 })) := fun n =>
    safe_onBase (safe_other (fun _ => rfl) fun _ _ _ => rfl)
  have hn : Safe otpd (Act.gets fun w : Writer => w.pages.length) := by
    refine safe_gets ?_
    rintro s o _ ⟨k, rfl⟩
    rfl
  have hse : Safe otpd (Writer.onBase (BaseW.onOut OStream.seekEnd)) := safe_onBase (safe_onOut (calm_seekEnd otpd))
  have htab : Safe otpd (Writer.onBase (BaseW.writeChunkTable L otpd)) :=
    safe_onBase (safe_chunkTable L (Nat.le_refl _))
  rw [close_body L ord hop ho] at hc
  rw [close_body L ord (w := doomed k w) hop ho]
  revert k
  show AllEnds (fun d => (∃ o, Blank otpd o ∧ o.data = d) ∨ ∃ j, TornAt w'.base.out.data otpd j d)
    (closeBody L ord w.cfg otpd) w
  unfold closeBody at hc ⊢
  obtain ⟨_, w1, e1, hc⟩ := Act.bind_eq_ok.1 hc
  have g1 := htab.good _ hg
  have b1 := htab.blank _ hb
  rw [e1] at g1 b1
  refine AllEnds.step hQ htab (fun _ => stuck_bind hse.stuck fun _ => stuck_bind hn.stuck fun n =>
    stuck_bind (hevl n).stuck fun _ => hs4 _) e1 hg hb ?_
  obtain ⟨_, w2, e2, hc⟩ := Act.bind_eq_ok.1 hc
  have g2 := hse.good _ g1
  have b2 := hse.blank _ b1
  rw [e2] at g2 b2
  refine AllEnds.step hQ hse (fun _ => stuck_bind hn.stuck fun n =>
    stuck_bind (hevl n).stuck fun _ => hs4 _) e2 g1 b1 ?_
  obtain ⟨n, w3, e3, hc⟩ := Act.bind_eq_ok.1 hc
  have g3 := hn.good _ g2
  have b3 := hn.blank _ b2
  rw [e3] at g3 b3
  refine AllEnds.step hQ hn (fun n => stuck_bind (hevl n).stuck fun _ => hs4 _) e3 g2 b2 ?_
  obtain ⟨_, w4, e4, hc⟩ := Act.bind_eq_ok.1 hc
  have g4 := (hevl n).good _ g3
  have b4 := (hevl n).blank _ b3
  rw [e4] at g4 b4
  refine AllEnds.step hQ (hevl n) (fun _ => hs4 _) e4 g3 b3 ?_
  obtain ⟨_, w5, e5, hc⟩ := Act.bind_eq_ok.1 hc
  have g5 := hpag.good _ g4
  have b5 := hpag.blank _ b4
  rw [e5] at g5 b5
  refine AllEnds.step hQ hpag (fun _ => hs5 _) e5 g4 b4 ?_
  obtain ⟨_, w6, e6, hc⟩ := Act.bind_eq_ok.1 hc
  have g6 := (hwkt w.cfg.wkt).good _ g5
  have b6 := (hwkt w.cfg.wkt).blank _ b5
  rw [e6] at g6 b6
  refine AllEnds.step hQ (hwkt _) (fun _ => hhead) e6 g5 b5 ?_
  obtain ⟨_, w7, e7, hc⟩ := Act.bind_eq_ok.1 hc
  obtain ⟨otpd', eb, h14, gps, q1, q2, q3, q4, q5⟩ := writeHeader_ok e7
  have k1 := keeps_res (keeps_onBase' _) e1
  have k2 := keeps_res (keeps_onBase' _) e2
  have k3 := keeps_res (f := keptParts) (keeps_gets _) e3
  have k4 := keeps_res (keeps_onBase' _) e4
  have k5 := keeps_res (keeps_writePages ord) e5
  have k6 := keeps_res (keeps_onBase' _) e6
  have kc : cfgRest w6 = cfgRest w :=
    congrArg Prod.snd (k6.trans (k5.trans (k4.trans (k3.trans (k2.trans k1)))))
  have kl : w6.cfg.toLazConfig = w.cfg.toLazConfig := congrArg Prod.fst kc
  have kx : w6.cfg.extents = w.cfg.extents := congrArg Prod.snd kc
  have hq : Writer.offsetToPointData w6.cfg = Writer.offsetToPointData w.cfg :=
    offsetToPointData_congr (by rw [kl]) (by rw [kl]) (by rw [kl]) (by rw [kx])
  rw [hq, ho] at q1
  cases q1
  have hgo : (w6.base.out.seekp 0) = midStream [] w6.base.out.data := by
    have g6' : w6.base.out.Good := g6
    obtain ⟨hf, hcap⟩ := g6'
    generalize w6.base.out = o at hf hcap ⊢
    obtain ⟨d, p, f, c⟩ := o
    dsimp only at hf hcap
    subst hf hcap
    rfl
  have e8 := writeHeader_eq L w6 _ hgo (hq.trans ho) q2 q3 q4 q5
  rw [e7] at e8
  have hfit : (headBlock L w6.cfg eb gps h14).length ≤ otpd := by
    by_contra hn
    rw [if_pos (by omega)] at e8
    cases e8
  have hw7 : w7 = _ := congrArg Prod.snd e8
  have hw' : w'.base.out = w7.base.out := by
    have : Writer.onBase (Act.modify fun b => { b with open_ := false }) w7 =
      (.ok (), { w7 with base := { w7.base with open_ := false } }) := rfl
    rw [this] at hc
    injection hc with _ hc
    rw [← hc]
  have hF : w'.base.out.data = headBlock L w6.cfg eb gps h14 ++
      w6.base.out.data.drop (headBlock L w6.cfg eb gps h14).length := by
    rw [hw', hw7]
    rfl
  intro k
  right
  refine ⟨min k (headBlock L w6.cfg eb gps h14).length, ?_⟩
  have hdd : (doomed k w6).base.out.seekp 0 = torn w6.base.out.data k [] := by
    have g6' : w6.base.out.Good := g6
    rw [torn_nil]
    show (w6.base.out.dies k).seekp 0 = _
    unfold OStream.seekp OStream.dies
    dsimp only
    rw [g6'.1]
    rfl
  have e9 := writeHeader_torn L (doomed k w6) _ k hdd (hq.trans ho) q2 q3 q4 q5
  have e10 : out ((do
      Writer.writeHeader L
      Writer.onBase (Act.modify fun b => { b with open_ := false }) : Act Writer Unit) (doomed k w6)).2 =
      torn w6.base.out.data k (headBlock L w6.cfg eb gps h14) := by
    have e9' : (Writer.writeHeader L (doomed k w6)).2.base.out = torn w6.base.out.data k (headBlock L w6.cfg eb gps h14) := e9
    rw [Act.bind_apply]
    generalize Writer.writeHeader L (doomed k w6) = p at e9' ⊢
    obtain ⟨r, s⟩ := p
    cases r <;> exact e9'
  have b6' : Blank otpd w6.base.out := b6
  have g6' : w6.base.out.Good := g6
  show TornAt _ _ _ (out _).data
  rw [e10, torn_data, hF]
  exact torn_torn (blank_split b6' g6'.1) hfit k

end Copc
