import Verif.Lemmas.CrashClose
import Verif.Props.OutputFail
/-!
# Closing again

Two runs of `Close` on writers that agree in everything a failed `Close` keeps have the same outcome up to
the last check.
-/
namespace Copc
open Spec

section
variable {σ α β γ δ : Type}

/-- The same outcome: two values in relation, or the same exception. -/
inductive Alike (V : α → β → Prop) (R : σ → σ → Prop) : Res α × σ → Res β × σ → Prop
  | ok {a b s t} : V a b → R s t → Alike V R (.ok a, s) (.ok b, t)
  | throw {e s t} : Alike V R (.throw e, s) (.throw e, t)
  | ub {s t} : Alike V R (.ub, s) (.ub, t)

/-- The two calls have the same outcome in states that are in relation. -/
def Twins (R R' : σ → σ → Prop) (V : α → β → Prop) (x : Act σ α) (y : Act σ β) : Prop :=
  ∀ s t, R s t → Alike V R' (x s) (y t)

theorem twins_bind {R R' R'' : σ → σ → Prop} {V : α → β → Prop} {W : γ → δ → Prop} {x : Act σ α} {y : Act σ β}
    {f : α → Act σ γ} {g : β → Act σ δ} (hx : Twins R R' V x y)
    (hf : ∀ a b, V a b → Twins R' R'' W (f a) (g b)) : Twins R R'' W (x >>= f) (y >>= g) := by
  intro s t h
  rw [Act.bind_apply, Act.bind_apply]
  have h1 := hx s t h
  generalize x s = p at h1 ⊢
  generalize y t = q at h1 ⊢
  cases h1 with
  | ok hv hr => exact hf _ _ hv _ _ hr
  | throw => exact .throw
  | ub => exact .ub

theorem twins_lift {R : σ → σ → Prop} (r : Res α) : Twins R R Eq (Act.lift r : Act σ α) (Act.lift r) := by
  intro s t h
  cases r with
  | ok a => exact .ok rfl h
  | throw e => exact .throw
  | ub => exact .ub

theorem twins_gets {R : σ → σ → Prop} {V : α → β → Prop} {f : σ → α} {g : σ → β}
    (h : ∀ s t, R s t → V (f s) (g t)) : Twins R R V (Act.gets f) (Act.gets g) :=
  fun s t hs => .ok (h s t hs) hs

theorem twins_modify {R R' : σ → σ → Prop} {V : Unit → Unit → Prop} (hV : V () ()) {f g : σ → σ}
    (h : ∀ s t, R s t → R' (f s) (g t)) : Twins R R' V (Act.modify f) (Act.modify g) :=
  fun s t hs => .ok hV (h s t hs)

theorem twins_throwIf {R : σ → σ → Prop} {V : Unit → Unit → Prop} (hV : V () ()) (c : Prop) [Decidable c] (e : Exc) :
    Twins R R V (Act.throwIf c e) (Act.throwIf c e) := by
  intro s t hs
  rw [Act.throwIf_apply, Act.throwIf_apply]
  split
  · exact .throw
  · exact .ok hV hs

theorem twins_pure {R : σ → σ → Prop} {V : α → α → Prop} (a : α) (h : V a a) :
    Twins R R V (pure a : Act σ α) (pure a) := fun _ _ hs => .ok h hs

theorem twins_forEach {R : σ → σ → Prop} {f : γ → Act σ Unit} {V : Unit → Unit → Prop} (hV : V () ())
    (h : ∀ c, Twins R R V (f c) (f c)) (l : List γ) :
    Twins R R V (Act.forEach f l) (Act.forEach f l) := by
  induction l with
  | nil => exact twins_pure _ hV
  | cons c l ih => exact twins_bind (h c) fun _ _ _ => ih
end

/-- As many chunks. -/
def BaseW.Near (b c : BaseW) : Prop := b.chunks.length = c.chunks.length
/-- As many chunks, and the same position unless a stream has failed. -/
def BaseW.Nearer (b c : BaseW) : Prop :=
  b.Near c ∧ (b.out.fail = false → c.out.fail = false → b.out.pos = c.out.pos)

/-- Any values. -/
abbrev Any {α β : Type} (_ : α) (_ : β) : Prop := True

theorem length_relative (p : Nat) (l : List (Nat × Nat)) : (BaseW.relative p l).length = l.length := by
  induction l generalizing p with
  | nil => rfl
  | cons a l ih => obtain ⟨n, o⟩ := a; simp [BaseW.relative, ih]

theorem twins_emit (a b : Bytes) : Twins BaseW.Near BaseW.Near Any (BaseW.emit a) (BaseW.emit b) :=
  twins_modify trivial fun _ _ h => h

theorem twins_onOut (f g : OStream → OStream) : Twins BaseW.Near BaseW.Near Any (BaseW.onOut f) (BaseW.onOut g) :=
  twins_modify trivial fun _ _ h => h

theorem write_pos {o : OStream} {bs : Bytes} (h : (o.write bs).fail = false) :
    o.fail = false ∧ (o.write bs).pos = o.pos + bs.length := by
  cases hf : o.fail with
  | true => rw [write_fail hf, hf] at h; cases h
  | false =>
    refine ⟨rfl, ?_⟩
    unfold OStream.write at h ⊢
    rw [hf] at h ⊢
    simp only [Bool.false_eq_true, if_false] at h ⊢
    split at h
    · rfl
    · split at h
      · rename_i hc; rw [if_pos hc]
      · cases h
    · split at h
      · rename_i hc; rw [if_pos hc]
      · cases h

theorem twins_emit' {a b : Bytes} (h : a.length = b.length) :
    Twins BaseW.Nearer BaseW.Nearer Any (BaseW.emit a) (BaseW.emit b) := by
  refine twins_modify trivial fun s t hs => ⟨hs.1, fun h1 h2 => ?_⟩
  obtain ⟨f1, p1⟩ := write_pos h1
  obtain ⟨f2, p2⟩ := write_pos h2
  show (s.out.write a).pos = (t.out.write b).pos
  rw [p1, p2, hs.2 f1 f2, h]

theorem seekp_pos (o : OStream) (p : Nat) (h : (o.seekp p).fail = false) : (o.seekp p).pos = p := by
  unfold OStream.seekp at h ⊢
  split
  · rename_i hf; rw [if_pos hf, hf] at h; cases h
  · rfl

theorem twins_seekp (p : Nat) : Twins BaseW.Near BaseW.Nearer Any (BaseW.onOut fun o => o.seekp p)
    (BaseW.onOut fun o => o.seekp p) :=
  twins_modify trivial fun s t hs =>
    ⟨hs, fun h1 h2 => (seekp_pos s.out p h1).trans (seekp_pos t.out p h2).symm⟩

theorem twins_chunkTable (L : Lazperf) (otpd : Nat) :
    Twins BaseW.Near BaseW.Near Any (BaseW.writeChunkTable L otpd) (BaseW.writeChunkTable L otpd) := by
  unfold BaseW.writeChunkTable
  refine twins_bind (twins_onOut _ _) fun _ _ _ => ?_
  refine twins_bind (twins_gets (V := Any) fun _ _ _ => trivial) fun o o' _ => ?_
  refine twins_bind (V := Any) (R' := BaseW.Near) (twins_modify trivial fun s t h => ?_) fun _ _ _ => ?_
  · show (BaseW.relative _ s.chunks).length = (BaseW.relative _ t.chunks).length
    rw [length_relative, length_relative]; exact h
  refine twins_bind (twins_emit _ _) fun _ _ _ => ?_
  refine twins_bind (V := Eq) (twins_gets fun s t h => h) fun n n' hn => ?_
  subst hn
  refine twins_bind (V := Any) (twins_throwIf trivial _ _) fun _ _ _ => ?_
  refine twins_bind (twins_emit _ _) fun _ _ _ => ?_
  refine twins_bind (twins_gets (V := Any) fun _ _ _ => trivial) fun t t' _ => ?_
  refine twins_bind (twins_emit _ _) fun _ _ _ => ?_
  exact twins_bind (twins_onOut _ _) fun _ _ _ => twins_emit _ _

theorem twins_wkt (w : Bytes) : Twins BaseW.Near BaseW.Near Any (BaseW.writeWkt w) (BaseW.writeWkt w) := by
  unfold BaseW.writeWkt
  split
  · exact twins_pure _ trivial
  · exact twins_bind (V := Any) (R' := BaseW.Near) (twins_modify trivial fun _ _ h => h) fun _ _ _ => twins_emit _ _

/-- The header written depends on the counts and offsets only in the values of fixed-size members. -/
theorem toLazPerf_alike (h : LasHeader) {po po' : UInt32} {pc pc' eo eo' : UInt64} {ec ec' : UInt32} {f x : Bool}
    {σ : Type} {R : σ → σ → Prop} :
    Twins R R (fun a b : Header14 => a.encode.length = b.encode.length)
      (Act.lift (h.toLazPerf po pc eo ec f x)) (Act.lift (h.toLazPerf po' pc' eo' ec' f x)) := by
  intro s t hs
  rw [Act.lift_apply, Act.lift_apply]
  unfold LasHeader.toLazPerf
  split
  · exact .throw
  · refine .ok ?_ hs
    simp [Header14.encode]

theorem twins_lasHeader (h : LasHeader) (otpd : Nat) (ext : Bool) :
    Twins BaseW.Near BaseW.Nearer Any (BaseW.writeLasHeader h otpd ext) (BaseW.writeLasHeader h otpd ext) := by
  unfold BaseW.writeLasHeader
  refine twins_bind (twins_lift _) fun eb eb' he => ?_
  subst he
  refine twins_bind (twins_gets (V := Any) fun _ _ _ => trivial) fun b b' _ => ?_
  refine twins_bind (toLazPerf_alike h) fun h14 h14' hl => ?_
  exact twins_bind (twins_seekp 0) fun _ _ _ => twins_emit' hl

theorem twins_lazVlrs (L : Lazperf) (c : LazConfig) :
    Twins BaseW.Nearer BaseW.Nearer Any (BaseW.writeLazAndEbVlrs L c) (BaseW.writeLazAndEbVlrs L c) := by
  unfold BaseW.writeLazAndEbVlrs
  refine twins_bind (twins_lift _) fun eb eb' he => ?_
  subst he
  split
  · exact twins_bind (twins_emit' rfl) fun _ _ _ => twins_emit' rfl
  · exact twins_emit' rfl

/-! ### The LAZ writer -/

/-- `Close` of the base writer up to the last check of the header. -/
def BaseW.closePre (L : Lazperf) (c : LazConfig) (otpd : Nat) : Act BaseW Unit := do
  BaseW.writeChunkTable L otpd
  BaseW.onOut OStream.seekEnd
  Act.modify fun b => { b with evlrOffset := b.out.tellp }
  BaseW.writeWkt c.wkt
  BaseW.writeLasHeader c.header otpd false
  BaseW.writeLazAndEbVlrs L c

theorem twins_closePre (L : Lazperf) (c : LazConfig) (otpd : Nat) :
    Twins BaseW.Near BaseW.Nearer Any (BaseW.closePre L c otpd) (BaseW.closePre L c otpd) := by
  unfold BaseW.closePre
  refine twins_bind (twins_chunkTable L otpd) fun _ _ _ => ?_
  refine twins_bind (twins_onOut _ _) fun _ _ _ => ?_
  refine twins_bind (V := Any) (R' := BaseW.Near) (twins_modify trivial fun _ _ h => h) fun _ _ _ => ?_
  refine twins_bind (twins_wkt _) fun _ _ _ => ?_
  exact twins_bind (twins_lasHeader _ _ _) fun _ _ _ => twins_lazVlrs L c

/-! ### The COPC writer -/

def Writer.Near (w v : Writer) : Prop := keptParts w = keptParts v ∧ w.base.Near v.base
def Writer.Nearer (w v : Writer) : Prop := keptParts w = keptParts v ∧ w.base.Nearer v.base

theorem twins_base {α β : Type} {R R' : BaseW → BaseW → Prop} {V : α → β → Prop} {x : Act BaseW α} {y : Act BaseW β}
    (h : Twins R R' V x y) : Twins (fun w v : Writer => keptParts w = keptParts v ∧ R w.base v.base)
      (fun w v => keptParts w = keptParts v ∧ R' w.base v.base) V (Writer.onBase x) (Writer.onBase y) := by
  intro s t hs
  unfold Writer.onBase
  rw [Act.zoom_apply, Act.zoom_apply]
  have h1 := h s.base t.base hs.2
  generalize x s.base = p at h1 ⊢
  generalize y t.base = q at h1 ⊢
  cases h1 with
  | ok hv hr => exact .ok hv ⟨hs.1, hr⟩
  | throw => exact .throw
  | ub => exact .ub

theorem twins_pages (ord : Order) : Twins Writer.Near Writer.Near Any (Writer.writePages ord) (Writer.writePages ord) := by
  intro s t hs
  have hp : s.pages = t.pages := congrArg (fun k => k.1.2) hs.1
  unfold Writer.writePages
  rw [hp]
  cases Writer.computePageHierarchy t.pages with
  | throw e => exact .throw
  | ub => exact .ub
  | ok hier =>
    dsimp only
    let R : Writer.PageW → Writer.PageW → Prop := fun a b => a.w.Near b.w
    have hone : ∀ k, Twins R R Any (Writer.writePage ord hier k) (Writer.writePage ord hier k) := by
      intro k
      unfold Writer.writePage
      dsimp only
      refine twins_bind (V := Eq) (twins_gets fun s t h => ?_) fun ns ns' hn => ?_
      · have : s.w.pages = t.w.pages := congrArg (fun k => k.1.2) h.1
        rw [this]
      subst hn
      refine twins_bind (R' := R) (V := Any) (twins_modify trivial fun _ _ h => h) fun _ _ _ => twins_bind (R' := R) (V := Any) (twins_modify trivial fun _ _ h => h) fun _ _ _ => ?_
      refine twins_bind (twins_gets (V := Any) fun _ _ _ => trivial) fun o o' _ => ?_
      refine twins_bind (V := Any) (twins_throwIf trivial _ _) fun _ _ _ => ?_
      refine twins_bind (V := Any) (R' := R) (twins_modify trivial fun _ _ h => h) fun _ _ _ => ?_
      split
      · refine twins_bind (V := Any) (R' := R) (twins_modify trivial fun _ _ h => h) fun _ _ _ => ?_
        refine twins_bind (R' := R) (V := Any) (twins_modify trivial fun _ _ h => h) fun _ _ _ => ?_
        exact twins_bind (twins_gets (V := Any) fun _ _ _ => trivial) fun _ _ _ => twins_modify trivial fun _ _ h => h
      · refine twins_bind (R' := R) (V := Any) (twins_modify trivial fun _ _ h => h) fun _ _ _ => ?_
        exact twins_bind (twins_gets (V := Any) fun _ _ _ => trivial) fun _ _ _ => twins_modify trivial fun _ _ h => h
    have := twins_forEach (R := R) (V := Any) trivial hone
      (Writer.visit ord hier (Writer.levels t.pages) VoxelKey.root) ⟨s, []⟩ ⟨t, []⟩ hs
    generalize Act.forEach (Writer.writePage ord hier) (Writer.visit ord hier (Writer.levels t.pages) VoxelKey.root)
      ⟨s, []⟩ = p at this ⊢
    generalize Act.forEach (Writer.writePage ord hier) (Writer.visit ord hier (Writer.levels t.pages) VoxelKey.root)
      ⟨t, []⟩ = q at this ⊢
    cases this with
    | ok hv hr => exact .ok hv hr
    | throw => exact .throw
    | ub => exact .ub

/-- `WriteHeader` up to its last check. -/
def Writer.headPre (L : Lazperf) : Act Writer Nat := do
  let c ← Act.gets (·.cfg)
  let otpd ← Act.lift (Writer.offsetToPointData c)
  Writer.onBase (BaseW.writeLasHeader c.header otpd c.extents.extStats)
  let gps ← Act.lift c.extents.getGpsTime
  Writer.onBase (BaseW.emit (BaseW.vlrBytes idCopc 1 BaseW.descInfo (c.info.encode gps)))
  Act.lift (Writer.boundsExtents c.header)
  Writer.onBase (BaseW.emit (BaseW.vlrBytes idCopc 10000 BaseW.descExtents (Extents.putItems c.extents.toVlr)))
  if c.extents.extStats then
    Writer.onBase (BaseW.emit
      (BaseW.vlrBytes idRock 10001 BaseW.descStats (Extents.putItems c.extents.toVlrExtended)))
  else pure ()
  Writer.onBase (BaseW.writeLazAndEbVlrs L c.toLazConfig)
  pure otpd

theorem act_assoc {σ α β γ : Type} (x : Act σ α) (f : α → Act σ β) (g : β → Act σ γ) :
    ((x >>= f) >>= g) = (x >>= fun a => f a >>= g) := by
  funext s
  simp only [Act.bind_apply]
  generalize x s = p
  obtain ⟨r, s'⟩ := p
  cases r <;> rfl

theorem act_pure_bind {σ α β : Type} (a : α) (f : α → Act σ β) : ((pure a : Act σ α) >>= f) = f a := rfl

theorem writeHeader_split (L : Lazperf) : Writer.writeHeader L =
    (Writer.headPre L >>= fun otpd => Writer.onBase (BaseW.checkHeaderSize otpd)) := by
  unfold Writer.writeHeader Writer.headPre
  simp only [act_assoc]
  refine congrArg _ (funext fun c => ?_)
  refine congrArg _ (funext fun otpd => ?_)
  refine congrArg _ (funext fun _ => ?_)
  refine congrArg _ (funext fun gps => ?_)
  refine congrArg _ (funext fun _ => ?_)
  refine congrArg _ (funext fun _ => ?_)
  refine congrArg _ (funext fun _ => ?_)
  split
  · simp only [act_assoc]; rfl
  · simp only [act_assoc]; rfl

theorem twins_head (L : Lazperf) : Twins Writer.Near Writer.Nearer Eq (Writer.headPre L) (Writer.headPre L) := by
  unfold Writer.headPre
  refine twins_bind (V := fun c c' : CopcConfig => c.toLazConfig = c'.toLazConfig ∧ c.extents = c'.extents)
    (twins_gets fun s t h => ⟨congrArg (fun k => k.2.1) h.1, congrArg (fun k => k.2.2) h.1⟩) fun c c' hc => ?_
  obtain ⟨h1, h2⟩ := hc
  have ho : Writer.offsetToPointData c = Writer.offsetToPointData c' := by
    unfold Writer.offsetToPointData; rw [h1, h2]
  rw [ho, h1, h2]
  refine twins_bind (twins_lift _) fun otpd otpd' he => ?_
  subst he
  refine twins_bind (R' := Writer.Nearer) (twins_base (twins_lasHeader _ _ _)) fun _ _ _ => ?_
  refine twins_bind (twins_lift _) fun gps gps' hg => ?_
  subst hg
  have hvl : ∀ (u : Bytes) (i : UInt16) (d a b : Bytes), a.length = b.length →
      (BaseW.vlrBytes u i d a).length = (BaseW.vlrBytes u i d b).length := by
    intro u i d a b h
    simp [BaseW.vlrBytes, h, length_vlrHeader]
  refine twins_bind (R' := Writer.Nearer) (twins_base (twins_emit' (hvl _ _ _ _ _ (by rw [length_info, length_info])))) fun _ _ _ => ?_
  refine twins_bind (twins_lift _) fun _ _ _ => ?_
  refine twins_bind (R' := Writer.Nearer) (twins_base (twins_emit' rfl)) fun _ _ _ => ?_
  have hend : Twins Writer.Nearer Writer.Nearer Eq
      (Writer.onBase (BaseW.writeLazAndEbVlrs L c'.toLazConfig) >>= fun _ => (pure otpd : Act Writer Nat))
      (Writer.onBase (BaseW.writeLazAndEbVlrs L c'.toLazConfig) >>= fun _ => (pure otpd : Act Writer Nat)) :=
    twins_bind (R' := Writer.Nearer) (twins_base (twins_lazVlrs L _)) fun _ _ _ => twins_pure _ rfl
  split
  · exact twins_bind (R' := Writer.Nearer) (twins_base (twins_emit' rfl)) fun _ _ _ => hend
  · exact hend

/-- `Close` up to the last check of the header. -/
def Writer.closePre (L : Lazperf) (ord : Order) : Act Writer Nat := do
  let c ← Act.gets (·.cfg)
  let otpd ← Act.lift (Writer.offsetToPointData c)
  Writer.onBase (BaseW.writeChunkTable L otpd)
  Writer.onBase (BaseW.onOut OStream.seekEnd)
  let n ← Act.gets fun w => w.pages.length
  Writer.onBase (Act.modify fun b => { b with
    evlrOffset := b.out.tellp
    evlrCount := (b.evlrCount + n) % 2 ^ 32 })
  Writer.writePages ord
  Writer.onBase (BaseW.writeWkt c.wkt)
  Writer.headPre L

theorem close_split (L : Lazperf) (ord : Order) {w : Writer} (h : w.base.open_ = true) : Writer.close L ord w =
    (Writer.closePre L ord >>= fun otpd => Writer.onBase (BaseW.checkHeaderSize otpd) >>= fun _ =>
      Writer.onBase (Act.modify fun b => { b with open_ := false })) w := by
  unfold Writer.close
  rw [Act.bind_ok (Act.gets_apply _ _), h]
  simp only [Bool.true_eq_false, if_false]
  unfold Writer.closePre
  simp only [act_assoc, writeHeader_split]

theorem twins_closePre' (L : Lazperf) (ord : Order) :
    Twins Writer.Near Writer.Nearer Eq (Writer.closePre L ord) (Writer.closePre L ord) := by
  unfold Writer.closePre
  refine twins_bind (V := fun c c' : CopcConfig => c.toLazConfig = c'.toLazConfig ∧ c.extents = c'.extents)
    (twins_gets fun s t h => ⟨congrArg (fun k => k.2.1) h.1, congrArg (fun k => k.2.2) h.1⟩) fun c c' hc => ?_
  obtain ⟨h1, h2⟩ := hc
  have ho : Writer.offsetToPointData c = Writer.offsetToPointData c' := by
    unfold Writer.offsetToPointData; rw [h1, h2]
  rw [ho, h1]
  refine twins_bind (twins_lift _) fun otpd otpd' he => ?_
  subst he
  refine twins_bind (R' := Writer.Near) (twins_base (twins_chunkTable L otpd)) fun _ _ _ => ?_
  refine twins_bind (R' := Writer.Near) (twins_base (twins_onOut _ _)) fun _ _ _ => ?_
  refine twins_bind (twins_gets (V := Any) fun _ _ _ => trivial) fun n n' _ => ?_
  refine twins_bind (R' := Writer.Near) (V := Any)
    (twins_base (R := BaseW.Near) (R' := BaseW.Near) (twins_modify trivial fun _ _ h => h)) fun _ _ _ => ?_
  refine twins_bind (twins_pages ord) fun _ _ _ => ?_
  exact twins_bind (R' := Writer.Near) (twins_base (twins_wkt _)) fun _ _ _ => twins_head L

/-! ### What a failed `Close` keeps -/

/-- The number of chunks and whether the writer is open. -/
def BaseW.outline (b : BaseW) : Nat × Bool := (b.chunks.length, b.open_)

theorem outline_emit (bs : Bytes) : Keeps BaseW.outline (BaseW.emit bs) := fun _ => rfl
theorem outline_onOut (f : OStream → OStream) : Keeps BaseW.outline (BaseW.onOut f) := fun _ => rfl

theorem outline_chunkTable (L : Lazperf) (otpd : Nat) : Keeps BaseW.outline (BaseW.writeChunkTable L otpd) := by
  unfold BaseW.writeChunkTable
  refine keeps_bind (outline_onOut _) fun _ => keeps_bind (keeps_gets _) fun _ => ?_
  refine keeps_bind (keeps_modify fun s => ?_) fun _ => ?_
  · unfold BaseW.outline; dsimp only; rw [length_relative]
  refine keeps_bind (outline_emit _) fun _ => keeps_bind (keeps_gets _) fun _ => keeps_bind keeps_throwIf fun _ => ?_
  refine keeps_bind (outline_emit _) fun _ => keeps_bind (keeps_gets _) fun _ => keeps_bind (outline_emit _) fun _ => ?_
  exact keeps_bind (outline_onOut _) fun _ => outline_emit _

theorem outline_wkt (t : Bytes) : Keeps BaseW.outline (BaseW.writeWkt t) := by
  unfold BaseW.writeWkt
  split
  · exact keeps_pure _
  · exact keeps_bind (keeps_modify fun _ => rfl) fun _ => outline_emit _

theorem outline_lasHeader (h : LasHeader) (otpd : Nat) (x : Bool) :
    Keeps BaseW.outline (BaseW.writeLasHeader h otpd x) := by
  unfold BaseW.writeLasHeader
  refine keeps_bind (keeps_lift _) fun _ => keeps_bind (keeps_gets _) fun _ => keeps_bind (keeps_lift _) fun _ => ?_
  exact keeps_bind (outline_onOut _) fun _ => outline_emit _

theorem outline_lazVlrs (L : Lazperf) (c : LazConfig) : Keeps BaseW.outline (BaseW.writeLazAndEbVlrs L c) := by
  unfold BaseW.writeLazAndEbVlrs
  refine keeps_bind (keeps_lift _) fun _ => ?_
  split
  · exact keeps_bind (outline_emit _) fun _ => outline_emit _
  · exact outline_emit _

theorem outline_closePre (L : Lazperf) (c : LazConfig) (otpd : Nat) :
    Keeps BaseW.outline (BaseW.closePre L c otpd) := by
  unfold BaseW.closePre
  refine keeps_bind (outline_chunkTable _ _) fun _ => keeps_bind (outline_onOut _) fun _ => ?_
  refine keeps_bind (keeps_modify fun _ => rfl) fun _ => keeps_bind (outline_wkt _) fun _ => ?_
  exact keeps_bind (outline_lasHeader _ _ _) fun _ => outline_lazVlrs _ _

def Writer.outline (w : Writer) : Nat × Bool := w.base.outline

theorem outline_onBase {α : Type} {x : Act BaseW α} (h : Keeps BaseW.outline x) : Keeps Writer.outline (Writer.onBase x) :=
  fun s => h s.base

theorem outline_pages (ord : Order) : Keeps Writer.outline (Writer.writePages ord) := by
  intro w
  unfold Writer.writePages
  split
  · dsimp only
    refine keeps_forEach (f := fun s : Writer.PageW => Writer.outline s.w) (x := Writer.writePage ord _)
      ?_ _ ⟨w, []⟩
    intro k
    unfold Writer.writePage
    dsimp only
    refine keeps_bind (keeps_gets _) fun ns => ?_
    refine keeps_bind (keeps_modify fun _ => rfl) fun _ => ?_
    refine keeps_bind (keeps_modify fun _ => rfl) fun _ => ?_
    refine keeps_bind (keeps_gets _) fun off => ?_
    refine keeps_bind keeps_throwIf fun _ => ?_
    refine keeps_bind (keeps_modify fun _ => rfl) fun _ => ?_
    split
    · refine keeps_bind (keeps_modify fun _ => rfl) fun _ => ?_
      refine keeps_bind (keeps_modify fun _ => rfl) fun _ => ?_
      refine keeps_bind (keeps_gets _) fun _ => ?_
      exact keeps_modify fun _ => rfl
    · refine keeps_bind (keeps_modify fun _ => rfl) fun _ => ?_
      refine keeps_bind (keeps_gets _) fun _ => ?_
      exact keeps_modify fun _ => rfl
  · rfl
  · rfl

theorem outline_head (L : Lazperf) : Keeps Writer.outline (Writer.headPre L) := by
  unfold Writer.headPre
  refine keeps_bind (keeps_gets _) fun c => keeps_bind (keeps_lift _) fun otpd => ?_
  refine keeps_bind (outline_onBase (outline_lasHeader _ _ _)) fun _ => keeps_bind (keeps_lift _) fun gps => ?_
  refine keeps_bind (outline_onBase (outline_emit _)) fun _ => keeps_bind (keeps_lift _) fun _ => ?_
  refine keeps_bind (outline_onBase (outline_emit _)) fun _ => ?_
  have hrest := keeps_bind (outline_onBase (outline_lazVlrs L c.toLazConfig)) fun _ =>
    keeps_pure (σ := Writer) (f := Writer.outline) otpd
  split
  · exact keeps_bind (outline_onBase (outline_emit _)) fun _ => hrest
  · exact hrest

theorem outline_closePre' (L : Lazperf) (ord : Order) : Keeps Writer.outline (Writer.closePre L ord) := by
  unfold Writer.closePre
  refine keeps_bind (keeps_gets _) fun c => keeps_bind (keeps_lift _) fun otpd => ?_
  refine keeps_bind (outline_onBase (outline_chunkTable _ _)) fun _ => keeps_bind (outline_onBase (outline_onOut _)) fun _ => ?_
  refine keeps_bind (keeps_gets _) fun n => keeps_bind (outline_onBase (keeps_modify fun _ => rfl)) fun _ => ?_
  refine keeps_bind (outline_pages _) fun _ => keeps_bind (outline_onBase (outline_wkt _)) fun _ => outline_head L

/-! ### On a failed stream nothing of this repairs it -/

theorem stuck_head (L : Lazperf) : Stuck (Writer.headPre L) := by
  unfold Writer.headPre
  refine stuck_bind (stuck_gets _) fun c => stuck_bind (stuck_lift _) fun otpd => ?_
  refine stuck_bind (stuck_onBase (stuck_lasHeader _ _ _)) fun _ => stuck_bind (stuck_lift _) fun gps => ?_
  refine stuck_bind (stuck_onBase (stuck_emit _)) fun _ => stuck_bind (stuck_lift _) fun _ => ?_
  refine stuck_bind (stuck_onBase (stuck_emit _)) fun _ => ?_
  have hrest := stuck_bind (stuck_onBase (stuck_lazVlrs L c.toLazConfig)) fun _ =>
    (fun _ _ => rfl : Stuck (pure otpd : Act Writer Nat))
  split
  · exact stuck_bind (stuck_onBase (stuck_emit _)) fun _ => hrest
  · exact hrest

theorem stuck_chunkTable (L : Lazperf) (otpd : Nat) : Stuck (BaseW.writeChunkTable L otpd) :=
  (safe_chunkTable L (Nat.le_refl otpd)).stuck

theorem stuck_closePre (L : Lazperf) (ord : Order) : Stuck (Writer.closePre L ord) := by
  unfold Writer.closePre
  refine stuck_bind (stuck_gets _) fun c => stuck_bind (stuck_lift _) fun otpd => ?_
  refine stuck_bind (stuck_onBase (stuck_chunkTable _ _)) fun _ => ?_
  refine stuck_bind (stuck_onBase (safe_onOut (calm_seekEnd 0)).stuck) fun _ => stuck_bind (stuck_gets _) fun n => ?_
  refine stuck_bind (fun _ _ => rfl) fun _ => stuck_bind (safe_writePages 0 ord).stuck fun _ => ?_
  exact stuck_bind (stuck_onBase (safe_wkt 0 _).stuck) fun _ => stuck_head L

theorem stuck_baseClosePre (L : Lazperf) (c : LazConfig) (otpd : Nat) : Stuck (BaseW.closePre L c otpd) := by
  unfold BaseW.closePre
  refine stuck_bind (stuck_chunkTable _ _) fun _ => stuck_bind (safe_onOut (calm_seekEnd 0)).stuck fun _ => ?_
  refine stuck_bind (fun _ _ => rfl) fun _ => stuck_bind (safe_wkt 0 _).stuck fun _ => ?_
  exact stuck_bind (stuck_lasHeader _ _ _) fun _ => stuck_lazVlrs _ _

theorem check_cases (otpd : Nat) (b : BaseW) :
    BaseW.checkHeaderSize otpd b = (if b.out.tellp > otpd then .throw .headerTooBig else .ok (), b) := by
  unfold BaseW.checkHeaderSize
  rw [Act.bind_ok (Act.gets_apply _ _), Act.throwIf_apply]
  split <;> rfl

/-- The two checks at the end of a failed and of a repeated `Close`. -/
theorem check_again {otpd : Nat} (ho : otpd < 2 ^ 64 - 1) {s t : BaseW} (hn : s.Nearer t)
    (hst : s.out.fail = true → t.out.fail = true) (h : s.out.tellp > otpd) : t.out.tellp > otpd := by
  unfold OStream.tellp at h ⊢
  cases hs : s.out.fail with
  | true => rw [hst hs, if_pos rfl]; exact ho
  | false =>
    cases ht : t.out.fail with
    | true => rw [if_pos rfl]; exact ho
    | false =>
      rw [hs] at h
      simp only [Bool.false_eq_true, if_false] at h ⊢
      rw [← hn.2 hs ht]; exact h

/-- The number returned is the offset to the point data. -/
theorem closePre_otpd {L : Lazperf} {ord : Order} {w w' : Writer} {otpd : Nat}
    (h : Writer.closePre L ord w = (.ok otpd, w')) : Writer.offsetToPointData w.cfg = .ok otpd := by
  unfold Writer.closePre at h
  obtain ⟨c, w1, e1, h⟩ := Act.bind_eq_ok.1 h
  have k1 := keeps_res (keeps_gets (f := keptParts) _) e1
  obtain ⟨_, w2, e2, h⟩ := Act.bind_eq_ok.1 h
  have k2 := keeps_res (keeps_lift (f := keptParts) _) e2
  obtain ⟨_, w3, e3, h⟩ := Act.bind_eq_ok.1 h
  have k3 := keeps_res (keeps_onBase' _) e3
  obtain ⟨_, w4, e4, h⟩ := Act.bind_eq_ok.1 h
  have k4 := keeps_res (keeps_onBase' _) e4
  obtain ⟨_, w5, e5, h⟩ := Act.bind_eq_ok.1 h
  have k5 := keeps_res (keeps_gets (f := keptParts) _) e5
  obtain ⟨_, w6, e6, h⟩ := Act.bind_eq_ok.1 h
  have k6 := keeps_res (keeps_onBase' _) e6
  obtain ⟨_, w7, e7, h⟩ := Act.bind_eq_ok.1 h
  have k7 := keeps_res (keeps_writePages _) e7
  obtain ⟨_, w8, e8, h⟩ := Act.bind_eq_ok.1 h
  have k8 := keeps_res (keeps_onBase' _) e8
  have hk : keptParts w8 = keptParts w := k8.trans (k7.trans (k6.trans (k5.trans (k4.trans (k3.trans (k2.trans k1))))))
  have h1 : w8.cfg.toLazConfig = w.cfg.toLazConfig := congrArg (fun k => k.2.1) hk
  have h2 : w8.cfg.extents = w.cfg.extents := congrArg (fun k => k.2.2) hk
  have ho : Writer.offsetToPointData w8.cfg = Writer.offsetToPointData w.cfg := by
    unfold Writer.offsetToPointData; rw [h1, h2]
  rw [← ho]
  unfold Writer.headPre at h
  obtain ⟨c', w9, e9, h⟩ := Act.bind_eq_ok.1 h
  rw [Act.gets_apply] at e9
  injection e9 with e9 e10
  injection e9 with e9
  obtain ⟨o', w10, e11, h⟩ := Act.bind_eq_ok.1 h
  rw [Act.lift_apply] at e11
  injection e11 with e11 _
  rw [e9, e11]
  congr 1
  obtain ⟨_, w11, _, h⟩ := Act.bind_eq_ok.1 h
  obtain ⟨_, w12, _, h⟩ := Act.bind_eq_ok.1 h
  obtain ⟨_, w13, _, h⟩ := Act.bind_eq_ok.1 h
  obtain ⟨_, w14, _, h⟩ := Act.bind_eq_ok.1 h
  obtain ⟨_, w15, _, h⟩ := Act.bind_eq_ok.1 h
  split at h
  · obtain ⟨_, w16, _, h⟩ := Act.bind_eq_ok.1 h
    obtain ⟨_, w17, _, h⟩ := Act.bind_eq_ok.1 h
    injection h with h _
    injection h
  · obtain ⟨_, w17, _, h⟩ := Act.bind_eq_ok.1 h
    injection h with h _
    injection h

theorem keeps_closePre (L : Lazperf) (ord : Order) : Keeps keptParts (Writer.closePre L ord) := by
  unfold Writer.closePre
  refine keeps_bind (keeps_gets _) fun c => keeps_bind (keeps_lift _) fun otpd => ?_
  refine keeps_bind (keeps_onBase' _) fun _ => keeps_bind (keeps_onBase' _) fun _ => ?_
  refine keeps_bind (keeps_gets _) fun n => keeps_bind (keeps_onBase' _) fun _ => ?_
  refine keeps_bind (keeps_writePages ord) fun _ => keeps_bind (keeps_onBase' _) fun _ => ?_
  unfold Writer.headPre
  refine keeps_bind (keeps_gets _) fun c => keeps_bind (keeps_lift _) fun otpd => ?_
  refine keeps_bind (keeps_onBase' _) fun _ => keeps_bind (keeps_lift _) fun gps => ?_
  refine keeps_bind (keeps_onBase' _) fun _ => keeps_bind (keeps_lift _) fun _ => ?_
  refine keeps_bind (keeps_onBase' _) fun _ => ?_
  split
  · exact keeps_bind (keeps_onBase' _) fun _ => keeps_bind (keeps_onBase' _) fun _ => keeps_pure _
  · exact keeps_bind (keeps_onBase' _) fun _ => keeps_pure _

/-- A `Close` that threw throws again, the same exception. -/
theorem close_again {L : Lazperf} {ord : Order} {w w' : Writer} {e : Exc} (heb : w.cfg.eb.length < 2 ^ 32)
    (h : Writer.close L ord w = (.throw e, w')) :
    w'.base.open_ = true ∧ (Writer.close L ord w').1 = .throw e := by
  have ho : w.base.open_ = true := by
    cases hb : w.base.open_ with
    | true => rfl
    | false => rw [close_closed hb] at h; cases h
  rw [close_split L ord ho] at h
  have hk := keeps_closePre L ord w
  have hout := outline_closePre' L ord w
  cases hp : Writer.closePre L ord w with
  | mk r s =>
    rw [hp] at hk hout
    have hso : s.base.open_ = true := by
      rw [← ho]; exact congrArg Prod.snd hout
    have hnear : w.Near s := ⟨hk.symm, (congrArg Prod.fst hout).symm⟩
    have tw := twins_closePre' L ord w s hnear
    rw [hp] at tw
    cases r with
    | ub => rw [Act.bind_ub hp] at h; cases h
    | throw e' =>
      rw [Act.bind_throw hp] at h
      injection h with h1 h2
      injection h1 with h1
      subst h1 h2
      refine ⟨hso, ?_⟩
      rw [close_split L ord hso]
      generalize hq : Writer.closePre L ord s = q at tw
      cases tw with
      | throw => rw [Act.bind_throw hq]
    | ok otpd =>
      rw [Act.bind_ok hp] at h
      have hc : Writer.onBase (BaseW.checkHeaderSize otpd) s =
          (if s.base.out.tellp > otpd then .throw .headerTooBig else .ok (), s) := by
        unfold Writer.onBase
        rw [Act.zoom_apply, check_cases]
      by_cases ht : s.base.out.tellp > otpd
      · rw [if_pos ht] at hc
        rw [Act.bind_throw hc] at h
        injection h with h1 h2
        injection h1 with h1
        subst h1 h2
        refine ⟨hso, ?_⟩
        rw [close_split L ord hso]
        generalize hq : Writer.closePre L ord s = q at tw
        cases tw with
        | @ok a b s' t hv hr =>
          subst hv
          rw [Act.bind_ok hq]
          have hfit := otpd_fits (closePre_otpd hp) heb
          have hst : s.base.out.fail = true → t.base.out.fail = true := by
            intro hf
            have := stuck_closePre L ord s hf
            rw [hq] at this
            exact (congrArg OStream.fail this).trans hf
          have hc' : Writer.onBase (BaseW.checkHeaderSize otpd) t = (.throw .headerTooBig, t) := by
            unfold Writer.onBase
            rw [Act.zoom_apply, check_cases, if_pos (check_again hfit hr.2 hst ht)]
          rw [Act.bind_throw hc']
      · rw [if_neg ht] at hc
        rw [Act.bind_ok hc] at h
        injection h with h1 _
        cases h1

/-! ### The same for the LAZ writer -/

theorem baseOffset_fits {c : LazConfig} {otpd : Nat} (h : BaseW.offsetToPointData c = .ok otpd)
    (heb : c.eb.length < 2 ^ 32) : otpd < 2 ^ 64 - 1 := by
  unfold BaseW.offsetToPointData at h
  cases he : c.header.ebSize with
  | throw e => rw [he] at h; cases h
  | ub => rw [he] at h; cases h
  | ok eb =>
    rw [he] at h
    injection h with h
    have h1 : lazItems c.header.fmt eb ≤ 3 := by unfold lazItems; split <;> split <;> omega
    rw [← h]
    split <;> omega

theorem baseClose_split (L : Lazperf) {c : LazConfig} {b : BaseW} {otpd : Nat} (h : b.open_ = true)
    (ho : BaseW.offsetToPointData c = .ok otpd) : BaseW.close L c b =
    (BaseW.closePre L c otpd >>= fun _ => BaseW.checkHeaderSize otpd >>= fun _ =>
      Act.modify fun b => { b with open_ := false }) b := by
  unfold BaseW.close
  rw [Act.bind_ok (Act.gets_apply _ _), h]
  simp only [Bool.true_eq_false, if_false]
  rw [ho, Act.bind_ok (Act.lift_apply _ _)]
  unfold BaseW.closePre BaseW.writeHeader
  simp only [act_assoc, ho]
  rfl

theorem baseClose_throws (L : Lazperf) {c : LazConfig} {b : BaseW} {e : Exc} (h : b.open_ = true)
    (ho : BaseW.offsetToPointData c = .throw e) : BaseW.close L c b = (.throw e, b) := by
  unfold BaseW.close
  rw [Act.bind_ok (Act.gets_apply _ _), h]
  simp only [Bool.true_eq_false, if_false]
  rw [ho, Act.bind_throw (Act.lift_apply _ _)]

theorem baseClose_again {L : Lazperf} {c : LazConfig} {w w' : BaseW} {e : Exc} (heb : c.eb.length < 2 ^ 32)
    (h : BaseW.close L c w = (.throw e, w')) : w'.open_ = true ∧ (BaseW.close L c w').1 = .throw e := by
  have ho : w.open_ = true := by
    cases hb : w.open_ with
    | true => rfl
    | false =>
      unfold BaseW.close at h
      rw [Act.bind_ok (Act.gets_apply _ _), if_pos hb] at h
      cases h
  cases hof : BaseW.offsetToPointData c with
  | throw e' =>
    rw [baseClose_throws L ho hof] at h
    injection h with h1 h2
    injection h1 with h1
    subst h1 h2
    exact ⟨ho, by rw [baseClose_throws L ho hof]⟩
  | ub =>
    exfalso
    unfold BaseW.close at h
    rw [Act.bind_ok (Act.gets_apply _ _), ho] at h
    simp only [Bool.true_eq_false, if_false] at h
    rw [hof, Act.bind_ub (Act.lift_apply _ _)] at h
    cases h
  | ok otpd =>
    rw [baseClose_split L ho hof] at h
    have hout := outline_closePre L c otpd w
    cases hp : BaseW.closePre L c otpd w with
    | mk r s =>
      rw [hp] at hout
      have hso : s.open_ = true := by
        rw [← ho]; exact congrArg Prod.snd hout
      have tw := twins_closePre L c otpd w s (congrArg Prod.fst hout).symm
      rw [hp] at tw
      cases r with
      | ub => rw [Act.bind_ub hp] at h; cases h
      | throw e' =>
        rw [Act.bind_throw hp] at h
        injection h with h1 h2
        injection h1 with h1
        subst h1 h2
        refine ⟨hso, ?_⟩
        rw [baseClose_split L hso hof]
        generalize hq : BaseW.closePre L c otpd s = q at tw
        cases tw with
        | throw => rw [Act.bind_throw hq]
      | ok u =>
        rw [Act.bind_ok hp] at h
        have hc := check_cases otpd s
        by_cases ht : s.out.tellp > otpd
        · rw [if_pos ht] at hc
          rw [Act.bind_throw hc] at h
          injection h with h1 h2
          injection h1 with h1
          subst h1 h2
          refine ⟨hso, ?_⟩
          rw [baseClose_split L hso hof]
          generalize hq : BaseW.closePre L c otpd s = q at tw
          cases tw with
          | @ok a b s' t hv hr =>
            rw [Act.bind_ok hq]
            have hst : s.out.fail = true → t.out.fail = true := by
              intro hf
              have := stuck_baseClosePre L c otpd s hf
              rw [hq] at this
              exact (congrArg OStream.fail this).trans hf
            have hc' : BaseW.checkHeaderSize otpd t = (.throw .headerTooBig, t) := by
              rw [check_cases, if_pos (check_again (baseOffset_fits hof heb) hr hst ht)]
            rw [Act.bind_throw hc']
        · rw [if_neg ht] at hc
          rw [Act.bind_ok hc] at h
          injection h with h1 _
          cases h1

end Copc
