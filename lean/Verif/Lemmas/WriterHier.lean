import Verif.Lemmas.WriterClosed
import Verif.Lemmas.PageTree
/-! # The nodes and pages of a writer -/
namespace Copc
open Spec VoxelKey

/-! ### Calls that keep a part of the state -/

/-- The call keeps `f` of the state, whatever its outcome. -/
def Keeps {σ α β : Type} (f : σ → β) (x : Act σ α) : Prop := ∀ s, f (x s).2 = f s

section
variable {σ τ α β γ : Type} {f : σ → γ}

theorem keeps_bind {x : Act σ α} {g : α → Act σ β} (hx : Keeps f x) (hg : ∀ a, Keeps f (g a)) :
    Keeps f (x >>= g) := by
  intro s
  rw [Act.bind_apply]
  have h1 := hx s
  generalize x s = p at h1 ⊢
  obtain ⟨r, s'⟩ := p
  cases r with
  | ok a => exact (hg a s').trans h1
  | throw e => exact h1
  | ub => exact h1

theorem keeps_gets (g : σ → α) : Keeps f (Act.gets g) := fun _ => rfl
theorem keeps_lift (r : Res α) : Keeps f (Act.lift r : Act σ α) := fun _ => rfl
theorem keeps_pure (a : α) : Keeps f (pure a : Act σ α) := fun _ => rfl
theorem keeps_throwIf {c : Prop} [Decidable c] {e : Exc} : Keeps f (Act.throwIf c e : Act σ Unit) := by
  intro s; rw [Act.throwIf_apply]; split <;> rfl
theorem keeps_modify {g : σ → σ} (h : ∀ s, f (g s) = f s) : Keeps f (Act.modify g) := h
theorem keeps_ite {c : Prop} [Decidable c] {x y : Act σ α} (hx : Keeps f x) (hy : Keeps f y) :
    Keeps f (if c then x else y) := by split <;> assumption
theorem keeps_forEach {x : β → Act σ Unit} (h : ∀ b, Keeps f (x b)) (l : List β) :
    Keeps f (Act.forEach x l) := by
  induction l with
  | nil => exact fun _ => rfl
  | cons b l ih => exact keeps_bind (h b) fun _ => ih
end

/-- Nodes and pages. -/
def hierOf (w : Writer) : List (VoxelKey × Node) × List (VoxelKey × WPage) := (w.nodes, w.pages)

theorem keeps_onBase {α : Type} (x : Act BaseW α) : Keeps hierOf (Writer.onBase x) := fun _ => rfl
theorem keeps_onBase_cfg {α : Type} (x : Act BaseW α) : Keeps (fun w : Writer => w.cfg) (Writer.onBase x) :=
  fun _ => rfl

/-- The parts of the configuration that `Close` does not touch: all but the place of the root page. -/
def cfgRest (w : Writer) : LazConfig × Extents := (w.cfg.toLazConfig, w.cfg.extents)

def keptParts (w : Writer) := (hierOf w, cfgRest w)

theorem keeps_writePages (ord : Order) : Keeps keptParts (Writer.writePages ord) := by
  intro w
  unfold Writer.writePages
  split
  · dsimp only
    refine keeps_forEach (f := fun s : Writer.PageW => keptParts s.w) (x := Writer.writePage ord _)
      ?_ _ ⟨w, []⟩
    intro k
    unfold Writer.writePage
    dsimp only
    refine keeps_bind (keeps_gets _) fun ns => ?_
    refine keeps_bind (keeps_modify fun _ => rfl) fun _ => ?_
    refine keeps_bind (keeps_modify fun _ => rfl) fun _ => ?_
    refine keeps_bind (keeps_gets _) fun off => ?_
    refine keeps_bind keeps_throwIf fun _ => ?_
    refine keeps_bind (keeps_modify fun _ => rfl) fun _ => ?_
    split
    · refine keeps_bind (keeps_modify fun _ => rfl) fun _ => ?_
      refine keeps_bind (keeps_modify fun _ => rfl) fun _ => ?_
      refine keeps_bind (keeps_gets _) fun _ => ?_
      exact keeps_modify fun _ => rfl
    · refine keeps_bind (keeps_modify fun _ => rfl) fun _ => ?_
      refine keeps_bind (keeps_gets _) fun _ => ?_
      exact keeps_modify fun _ => rfl
  · rfl
  · rfl

theorem keeps_onBase' {α : Type} (x : Act BaseW α) : Keeps keptParts (Writer.onBase x) := fun _ => rfl

theorem keeps_close (L : Lazperf) (ord : Order) : Keeps keptParts (Writer.close L ord) := by
  unfold Writer.close
  refine keeps_bind (keeps_gets _) fun o => keeps_ite (keeps_pure _) ?_
  refine keeps_bind (keeps_gets _) fun c => keeps_bind (keeps_lift _) fun otpd => ?_
  refine keeps_bind (keeps_onBase' _) fun _ => keeps_bind (keeps_onBase' _) fun _ => ?_
  refine keeps_bind (keeps_gets _) fun n => keeps_bind (keeps_onBase' _) fun _ => ?_
  refine keeps_bind (keeps_writePages ord) fun _ => keeps_bind (keeps_onBase' _) fun _ => ?_
  refine keeps_bind ?_ fun _ => keeps_onBase' _
  unfold Writer.writeHeader
  refine keeps_bind (keeps_gets _) fun c => keeps_bind (keeps_lift _) fun otpd => ?_
  refine keeps_bind (keeps_onBase' _) fun _ => keeps_bind (keeps_lift _) fun gps => ?_
  refine keeps_bind (keeps_onBase' _) fun _ => keeps_bind (keeps_lift _) fun _ => ?_
  refine keeps_bind (keeps_onBase' _) fun _ => ?_
  split
  · exact keeps_bind (keeps_onBase' _) fun _ => keeps_bind (keeps_onBase' _) fun _ => keeps_onBase' _
  · exact keeps_bind (keeps_onBase' _) fun _ => keeps_onBase' _

/-! ### What an addition does to nodes and pages, on any stream -/

/-- Outcome of an addition: nothing added, or a node in its page. -/
def AddHier (key page : VoxelKey) (w : Writer) (r : Res (Option Node) × Writer) : Prop :=
  (hierOf r.2 = hierOf w ∧ ∀ n, r.1 ≠ .ok (some n)) ∨
  ∃ n, r.1 = .ok (some n) ∧ n.entry.key = key ∧ n.pageKey = page ∧ Valid key ∧ Valid page ∧
    Below key page ∧ r.2.nodes = AList.put key n w.nodes ∧
    r.2.pages = AList.put page (AList.put key n ((AList.get page w.pages).getD [])) w.pages

theorem doAddNode_hier (L : Lazperf) (key : VoxelKey) (bs : Bytes) (count : Int) (compressed : Bool)
    (page : VoxelKey) (w : Writer) :
    AddHier key page w ((do
      let n ← Writer.doAddNode L key bs count compressed page
      pure (some n) : Act Writer (Option Node)) w) := by
  unfold Writer.doAddNode
  by_cases h1 : page.isValid = false ∨ key.isValid = false
  · rw [Act.bind_throw (Act.bind_throw (Act.throwIf_pos h1 _ _))]
    exact .inl ⟨rfl, by simp⟩
  by_cases h2 : key.childOf page = false
  · rw [Act.bind_throw (by rw [Act.bind_ok (Act.throwIf_neg h1 _ _)]; exact Act.bind_throw (Act.throwIf_pos h2 _ _))]
    exact .inl ⟨rfl, by simp⟩
  have hv : Valid page ∧ Valid key := by
    rw [not_or, isValid_false_iff, isValid_false_iff, not_not, not_not] at h1
    exact h1
  have hb : Below key page := ((childOf_iff _ _).1 (by simpa using h2)).2
  rcases hwc : BaseW.writeChunk L w.cfg.header bs count compressed w.base with ⟨r, b⟩
  have hz : Writer.onBase (BaseW.writeChunk L w.cfg.header bs count compressed) w = (r, { w with base := b }) := by
    unfold Writer.onBase; rw [Act.zoom_apply, hwc]
  cases r with
  | throw e =>
    rw [Act.bind_throw (by
      rw [Act.bind_ok (Act.throwIf_neg h1 _ _), Act.bind_ok (Act.throwIf_neg h2 _ _),
        Act.bind_ok (Act.gets_apply _ _), Act.bind_throw hz])]
    exact .inl ⟨rfl, by simp⟩
  | ub =>
    rw [Act.bind_ub (by
      rw [Act.bind_ok (Act.throwIf_neg h1 _ _), Act.bind_ok (Act.throwIf_neg h2 _ _),
        Act.bind_ok (Act.gets_apply _ _), Act.bind_ub hz])]
    exact .inl ⟨rfl, by simp⟩
  | ok a =>
    right
    obtain ⟨_, w1, e1, e2⟩ := Act.bind_eq_ok.1 (ensure_add page key ⟨⟨key, a.1, a.2.1, a.2.2⟩, page⟩
      { w with
        base := b
        nodes := AList.put key ⟨⟨key, a.1, a.2.1, a.2.2⟩, page⟩ w.nodes })
    rw [Act.bind_ok (by
      rw [Act.bind_ok (Act.throwIf_neg h1 _ _), Act.bind_ok (Act.throwIf_neg h2 _ _),
        Act.bind_ok (Act.gets_apply _ _), Act.bind_ok hz]
      rw [Act.bind_ok (Act.modify_apply _ _), Act.bind_ok e1, Act.bind_ok e2]
      rfl)]
    exact ⟨_, rfl, rfl, rfl, hv.2, hv.1, hb, rfl, rfl⟩

theorem addHier_none {key page : VoxelKey} {w : Writer} {x : Act Writer Node} {r : Res Node}
    (hx : x w = (r, w)) (hr : ∀ a, r ≠ .ok a) :
    AddHier key page w ((do
      let n ← x
      pure (some n) : Act Writer (Option Node)) w) := by
  left
  cases r with
  | ok a => exact absurd rfl (hr a)
  | throw e => rw [Act.bind_throw hx]; exact ⟨rfl, by simp⟩
  | ub => rw [Act.bind_ub hx]; exact ⟨rfl, by simp⟩

theorem addNode_hier (L : Lazperf) (key : VoxelKey) (bs : Bytes) (page : VoxelKey) (w : Writer) :
    AddHier key page w ((do
      let n ← Writer.addNode L key bs page
      pure (some n) : Act Writer (Option Node)) w) := by
  rcases addNode_reduce L key bs page w with ⟨r, h1, h2⟩ | h
  · exact addHier_none h1 h2
  · rw [Act.bind_apply, h, ← Act.bind_apply]
    exact doAddNode_hier ..

/-- Additions on any writer. -/
theorem add_hier (L : Lazperf) (ord : Order) {op : Op} {key page : VoxelKey}
    (ht : op.target = some (key, page)) (w : Writer) : AddHier key page w (op.run L ord w) := by
  cases op with
  | add k bs p =>
    obtain ⟨rfl, rfl⟩ : k = key ∧ p = page := by simpa [Op.target] using ht
    exact addNode_hier ..
  | addPoints k fmt len ps p =>
    obtain ⟨rfl, rfl⟩ : k = key ∧ p = page := by simpa [Op.target] using ht
    simp only [Op.run]
    unfold Writer.addNodePoints
    by_cases h1 : ps = []
    · exact addHier_none (by
        rw [Act.bind_ok (Act.gets_apply _ _), Act.bind_throw (Act.throwIf_pos h1 _ _)]) (by simp)
    by_cases h2 : fmt ≠ w.cfg.header.fmt ∨ len ≠ w.cfg.header.recLen.toNat
    · exact addHier_none (by
        rw [Act.bind_ok (Act.gets_apply _ _), Act.bind_ok (Act.throwIf_neg h1 _ _),
          Act.bind_throw (Act.throwIf_pos h2 _ _)]) (by simp)
    cases hp : packPoints ps w.cfg.header.scale w.cfg.header.offset with
    | throw e =>
      exact addHier_none (r := .throw e) (by
        rw [Act.bind_ok (Act.gets_apply _ _), Act.bind_ok (Act.throwIf_neg h1 _ _),
          Act.bind_ok (Act.throwIf_neg h2 _ _), hp, Act.bind_throw (Act.lift_apply _ _)]) (by simp)
    | ub =>
      exact addHier_none (r := .ub) (by
        rw [Act.bind_ok (Act.gets_apply _ _), Act.bind_ok (Act.throwIf_neg h1 _ _),
          Act.bind_ok (Act.throwIf_neg h2 _ _), hp, Act.bind_ub (Act.lift_apply _ _)]) (by simp)
    | ok bs =>
      have := addNode_hier L k bs p w
      rw [Act.bind_apply] at this ⊢
      rw [Act.bind_ok (Act.gets_apply _ _), Act.bind_ok (Act.throwIf_neg h1 _ _),
          Act.bind_ok (Act.throwIf_neg h2 _ _), hp, Act.bind_ok (Act.lift_apply _ _)]
      exact this
  | addCompressed k bs c p =>
    obtain ⟨rfl, rfl⟩ : k = key ∧ p = page := by simpa [Op.target] using ht
    simp only [Op.run]
    unfold Writer.addNodeCompressed
    by_cases h1 : c = 0
    · exact addHier_none (Act.bind_throw (Act.throwIf_pos h1 _ _)) (by simp)
    · have := doAddNode_hier L k bs c true p w
      rw [Act.bind_apply] at this ⊢
      rw [Act.bind_ok (Act.throwIf_neg h1 _ _)]
      exact this
  | move k p => simp [Op.target] at ht
  | close => simp [Op.target] at ht

end Copc
