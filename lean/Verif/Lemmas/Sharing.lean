import Verif.Model.Sharing
import Verif.Lemmas.Entry
import Verif.Lemmas.PageGraph
import Verif.Spec.Calls
import Verif.Spec.Answered
/-!
# Calls do not depend on the position of the stream
-/
namespace Copc
open Entry

/-- The same stream on the file `d`, but for the position. -/
def IStream.Like (d : Bytes) (s s' : IStream) : Prop := s.data = d ∧ s'.data = d ∧ s.fail = s'.fail
/-- The same stream on the file `d` or both failed. -/
def IStream.Near (d : Bytes) (s s' : IStream) : Prop := (s = s' ∧ s.data = d) ∨ (IStream.Like d s s' ∧ s.fail = true)
/-- Readers that are the same but for their streams. -/
def HReader.Rel (Q : IStream → IStream → Prop) (r r' : HReader) : Prop := Q r.str r'.str ∧ r.hier = r'.hier
def Reader.Rel (Q : IStream → IStream → Prop) (r r' : Reader) : Prop :=
  r.h.Rel Q r'.h ∧ r.vlrs = r'.vlrs ∧ r.cfg = r'.cfg

/-- From states that are alike the call gives the same result and states that are alike. -/
def Carries {σ α : Type} (R S : σ → σ → Prop) (x : Run σ α) : Prop := ∀ s s', R s s' →
  (x s = none ∧ x s' = none) ∨ ∃ a t t', x s = some (a, t) ∧ x s' = some (a, t') ∧ S t t'

variable {d : Bytes}

theorem like_refl {s : IStream} (h : s.data = d) : IStream.Like d s s := ⟨h, h, rfl⟩
theorem near_like {s s' : IStream} (h : IStream.Near d s s') : IStream.Like d s s' := by
  rcases h with ⟨rfl, h⟩ | h
  · exact like_refl h
  · exact h.1

theorem seekg_near {s s' : IStream} (h : IStream.Like d s s') (p : Nat) : IStream.Near d (s.seekg p) (s'.seekg p) := by
  obtain ⟨h1, h2, h3⟩ := h
  obtain ⟨e, a, f⟩ := s
  obtain ⟨e', a', f'⟩ := s'
  cases h1; cases h2; cases h3
  unfold IStream.seekg
  dsimp only
  split
  · exact .inr ⟨⟨rfl, rfl, rfl⟩, by assumption⟩
  · split
    · exact .inl ⟨rfl, rfl⟩
    · exact .inr ⟨⟨rfl, rfl, rfl⟩, rfl⟩

theorem failed_read {s : IStream} (h : s.fail = true) (n : Nat) : s.read n = ([], s) := by
  unfold IStream.read; rw [if_pos h]

theorem filled_near {s s' : IStream} (h : IStream.Near d s s') (n : Nat) :
    (s.readFilled n).1 = (s'.readFilled n).1 ∧ IStream.Near d (s.readFilled n).2 (s'.readFilled n).2 := by
  rcases h with ⟨rfl, h⟩ | ⟨⟨h1, h2, h4⟩, h3⟩
  · exact ⟨rfl, .inl ⟨rfl, (readFilled_data s n).trans h⟩⟩
  · unfold IStream.readFilled
    rw [failed_read h3, failed_read (h4 ▸ h3)]
    exact ⟨rfl, .inr ⟨⟨h1, h2, h4⟩, h3⟩⟩

theorem entries_near {s s' : IStream} (h : IStream.Near d s s') (n : Nat) :
    (readEntries n s).1 = (readEntries n s').1 ∧ IStream.Near d (readEntries n s).2 (readEntries n s').2 := by
  rcases h with ⟨rfl, h⟩ | ⟨⟨h1, h2, h4⟩, h3⟩
  · exact ⟨rfl, .inl ⟨rfl, (readEntries_data n s).trans h⟩⟩
  · cases n with
    | zero => exact ⟨rfl, .inr ⟨⟨h1, h2, h4⟩, h3⟩⟩
    | succ n =>
      unfold readEntries
      rw [unpackValid_of_fail h3, unpackValid_of_fail (h4 ▸ h3)]
      exact ⟨rfl, .inr ⟨⟨h1, h2, h4⟩, h3⟩⟩

theorem page_like {s s' : IStream} (h : IStream.Like d s s') (v : Bool) (o : Nat) (b : Int) :
    (readPage s v o b).1 = (readPage s' v o b).1 ∧ IStream.Like d (readPage s v o b).2 (readPage s' v o b).2 := by
  unfold readPage
  split
  · exact ⟨rfl, h⟩
  · obtain ⟨h1, h2⟩ := entries_near (seekg_near h o) (b.tdiv 32).toNat
    exact ⟨h1, near_like h2⟩

section
variable {σ τ α β : Type} {R S T : σ → σ → Prop}

theorem carries_bind {x : Run σ α} {f : α → Run σ β} (hx : Carries R S x) (hf : ∀ a, Carries S T (f a))
    (hST : ∀ s s', S s s' → T s s') : Carries R T (x >>= f) := by
  intro s s' h
  rcases hx s s' h with ⟨h1, h2⟩ | ⟨a, t, t', h1, h2, h3⟩
  · exact .inl ⟨Run.bind_none h1, Run.bind_none h2⟩
  · cases a with
    | ok a => rw [Run.bind_ok h1, Run.bind_ok h2]; exact hf a _ _ h3
    | throw e => exact .inr ⟨_, _, _, Run.bind_throw h1, Run.bind_throw h2, hST _ _ h3⟩
    | ub => exact .inr ⟨_, _, _, Run.bind_ub h1, Run.bind_ub h2, hST _ _ h3⟩

theorem carries_then {x : Run σ α} {f : α → Run σ β} (hx : Carries R R x) (hf : ∀ a, Carries R R (f a)) :
    Carries R R (x >>= f) := carries_bind hx hf fun _ _ h => h
theorem carries_pure (a : α) : Carries R R (pure a : Run σ α) := fun s s' h => .inr ⟨_, s, s', rfl, rfl, h⟩
theorem carries_lift (a : Res α) : Carries R R (Run.lift a : Run σ α) := fun s s' h => .inr ⟨_, s, s', rfl, rfl, h⟩
theorem carries_gets {f : σ → α} (hf : ∀ s s', R s s' → f s = f s') : Carries R R (Run.gets f) :=
  fun s s' h => .inr ⟨_, s, s', rfl, by rw [Run.gets_apply, hf s s' h], h⟩
theorem carries_collect {f : β → Run σ (List α)} (hf : ∀ b, Carries R R (f b)) : ∀ l, Carries R R (Run.collect f l)
  | [] => carries_pure _
  | b :: l => by
    rw [Run.collect_cons]
    exact carries_then (hf b) fun x => carries_then (carries_collect hf l) fun y => carries_pure _

theorem carries_act_bind {x : Act σ α} {f : α → Act σ β} (hx : Carries R S (Run.ofAct x))
    (hf : ∀ a, Carries S T (Run.ofAct (f a))) (hST : ∀ s s', S s s' → T s s') : Carries R T (Run.ofAct (x >>= f)) := by
  intro s s' h
  rcases hx s s' h with ⟨h1, h2⟩ | ⟨a, t, t', h1, h2, h3⟩
  · cases h1
  · rw [Run.ofAct_apply] at h1 h2 ⊢
    injection h1 with h1
    injection h2 with h2
    rw [Run.ofAct_apply]
    cases a with
    | ok a => rw [Act.bind_ok h1, Act.bind_ok h2]; exact hf a _ _ h3
    | throw e => exact .inr ⟨_, _, _, by rw [Act.bind_throw h1], by rw [Act.bind_throw h2], hST _ _ h3⟩
    | ub => exact .inr ⟨_, _, _, by rw [Act.bind_ub h1], by rw [Act.bind_ub h2], hST _ _ h3⟩
theorem carries_act_then {x : Act σ α} {f : α → Act σ β} (hx : Carries R R (Run.ofAct x))
    (hf : ∀ a, Carries R R (Run.ofAct (f a))) : Carries R R (Run.ofAct (x >>= f)) :=
  carries_act_bind hx hf fun _ _ h => h
theorem carries_act_pure (a : α) : Carries R R (Run.ofAct (pure a : Act σ α)) :=
  fun s s' h => .inr ⟨_, s, s', rfl, rfl, h⟩
theorem carries_act_lift (a : Res α) : Carries R R (Run.ofAct (Act.lift a : Act σ α)) :=
  fun s s' h => .inr ⟨_, s, s', rfl, rfl, h⟩
theorem carries_act_gets {f : σ → α} (hf : ∀ s s', R s s' → f s = f s') : Carries R R (Run.ofAct (Act.gets f)) :=
  fun s s' h => .inr ⟨_, s, s', rfl, by rw [Run.ofAct_apply, Act.gets_apply, hf s s' h], h⟩
theorem carries_act_throwIf (p : Prop) [Decidable p] (e : Exc) :
    Carries R R (Run.ofAct (Act.throwIf p e : Act σ Unit)) := by
  intro s s' h
  rw [Run.ofAct_apply, Run.ofAct_apply, Act.throwIf_apply, Act.throwIf_apply]
  split
  · exact .inr ⟨_, _, _, rfl, rfl, h⟩
  · exact .inr ⟨_, _, _, rfl, rfl, h⟩
end

/-! ### The hierarchy -/

abbrev HLike (d : Bytes) : HReader → HReader → Prop := HReader.Rel (IStream.Like d)
abbrev RLike (d : Bytes) : Reader → Reader → Prop := Reader.Rel (IStream.Like d)

theorem carries_page (id : Nat) : Carries (HLike d) (HLike d) (Run.ofAct (HReader.readAndParsePage id)) := by
  intro s s' h
  obtain ⟨str, hier⟩ := s
  obtain ⟨str', hier'⟩ := s'
  obtain ⟨h1, h2⟩ := h
  cases h2
  rw [Run.ofAct_apply, Run.ofAct_apply]
  unfold HReader.readAndParsePage
  dsimp only
  cases hp : hier.heap[id]? with
  | none => exact .inr ⟨_, _, _, rfl, rfl, h1, rfl⟩
  | some p =>
    dsimp only
    obtain ⟨e1, e2⟩ := page_like h1 p.isValid p.offset p.byteSize
    generalize readPage str p.isValid p.offset p.byteSize = x at e1 e2 ⊢
    generalize readPage str' p.isValid p.offset p.byteSize = y at e1 e2 ⊢
    obtain ⟨x1, x2⟩ := x
    obtain ⟨y1, y2⟩ := y
    cases e1
    cases x1 with
    | ok es => exact .inr ⟨_, _, _, rfl, rfl, e2, rfl⟩
    | throw e => exact .inr ⟨_, _, _, rfl, rfl, e2, rfl⟩
    | ub => exact .inr ⟨_, _, _, rfl, rfl, e2, rfl⟩

theorem carries_findNode (fuel : Nat) (key : VoxelKey) : Carries (HLike d) (HLike d) (HReader.findNode fuel key) := by
  induction fuel with
  | zero => exact fun _ _ _ => .inl ⟨rfl, rfl⟩
  | succ k ih =>
    intro s s' h
    have hh := h.2
    unfold HReader.findNode
    rw [← hh]
    cases h1 : AList.get key s.hier.nodes with
    | some n => exact .inr ⟨_, _, _, rfl, rfl, h⟩
    | none =>
      dsimp only
      cases h2 : s.hier.nearest (key.getParents true) with
      | none => exact .inr ⟨_, _, _, rfl, rfl, h⟩
      | some id =>
        dsimp only
        cases h3 : s.hier.heap[id]? with
        | none => exact .inr ⟨_, _, _, rfl, rfl, h⟩
        | some p =>
          dsimp only
          split
          · exact .inr ⟨_, _, _, rfl, rfl, h⟩
          · exact carries_then (carries_page id) (fun _ => ih) _ _ h

theorem carries_ensure (id : Nat) (p : RPage) : Carries (HLike d) (HLike d) (Run.ofAct (HReader.ensureLoaded id p)) := by
  intro s s' h
  have e : ∀ s, Run.ofAct (HReader.ensureLoaded id p) s =
      if p.loaded then some (.ok (), s) else Run.ofAct (HReader.readAndParsePage id) s := by
    intro s
    rw [Run.ofAct_apply]
    unfold HReader.ensureLoaded
    split <;> rfl
  rw [e, e]
  split
  · exact .inr ⟨_, _, _, rfl, rfl, h⟩
  · exact carries_page id _ _ h

theorem carries_load (ord : ROrder) (fuel : Nat) : ∀ id, Carries (HLike d) (HLike d) (HReader.loadPageHierarchy ord fuel id) := by
  induction fuel with
  | zero => exact fun _ _ _ _ => .inl ⟨rfl, rfl⟩
  | succ k ih =>
    intro id s s' h
    have hh := h.2
    unfold HReader.loadPageHierarchy
    rw [← hh]
    cases h1 : s.hier.heap[id]? with
    | none => exact .inr ⟨_, _, _, rfl, rfl, h⟩
    | some p =>
      dsimp only
      split
      · exact .inr ⟨_, _, _, rfl, rfl, h⟩
      · refine carries_then (carries_ensure id p) (fun _ => carries_then (carries_gets ?_) fun q => ?_) _ _ h
        · intro s s' h; rw [h.2]
        · cases q with
          | none => exact carries_lift _
          | some q => exact carries_then (carries_collect ih _) fun l => carries_pure _

theorem carries_children (ord : ROrder) (fuel : Nat) (key : VoxelKey) :
    Carries (HLike d) (HLike d) (HReader.getAllChildrenOfPage ord fuel key) := by
  unfold HReader.getAllChildrenOfPage
  split
  · exact carries_pure _
  · refine carries_then (carries_findNode fuel key) fun node => ?_
    intro s s' h
    have hh := h.2
    unfold HReader.childrenFrom
    rw [← hh]
    cases h1 : AList.get key s.hier.seen with
    | none => exact .inr ⟨_, _, _, rfl, rfl, h⟩
    | some id => exact carries_load ord fuel id _ _ h

variable {α : Type} {L : Lazperf}

theorem carries_hier {x : Run HReader α} (hx : Carries (HLike d) (HLike d) x) : Carries (RLike d) (RLike d) (Reader.onHier x) := by
  intro r r' h
  unfold Reader.onHier Run.zoom
  rcases hx _ _ h.1 with ⟨h1, h2⟩ | ⟨a, t, t', h1, h2, h3⟩
  · exact .inl ⟨by rw [h1]; rfl, by rw [h2]; rfl⟩
  · exact .inr ⟨a, { r with h := t }, { r' with h := t' }, by rw [h1]; rfl, by rw [h2]; rfl, h3, h.2⟩

theorem carries_hierarchy {x : Nat → Run Reader α} (hx : HierarchyCall x) (k : Nat) : Carries (RLike d) (RLike d) (x k) := by
  have hall : ∀ ord, Carries (RLike d) (RLike d) (Reader.getAllNodes ord k) := fun ord => carries_hier (carries_children ord k _)
  have hdep : ∀ ord res, Carries (RLike d) (RLike d) (Reader.getDepthAtResolution ord k res) := fun ord res =>
    carries_then (hall ord) fun nodes => carries_gets fun s s' h => by rw [h.2.2]
  have hfil : ∀ ord res keep, Carries (RLike d) (RLike d) (Reader.filterNodes ord k res keep) := fun ord res keep =>
    carries_then (hdep ord res) fun d => carries_then (hall ord) fun nodes => carries_gets fun s s' h => by rw [h.2.2]
  cases hx with
  | findNode key => exact carries_hier (carries_findNode k key)
  | children ord key => exact carries_hier (carries_children ord k key)
  | allNodes ord => exact hall ord
  | pageList ord =>
    exact carries_hier (carries_then (carries_children ord k _) fun _ => carries_gets fun s s' h => by rw [h.2])
  | depth ord res => exact hdep ord res
  | maxDepth ord => exact hdep ord _
  | nodesAt ord res => exact hfil ord res _
  | nodesUpTo ord res => exact hfil ord res _
  | nodesWithin ord box res => exact hfil ord res _
  | nodesIntersect ord box res => exact hfil ord res _

/-! ### Points -/

theorem rel_eq {r r' : Reader} (h : r.Rel (· = ·) r') : r = r' := by
  obtain ⟨⟨a, b⟩, c, d⟩ := r
  obtain ⟨⟨a', b'⟩, c', d'⟩ := r'
  obtain ⟨⟨h1, h2⟩, h3, h4⟩ := h
  cases h1; cases h2; cases h3; cases h4
  rfl

theorem rel_mono {Q Q' : IStream → IStream → Prop} (hQ : ∀ s s', Q s s' → Q' s s') (r r' : Reader) (h : r.Rel Q r') :
    r.Rel Q' r' := ⟨⟨hQ _ _ h.1.1, h.1.2⟩, h.2⟩

theorem carries_stream {Q Q' : IStream → IStream → Prop} {x : Act IStream α}
    (hx : ∀ s s', Q s s' → (x s).1 = (x s').1 ∧ Q' (x s).2 (x s').2) :
    Carries (Reader.Rel Q) (Reader.Rel Q') (Run.ofAct (Reader.onStream x)) := by
  intro r r' h
  obtain ⟨h1, h2⟩ := hx _ _ h.1.1
  refine .inr ⟨_, _, r'.on (x r'.h.str).2, rfl, ?_, ⟨h2, h.1.2⟩, h.2⟩
  show some ((x r'.h.str).1, r'.on _) = some ((x r.h.str).1, _)
  rw [h1]

theorem decompress_data (hd : LasHeader) (n : Int) (s : IStream) : (Reader.decompressBytes L hd n s).2.data = s.data := by
  unfold Reader.decompressBytes
  cases hd.ebSize with
  | throw e => rfl
  | ub => rfl
  | ok eb =>
    dsimp only
    unfold Reader.decompressStream
    cases pointByteSize hd.fmt eb with
    | throw e => rfl
    | ub => rfl
    | ok size =>
      dsimp only
      split
      · rfl
      · split
        · rfl
        · generalize L.decompress _ _ _ _ = q
          cases q <;> rfl

theorem decompress_near (hd : LasHeader) (n : Int) (s s' : IStream) (h : IStream.Near d s s') :
    (Reader.decompressBytes L hd n s).1 = (Reader.decompressBytes L hd n s').1 ∧
    IStream.Like d (Reader.decompressBytes L hd n s).2 (Reader.decompressBytes L hd n s').2 := by
  rcases h with ⟨rfl, h⟩ | ⟨⟨h1, h2, h5⟩, h3⟩
  · exact ⟨rfl, like_refl ((decompress_data hd n s).trans h)⟩
  · have h4 : s'.fail = true := h5 ▸ h3
    unfold Reader.decompressBytes
    cases hd.ebSize with
    | throw e => exact ⟨rfl, h1, h2, h5⟩
    | ub => exact ⟨rfl, h1, h2, h5⟩
    | ok eb =>
      dsimp only
      unfold Reader.decompressStream
      rw [if_pos h3, if_pos h4]
      cases pointByteSize hd.fmt eb with
      | throw e => exact ⟨rfl, h1, h2, h5⟩
      | ub => exact ⟨rfl, h1, h2, h5⟩
      | ok size =>
        dsimp only
        split
        · exact ⟨rfl, h1, h2, rfl⟩
        · split
          · exact ⟨rfl, h1, h2, h5⟩
          · generalize L.decompress _ _ _ _ = q
            cases q with
            | none => exact ⟨rfl, h1, h2, rfl⟩
            | some l => exact ⟨rfl, h1, h2, rfl⟩

theorem carries_pointData (n : Node) : Carries (RLike d) (RLike d) (Run.ofAct (Reader.getPointData L n)) := by
  unfold Reader.getPointData
  refine carries_act_then (carries_act_throwIf _ _) fun _ => ?_
  refine carries_act_bind (S := Reader.Rel (IStream.Near d)) (carries_stream fun s s' h => ⟨rfl, seekg_near h _⟩) (fun _ => ?_)
    (rel_mono fun _ _ => near_like)
  refine carries_act_bind (carries_act_gets fun s s' h => by rw [h.2.2]) (fun hd => ?_) (rel_mono fun _ _ => near_like)
  exact carries_stream (decompress_near hd _)

theorem carries_compressed (n : Node) : Carries (RLike d) (RLike d) (Run.ofAct (Reader.getPointDataCompressed n)) := by
  unfold Reader.getPointDataCompressed
  refine carries_act_then (carries_act_throwIf _ _) fun _ => ?_
  refine carries_act_bind (S := Reader.Rel (IStream.Near d)) (carries_stream fun s s' h => ⟨rfl, seekg_near h _⟩) (fun _ => ?_)
    (rel_mono fun _ _ => near_like)
  refine carries_stream fun s s' h => ?_
  obtain ⟨h1, h2⟩ := filled_near h n.entry.byteSize.toNat
  exact ⟨by dsimp only; rw [h1], near_like h2⟩

theorem carries_points (n : Node) : Carries (RLike d) (RLike d) (Run.ofAct (Reader.getPoints L n)) := by
  unfold Reader.getPoints
  exact carries_act_then (carries_pointData n) fun _ =>
    carries_act_then (carries_act_gets fun s s' h => by rw [h.2.2]) fun _ => carries_act_lift _

theorem carries_valid (n : Node) : Carries (RLike d) (RLike d) (Run.ofAct (Reader.nodeValid L n)) := by
  unfold Reader.nodeValid
  refine carries_act_then (carries_act_gets fun s s' h => by rw [h.2.2]) fun h =>
    carries_act_then (carries_act_lift _) fun bounds => ?_
  split
  · exact carries_act_pure _
  · exact carries_act_then (carries_points n) fun _ => carries_act_pure _

theorem carries_validLoop : ∀ l, Carries (RLike d) (RLike d) (Run.ofAct (Reader.validateLoop L l))
  | [] => carries_act_pure _
  | n :: l => by
    unfold Reader.validateLoop
    refine carries_act_then (carries_valid n) fun b => ?_
    split
    · exact carries_validLoop l
    · exact carries_act_pure _

theorem carries_verbose (n : Node) (q : Bool × Int × Int) : Carries (RLike d) (RLike d) (Run.ofAct (Reader.verboseNode L n q)) := by
  unfold Reader.verboseNode
  refine carries_act_then (carries_act_gets fun s s' h => by rw [h.2.2]) fun h =>
    carries_act_then (carries_act_lift _) fun bounds => ?_
  split
  · exact carries_act_then (carries_act_lift _) fun _ => carries_act_pure _
  · exact carries_act_then (carries_points n) fun _ => carries_act_then (carries_act_lift _) fun _ =>
      carries_act_then (carries_act_lift _) fun _ => carries_act_pure _

theorem carries_verboseLoop : ∀ l q, Carries (RLike d) (RLike d) (Run.ofAct (Reader.verboseLoop L l q))
  | [], _ => carries_act_pure _
  | n :: l, q => by
    unfold Reader.verboseLoop
    exact carries_act_then (carries_verbose n q) fun _ => carries_verboseLoop l _

theorem carries_pointCall {x : Nat → Run Reader α} (hx : PointCall L x) (k : Nat) : Carries (RLike d) (RLike d) (x k) := by
  have hall : ∀ ord, Carries (RLike d) (RLike d) (Reader.getAllNodes ord k) := fun ord => carries_hierarchy (.allNodes ord) k
  have hdep : ∀ ord res, Carries (RLike d) (RLike d) (Reader.getDepthAtResolution ord k res) := fun ord res =>
    carries_hierarchy (.depth ord res) k
  have hdat : ∀ key, Carries (RLike d) (RLike d) (Reader.getPointDataAt L k key) := by
    intro key
    unfold Reader.getPointDataAt
    split
    · exact carries_pure _
    · refine carries_then (carries_hierarchy (.findNode key) k) fun node => ?_
      split
      · exact carries_pure _
      · exact carries_pointData node
  have hcfg : ∀ s s', RLike d s s' → s.cfg.header = s'.cfg.header := fun s s' h => by rw [h.2.2]
  cases hx with
  | pointData n => exact carries_pointData n
  | pointDataAt key => exact hdat key
  | points n => exact carries_points n
  | pointsAt key =>
    refine carries_then (hdat key) fun data => carries_then (carries_gets hcfg) fun hd => ?_
    split
    · exact carries_lift _
    · exact carries_lift _
  | allPoints ord res =>
    refine carries_then (hdep ord res) fun depth => carries_then (hall ord) fun nodes => carries_collect (fun n => ?_) _
    split
    · exact carries_points n
    · exact carries_pure _
  | pointsWithin ord box res =>
    refine carries_then (hdep ord res) fun depth => carries_then (hall ord) fun nodes => carries_collect (fun n => ?_) _
    unfold Reader.boxPoints
    refine carries_then (carries_gets hcfg) fun h => ?_
    split
    · split
      · exact carries_points n
      · split
        · exact carries_then (carries_points n) fun _ => carries_pure _
        · exact carries_pure _
    · exact carries_pure _
  | validate ord verbose =>
    refine carries_then (hall ord) fun nodes => ?_
    split
    · exact carries_then (carries_verboseLoop _ _) fun _ => carries_pure _
    · exact carries_validLoop _

/-- No call of a reader depends on the position the stream is at. -/
theorem carries_call {x : Nat → Run Reader α} (hx : ReaderCall L x) (k : Nat) : Carries (RLike d) (RLike d) (x k) := by
  cases hx with
  | hierarchy h => exact carries_hierarchy h k
  | point h => exact carries_pointCall h k
  | compressed n => exact carries_compressed n
  | compressedAt key =>
    unfold Reader.getPointDataCompressedAt
    split
    · exact carries_pure _
    · refine carries_then (carries_hierarchy (.findNode key) k) fun node => ?_
      split
      · exact carries_pure _
      · exact carries_compressed node

end Copc
