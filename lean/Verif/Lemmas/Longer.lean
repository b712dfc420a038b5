import Verif.Lemmas.Entry
import Verif.Lemmas.ReaderCalls
import Verif.Props.ReaderEnds
import Verif.Spec.Calls
import Verif.Spec.Longer
/-!
# Reading a file that goes on

What a reader returns for a file is what it returns for a file that has more bytes at the end.
-/
namespace Copc
open Entry

variable {t : Bytes}

theorem more_data (s : IStream) : (s.more t).data = s.data ++ t := rfl
theorem more_pos (s : IStream) : (s.more t).pos = s.pos := rfl
theorem more_fail (s : IStream) : (s.more t).fail = s.fail := rfl

theorem seekg_more (s : IStream) (p : Nat) : (s.more t).seekg p = (s.seekg p).more t := by
  unfold IStream.seekg
  rw [more_fail]
  split
  · rfl
  · split <;> rfl

theorem skip64_more (s : IStream) (n : UInt64) : (s.more t).skip64 n = (s.skip64 n).more t := by
  unfold IStream.skip64
  rw [more_fail, more_pos, seekg_more]
  split
  · rfl
  · split
    · rfl
    · split <;> rfl

theorem read_more {s : IStream} {n : Nat} (h : s.fail = true ∨ (s.read n).2.fail = false) :
    (s.more t).read n = ((s.read n).1, (s.read n).2.more t) := by
  unfold IStream.read at h ⊢
  rw [more_fail, more_pos, more_data]
  by_cases hf : s.fail = true
  · rw [if_pos hf, if_pos hf]
  · rw [if_neg hf, if_neg hf]
    rw [if_neg hf] at h
    by_cases hl : s.pos + n ≤ s.data.length
    · rw [if_pos hl, if_pos (by rw [List.length_append]; omega), List.drop_append_of_le_length (by omega),
        List.take_append_of_le_length (by rw [List.length_drop]; omega)]
      rfl
    · rw [if_neg hl] at h
      rcases h with h | h
      · exact absurd h hf
      · cases h

theorem read_good {s : IStream} {n : Nat} (h : (s.read n).2.fail = false) : s.fail = false := by
  cases hf : s.fail with
  | false => rfl
  | true => unfold IStream.read at h; rw [if_pos hf, hf] at h; cases h

theorem seekg_good' {s : IStream} {p : Nat} (h : (s.seekg p).fail = false) : s.fail = false := by
  cases hf : s.fail with
  | false => rfl
  | true => unfold IStream.seekg at h; rw [if_pos hf, hf] at h; cases h

theorem skip64_good {s : IStream} {n : UInt64} (h : (s.skip64 n).fail = false) : s.fail = false := by
  cases hf : s.fail with
  | false => rfl
  | true =>
    unfold IStream.skip64 at h
    split at h
    · exact absurd (seekg_good' h) (by rw [hf]; simp)
    · rw [hf] at h; cases h

/-! ### Opening -/

/-- The function gives the same on a longer file, unless the stream is failed afterwards. -/
def Firm (t : Bytes) {α : Type} (f : IStream → α × IStream) : Prop :=
  ∀ s, (f s).2.fail = false → s.fail = false ∧ f (s.more t) = ((f s).1, (f s).2.more t)

section
variable {α β : Type}

theorem Firm.seek {f : IStream → α × IStream} (hf : Firm t f) (p : Nat) : Firm t fun s => f (s.seekg p) := by
  intro s h
  obtain ⟨h1, h2⟩ := hf _ h
  refine ⟨seekg_good' h1, ?_⟩
  show f ((s.more t).seekg p) = _
  rw [seekg_more]; exact h2

theorem firm_pure (a : α) : Firm t fun s => (a, s) := fun _ h => ⟨h, rfl⟩

theorem firm_read (n : Nat) : Firm t fun s => s.read n := fun _ h => ⟨read_good h, read_more (.inr h)⟩

theorem firm_filled (n : Nat) : Firm t fun s => s.readFilled n := by
  intro s h
  obtain ⟨h1, h2⟩ := firm_read (t := t) n s h
  refine ⟨h1, ?_⟩
  dsimp only at h2 ⊢
  unfold IStream.readFilled
  rw [h2]

theorem Firm.bind {f : IStream → α × IStream} {g : α → IStream → β × IStream} (hf : Firm t f)
    (hg : ∀ a, Firm t (g a)) : Firm t fun s => g (f s).1 (f s).2 := by
  intro s h
  obtain ⟨h1, h2⟩ := hg _ _ h
  obtain ⟨h3, h4⟩ := hf _ h1
  refine ⟨h3, ?_⟩
  dsimp only
  rw [h4]
  exact h2

theorem Firm.map {f : IStream → α × IStream} (g : α → β) (hf : Firm t f) : Firm t fun s => (g (f s).1, (f s).2) :=
  hf.bind fun a => firm_pure (g a)

theorem firm_vlrLoop : ∀ (n : Nat) (out : List (Nat × VlrHeader)), Firm t fun s => BaseReader.vlrLoop n s out
  | 0, out => firm_pure out
  | n + 1, out => by
    intro s h
    dsimp only [BaseReader.vlrLoop] at h ⊢
    obtain ⟨h1, h2⟩ := firm_vlrLoop n _ _ h
    have h3 := skip64_good h1
    obtain ⟨h4, h5⟩ := firm_filled (t := t) 54 s h3
    refine ⟨h4, ?_⟩
    dsimp only at h5
    rw [h5, skip64_more]
    exact h2

theorem firm_evlrLoop : ∀ (n : Nat) (out : List (Nat × VlrHeader)), Firm t fun s => BaseReader.evlrLoop n s out
  | 0, out => firm_pure out
  | n + 1, out => by
    intro s h
    dsimp only [BaseReader.evlrLoop] at h ⊢
    obtain ⟨h1, h2⟩ := firm_evlrLoop n _ _ h
    have h3 := skip64_good h1
    obtain ⟨h4, h5⟩ := firm_filled (t := t) 60 s h3
    refine ⟨h4, ?_⟩
    dsimp only at h5
    rw [h5, skip64_more]
    exact h2

theorem firm_headers (h : Header14) : Firm t fun s => BaseReader.readVlrHeaders h s := by
  unfold BaseReader.readVlrHeaders
  refine Firm.bind (f := fun s => BaseReader.vlrLoop h.vlrCount.toNat (s.seekg h.headerSize.toNat) [])
    (g := fun out s => if 2 ^ 31 ≤ h.evlrCount.toNat then (.ub, s) else
      ((Res.ok (BaseReader.evlrLoop h.evlrCount.toNat (s.seekg h.evlrOffset.toNat) out).1 : Res _),
        (BaseReader.evlrLoop h.evlrCount.toNat (s.seekg h.evlrOffset.toNat) out).2))
    ((firm_vlrLoop _ _).seek _) fun out => ?_
  by_cases hc : 2 ^ 31 ≤ h.evlrCount.toNat
  · simp only [if_pos hc]; exact firm_pure _
  · simp only [if_neg hc]; exact Firm.map Res.ok ((firm_evlrLoop _ _).seek _)

theorem firm_payload (n : Int) : Firm t fun s => BaseReader.readPayload s n := by
  unfold BaseReader.readPayload
  by_cases h : n < 0
  · simp only [if_pos h]; exact firm_pure _
  · simp only [if_neg h]; exact Firm.map Res.ok (firm_filled _)

theorem firm_wkt (v : List (Nat × VlrHeader)) : Firm t fun s => BaseReader.readWkt v s := by
  unfold BaseReader.readWkt
  dsimp only
  by_cases h : BaseReader.fetchVlr v idProj 2112 ≠ 0
  · simp only [if_pos h]; exact (firm_payload _).seek _
  · simp only [if_neg h]; exact firm_pure _

theorem firm_eb (v : List (Nat × VlrHeader)) : Firm t fun s => BaseReader.readEb v s := by
  unfold BaseReader.readEb
  dsimp only
  by_cases h : BaseReader.fetchVlr v idSpec 4 ≠ 0
  · simp only [if_pos h]
    exact Firm.map (fun r : Res Bytes => r.bind fun bs => .ok (getEb (BaseReader.lengthAt v (BaseReader.fetchVlr v idSpec 4)).toNat bs))
      ((firm_payload _).seek _)
  · simp only [if_neg h]; exact firm_pure _

theorem firm_info (v : List (Nat × VlrHeader)) : Firm t fun s => Reader.readInfo v s := by
  unfold Reader.readInfo
  dsimp only
  by_cases h : BaseReader.fetchVlr v idCopc 1 = 0
  · simp only [if_pos h]; exact firm_pure _
  · simp only [if_neg h]
    by_cases h' : BaseReader.fetchVlr v idCopc 1 ≠ 375
    · simp only [if_pos h']; exact firm_pure _
    · simp only [if_neg h']
      exact Firm.map (fun bs => Res.ok (CopcInfo.decode bs)) ((firm_filled _).seek _)

theorem firm_items (v : List (Nat × VlrHeader)) (o : Nat) : Firm t fun s => Reader.readExtentItems v o s := by
  unfold Reader.readExtentItems
  exact Firm.map (fun bs => Extents.getItems (BaseReader.lengthAt v o).toNat bs) ((firm_read _).seek _)

theorem firm_extents (fmt : Int) (v : List (Nat × VlrHeader)) (eb : List EbField) :
    Firm t fun s => Reader.readExtents fmt v eb s := by
  unfold Reader.readExtents
  dsimp only
  by_cases h : BaseReader.fetchVlr v idCopc 10000 ≠ 0
  · simp only [if_pos h]
    refine Firm.bind (firm_items v _) (g := fun items s =>
      match items.bind fun i => Extents.ofVlr i fmt (eb.length % 65536) (decide (BaseReader.fetchVlr v idRock 10001 ≠ 0)) with
      | .ok e =>
        if BaseReader.fetchVlr v idRock 10001 ≠ 0 then
          ((Reader.readExtentItems v (BaseReader.fetchVlr v idRock 10001) s).1.bind fun i => e.setExtendedStats i,
            (Reader.readExtentItems v (BaseReader.fetchVlr v idRock 10001) s).2)
        else (.ok e, s)
      | .throw x => (.throw x, s)
      | .ub => (.ub, s)) fun items => ?_
    cases items.bind fun i => Extents.ofVlr i fmt (eb.length % 65536) (decide (BaseReader.fetchVlr v idRock 10001 ≠ 0)) with
    | ok e =>
      dsimp only
      by_cases h' : BaseReader.fetchVlr v idRock 10001 ≠ 0
      · simp only [if_pos h']
        exact Firm.map (fun items => items.bind fun i => e.setExtendedStats i) (firm_items v _)
      · simp only [if_neg h']; exact firm_pure _
    | throw e => exact firm_pure _
    | ub => exact firm_pure _
  · simp only [if_neg h]; exact firm_pure _
end

/-- A file that opens with a good stream opens as well when it goes on, with the same configuration. -/
theorem init_more {d : Bytes} {r : Reader} (h : Reader.init ⟨d, 0, false⟩ = .ok r) (hg : r.h.str.fail = false) :
    Reader.init ⟨d ++ t, 0, false⟩ = .ok (r.more t) := by
  unfold Reader.init at h ⊢
  obtain ⟨b, hb, h⟩ := Res.bind_ok_iff.1 h
  unfold Reader.initCopc at h
  dsimp only at h
  split at h
  · cases h
  rename_i hmiss
  obtain ⟨info, hi, h⟩ := Res.bind_ok_iff.1 h
  obtain ⟨ex, he, h⟩ := Res.bind_ok_iff.1 h
  obtain ⟨cfg, hcfg, h⟩ := Res.bind_ok_iff.1 h
  injection h with h
  rw [← h] at hg
  dsimp only at hg
  obtain ⟨g1, m1⟩ := firm_extents (t := t) _ _ _ _ hg
  obtain ⟨g2, m2⟩ := firm_info (t := t) _ _ g1
  dsimp only at m1 m2
  have hb' : BaseReader.init ⟨d ++ t, 0, false⟩ = .ok { b with str := b.str.more t } := by
    unfold BaseReader.init at hb ⊢
    simp only [Bool.false_eq_true, if_false] at hb ⊢
    obtain ⟨h14, e14, hb⟩ := Res.bind_ok_iff.1 hb
    obtain ⟨hd, ehd, hb⟩ := Res.bind_ok_iff.1 hb
    obtain ⟨tb, htb, hb⟩ := Res.bind_ok_iff.1 hb
    obtain ⟨wkt, hw, hb⟩ := Res.bind_ok_iff.1 hb
    obtain ⟨eb, heb, hb⟩ := Res.bind_ok_iff.1 hb
    injection hb with hb
    rw [← hb] at g2
    dsimp only at g2
    obtain ⟨g3, m3⟩ := firm_eb (t := t) _ _ g2
    obtain ⟨g4, m4⟩ := firm_wkt (t := t) _ _ g3
    obtain ⟨_, m5⟩ := firm_headers (t := t) _ _ g4
    dsimp only at m3 m4 m5
    have e14' : BaseReader.readHeader ⟨d ++ t, 0, false⟩ = .ok h14 := by
      unfold BaseReader.readHeader at e14 ⊢
      dsimp only at e14 ⊢
      split at e14
      · cases e14
      · rename_i hl
        rw [if_neg (by rw [List.length_append]; omega), List.take_append_of_le_length (by omega)]
        exact e14
    rw [e14', Res.okBind, ehd, Res.okBind]
    change BaseReader.readVlrHeaders h14 ⟨d ++ t, 0, false⟩ = _ at m5
    rw [m5]
    dsimp only
    rw [htb, Res.okBind, m4]
    dsimp only
    rw [hw, Res.okBind, m3]
    dsimp only
    rw [heb, Res.okBind, ← hb]
  rw [hb', Res.okBind]
  unfold Reader.initCopc
  dsimp only
  rw [if_neg hmiss, m2]
  dsimp only
  rw [hi, Res.okBind, m1]
  dsimp only
  rw [he, Res.okBind, hcfg, Res.okBind, ← h]
  rfl

/-! ### Calls -/

/-- What the call returns is what it returns on a longer file. -/
def HLasts (t : Bytes) {α : Type} (x : Run HReader α) : Prop :=
  ∀ s a s', x s = some (.ok a, s') → x (s.more t) = some (.ok a, s'.more t)

def Lasts (t : Bytes) {α : Type} (x : Run Reader α) : Prop :=
  ∀ s a s', x s = some (.ok a, s') → x (s.more t) = some (.ok a, s'.more t)

theorem unpackValid_more {s s' : IStream} {e : Entry} (h : unpackValid s = (.ok e, s')) :
    unpackValid (s.more t) = (.ok e, s'.more t) := by
  cases hf : s.fail with
  | true => rw [unpackValid_of_fail hf] at h; cases h
  | false =>
    by_cases hl : s.pos + 32 ≤ s.data.length
    · obtain ⟨e1, i1, p1, h1⟩ := unpackValid_full hf hl
      obtain ⟨e2, i2, p2, h2⟩ := unpackValid_full (s := s.more t) hf (by rw [more_pos, more_data, List.length_append]; omega)
      have : e2 = e1 := by
        refine pack_inj i2 i1 ?_
        rw [p1, p2, more_data, more_pos, List.drop_append_of_le_length (by omega),
          List.take_append_of_le_length (by rw [List.length_drop]; omega)]
      subst this
      rw [h1] at h
      injection h with ha hb
      rw [h2, ha, ← hb]
      rfl
    · have := (unpackValid_short hf (by omega)).1
      rw [h] at this
      rcases this with h | ⟨h, _⟩ <;> cases h

theorem readEntries_more : ∀ (n : Nat) {s s' : IStream} {es : List Entry}, readEntries n s = (.ok es, s') →
    readEntries n (s.more t) = (.ok es, s'.more t)
  | 0, s, s', es, h => by
    unfold readEntries at h ⊢
    injection h with h1 h2
    rw [← h2, ← h1]
  | n + 1, s, s', es, h => by
    unfold readEntries at h ⊢
    cases hu : unpackValid s with
    | mk r s1 =>
      rw [hu] at h
      cases r with
      | ok e =>
        rw [unpackValid_more hu]
        dsimp only at h ⊢
        cases hr : readEntries n s1 with
        | mk r2 s2 =>
          rw [hr] at h
          cases r2 with
          | ok es2 =>
            rw [readEntries_more n hr]
            dsimp only at h ⊢
            injection h with h1 h2
            rw [← h2, ← h1]
          | throw e => cases h
          | ub => cases h
      | throw e => cases h
      | ub => cases h

section
variable {α β : Type}

theorem hLasts_bind {x : Run HReader α} {f : α → Run HReader β} (hx : HLasts t x) (hf : ∀ a, HLasts t (f a)) :
    HLasts t (x >>= f) := by
  intro s b s' h
  cases e : x s with
  | none => rw [Run.bind_none e] at h; cases h
  | some p =>
    obtain ⟨r, s1⟩ := p
    cases r with
    | ok a =>
      rw [Run.bind_ok e] at h
      rw [Run.bind_ok (hx _ _ _ e)]
      exact hf _ _ _ _ h
    | throw ex => rw [Run.bind_throw e] at h; cases h
    | ub => rw [Run.bind_ub e] at h; cases h

theorem hLasts_pure (a : α) : HLasts t (pure a : Run HReader α) := by
  intro s b s' h
  rw [Run.pure_apply] at h ⊢
  cases h
  rfl

theorem hLasts_lift (a : Res α) : HLasts t (Run.lift a : Run HReader α) := by
  intro s b s' h
  rw [Run.lift_apply] at h ⊢
  cases h
  rfl

theorem hLasts_gets {f : HReader → α} (h : ∀ s, f (s.more t) = f s) : HLasts t (Run.gets f) := by
  intro s b s' e
  rw [Run.gets_apply] at e ⊢
  cases e
  rw [h]

theorem hLasts_collect {f : β → Run HReader (List α)} (hf : ∀ b, HLasts t (f b)) (l : List β) :
    HLasts t (Run.collect f l) := by
  induction l with
  | nil => exact hLasts_pure _
  | cons b l ih => exact hLasts_bind (hf b) fun x => hLasts_bind ih fun y => hLasts_pure _

theorem hLasts_page (id : Nat) : HLasts t (Run.ofAct (HReader.readAndParsePage id)) := by
  intro s a s' h
  rw [Run.ofAct_apply] at h ⊢
  injection h with h
  congr 1
  unfold HReader.readAndParsePage at h ⊢
  show (match s.hier.heap[id]? with
    | none => (.ub, s.more t)
    | some p => _ : Res Unit × HReader) = _
  cases hp : s.hier.heap[id]? with
  | none => rw [hp] at h; cases h
  | some p =>
    rw [hp] at h
    dsimp only at h ⊢
    cases hr : readPage s.str p.isValid p.offset p.byteSize with
    | mk r str' =>
      rw [hr] at h
      cases r with
      | ok es =>
        have : readPage (s.more t).str p.isValid p.offset p.byteSize = (.ok es, str'.more t) := by
          unfold readPage at hr ⊢
          split at hr
          · cases hr
          · rename_i hv
            rw [if_neg hv]
            show readEntries _ ((s.str.more t).seekg p.offset) = _
            rw [seekg_more]
            exact readEntries_more _ hr
        rw [this]
        dsimp only at h ⊢
        injection h with h1 h2
        rw [← h2]
        rfl
      | throw e => cases h
      | ub => cases h

theorem hLasts_findNode (fuel : Nat) (key : VoxelKey) : HLasts t (HReader.findNode fuel key) := by
  induction fuel with
  | zero => intro s a s' h; cases h
  | succ k ih =>
    intro s a s' h
    unfold HReader.findNode at h ⊢
    rw [show (s.more t).hier = s.hier from rfl]
    cases h1 : AList.get key s.hier.nodes with
    | some n => rw [h1] at h; cases h; rfl
    | none =>
      rw [h1] at h
      dsimp only at h ⊢
      cases h2 : s.hier.nearest (key.getParents true) with
      | none => rw [h2] at h; cases h; rfl
      | some id =>
        rw [h2] at h
        dsimp only at h ⊢
        cases h3 : s.hier.heap[id]? with
        | none => rw [h3] at h; cases h
        | some p =>
          rw [h3] at h
          dsimp only at h ⊢
          split at h
          · rename_i hl; rw [if_pos hl]; cases h; rfl
          · rename_i hl; rw [if_neg hl]
            exact hLasts_bind (hLasts_page id) (fun _ => ih) _ _ _ h

theorem hLasts_ensure (id : Nat) (p : RPage) : HLasts t (Run.ofAct (HReader.ensureLoaded id p)) := by
  intro s a s' h
  have e : ∀ s, Run.ofAct (HReader.ensureLoaded id p) s =
      if p.loaded then some (.ok (), s) else Run.ofAct (HReader.readAndParsePage id) s := by
    intro s
    rw [Run.ofAct_apply]
    unfold HReader.ensureLoaded
    split <;> rfl
  rw [e] at h ⊢
  split at h
  · rename_i hl; rw [if_pos hl]; cases h; rfl
  · rename_i hl; rw [if_neg hl]; exact hLasts_page id _ _ _ h

theorem hLasts_load (ord : ROrder) (fuel : Nat) : ∀ id, HLasts t (HReader.loadPageHierarchy ord fuel id) := by
  induction fuel with
  | zero => intro id s a s' h; cases h
  | succ k ih =>
    intro id s a s' h
    unfold HReader.loadPageHierarchy at h ⊢
    rw [show (s.more t).hier = s.hier from rfl]
    cases h1 : s.hier.heap[id]? with
    | none => rw [h1] at h; cases h
    | some p =>
      rw [h1] at h
      dsimp only at h ⊢
      split at h
      · rename_i hv; rw [if_pos hv]; cases h; rfl
      · rename_i hv; rw [if_neg hv]
        refine hLasts_bind (hLasts_ensure id p) (fun _ => hLasts_bind (hLasts_gets fun _ => rfl) fun q => ?_) _ _ _ h
        cases q with
        | none => exact hLasts_lift _
        | some q => exact hLasts_bind (hLasts_collect ih _) fun l => hLasts_pure _

theorem hLasts_children (ord : ROrder) (fuel : Nat) (key : VoxelKey) :
    HLasts t (HReader.getAllChildrenOfPage ord fuel key) := by
  unfold HReader.getAllChildrenOfPage
  split
  · exact hLasts_pure _
  · refine hLasts_bind (hLasts_findNode fuel key) fun node => ?_
    intro s a s' h
    unfold HReader.childrenFrom at h ⊢
    rw [show (s.more t).hier = s.hier from rfl]
    cases h1 : AList.get key s.hier.seen with
    | none => rw [h1] at h; cases h; rfl
    | some id => rw [h1] at h; exact hLasts_load ord fuel id _ _ _ h

theorem lasts_hier {x : Run HReader α} (hx : HLasts t x) : Lasts t (Reader.onHier x) := by
  intro r a r' h
  unfold Reader.onHier Run.zoom at h ⊢
  cases e : x r.h with
  | none => rw [e] at h; cases h
  | some p =>
    obtain ⟨res, s1⟩ := p
    rw [e] at h
    cases h
    show (x (r.h.more t)).map _ = _
    rw [hx _ _ _ e]
    rfl

theorem lasts_bind {x : Run Reader α} {f : α → Run Reader β} (hx : Lasts t x) (hf : ∀ a, Lasts t (f a)) :
    Lasts t (x >>= f) := by
  intro s b s' h
  cases e : x s with
  | none => rw [Run.bind_none e] at h; cases h
  | some p =>
    obtain ⟨r, s1⟩ := p
    cases r with
    | ok a =>
      rw [Run.bind_ok e] at h
      rw [Run.bind_ok (hx _ _ _ e)]
      exact hf _ _ _ _ h
    | throw ex => rw [Run.bind_throw e] at h; cases h
    | ub => rw [Run.bind_ub e] at h; cases h

theorem lasts_pure (a : α) : Lasts t (pure a : Run Reader α) := by
  intro s b s' h
  rw [Run.pure_apply] at h ⊢
  cases h
  rfl

theorem lasts_lift (a : Res α) : Lasts t (Run.lift a : Run Reader α) := by
  intro s b s' h
  rw [Run.lift_apply] at h ⊢
  cases h
  rfl

theorem lasts_gets {f : Reader → α} (h : ∀ s, f (s.more t) = f s) : Lasts t (Run.gets f) := by
  intro s b s' e
  rw [Run.gets_apply] at e ⊢
  cases e
  rw [h]

theorem lasts_collect {f : β → Run Reader (List α)} (hf : ∀ b, Lasts t (f b)) (l : List β) :
    Lasts t (Run.collect f l) := by
  induction l with
  | nil => exact lasts_pure _
  | cons b l ih => exact lasts_bind (hf b) fun x => lasts_bind ih fun y => lasts_pure _

/-- The queries about the hierarchy. -/
theorem lasts_hierarchy {x : Nat → Run Reader α} (hx : HierarchyCall x) (k : Nat) : Lasts t (x k) := by
  have hall : ∀ ord, Lasts t (Reader.getAllNodes ord k) := fun ord => lasts_hier (hLasts_children ord k _)
  have hdep : ∀ ord res, Lasts t (Reader.getDepthAtResolution ord k res) := fun ord res =>
    lasts_bind (hall ord) fun nodes => lasts_gets fun _ => rfl
  have hfil : ∀ ord res keep, Lasts t (Reader.filterNodes ord k res keep) := fun ord res keep =>
    lasts_bind (hdep ord res) fun d => lasts_bind (hall ord) fun nodes => lasts_gets fun _ => rfl
  cases hx with
  | findNode key => exact lasts_hier (hLasts_findNode k key)
  | children ord key => exact lasts_hier (hLasts_children ord k key)
  | allNodes ord => exact hall ord
  | pageList ord => exact lasts_hier (hLasts_bind (hLasts_children ord k _) fun _ => hLasts_gets fun _ => rfl)
  | depth ord res => exact hdep ord res
  | maxDepth ord => exact hdep ord _
  | nodesAt ord res => exact hfil ord res _
  | nodesUpTo ord res => exact hfil ord res _
  | nodesWithin ord box res => exact hfil ord res _
  | nodesIntersect ord box res => exact hfil ord res _

/-! ### Calls that return points -/

/-- The same for calls without recursion. -/
def ALasts (t : Bytes) {α : Type} (x : Act Reader α) : Prop :=
  ∀ s a s', x s = (.ok a, s') → x (s.more t) = (.ok a, s'.more t)

theorem lasts_act {x : Act Reader α} (hx : ALasts t x) : Lasts t (Run.ofAct x) := by
  intro s a s' h
  rw [Run.ofAct_apply] at h ⊢
  injection h with h
  rw [hx _ _ _ h]

theorem aLasts_bind {x : Act Reader α} {f : α → Act Reader β} (hx : ALasts t x) (hf : ∀ a, ALasts t (f a)) :
    ALasts t (x >>= f) := by
  intro s b s' h
  obtain ⟨a, s1, h1, h2⟩ := Act.bind_eq_ok.1 h
  exact Act.bind_eq_ok.2 ⟨a, _, hx _ _ _ h1, hf a _ _ _ h2⟩

theorem aLasts_pure (a : α) : ALasts t (pure a : Act Reader α) := by
  intro s b s' h
  cases h
  rfl

theorem aLasts_lift (a : Res α) : ALasts t (Act.lift a : Act Reader α) := by
  intro s b s' h
  rw [Act.lift_apply] at h ⊢
  cases h
  rfl

theorem aLasts_gets {f : Reader → α} (h : ∀ s, f (s.more t) = f s) : ALasts t (Act.gets f) := by
  intro s b s' e
  rw [Act.gets_apply] at e ⊢
  cases e
  rw [h]

theorem aLasts_throwIf (p : Prop) [Decidable p] (e : Exc) : ALasts t (Act.throwIf p e : Act Reader Unit) := by
  intro s b s' h
  by_cases hp : p
  · rw [Act.throwIf_pos hp] at h; cases h
  · rw [Act.throwIf_neg hp] at h ⊢; cases h; rfl

theorem aLasts_stream {x : Act IStream α} (hx : ∀ s a s', x s = (.ok a, s') → x (s.more t) = (.ok a, s'.more t)) :
    ALasts t (Reader.onStream x) := by
  intro r a r' h
  unfold Reader.onStream at h ⊢
  rw [Act.zoom_apply] at h ⊢
  cases e : x r.h.str with
  | mk res s1 =>
    rw [e] at h
    cases h
    show (_, _) = _
    rw [show (r.more t).h.str = r.h.str.more t from rfl, hx _ _ _ e]
    rfl

theorem decompress_more {L : Lazperf} (hL : L.Streams) {hd : LasHeader} {n : Int} (s : IStream) (a : Bytes) (s' : IStream)
    (h : Reader.decompressBytes L hd n s = (.ok a, s')) :
    Reader.decompressBytes L hd n (s.more t) = (.ok a, s'.more t) := by
  unfold Reader.decompressBytes at h ⊢
  cases hbs : hd.ebSize with
  | throw e => rw [hbs] at h; cases h
  | ub => rw [hbs] at h; cases h
  | ok eb =>
    rw [hbs] at h
    dsimp only at h ⊢
    unfold Reader.decompressStream at h ⊢
    cases hps : pointByteSize hd.fmt eb with
    | throw e => rw [hps] at h; cases h
    | ub => rw [hps] at h; cases h
    | ok size =>
      rw [hps] at h
      dsimp only at h ⊢
      split at h
      · rename_i hn; rw [if_pos hn]; cases h; rfl
      rename_i hn; rw [if_neg hn]
      split at h
      · cases h
      rename_i hb; rw [if_neg hb]
      cases e : L.decompress hd.fmt eb n.toNat (if s.fail = true then [] else s.data.drop s.pos) with
      | none => rw [e] at h; cases h
      | some recs =>
        rw [e] at h
        have : L.decompress hd.fmt eb n.toNat (if (s.more t).fail = true then [] else (s.more t).data.drop (s.more t).pos)
            = some recs := by
          rw [more_fail, more_data, more_pos]
          split at e
          · rename_i hf; rw [if_pos hf]; exact e
          · rename_i hf
            rw [if_neg hf, List.drop_append]
            exact hL _ _ _ _ _ _ e
        rw [this]
        cases h
        rfl

variable {L : Lazperf}

theorem aLasts_pointData (hL : L.Streams) (n : Node) : ALasts t (Reader.getPointData L n) := by
  unfold Reader.getPointData
  refine aLasts_bind (aLasts_throwIf _ _) fun _ => aLasts_bind (aLasts_stream ?_) fun _ =>
    aLasts_bind (aLasts_gets fun _ => rfl) fun hd => aLasts_stream (decompress_more hL)
  intro s a s' h
  rw [Act.modify_apply] at h ⊢
  rw [seekg_more]
  cases h
  rfl

theorem aLasts_points (hL : L.Streams) (n : Node) : ALasts t (Reader.getPoints L n) := by
  unfold Reader.getPoints
  exact aLasts_bind (aLasts_pointData hL n) fun _ => aLasts_bind (aLasts_gets fun _ => rfl) fun _ => aLasts_lift _

theorem aLasts_valid (hL : L.Streams) (n : Node) : ALasts t (Reader.nodeValid L n) := by
  unfold Reader.nodeValid
  refine aLasts_bind (aLasts_gets fun _ => rfl) fun h => aLasts_bind (aLasts_lift _) fun bounds => ?_
  split
  · exact aLasts_pure _
  · exact aLasts_bind (aLasts_points hL n) fun _ => aLasts_pure _

theorem aLasts_validLoop (hL : L.Streams) : ∀ l, ALasts t (Reader.validateLoop L l)
  | [] => aLasts_pure _
  | n :: l => by
    unfold Reader.validateLoop
    refine aLasts_bind (aLasts_valid hL n) fun b => ?_
    split
    · exact aLasts_validLoop hL l
    · exact aLasts_pure _

theorem aLasts_verbose (hL : L.Streams) (n : Node) (q : Bool × Int × Int) : ALasts t (Reader.verboseNode L n q) := by
  unfold Reader.verboseNode
  refine aLasts_bind (aLasts_gets fun _ => rfl) fun h => aLasts_bind (aLasts_lift _) fun bounds => ?_
  split
  · exact aLasts_bind (aLasts_lift _) fun _ => aLasts_pure _
  · exact aLasts_bind (aLasts_points hL n) fun _ => aLasts_bind (aLasts_lift _) fun _ =>
      aLasts_bind (aLasts_lift _) fun _ => aLasts_pure _

theorem aLasts_verboseLoop (hL : L.Streams) : ∀ l q, ALasts t (Reader.verboseLoop L l q)
  | [], _ => aLasts_pure _
  | n :: l, q => by
    unfold Reader.verboseLoop
    exact aLasts_bind (aLasts_verbose hL n q) fun _ => aLasts_verboseLoop hL l _

/-- The calls that return points. -/
theorem lasts_points (hL : L.Streams) {x : Nat → Run Reader α} (hx : PointCall L x) (k : Nat) : Lasts t (x k) := by
  have hall : ∀ ord, Lasts t (Reader.getAllNodes ord k) := fun ord => lasts_hierarchy (.allNodes ord) k
  have hdep : ∀ ord res, Lasts t (Reader.getDepthAtResolution ord k res) := fun ord res =>
    lasts_hierarchy (.depth ord res) k
  have hdat : ∀ key, Lasts t (Reader.getPointDataAt L k key) := by
    intro key
    unfold Reader.getPointDataAt
    split
    · exact lasts_pure _
    · refine lasts_bind (lasts_hierarchy (.findNode key) k) fun node => ?_
      split
      · exact lasts_pure _
      · exact lasts_act (aLasts_pointData hL node)
  cases hx with
  | pointData n => exact lasts_act (aLasts_pointData hL n)
  | pointDataAt key => exact hdat key
  | points n => exact lasts_act (aLasts_points hL n)
  | pointsAt key =>
    refine lasts_bind (hdat key) fun data => lasts_bind (lasts_gets fun _ => rfl) fun hd => ?_
    split
    · exact lasts_lift _
    · exact lasts_lift _
  | allPoints ord res =>
    refine lasts_bind (hdep ord res) fun depth => lasts_bind (hall ord) fun nodes => lasts_collect (fun n => ?_) _
    split
    · exact lasts_act (aLasts_points hL n)
    · exact lasts_pure _
  | pointsWithin ord box res =>
    refine lasts_bind (hdep ord res) fun depth => lasts_bind (hall ord) fun nodes => lasts_collect (fun n => ?_) _
    unfold Reader.boxPoints
    refine lasts_bind (lasts_gets fun _ => rfl) fun h => ?_
    split
    · split
      · exact lasts_act (aLasts_points hL n)
      · split
        · exact lasts_bind (lasts_act (aLasts_points hL n)) fun _ => lasts_pure _
        · exact lasts_pure _
    · exact lasts_pure _
  | validate ord verbose =>
    refine lasts_bind (hall ord) fun nodes => ?_
    split
    · exact lasts_bind (lasts_act (aLasts_verboseLoop hL _ _)) fun _ => lasts_pure _
    · exact lasts_act (aLasts_validLoop hL _)
end

end Copc
