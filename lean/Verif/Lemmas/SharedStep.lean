import Verif.Lemmas.SharedEdit
/-! # The steps of a program, on values -/
namespace Copc
open Spec VoxelKey

/-- The headers of LAZ objects do not have the COPC flag. -/
def World.Flat (W : World) : Prop := ∀ (o : Nat) (t : Thing), W.things[o]? = some t → t.copc = none →
  ∀ h, W.store.header t.header = some h → h.copcFlag = false

structure World.Good (W : World) : Prop extends W.Inv where
  flat : W.Flat

/-- No two LAZ objects have the same header. -/
def World.Sole (W : World) : Prop := ∀ (o p : Nat) (t u : Thing), W.things[o]? = some t → W.things[p]? = some u → o ≠ p →
  t.copc = none → u.copc = none → t.header ≠ u.header

theorem Thing.foot_header {s : Store} (t : Thing) : t.header ∈ t.foot s := by
  cases t <;> simp [Thing.foot, Thing.copc, Thing.header, CopcObj.foot]

section
variable {W : World} {vs : List Worth}

theorem means_worth (hm : W.Means vs) {o : Nat} {t : Thing} (h : W.things[o]? = some t) : t.worth W.store = vs[o]? := by
  rw [← hm o]; unfold World.worth; rw [h]

theorem means_length (hg : W.Inv) (hm : W.Means vs) : vs.length = W.things.length := by
  rcases Nat.lt_trichotomy vs.length W.things.length with h | h | h
  · have h1 := List.getElem?_eq_getElem h
    have h2 := means_worth hm h1
    have h3 := hg.alive _ _ h1
    rw [h2] at h3
    simp at h3
  · exact h
  · have h1 := hm W.things.length
    unfold World.worth at h1
    rw [List.getElem?_eq_none (Nat.le_refl _)] at h1
    dsimp only at h1
    rw [List.getElem?_eq_getElem h] at h1
    cases h1

theorem means_some (hg : W.Inv) (hm : W.Means vs) {o : Nat} {t : Thing} (h : W.things[o]? = some t) :
    ∃ x, vs[o]? = some x ∧ t.worth W.store = some x := by
  have h3 := hg.alive _ _ h
  rw [means_worth hm h] at h3 ⊢
  obtain ⟨x, hx⟩ := Option.isSome_iff_exists.1 h3
  exact ⟨x, hx, hx⟩

theorem means_none (hm : W.Means vs) {o : Nat} (h : W.things[o]? = none) : vs[o]? = none := by
  rw [← hm o]; unfold World.worth; rw [h]

theorem good_new (hg : W.Good) (hm : W.Means vs) {t : Thing} {s : Store} {v : Worth} (hs : ∃ r, s = W.store ++ r)
    (hw : t.worth s = some v) (hf : ∀ a ∈ t.foot s, W.store.length ≤ a) (hn : (t.foot s).Nodup)
    (hc : t.copc = none → ∀ h, s.header t.header = some h → h.copcFlag = false) :
    (W.add t s).Good ∧ (W.add t s).Means (vs ++ [v]) ∧ (W.Sole → (W.add t s).Sole) := by
  have hi := inv_new hg.toInv hs (by rw [hw]; rfl) hf hn
  have hlen := means_length hg.toInv hm
  obtain ⟨r, rfl⟩ := hs
  have old : ∀ (o : Nat) (u : Thing), W.things[o]? = some u → Agree W.store (W.store ++ r) (u.foot W.store) :=
    fun o u h => agree_append (hg.lt h)
  refine ⟨⟨hi, ?_⟩, ?_, ?_⟩
  · intro o u h hu hh he
    rcases things_add h with ⟨_, h⟩ | ⟨_, rfl⟩
    · refine hg.flat o u h hu hh ?_
      have he' : Store.header (W.store ++ r) u.header = some hh := he
      unfold Store.header at he' ⊢
      rwa [old o u h _ u.foot_header] at he'
    · exact hc hu hh he
  · intro o
    unfold World.worth
    by_cases ho : o < W.things.length
    · have h1 : (W.add t (W.store ++ r)).things[o]? = W.things[o]? := List.getElem?_append_left ho
      rw [h1, List.getElem?_append_left (by omega)]
      cases hx : W.things[o]? with
      | none => exact (means_none hm hx).symm
      | some u => exact (thing_congr (old o u hx)).1.trans (means_worth hm hx)
    · have h1 : (W.add t (W.store ++ r)).things[o]? = [t][o - W.things.length]? := List.getElem?_append_right (by omega)
      rw [h1, List.getElem?_append_right (by omega), hlen]
      cases hx : o - W.things.length with
      | zero => exact hw
      | succ n => rfl
  · intro hS o p u x h1 h2 hne c1 c2
    rcases things_add h1 with ⟨_, k1⟩ | ⟨rfl, rfl⟩
    · rcases things_add h2 with ⟨_, k2⟩ | ⟨rfl, rfl⟩
      · exact hS o p u x k1 k2 hne c1 c2
      · intro he
        have l1 := hg.lt k1 _ u.foot_header
        have l2 := hf _ x.foot_header
        omega
    · rcases things_add h2 with ⟨_, k2⟩ | ⟨rfl, rfl⟩
      · intro he
        have l1 := hg.lt k2 _ x.foot_header
        have l2 := hf _ u.foot_header
        omega
      · exact absurd rfl hne

theorem good_share (hg : W.Good) (hm : W.Means vs) {t u : Thing} {o : Nat} {v : Worth} (ho : W.things[o]? = some u)
    (hu : u.copc = none) (ht : t.copc = none) (hh : t.header = u.header) (hw : t.worth W.store = some v) :
    (W.add t W.store).Good ∧ (W.add t W.store).Means (vs ++ [v]) := by
  have hi := inv_share hg.toInv ho hu ht hh (by rw [hw]; rfl)
  have hlen := means_length hg.toInv hm
  refine ⟨⟨hi, ?_⟩, ?_⟩
  · intro p x h hx hd he
    rcases things_add h with ⟨_, h⟩ | ⟨_, rfl⟩
    · exact hg.flat p x h hx hd he
    · rw [hh] at he; exact hg.flat o u ho hu hd he
  · intro p
    unfold World.worth
    by_cases hp : p < W.things.length
    · have h1 : (W.add t W.store).things[p]? = W.things[p]? := List.getElem?_append_left hp
      rw [h1, List.getElem?_append_left (by omega)]
      cases hx : W.things[p]? with
      | none => exact (means_none hm hx).symm
      | some u => exact means_worth hm hx
    · have h1 : (W.add t W.store).things[p]? = [t][p - W.things.length]? := List.getElem?_append_right (by omega)
      rw [h1, List.getElem?_append_right (by omega), hlen]
      cases hx : p - W.things.length with
      | zero => exact hw
      | succ n => rfl

theorem good_change (hg : W.Good) (hm : W.Means vs) {o : Nat} {t t' : Thing} {s : Store} {v : Worth} (ho : W.things[o]? = some t)
    (hothers : ∀ p u, p ≠ o → W.things[p]? = some u → Agree W.store s (u.foot W.store))
    (hw : t'.worth s = some v) (hf : ∀ a ∈ t'.foot s, a ∈ t.foot W.store ∨ W.store.length ≤ a)
    (hn : (t'.foot s).Nodup) (hc : t'.copc.isSome = t.copc.isSome) (hh : t'.header = t.header)
    (hfl : t'.copc = none → ∀ h, s.header t'.header = some h → h.copcFlag = false) :
    World.Good ⟨s, W.things.set o t'⟩ ∧ World.Means ⟨s, W.things.set o t'⟩ (vs.set o v) ∧
      (W.Sole → World.Sole ⟨s, W.things.set o t'⟩) := by
  have hi := inv_change hg.toInv ho (fun p u hp hu => same_of_agree (hothers p u hp hu) (hg.alive p u hu)) (by rw [hw]; rfl) hf hn hc
  have hlen := means_length hg.toInv hm
  have hlt : o < W.things.length := by rw [List.getElem?_eq_some_iff] at ho; exact ho.1
  refine ⟨⟨hi, ?_⟩, ?_, ?_⟩
  · intro p u h hu hd he
    rcases things_set h with ⟨hp, h⟩ | ⟨_, rfl⟩
    · refine hg.flat p u h hu hd ?_
      have he' : Store.header s u.header = some hd := he
      unfold Store.header at he' ⊢
      rwa [hothers p u hp h _ u.foot_header] at he'
    · exact hfl hu hd he
  · intro p
    unfold World.worth
    by_cases hp : p = o
    · subst hp
      show (match (W.things.set p t')[p]? with | some t => Thing.worth s t | none => none) = _
      rw [List.getElem?_set_self hlt, List.getElem?_set_self (by omega)]
      exact hw
    · show (match (W.things.set o t')[p]? with | some t => Thing.worth s t | none => none) = _
      rw [List.getElem?_set_ne (Ne.symm hp), List.getElem?_set_ne (Ne.symm hp)]
      cases hx : W.things[p]? with
      | none => exact (means_none hm hx).symm
      | some u => exact (thing_congr (hothers p u hp hx)).1.trans (means_worth hm hx)
  · intro hS p q u x h1 h2 hne c1 c2
    have hcn : t'.copc = none → t.copc = none := by
      intro h; rw [h] at hc; cases ht : t.copc with
      | none => rfl
      | some _ => rw [ht] at hc; cases hc
    rcases things_set h1 with ⟨_, k1⟩ | ⟨rfl, rfl⟩
    · rcases things_set h2 with ⟨_, k2⟩ | ⟨rfl, rfl⟩
      · exact hS p q u x k1 k2 hne c1 c2
      · rw [hh]; exact hS p q u t k1 ho hne c1 (hcn c2)
    · rcases things_set h2 with ⟨_, k2⟩ | ⟨rfl, rfl⟩
      · rw [hh]; exact hS p q t x ho k2 hne (hcn c1) c2
      · exact absurd rfl hne

end

/-- The step and the values agree. `sole`: the step does not share. -/
def Follows (W : World) (sole : Bool) (x : Option World) (y : Option (List Worth)) : Prop :=
  (x = none ∧ y = none) ∨ ∃ W' vs', x = some W' ∧ y = some vs' ∧ W'.Good ∧ W'.Means vs' ∧ (sole = true → W.Sole → W'.Sole)

theorem worth_copc {s : Store} {t : Thing} {c : CopcObj} {x : Worth} (hc : t.copc = some c) (hx : t.worth s = some x) :
    ∃ v, c.value s = some v ∧ x.copc = some v ∧ x.header = v.header ∧
      ∀ s' v', c.value s' = some v' → t.worth s' = some (x.withCopc v') := by
  cases t with
  | copcConfig d =>
    obtain rfl : d = c := by simpa [Thing.copc] using hc
    obtain ⟨v, hv, rfl⟩ := Option.map_eq_some_iff.1 (show (d.value s).map Worth.copcConfig = some x from hx)
    exact ⟨v, hv, rfl, rfl, fun s' v' h => by simp only [Thing.worth, h]; rfl⟩
  | writer b ns ps d =>
    obtain rfl : d = c := by simpa [Thing.copc] using hc
    obtain ⟨v, hv, rfl⟩ := Option.map_eq_some_iff.1 (show (d.value s).map (fun v => Worth.writer ⟨b, v, ns, ps⟩) = some x from hx)
    exact ⟨v, hv, rfl, rfl, fun s' v' h => by simp only [Thing.worth, h]; rfl⟩
  | lazConfig d => cases hc
  | lazWriter b d => cases hc

theorem withCopc_header {x : Worth} {v : CopcConfig} (hx : x.copc = some v) (h : LasHeader) :
    x.withCopc { v with header := h } = x.withHeader h := by
  cases x with
  | copcConfig c => obtain rfl : c = v := by simpa [Worth.copc] using hx
                    rfl
  | writer w => obtain rfl : w.cfg = v := by simpa [Worth.copc] using hx
                rfl
  | lazConfig c => cases hx
  | lazWriter w => cases hx

theorem worth_laz {s : Store} {t : Thing} {x : Worth} (hc : t.copc = none) (hx : t.worth s = some x) :
    x.copc = none ∧ s.header t.header = some x.header ∧ ∀ s' h, s'.header t.header = some h → t.worth s' = some (x.withHeader h) := by
  cases t with
  | lazConfig d =>
    obtain ⟨v, hv, rfl⟩ := Option.map_eq_some_iff.1 (show (d.value s).map Worth.lazConfig = some x from hx)
    obtain ⟨h1, h2, h3⟩ := lazValue_some hv
    refine ⟨rfl, h1, fun s' h hh => ?_⟩
    simp only [Thing.worth, LazObj.value, show s'.header d.header = some h from hh, Option.map_some, Worth.withHeader, ← h2, ← h3]
  | lazWriter b d =>
    obtain ⟨v, hv, rfl⟩ := Option.map_eq_some_iff.1 (show (d.value s).map (fun v => Worth.lazWriter ⟨b, v⟩) = some x from hx)
    obtain ⟨h1, h2, h3⟩ := lazValue_some hv
    refine ⟨rfl, h1, fun s' h hh => ?_⟩
    simp only [Thing.worth, LazObj.value, show s'.header d.header = some h from hh, Option.map_some, Worth.withHeader, ← h2, ← h3]
  | copcConfig d => cases hc
  | writer b ns ps d => cases hc

theorem items_length {s : Store} : ∀ {l : List Nat} {es : List Extent}, s.items l = some es → l.length = es.length
  | [], es, h => by cases h; rfl
  | b :: l, es, h => by
    unfold Store.items at h
    split at h
    · rename_i e es' he hes
      obtain rfl := Option.some.inj h
      simp [items_length hes]
    · cases h

section
variable {L : Lazperf} {ord : Order} {W : World} {vs : List Worth}

theorem follows_made {α : Type} (x : Res α) (f : α → World) (g : α → Worth) (b : Bool) (hg : W.Good) (hm : W.Means vs)
    (h : ∀ a, x = .ok a → (f a).Good ∧ (f a).Means (vs ++ [g a]) ∧ (b = true → W.Sole → (f a).Sole)) :
    Follows W b (W.made x f) (Spec.made vs x g) := by
  cases x with
  | ok a => exact .inr ⟨_, _, rfl, rfl, h a rfl⟩
  | throw e => exact .inr ⟨_, _, rfl, rfl, hg, hm, fun _ h => h⟩
  | ub => exact .inl ⟨rfl, rfl⟩

theorem good_addCopc (hg : W.Good) (hm : W.Means vs) (c : CopcConfig) :
    (W.addCopc c).Good ∧ (W.addCopc c).Means (vs ++ [.copcConfig c]) ∧ (true = true → W.Sole → (W.addCopc c).Sole) := by
  have hv := newCopc_value W.store c
  have hf := newCopc_foot W.store c
  obtain ⟨h1, h2, h3⟩ := good_new (t := .copcConfig (W.store.newCopc c).1) (v := .copcConfig c) hg hm ⟨copcCells W.store.length c, by rw [newCopc_eq]⟩
    (by show Option.map _ _ = _; rw [hv]; rfl) hf.1 hf.2 (by intro h; cases h)
  exact ⟨h1, h2, fun _ => h3⟩

theorem good_addWriter (hg : W.Good) (hm : W.Means vs) (w : Writer) :
    (W.addWriter w).Good ∧ (W.addWriter w).Means (vs ++ [.writer w]) ∧ (true = true → W.Sole → (W.addWriter w).Sole) := by
  have hv := newCopc_value W.store w.cfg
  have hf := newCopc_foot W.store w.cfg
  obtain ⟨h1, h2, h3⟩ := good_new (t := .writer w.base w.nodes w.pages (W.store.newCopc w.cfg).1) (v := .writer w) hg hm
    ⟨copcCells W.store.length w.cfg, by rw [newCopc_eq]⟩
    (by show Option.map _ _ = _; rw [hv]; rfl) hf.1 hf.2 (by intro h; cases h)
  exact ⟨h1, h2, fun _ => h3⟩

theorem good_addLaz (hg : W.Good) (hm : W.Means vs) (c : LazConfig) (hc : c.header.copcFlag = false) :
    (W.addLaz c).Good ∧ (W.addLaz c).Means (vs ++ [.lazConfig c]) ∧ (true = true → W.Sole → (W.addLaz c).Sole) := by
  have hv := newLaz_value W.store c
  obtain ⟨h1, h2, h3⟩ := good_new (t := .lazConfig (W.store.newLaz c).1) (s := (W.store.newLaz c).2) (v := .lazConfig c) hg hm
    ⟨[.header c.header], rfl⟩ (by show Option.map _ _ = _; rw [hv]; rfl)
    (by intro a ha; rw [newLaz_eq] at ha; simp [Thing.foot, Thing.copc, Thing.header] at ha; omega)
    (by simp [Thing.foot, Thing.copc])
    (by
      intro _ h hh
      have := (lazValue_some hv).1
      obtain rfl := Option.some.inj (this.symm.trans hh)
      exact hc)
  exact ⟨h1, h2, fun _ => h3⟩

theorem make_flag {fmt : Int} {sc off : Vec3 Dbl} {wkt : Bytes} {eb : List EbField} {c : LazConfig}
    (h : LazConfig.make fmt sc off wkt eb false = .ok c) : c.header.copcFlag = false := by
  unfold LazConfig.make at h
  split at h
  · cases h
  · cases hr : recordLength fmt eb with
    | ok l => rw [hr] at h; injection h with h; subst h; rfl
    | throw e => rw [hr] at h; cases h
    | ub => rw [hr] at h; cases h

/-- A step that is not an edit of a header of a LAZ object, or that happens while nothing is shared. -/
theorem step_follows (hg : W.Good) (hm : W.Means vs) (a : Action) (ha : ¬ a.editsLaz vs ∨ W.Sole) :
    Follows W (!a.sharesLaz) (W.step L ord a) (Spec.act L ord vs a) := by
  cases a with
  | newCopc fmt sc off wkt eb ext => exact follows_made _ _ _ _ hg hm fun c _ => good_addCopc hg hm c
  | copcOf c => exact follows_made _ _ _ _ hg hm fun c _ => good_addCopc hg hm c
  | copyCopc o =>
    unfold World.step Spec.act
    dsimp only
    rw [hm o]
    cases vs[o]? with
    | none => exact .inl ⟨rfl, rfl⟩
    | some x => cases x with
      | copcConfig c => exact follows_made _ _ _ _ hg hm fun c _ => good_addCopc hg hm c
      | lazConfig c => exact .inl ⟨rfl, rfl⟩
      | writer w => exact .inl ⟨rfl, rfl⟩
      | lazWriter w => exact .inl ⟨rfl, rfl⟩
  | newLaz fmt sc off wkt eb => exact follows_made _ _ _ _ hg hm fun c hc => good_addLaz hg hm c (make_flag hc)
  | lazOf c => exact .inr ⟨_, _, rfl, rfl, good_addLaz hg hm _ rfl⟩
  | lazOfCopc o =>
    unfold World.step Spec.act
    dsimp only
    rw [hm o]
    cases vs[o]? with
    | none => exact .inl ⟨rfl, rfl⟩
    | some x => cases x with
      | copcConfig c => exact .inr ⟨_, _, rfl, rfl, good_addLaz hg hm _ rfl⟩
      | lazConfig c => exact .inl ⟨rfl, rfl⟩
      | writer w => exact .inl ⟨rfl, rfl⟩
      | lazWriter w => exact .inl ⟨rfl, rfl⟩
  | copyLaz o =>
    unfold World.step Spec.act
    dsimp only
    cases ho : W.things[o]? with
    | none => rw [means_none hm ho]; exact .inl ⟨rfl, rfl⟩
    | some t =>
      obtain ⟨x, hx, hw⟩ := means_some hg.toInv hm ho
      rw [hx]
      cases t with
      | lazConfig c =>
        obtain ⟨v, hv, rfl⟩ := Option.map_eq_some_iff.1 (show (c.value W.store).map Worth.lazConfig = some x from hw)
        obtain ⟨h1, h2⟩ := good_share (t := .lazConfig c) hg hm ho rfl rfl rfl hw
        exact .inr ⟨_, _, rfl, rfl, h1, h2, fun h => by cases h⟩
      | copcConfig c =>
        obtain ⟨v, hv, rfl⟩ := Option.map_eq_some_iff.1 (show (c.value W.store).map Worth.copcConfig = some x from hw)
        exact .inl ⟨rfl, rfl⟩
      | writer b ns ps c =>
        obtain ⟨v, hv, rfl⟩ := Option.map_eq_some_iff.1 (show (c.value W.store).map _ = some x from hw)
        exact .inl ⟨rfl, rfl⟩
      | lazWriter b c =>
        obtain ⟨v, hv, rfl⟩ := Option.map_eq_some_iff.1 (show (c.value W.store).map _ = some x from hw)
        exact .inl ⟨rfl, rfl⟩
  | newWriter out o ov =>
    unfold World.step Spec.act
    dsimp only
    rw [hm o]
    cases vs[o]? with
    | none => exact .inl ⟨rfl, rfl⟩
    | some x => cases x with
      | copcConfig c => exact follows_made _ _ _ _ hg hm fun w _ => good_addWriter hg hm w
      | lazConfig c => exact .inl ⟨rfl, rfl⟩
      | writer w => exact .inl ⟨rfl, rfl⟩
      | lazWriter w => exact .inl ⟨rfl, rfl⟩
  | newLazWriter out o =>
    unfold World.step Spec.act
    dsimp only
    rw [hm o]
    cases ho : W.things[o]? with
    | none => rw [means_none hm ho]; exact .inl ⟨rfl, rfl⟩
    | some t =>
      obtain ⟨x, hx, hw⟩ := means_some hg.toInv hm ho
      rw [hx]
      cases t with
      | lazConfig c =>
        obtain ⟨v, hv, rfl⟩ := Option.map_eq_some_iff.1 (show (c.value W.store).map Worth.lazConfig = some x from hw)
        have hfl : v.header.copcFlag = false := hg.flat o _ ho rfl _ (lazValue_some hv).1
        have hfw : v.forWriter = v := by
          unfold LazConfig.forWriter
          have : v.header.withCopc false = v.header := by
            cases hvh : v.header
            rw [hvh] at hfl
            simp only at hfl
            subst hfl
            rfl
          rw [this]
        dsimp only
        unfold LazWriter.make
        rw [hfw]
        cases BaseW.offsetToPointData v with
        | ok n =>
          obtain ⟨h1, h2⟩ := good_share (t := .lazWriter (BaseW.init out (n + 8)) c) (v := .lazWriter ⟨BaseW.init out (n + 8), v⟩)
            hg hm ho rfl rfl rfl (by show Option.map _ _ = _; rw [hv]; rfl)
          exact .inr ⟨_, _, rfl, rfl, h1, h2, fun h => by cases h⟩
        | throw e => exact .inr ⟨_, _, rfl, rfl, hg, hm, fun _ h => h⟩
        | ub => exact .inl ⟨rfl, rfl⟩
      | copcConfig c =>
        obtain ⟨v, hv, rfl⟩ := Option.map_eq_some_iff.1 (show (c.value W.store).map Worth.copcConfig = some x from hw)
        exact .inl ⟨rfl, rfl⟩
      | writer b ns ps c =>
        obtain ⟨v, hv, rfl⟩ := Option.map_eq_some_iff.1 (show (c.value W.store).map _ = some x from hw)
        exact .inl ⟨rfl, rfl⟩
      | lazWriter b c =>
        obtain ⟨v, hv, rfl⟩ := Option.map_eq_some_iff.1 (show (c.value W.store).map _ = some x from hw)
        exact .inl ⟨rfl, rfl⟩
  | setHeader o h =>
    unfold World.step Spec.act
    dsimp only
    cases ho : W.things[o]? with
    | none => rw [means_none hm ho]; exact .inl ⟨rfl, rfl⟩
    | some t =>
      obtain ⟨x, hx, hw⟩ := means_some hg.toInv hm ho
      rw [hx]
      dsimp only
      cases hc : t.copc with
      | some c =>
        obtain ⟨v, hv, hxc, hxh, hnew⟩ := worth_copc hc hw
        have hth : t.header = c.header := by cases t <;> first | (cases hc; done) | (simp [Thing.copc] at hc; subst hc; rfl)
        have hfoot : ∀ s, t.foot s = c.foot s := fun s => by unfold Thing.foot; rw [hc]
        rw [hth, (copcValue_some hv).1, hxh]
        dsimp only
        split
        · have hn := hg.nodup o t ho
          rw [hfoot] at hn
          obtain ⟨e1, e2⟩ := edit_header hv hn h
          have := good_change (t' := t) (v := x.withHeader h) hg hm ho (s := W.store.set c.header (.header h))
            (fun p u hp hu => agree_set fun hmem => hg.apart o p t u ho hu (Ne.symm hp) (by rw [hc]; rfl) _
              (by rw [hfoot]; simp [CopcObj.foot]) hmem)
            (by rw [hnew _ _ e1, withCopc_header hxc])
            (by intro a ha; rw [hfoot, e2, ← hfoot] at ha; exact .inl ha)
            (by rw [hfoot, e2]; exact hn) rfl rfl (by rw [hc]; intro h; cases h)
          rw [set_thing ho] at this
          exact .inr ⟨_, _, rfl, rfl, this.1, this.2.1, fun _ => this.2.2⟩
        · exact .inl ⟨rfl, rfl⟩
      | none =>
        obtain ⟨hxc, hxh, hnew⟩ := worth_laz hc hw
        rw [hxh]
        dsimp only
        split
        · rename_i hedit
          have hS : W.Sole := ha.resolve_left fun h => h ⟨x, hx, hxc⟩
          have hfoot : ∀ s, t.foot s = [t.header] := fun s => by unfold Thing.foot; rw [hc]
          have hlt := lt_of_some (header_some hxh)
          have hset : Store.header (W.store.set t.header (.header h)) t.header = some h := by
            unfold Store.header; rw [List.getElem?_set_self hlt]
          have := good_change (t' := t) (v := x.withHeader h) hg hm ho (s := W.store.set t.header (.header h))
            (fun p u hp hu => agree_set fun hmem => by
              cases hcu : u.copc with
              | none =>
                unfold Thing.foot at hmem
                rw [hcu] at hmem
                simp only [List.mem_singleton] at hmem
                exact hS o p t u ho hu (Ne.symm hp) hc hcu hmem
              | some d => exact hg.apart p o u t hu ho hp (by rw [hcu]; rfl) _ hmem (by rw [hfoot]; simp))
            (hnew _ _ hset)
            (by intro a ha; rw [hfoot] at ha; rw [hfoot]; exact .inl ha)
            (by rw [hfoot]; simp) rfl rfl
            (by
              intro _ h' hh'
              obtain rfl := Option.some.inj (hset.symm.trans hh')
              rw [hedit.2.2.2.2.1]
              exact hg.flat o t ho hc _ hxh)
          rw [set_thing ho] at this
          exact .inr ⟨_, _, rfl, rfl, this.1, this.2.1, fun _ => this.2.2⟩
        · exact .inl ⟨rfl, rfl⟩
  | setInfo o i =>
    unfold World.step Spec.act
    dsimp only
    cases ho : W.things[o]? with
    | none => rw [means_none hm ho]; exact .inl ⟨rfl, rfl⟩
    | some t =>
      obtain ⟨x, hx, hw⟩ := means_some hg.toInv hm ho
      rw [hx, Option.bind_some]
      dsimp only
      cases hc : t.copc with
      | none => rw [(worth_laz hc hw).1]; exact .inl ⟨rfl, rfl⟩
      | some c =>
        obtain ⟨v, hv, hxc, hxh, hnew⟩ := worth_copc hc hw
        have hfoot : ∀ s, t.foot s = c.foot s := fun s => by unfold Thing.foot; rw [hc]
        rw [hxc]
        dsimp only
        have hn := hg.nodup o t ho
        rw [hfoot] at hn
        obtain ⟨e1, e2⟩ := edit_info hv hn i
        have := good_change (t' := t) hg hm ho (s := W.store.set c.info (.info i))
          (fun p u hp hu => agree_set fun hmem => hg.apart o p t u ho hu (Ne.symm hp) (by rw [hc]; rfl) _
            (by rw [hfoot]; simp [CopcObj.foot]) hmem)
          (hnew _ _ e1)
          (by intro a ha; rw [hfoot, e2, ← hfoot] at ha; exact .inl ha)
          (by rw [hfoot, e2]; exact hn) rfl rfl (by rw [hc]; intro h; cases h)
        rw [set_thing ho] at this
        exact .inr ⟨_, _, rfl, rfl, this.1, this.2.1, fun _ => this.2.2⟩
  | setExtent o k e =>
    unfold World.step Spec.act
    dsimp only
    cases ho : W.things[o]? with
    | none => rw [means_none hm ho]; exact .inl ⟨rfl, rfl⟩
    | some t =>
      obtain ⟨x, hx, hw⟩ := means_some hg.toInv hm ho
      rw [hx, Option.bind_some]
      dsimp only
      cases hc : t.copc with
      | none => rw [(worth_laz hc hw).1]; exact .inl ⟨rfl, rfl⟩
      | some c =>
        obtain ⟨v, hv, hxc, hxh, hnew⟩ := worth_copc hc hw
        have hfoot : ∀ s, t.foot s = c.foot s := fun s => by unfold Thing.foot; rw [hc]
        have hlen := items_length (foot_pointers hv).2
        rw [hxc]
        dsimp only
        by_cases hk : k < v.extents.extents.length
        · rw [if_pos hk]
          have hka := List.getElem?_eq_getElem (show k < (W.store.pointers c.extents).length by omega)
          rw [hka]
          dsimp only
          have hn := hg.nodup o t ho
          rw [hfoot] at hn
          obtain ⟨e1, e2⟩ := edit_extent hv hn hka e
          have := good_change (t' := t) hg hm ho (s := W.store.set _ (.extent e))
            (fun p u hp hu => agree_set fun hmem => hg.apart o p t u ho hu (Ne.symm hp) (by rw [hc]; rfl) _
              (by rw [hfoot]; simp [CopcObj.foot]) hmem)
            (hnew _ _ e1)
            (by intro a ha; rw [hfoot, e2, ← hfoot] at ha; exact .inl ha)
            (by rw [hfoot, e2]; exact hn) rfl rfl (by rw [hc]; intro h; cases h)
          rw [set_thing ho] at this
          exact .inr ⟨_, _, rfl, rfl, this.1, this.2.1, fun _ => this.2.2⟩
        · rw [if_neg hk, List.getElem?_eq_none (by omega)]
          exact .inl ⟨rfl, rfl⟩
  | putExtent o k e =>
    unfold World.step Spec.act
    dsimp only
    cases ho : W.things[o]? with
    | none => rw [means_none hm ho]; exact .inl ⟨rfl, rfl⟩
    | some t =>
      obtain ⟨x, hx, hw⟩ := means_some hg.toInv hm ho
      rw [hx, Option.bind_some]
      dsimp only
      cases hc : t.copc with
      | none => rw [(worth_laz hc hw).1]; exact .inl ⟨rfl, rfl⟩
      | some c =>
        obtain ⟨v, hv, hxc, hxh, hnew⟩ := worth_copc hc hw
        have hfoot : ∀ s, t.foot s = c.foot s := fun s => by unfold Thing.foot; rw [hc]
        obtain ⟨hcell, hit⟩ := foot_pointers hv
        have hlen := items_length hit
        rw [hxc]
        dsimp only
        rw [hcell]
        dsimp only
        by_cases hk : k < v.extents.extents.length
        · rw [if_pos hk, if_pos (by omega)]
          have hn := hg.nodup o t ho
          rw [hfoot] at hn
          obtain ⟨e1, e2, e3⟩ := put_extent hv hn hcell (show k < (W.store.pointers c.extents).length by omega) e
          have := good_change (t' := t) hg hm ho (s := W.store.put c.extents v.extents.fmt v.extents.extStats (W.store.pointers c.extents) k e)
            (fun p u hp hu a hmem => by
              unfold Store.put
              rw [List.getElem?_append_left (by have := hg.lt hu a hmem; simpa using this)]
              refine List.getElem?_set_ne ?_
              rintro rfl
              exact hg.apart o p t u ho hu (Ne.symm hp) (by rw [hc]; rfl) _ (by rw [hfoot]; simp [CopcObj.foot]) hmem)
            (hnew _ _ e1)
            (by intro a ha; rw [hfoot] at ha; rw [hfoot]; exact e2 a ha)
            (by rw [hfoot]; exact e3) rfl rfl (by rw [hc]; intro h; cases h)
          rw [set_thing ho] at this
          exact .inr ⟨_, _, rfl, rfl, this.1, this.2.1, fun _ => this.2.2⟩
        · rw [if_neg hk, if_neg (by omega)]
          exact .inl ⟨rfl, rfl⟩
  | call o op =>
    unfold World.step Spec.act
    dsimp only
    rw [hm o]
    cases ho : W.things[o]? with
    | none => rw [means_none hm ho]; exact .inl ⟨rfl, rfl⟩
    | some t =>
      obtain ⟨x, hx, hw⟩ := means_some hg.toInv hm ho
      rw [hx]
      cases t with
      | lazConfig c =>
        obtain ⟨v, hv, rfl⟩ := Option.map_eq_some_iff.1 (show (c.value W.store).map Worth.lazConfig = some x from hw)
        exact .inl ⟨rfl, rfl⟩
      | copcConfig c =>
        obtain ⟨v, hv, rfl⟩ := Option.map_eq_some_iff.1 (show (c.value W.store).map Worth.copcConfig = some x from hw)
        exact .inl ⟨rfl, rfl⟩
      | lazWriter b c =>
        obtain ⟨v, hv, rfl⟩ := Option.map_eq_some_iff.1 (show (c.value W.store).map _ = some x from hw)
        exact .inl ⟨rfl, rfl⟩
      | writer b ns ps c =>
        obtain ⟨v, hv, rfl⟩ := Option.map_eq_some_iff.1 (show (c.value W.store).map _ = some x from hw)
        dsimp only
        have hk := keeps_cfg_run L ord op ⟨b, v, ns, ps⟩
        have key : ∀ w' : Writer, cfgRest w' = cfgRest ⟨b, v, ns, ps⟩ →
            World.Good ⟨W.store.set c.info (.info w'.cfg.info), W.things.set o (.writer w'.base w'.nodes w'.pages c)⟩ ∧
            World.Means ⟨W.store.set c.info (.info w'.cfg.info), W.things.set o (.writer w'.base w'.nodes w'.pages c)⟩ (vs.set o (.writer w')) ∧
            (W.Sole → World.Sole ⟨W.store.set c.info (.info w'.cfg.info), W.things.set o (.writer w'.base w'.nodes w'.pages c)⟩) := by
          intro w' hw'
          have hn : (c.foot W.store).Nodup := hg.nodup o _ ho
          obtain ⟨e1, e2⟩ := edit_info hv hn w'.cfg.info
          have hcfg : ({ v with info := w'.cfg.info } : CopcConfig) = w'.cfg := by
            unfold cfgRest at hw'
            injection hw' with a1 a2
            cases hcc : w'.cfg with
            | mk l i x =>
              rw [hcc] at a1 a2
              simp only at a1 a2
              cases v
              simp only at a1 a2
              subst a1 a2
              rfl
          rw [hcfg] at e1
          exact good_change (t' := .writer w'.base w'.nodes w'.pages c) hg hm ho (s := W.store.set c.info (.info w'.cfg.info))
            (fun p u hp hu => agree_set fun hmem => hg.apart o p _ u ho hu (Ne.symm hp) rfl _
              (by show _ ∈ c.foot W.store; simp [CopcObj.foot]) hmem)
            (by show Option.map _ _ = _; rw [e1]; rfl)
            (by intro a ha; change a ∈ c.foot _ at ha; rw [e2] at ha; exact .inl ha)
            (by show (c.foot _).Nodup; rw [e2]; exact hn) rfl rfl (by intro h; cases h)
        cases hr : op.run L ord ⟨b, v, ns, ps⟩ with
        | mk r w' =>
          rw [hr] at hk
          obtain ⟨g1, g2, g3⟩ := key w' hk
          cases r with
          | ub => exact .inl ⟨rfl, rfl⟩
          | ok a => exact .inr ⟨_, _, rfl, rfl, g1, g2, fun _ => g3⟩
          | throw a => exact .inr ⟨_, _, rfl, rfl, g1, g2, fun _ => g3⟩
  | lazCall o op =>
    unfold World.step Spec.act
    dsimp only
    rw [hm o]
    cases ho : W.things[o]? with
    | none => rw [means_none hm ho]; exact .inl ⟨rfl, rfl⟩
    | some t =>
      obtain ⟨x, hx, hw⟩ := means_some hg.toInv hm ho
      rw [hx]
      cases t with
      | lazConfig c =>
        obtain ⟨v, hv, rfl⟩ := Option.map_eq_some_iff.1 (show (c.value W.store).map Worth.lazConfig = some x from hw)
        exact .inl ⟨rfl, rfl⟩
      | copcConfig c =>
        obtain ⟨v, hv, rfl⟩ := Option.map_eq_some_iff.1 (show (c.value W.store).map Worth.copcConfig = some x from hw)
        exact .inl ⟨rfl, rfl⟩
      | writer b ns ps c =>
        obtain ⟨v, hv, rfl⟩ := Option.map_eq_some_iff.1 (show (c.value W.store).map _ = some x from hw)
        exact .inl ⟨rfl, rfl⟩
      | lazWriter b c =>
        obtain ⟨v, hv, rfl⟩ := Option.map_eq_some_iff.1 (show (c.value W.store).map _ = some x from hw)
        dsimp only
        have hk := keeps_laz_run L op ⟨b, v⟩
        have key : ∀ w' : LazWriter, w'.cfg = v →
            World.Good ⟨W.store, W.things.set o (.lazWriter w'.base c)⟩ ∧
            World.Means ⟨W.store, W.things.set o (.lazWriter w'.base c)⟩ (vs.set o (.lazWriter w')) ∧
            (W.Sole → World.Sole ⟨W.store, W.things.set o (.lazWriter w'.base c)⟩) := by
          intro w' hw'
          exact good_change (t' := .lazWriter w'.base c) hg hm ho (s := W.store)
            (fun p u hp hu a _ => rfl)
            (by show Option.map _ _ = _; rw [hv, ← hw']; rfl)
            (by intro a ha; exact .inl ha)
            (by simp [Thing.foot, Thing.copc]) rfl rfl (fun _ h hh => hg.flat o _ ho rfl h hh)
        cases hr : op.run L ⟨b, v⟩ with
        | mk r w' =>
          rw [hr] at hk
          obtain ⟨g1, g2, g3⟩ := key w' hk
          cases r with
          | ub => exact .inl ⟨rfl, rfl⟩
          | ok a => exact .inr ⟨_, _, rfl, rfl, g1, g2, fun _ => g3⟩
          | throw a => exact .inr ⟨_, _, rfl, rfl, g1, g2, fun _ => g3⟩

end

end Copc
