import Verif.Lemmas.SharedStep
import Verif.Lemmas.LazSample
/-! # C76: objects of a program are independent of each other -/
namespace Copc
open Spec VoxelKey

section
variable {L : Lazperf} {ord : Order} {W W' : World} {vs : List Worth}

/-- An edit of the header of a LAZ object changes this header wherever it is used. -/
theorem laz_edit (hg : W.Good) {o : Nat} {t : Thing} {h h0 : LasHeader} (ho : W.things[o]? = some t) (hc : t.copc = none)
    (hh : W.store.header t.header = some h0) (he : HeaderEdit h0 h) :
    World.Good { W with store := W.store.set t.header (.header h) } ∧
    ∀ (p : Nat) (u : Thing), W.things[p]? = some u → if W.family p = W.family o
      then u.worth (W.store.set t.header (.header h)) = (u.worth W.store).map (Worth.withHeader h)
      else u.worth (W.store.set t.header (.header h)) = u.worth W.store := by
  have hlt := lt_of_some (header_some hh)
  have hset : Store.header (W.store.set t.header (.header h)) t.header = some h := by
    unfold Store.header; rw [List.getElem?_set_self hlt]
  have hfo : W.family o = some t.header := by unfold World.family; rw [ho]; dsimp only; rw [hc]
  have key : ∀ (p : Nat) (u : Thing), W.things[p]? = some u →
      (W.family p = W.family o ∧ u.copc = none ∧ u.header = t.header) ∨
      (W.family p ≠ W.family o ∧ Agree W.store (W.store.set t.header (.header h)) (u.foot W.store)) := by
    intro p u hu
    rw [hfo]
    unfold World.family
    rw [hu]
    dsimp only
    cases hcu : u.copc with
    | some d =>
      refine .inr ⟨by simp, agree_set fun hmem => ?_⟩
      have hne : p ≠ o := by
        rintro rfl
        rw [hu] at ho
        obtain rfl := Option.some.inj ho
        rw [hc] at hcu; cases hcu
      exact hg.apart p o u t hu ho hne (by rw [hcu]; rfl) _ hmem t.foot_header
    | none =>
      by_cases hq : u.header = t.header
      · exact .inl ⟨by dsimp only; rw [hq], rfl, hq⟩
      · refine .inr ⟨by simpa using hq, agree_set ?_⟩
        unfold Thing.foot
        rw [hcu]
        simp only [List.mem_singleton]
        exact fun h => hq h.symm
  have wor : ∀ (p : Nat) (u : Thing), W.things[p]? = some u → (u.worth (W.store.set t.header (.header h))).isSome ∧
      u.foot (W.store.set t.header (.header h)) = u.foot W.store := by
    intro p u hu
    rcases key p u hu with ⟨_, k1, k2⟩ | ⟨_, k⟩
    · obtain ⟨x, hx⟩ := Option.isSome_iff_exists.1 (hg.alive p u hu)
      refine ⟨by rw [(worth_laz k1 hx).2.2 _ h (by rw [k2]; exact hset)]; rfl, ?_⟩
      unfold Thing.foot
      rw [k1]
    · exact same_of_agree k (hg.alive p u hu)
  have hi := inv_change (t' := t) (s := W.store.set t.header (.header h)) hg.toInv ho (fun p u _ hu => wor p u hu) (wor o t ho).1
    (by intro a ha; rw [(wor o t ho).2] at ha; exact .inl ha) (by rw [(wor o t ho).2]; exact hg.nodup o t ho) rfl
  rw [set_thing ho] at hi
  refine ⟨⟨hi, ?_⟩, ?_⟩
  · intro p u hu hcu hd hhd
    rcases key p u hu with ⟨_, k1, k2⟩ | ⟨_, k⟩
    · rw [k2] at hhd
      obtain rfl := Option.some.inj (hset.symm.trans hhd)
      rw [he.2.2.2.2.1]
      exact hg.flat o t ho hc _ hh
    · refine hg.flat p u hu hcu hd ?_
      have hhd' : Store.header (W.store.set t.header (.header h)) u.header = some hd := hhd
      unfold Store.header at hhd' ⊢
      rwa [k _ u.foot_header] at hhd'
  · intro p u hu
    rcases key p u hu with ⟨k0, k1, k2⟩ | ⟨k0, k⟩
    · rw [if_pos k0]
      obtain ⟨x, hx⟩ := Option.isSome_iff_exists.1 (hg.alive p u hu)
      rw [(worth_laz k1 hx).2.2 _ h (by rw [k2]; exact hset), hx]
      rfl
    · rw [if_neg k0]
      exact (thing_congr k).1

theorem means_exists (hg : W.Inv) : ∃ vs, W.Means vs := by
  refine ⟨W.things.map fun t => ((t.worth W.store).getD (.lazConfig ⟨LasHeader.make 6 30 ⟨Flt.zero, Flt.zero, Flt.zero⟩ ⟨Flt.zero, Flt.zero, Flt.zero⟩ false, [], []⟩)), ?_⟩
  intro o
  unfold World.worth
  rw [List.getElem?_map]
  cases ho : W.things[o]? with
  | none => rfl
  | some t =>
    obtain ⟨x, hx⟩ := Option.isSome_iff_exists.1 (hg.alive o t ho)
    simp [hx]

theorem step_setHeader_laz {o : Nat} {t : Thing} {h : LasHeader} (ho : W.things[o]? = some t)
    (hs : W.step L ord (.setHeader o h) = some W') : ∃ h0, W.store.header t.header = some h0 ∧ HeaderEdit h0 h ∧
      W' = { W with store := W.store.set t.header (.header h) } := by
  unfold World.step at hs
  dsimp only at hs
  rw [ho] at hs
  dsimp only at hs
  split at hs
  · rename_i h0 hh
    split at hs
    · rename_i he
      exact ⟨h0, hh, he, (Option.some.inj hs).symm⟩
    · cases hs
  · cases hs

theorem good_step (hg : W.Good) {a : Action} (hs : W.step L ord a = some W') : W'.Good := by
  obtain ⟨vs, hm⟩ := means_exists hg.toInv
  by_cases ha : a.editsLaz vs
  · cases a with
    | setHeader o h =>
      obtain ⟨v, hv, hvc⟩ := ha
      cases ho : W.things[o]? with
      | none => rw [means_none hm ho] at hv; cases hv
      | some t =>
        obtain ⟨h0, hh, he, rfl⟩ := step_setHeader_laz ho hs
        refine (laz_edit hg ho ?_ hh he).1
        cases hc : t.copc with
        | none => rfl
        | some c =>
          have hw := means_worth hm ho
          rw [hv] at hw
          obtain ⟨y, _, hy, _⟩ := worth_copc hc hw
          rw [hvc] at hy; cases hy
    | _ => exact ha.elim
  · rcases step_follows (L := L) (ord := ord) hg hm a (.inl ha) with ⟨h1, _⟩ | ⟨W1, vs1, h1, _, h2, _⟩
    · rw [hs] at h1; cases h1
    · rw [hs] at h1; cases h1; exact h2

theorem good_start : World.Good ⟨[], []⟩ :=
  { alive := fun o t h => by simp at h
    nodup := fun o t h => by simp at h
    apart := fun o p t u h => by simp at h
    flat := fun o t h => by simp at h }

theorem good_reached (hr : World.Reached L ord W) : W.Good := by
  induction hr with
  | start => exact good_start
  | step _ hs ih => exact good_step ih hs

/-- **C76**: in every program, every object has a value. -/
theorem C76_means (hr : World.Reached L ord W) : ∃ vs, W.Means vs := means_exists (good_reached hr).toInv

/-- **C76**: whatever the program did before, every action that is not an edit of the header of a `LazConfigWriter` or
`LazWriter` does to all objects what it does to objects that have nothing in common. -/
theorem C76_step (hr : World.Reached L ord W) (hm : W.Means vs) {a : Action} (ha : ¬ a.editsLaz vs) :
    (∀ W', W.step L ord a = some W' → ∃ vs', act L ord vs a = some vs' ∧ W'.Means vs') ∧
    (W.step L ord a = none → act L ord vs a = none) := by
  rcases step_follows (L := L) (ord := ord) (good_reached hr) hm a (.inl ha) with ⟨h1, h2⟩ | ⟨W1, vs1, h1, h2, _, h3, _⟩
  · exact ⟨fun W' h => (by rw [h1] at h; cases h), fun _ => h2⟩
  · exact ⟨fun W' h => by rw [h1] at h; cases h; exact ⟨vs1, h2, h3⟩, fun h => by rw [h1] at h; cases h⟩

/-- **C76**: a `CopcConfigWriter` or a `Writer` is never changed by an action on another object, whatever that is. -/
theorem C76_frame (hr : World.Reached L ord W) {a : Action} (hs : W.step L ord a = some W') {p : Nat} (hp : a.target ≠ some p)
    {v : Worth} (hv : W.worth p = some v) (hc : v.copc.isSome) : W'.worth p = some v := by
  have hg := good_reached hr
  obtain ⟨vs, hm⟩ := means_exists hg.toInv
  have hvp : vs[p]? = some v := by rw [← hm p]; exact hv
  have hpl : p < vs.length := by rw [List.getElem?_eq_some_iff] at hvp; exact hvp.1
  by_cases ha : a.editsLaz vs
  · cases a with
    | setHeader o h =>
      obtain ⟨x, hx, hxc⟩ := ha
      cases ho : W.things[o]? with
      | none => rw [means_none hm ho] at hx; cases hx
      | some t =>
        obtain ⟨h0, hh, he, rfl⟩ := step_setHeader_laz ho hs
        have htc : t.copc = none := by
          cases hc : t.copc with
          | none => rfl
          | some c =>
            have hw := means_worth hm ho
            rw [hx] at hw
            obtain ⟨y, _, hy, _⟩ := worth_copc hc hw
            rw [hxc] at hy; cases hy
        have hlaz := (laz_edit hg ho htc hh he).2
        unfold World.worth at hv ⊢
        cases hu : W.things[p]? with
        | none => rw [hu] at hv; cases hv
        | some u =>
          rw [hu] at hv
          dsimp only at hv ⊢
          have := hlaz p u hu
          rw [if_neg ?_] at this
          · rw [this]; exact hv
          · unfold World.family
            rw [hu, ho]
            dsimp only
            rw [htc]
            cases hcu : u.copc with
            | none => rw [(worth_laz hcu hv).1] at hc; cases hc
            | some d => simp
    | _ => exact ha.elim
  · obtain ⟨vs', h1, h2⟩ := (C76_step hr hm ha).1 W' hs
    rw [h2 p]
    rw [← hvp]
    have mk : ∀ {α : Type} (x : Res α) (f : α → Worth), Spec.made vs x f = some vs' → vs'[p]? = vs[p]? := by
      intro α x f h
      cases x with
      | ok a => cases h; exact List.getElem?_append_left hpl
      | throw e => cases h; rfl
      | ub => cases h
    have app : ∀ x, some (vs ++ [x]) = some vs' → vs'[p]? = vs[p]? := by
      intro x h; cases h; exact List.getElem?_append_left hpl
    have set : ∀ (o : Nat) (x : Worth), some o ≠ some p → some (vs.set o x) = some vs' → vs'[p]? = vs[p]? := by
      intro o x hne h; cases h; exact List.getElem?_set_ne (fun e => hne (by rw [e]))
    clear hs h2 hvp hv
    cases a with
    | newCopc => exact mk _ _ h1
    | copcOf => exact mk _ _ h1
    | newLaz => exact mk _ _ h1
    | lazOf c => exact app _ h1
    | copyCopc o =>
      unfold act at h1; dsimp only at h1; split at h1
      · exact mk _ _ h1
      · cases h1
    | lazOfCopc o =>
      unfold act at h1; dsimp only at h1; split at h1
      · exact app _ h1
      · cases h1
    | copyLaz o =>
      unfold act at h1; dsimp only at h1; split at h1
      · exact app _ h1
      · cases h1
    | newWriter out o ov =>
      unfold act at h1; dsimp only at h1; split at h1
      · exact mk _ _ h1
      · cases h1
    | newLazWriter out o =>
      unfold act at h1; dsimp only at h1; split at h1
      · exact mk _ _ h1
      · cases h1
    | setHeader o h =>
      unfold act at h1; dsimp only at h1; split at h1
      · split at h1
        · exact set _ _ hp h1
        · cases h1
      · cases h1
    | setInfo o i =>
      unfold act at h1; dsimp only at h1; split at h1
      · split at h1
        · exact set _ _ hp h1
        · cases h1
      · cases h1
    | setExtent o k e =>
      unfold act at h1; dsimp only at h1; split at h1
      · split at h1
        · split at h1
          · exact set _ _ hp h1
          · cases h1
        · cases h1
      · cases h1
    | putExtent o k e =>
      unfold act at h1; dsimp only at h1; split at h1
      · split at h1
        · split at h1
          · exact set _ _ hp h1
          · cases h1
        · cases h1
      · cases h1
    | call o op =>
      unfold act at h1; dsimp only at h1; split at h1
      · split at h1
        · cases h1
        · exact set _ _ hp h1
      · cases h1
    | lazCall o op =>
      unfold act at h1; dsimp only at h1; split at h1
      · split at h1
        · cases h1
        · exact set _ _ hp h1
      · cases h1

/-- **C76**, what is true of LAZ objects: an edit of the header of one changes the header, and nothing else, of those
that have the same header object, and nothing of the others. -/
theorem C76_laz_partial (hr : World.Reached L ord W) (hm : W.Means vs) {o : Nat} {h : LasHeader}
    (he : (Action.setHeader o h).editsLaz vs) (hs : W.step L ord (.setHeader o h) = some W') (p : Nat) :
    (W.family p = W.family o → W'.worth p = (vs[p]?).map (Worth.withHeader h)) ∧
    (W.family p ≠ W.family o → W'.worth p = vs[p]?) := by
  have hg := good_reached hr
  obtain ⟨v, hv, hvc⟩ := he
  cases ho : W.things[o]? with
  | none => rw [means_none hm ho] at hv; cases hv
  | some t =>
    obtain ⟨h0, hh, he, rfl⟩ := step_setHeader_laz ho hs
    have htc : t.copc = none := by
      cases hc : t.copc with
      | none => rfl
      | some c =>
        have hw := means_worth hm ho
        rw [hv] at hw
        obtain ⟨y, _, hy, _⟩ := worth_copc hc hw
        rw [hvc] at hy; cases hy
    have hlaz := (laz_edit hg ho htc hh he).2
    unfold World.worth
    cases hu : W.things[p]? with
    | none =>
      rw [means_none hm hu]
      exact ⟨fun _ => rfl, fun _ => rfl⟩
    | some u =>
      have := hlaz p u hu
      rw [← means_worth hm hu]
      exact ⟨fun h => by rw [if_pos h] at this; exact this, fun h => by rw [if_neg h] at this; exact this⟩

end

section
variable {L : Lazperf} {ord : Order}

theorem steps_append (W : World) (l m : List Action) : W.steps L ord (l ++ m) = (W.steps L ord l).bind fun W' => W'.steps L ord m := by
  induction l generalizing W with
  | nil => rfl
  | cons a l ih =>
    simp only [List.cons_append, World.steps]
    cases W.step L ord a with
    | none => rfl
    | some W' => exact ih W'

theorem acts_append (vs : List Worth) (l m : List Action) : acts L ord vs (l ++ m) = (acts L ord vs l).bind fun v => acts L ord v m := by
  induction l generalizing vs with
  | nil => rfl
  | cons a l ih =>
    simp only [List.cons_append, acts]
    cases act L ord vs a with
    | none => rfl
    | some W' => exact ih W'

theorem steps_sole : ∀ (l : List Action) (W : World) (vs : List Worth), W.Good → W.Means vs → W.Sole → (∀ a ∈ l, a.sharesLaz = false) →
    Follows W true (W.steps L ord l) (acts L ord vs l)
  | [], W, vs, hg, hm, _, _ => .inr ⟨_, _, rfl, rfl, hg, hm, fun _ h => h⟩
  | a :: l, W, vs, hg, hm, hS, hl => by
    simp only [World.steps, acts]
    rcases step_follows (L := L) (ord := ord) hg hm a (.inr hS) with ⟨h1, h2⟩ | ⟨W1, vs1, h1, h2, h3, h4, h5⟩
    · rw [h1, h2]; exact .inl ⟨rfl, rfl⟩
    · rw [h1, h2]
      have hS1 := h5 (by rw [hl a (by simp)]; rfl) hS
      rcases steps_sole l W1 vs1 h3 h4 hS1 (fun b hb => hl b (by simp [hb])) with k | ⟨W2, vs2, k1, k2, k3, k4, k5⟩
      · exact .inl k
      · exact .inr ⟨W2, vs2, k1, k2, k3, k4, fun _ _ => k5 rfl hS1⟩

theorem steps_quiet : ∀ (l : List Action) (W : World) (vs : List Worth), W.Good → W.Means vs → Quiet L ord vs l →
    Follows W false (W.steps L ord l) (acts L ord vs l)
  | [], W, vs, hg, hm, _ => .inr ⟨_, _, rfl, rfl, hg, hm, fun _ h => h⟩
  | a :: l, W, vs, hg, hm, hq => by
    simp only [World.steps, acts]
    rcases step_follows (L := L) (ord := ord) hg hm a (.inl hq.1) with ⟨h1, h2⟩ | ⟨W1, vs1, h1, h2, h3, h4, h5⟩
    · rw [h1, h2]; exact .inl ⟨rfl, rfl⟩
    · rw [h1, h2]
      rcases steps_quiet l W1 vs1 h3 h4 (hq.2 vs1 h2) with k | ⟨W2, vs2, k1, k2, k3, k4, k5⟩
      · exact .inl k
      · exact .inr ⟨W2, vs2, k1, k2, k3, k4, fun h => by cases h⟩

/-- **C76**, whole programs: if a program first makes and edits objects without making a `LazWriter` of or copying a
`LazConfigWriter`, and then does what it likes but for edits of LAZ headers, then all objects have, at the end, the
values they have if they are independent. -/
theorem C76_program_partial {l m : List Action} (hl : ∀ a ∈ l, a.sharesLaz = false)
    (hq : ∀ vs, acts L ord [] l = some vs → Quiet L ord vs m) :
    (∀ W, World.steps L ord ⟨[], []⟩ (l ++ m) = some W → ∃ vs, acts L ord [] (l ++ m) = some vs ∧ W.Means vs) ∧
    (World.steps L ord ⟨[], []⟩ (l ++ m) = none → acts L ord [] (l ++ m) = none) := by
  have h0 : World.Means ⟨[], []⟩ [] := fun o => by simp [World.worth]
  have hS : World.Sole ⟨[], []⟩ := fun o p t u h => by simp at h
  rw [steps_append, acts_append]
  rcases steps_sole (L := L) (ord := ord) l _ [] good_start h0 hS hl with ⟨h1, h2⟩ | ⟨W1, vs1, h1, h2, h3, h4, _⟩
  · rw [h1, h2]; exact ⟨fun W h => (by cases h), fun _ => rfl⟩
  · rw [h1, h2]
    simp only [Option.bind_some]
    rcases steps_quiet m W1 vs1 h3 h4 (hq vs1 h2) with ⟨k1, k2⟩ | ⟨W2, vs2, k1, k2, _, k4, _⟩
    · rw [k1, k2]; exact ⟨fun W h => (by cases h), fun _ => rfl⟩
    · rw [k1, k2]
      exact ⟨fun W h => by cases h; exact ⟨vs2, rfl, k4⟩, fun h => by cases h⟩

end


/-! ### Which objects have a header in common -/

section
variable {L : Lazperf} {ord : Order} {W W' : World}

theorem family_set {o p : Nat} {t t' : Thing} {s : Store} (ho : W.things[o]? = some t) (h1 : t'.header = t.header)
    (h2 : t'.copc = t.copc) : World.family ⟨s, W.things.set o t'⟩ p = W.family p := by
  unfold World.family
  dsimp only
  by_cases hp : p = o
  · subst hp
    rw [List.getElem?_set_self (by rw [List.getElem?_eq_some_iff] at ho; exact ho.1), ho]
    dsimp only
    rw [h1, h2]
  · rw [List.getElem?_set_ne (Ne.symm hp)]

theorem family_add {t : Thing} {s : Store} {p : Nat} (hp : p < W.things.length) : (W.add t s).family p = W.family p := by
  unfold World.family World.add
  dsimp only
  rw [List.getElem?_append_left hp]

/-- What a step can do to the objects. -/
inductive Shape (W : World) (a : Action) : World → Prop
  | same (s : Store) : Shape W a ⟨s, W.things⟩
  | change (s : Store) (o : Nat) (t t' : Thing) (ho : W.things[o]? = some t) (h1 : t'.header = t.header) (h2 : t'.copc = t.copc) :
    Shape W a ⟨s, W.things.set o t'⟩
  | fresh (s : Store) (t : Thing) (ht : t.copc = none → W.store.length ≤ t.header) (ha : a.sharesLaz = false) : Shape W a (W.add t s)
  | share (s : Store) (o : Nat) (t u : Thing) (ho : W.things[o]? = some u) (h1 : t.header = u.header) (h2 : t.copc = u.copc)
    (ha : a = .copyLaz o ∨ ∃ out, a = .newLazWriter out o) : Shape W a (W.add t s)

theorem shape_made {α : Type} {x : Res α} {f : α → World} {a : Action} (h : W.made x f = some W')
    (hf : ∀ y, Shape W a (f y)) : Shape W a W' := by
  cases x with
  | ok y => cases h; exact hf y
  | throw e => cases h; exact .same _
  | ub => cases h

theorem step_shape {a : Action} (hs : W.step L ord a = some W') : Shape W a W' := by
  have copc : ∀ c, a.sharesLaz = false → Shape W a (W.addCopc c) := fun c ha => .fresh _ _ (fun h => by cases h) ha
  have laz : ∀ c, a.sharesLaz = false → Shape W a (W.addLaz c) := fun c ha => .fresh _ _ (fun _ => Nat.le_refl _) ha
  cases a with
  | newCopc => exact shape_made hs fun c => copc c rfl
  | copcOf => exact shape_made hs fun c => copc c rfl
  | newLaz => exact shape_made hs fun c => laz c rfl
  | lazOf c => cases hs; exact laz _ rfl
  | copyCopc o =>
    unfold World.step at hs; dsimp only at hs; split at hs
    · exact shape_made hs fun c => copc c rfl
    · cases hs
  | lazOfCopc o =>
    unfold World.step at hs; dsimp only at hs; split at hs
    · cases hs; exact laz _ rfl
    · cases hs
  | copyLaz o =>
    unfold World.step at hs; dsimp only at hs; split at hs
    · rename_i c ho
      cases hs; exact .share _ o _ _ ho rfl rfl (.inl rfl)
    · cases hs
  | newWriter out o ov =>
    unfold World.step at hs; dsimp only at hs; split at hs
    · exact shape_made hs fun c => .fresh _ _ (fun h => by cases h) rfl
    · cases hs
  | newLazWriter out o =>
    unfold World.step at hs; dsimp only at hs; split at hs
    · rename_i c v ho _
      exact shape_made hs fun n => .share _ o _ _ ho rfl rfl (.inr ⟨out, rfl⟩)
    · cases hs
  | setHeader o h =>
    unfold World.step at hs; dsimp only at hs; split at hs
    · split at hs
      · split at hs
        · cases hs; exact .same _
        · cases hs
      · cases hs
    · cases hs
  | setInfo o i =>
    unfold World.step at hs; dsimp only at hs; split at hs
    · cases hs; exact .same _
    · cases hs
  | setExtent o k e =>
    unfold World.step at hs; dsimp only at hs; split at hs
    · split at hs
      · cases hs; exact .same _
      · cases hs
    · cases hs
  | putExtent o k e =>
    unfold World.step at hs; dsimp only at hs; split at hs
    · split at hs
      · split at hs
        · cases hs; exact .same _
        · cases hs
      · cases hs
    · cases hs
  | call o op =>
    unfold World.step at hs; dsimp only at hs; split at hs
    · rename_i ho _
      split at hs
      · cases hs
      · cases hs; exact .change _ o _ _ ho rfl rfl
    · cases hs
  | lazCall o op =>
    unfold World.step at hs; dsimp only at hs; split at hs
    · rename_i ho _
      split at hs
      · cases hs
      · cases hs; exact .change _ o _ _ ho rfl rfl
    · cases hs

/-- **C76**: a LAZ object never changes the header object it has; a copy of a `LazConfigWriter` and a `LazWriter` made
of it have the same as it; every other new object has none of those in use. -/
theorem C76_family (hr : World.Reached L ord W) {a : Action} (hs : W.step L ord a = some W') :
    (∀ o, o < W.things.length → W'.family o = W.family o) ∧
    (W.things.length < W'.things.length →
      (∀ o out, a = .copyLaz o ∨ a = .newLazWriter out o → W'.family W.things.length = W.family o) ∧
      (a.sharesLaz = false → ∀ o f, W.family o = some f → W'.family W.things.length ≠ some f)) := by
  have hg := good_reached hr
  cases step_shape hs with
  | same s => exact ⟨fun _ _ => rfl, fun h => absurd h (Nat.lt_irrefl _)⟩
  | change s o t t' ho h1 h2 => exact ⟨fun _ _ => family_set ho h1 h2, fun h => by simp at h⟩
  | fresh s t ht ha =>
    refine ⟨fun o h => family_add h, fun _ => ⟨fun o out h => ?_, fun _ o f hf hn => ?_⟩⟩
    · rcases h with rfl | rfl <;> cases ha
    · have hl : (W.add t s).things[W.things.length]? = some t := by simp [World.add]
      unfold World.family at hf hn
      rw [hl] at hn
      dsimp only at hn
      split at hf
      · rename_i u hu
        split at hf
        · cases hf
        · obtain rfl := Option.some.inj hf
          have := hg.lt hu _ u.foot_header
          split at hn
          · cases hn
          · rename_i hc
            have := ht hc
            have := Option.some.inj hn
            omega
      · cases hf
  | share s o t u ho h1 h2 ha =>
    refine ⟨fun o h => family_add h, fun _ => ⟨fun o' out h => ?_, fun hn => ?_⟩⟩
    · have e : o' = o := by
        rcases ha with rfl | ⟨out', rfl⟩
        · rcases h with h | h
          · cases h; rfl
          · cases h
        · rcases h with h | h
          · cases h
          · cases h; rfl
      subst e
      have hl : (W.add t s).things[W.things.length]? = some t := by simp [World.add]
      unfold World.family
      rw [hl, ho]
      dsimp only
      rw [h1, h2]
    · rcases ha with rfl | ⟨out', rfl⟩ <;> cases hn

end

/-! ### The claim is false of LAZ objects -/

namespace SharedSample

/-- A header with other bounds. -/
def moved : LasHeader := { LazSample.cfg.header with max := ⟨Flt.ofInt 5, Flt.ofInt 5, Flt.ofInt 5⟩ }

/-- Two writers made of one configuration; the header of the first is edited, the second is closed. -/
def twoWriters : List Action :=
  [.newLaz 6 Sample.scale Sample.zero [87, 75, 84] [EbField.simple 1 0 []], .newLazWriter OStream.fresh 0,
   .newLazWriter OStream.fresh 0, .setHeader 1 moved, .lazCall 2 .close]

/-- The file of a writer. -/
def file : Worth → Bytes
  | .writer w => w.base.out.data
  | .lazWriter w => w.base.out.data
  | _ => []

def got : Option Bytes := (World.steps LazSample.L Sample.ord ⟨[], []⟩ twoWriters).bind fun W => (W.worth 2).map file
def due : Option Bytes := (acts LazSample.L Sample.ord [] twoWriters).bind fun vs => (vs[2]?).map file

theorem both : got.isSome = true ∧ due.isSome = true ∧ got ≠ due := by decide +kernel

/-- The same with COPC. -/
def twoCopc : List Action :=
  [.newCopc 6 Sample.scale Sample.zero [87, 75, 84] [EbField.simple 1 0 []] false, .newWriter OStream.fresh 0 {},
   .newWriter OStream.fresh 0 {}, .setHeader 1 { moved with copcFlag := true }, .call 2 .close]

end SharedSample

open SharedSample in
/-- **C76** is false of LAZ writers: of two `LazWriter`s made of one `LazConfigWriter`, an edit of the header of the first
changes the file that the second writes. -/
theorem C76_violated : ∃ (l : List Action) (W : World) (vs : List Worth),
    World.steps LazSample.L Sample.ord ⟨[], []⟩ l = some W ∧ acts LazSample.L Sample.ord [] l = some vs ∧
    (W.worth 2).map file ≠ (vs[2]?).map file := by
  obtain ⟨h1, h2, h3⟩ := both
  unfold got at h1 h3
  unfold due at h2 h3
  cases hW : World.steps LazSample.L Sample.ord ⟨[], []⟩ twoWriters with
  | none => rw [hW] at h1; cases h1
  | some W =>
    cases hv : acts LazSample.L Sample.ord [] twoWriters with
    | none => rw [hv] at h2; cases h2
    | some vs =>
      rw [hW, hv] at h3
      exact ⟨twoWriters, W, vs, hW, hv, h3⟩

theorem reached_steps {L : Lazperf} {ord : Order} : ∀ {l : List Action} {W W' : World}, World.Reached L ord W →
    W.steps L ord l = some W' → World.Reached L ord W'
  | [], W, W', h, e => by cases e; exact h
  | a :: l, W, W', h, e => by
    unfold World.steps at e
    cases hs : W.step L ord a with
    | none => rw [hs] at e; cases e
    | some W1 => rw [hs] at e; exact reached_steps (.step h hs) e

namespace SharedSample

def isCopc : Worth → Bool
  | .copcConfig _ => true
  | .writer _ => true
  | _ => false

/-- At the end of the program the first writer has the new bounds, the second and the configuration have not, and the
second is closed. -/
theorem copc_runs : (World.steps LazSample.L Sample.ord ⟨[], []⟩ twoCopc).map (fun W =>
    ((W.worth 0).map fun v => decide (v.header.max.x = moved.max.x), (W.worth 1).map fun v => decide (v.header.max.x = moved.max.x),
      (W.worth 2).map fun v => decide (v.header.max.x = moved.max.x), (W.worth 2).map fun v => (file v).length != 0)) =
    some (some false, some true, some false, some true) := by
  decide +kernel

end SharedSample

open SharedSample in
example : (∃ W, World.Reached LazSample.L Sample.ord W ∧ (∃ v, W.worth 1 = some v ∧ v.copc.isSome) ∧
      (∃ W', W.step LazSample.L Sample.ord (.setHeader 2 { moved with copcFlag := true }) = some W') ∧
      (Action.setHeader 2 { moved with copcFlag := true }).target ≠ some 1) ∧
    (∀ a ∈ twoCopc, a.sharesLaz = false) ∧ ∀ vs, acts LazSample.L Sample.ord [] twoCopc = some vs → Quiet LazSample.L Sample.ord vs [] := by
  have h1 : ((World.steps LazSample.L Sample.ord ⟨[], []⟩ (twoCopc.take 3)).bind fun W => (W.worth 1).map isCopc) = some true := by
    decide +kernel
  have h2 : ((World.steps LazSample.L Sample.ord ⟨[], []⟩ (twoCopc.take 3)).bind fun W =>
      W.step LazSample.L Sample.ord (.setHeader 2 { moved with copcFlag := true })).isSome = true := by decide +kernel
  refine ⟨?_, by decide, fun _ _ => trivial⟩
  cases hW : World.steps LazSample.L Sample.ord ⟨[], []⟩ (twoCopc.take 3) with
  | none => rw [hW] at h1; cases h1
  | some W =>
    rw [hW] at h1 h2
    obtain ⟨W', hW'⟩ := Option.isSome_iff_exists.1 h2
    refine ⟨W, reached_steps .start hW, ?_, ⟨W', hW'⟩, by decide⟩
    obtain ⟨v, hv, hc⟩ := Option.map_eq_some_iff.1 (show (W.worth 1).map isCopc = some true from h1)
    refine ⟨v, hv, ?_⟩
    cases v <;> first | rfl | cases hc

open SharedSample in
/-- An edit of the header of a LAZ object that two objects have in common. -/
example : ∃ W W', World.Reached LazSample.L Sample.ord W ∧ W.step LazSample.L Sample.ord (.setHeader 1 moved) = some W' ∧
    W.family 1 = W.family 2 ∧ (W.family 1).isSome := by
  have h1 : ((World.steps LazSample.L Sample.ord ⟨[], []⟩ (twoWriters.take 3)).map fun W => (W.family 1, W.family 2)) =
      some (some 0, some 0) := by decide +kernel
  have h2 : ((World.steps LazSample.L Sample.ord ⟨[], []⟩ (twoWriters.take 3)).bind fun W =>
      W.step LazSample.L Sample.ord (.setHeader 1 moved)).isSome = true := by decide +kernel
  cases hW : World.steps LazSample.L Sample.ord ⟨[], []⟩ (twoWriters.take 3) with
  | none => rw [hW] at h1; cases h1
  | some W =>
    rw [hW] at h1 h2
    obtain ⟨W', hW'⟩ := Option.isSome_iff_exists.1 h2
    have h3 : (W.family 1, W.family 2) = (some 0, some 0) := Option.some.inj h1
    injection h3 with h4 h5
    exact ⟨W, W', reached_steps .start hW, hW', by rw [h4, h5], by rw [h4]; rfl⟩

end Copc
