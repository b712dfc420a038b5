import Verif.Model.Shared
import Verif.Lemmas.WriterHist
import Verif.Lemmas.WriterHier
/-! # Shared objects -/
namespace Copc
open Spec VoxelKey

/-- The pointers through which an object can be changed. -/
def Thing.foot (s : Store) (t : Thing) : List Nat := match t.copc with
  | some c => c.foot s
  | none => [t.header]

/-- The stores have the same objects at the addresses. -/
def Agree (s s' : Store) (l : List Nat) : Prop := ∀ a ∈ l, s'[a]? = s[a]?

theorem items_congr {s s' : Store} : ∀ {l : List Nat}, Agree s s' l → s'.items l = s.items l
  | [], _ => rfl
  | a :: l, h => by
    unfold Store.items Store.extent
    rw [h a (by simp), items_congr (l := l) fun b hb => h b (by simp [hb])]

theorem pointers_congr {s s' : Store} {a : Nat} (h : s'[a]? = s[a]?) : s'.pointers a = s.pointers a := by
  unfold Store.pointers; rw [h]

theorem copc_congr {s s' : Store} {c : CopcObj} (h : Agree s s' (c.foot s)) :
    c.value s' = c.value s ∧ c.foot s' = c.foot s := by
  have h1 := h c.header (by simp [CopcObj.foot])
  have h2 := h c.info (by simp [CopcObj.foot])
  have h3 := h c.extents (by simp [CopcObj.foot])
  have h4 : s'.extents c.extents = s.extents c.extents := by
    unfold Store.extents
    rw [h3]
    cases hx : s[c.extents]? with
    | none => rfl
    | some x =>
      cases x with
      | extents f b l =>
        dsimp only
        rw [items_congr (s := s) (s' := s')]
        intro a ha
        exact h a (by simp [CopcObj.foot, Store.pointers, hx, ha])
      | _ => rfl
  constructor
  · unfold CopcObj.value LazObj.value Store.header Store.info
    rw [h1, h2, h4]
  · unfold CopcObj.foot
    rw [pointers_congr h3]

theorem laz_congr {s s' : Store} {c : LazObj} (h : s'[c.header]? = s[c.header]?) : c.value s' = c.value s := by
  unfold LazObj.value Store.header
  rw [h]

theorem thing_congr {s s' : Store} {t : Thing} (h : Agree s s' (t.foot s)) :
    t.worth s' = t.worth s ∧ t.foot s' = t.foot s := by
  cases t with
  | copcConfig c => obtain ⟨h1, h2⟩ := copc_congr (c := c) h; exact ⟨by simp only [Thing.worth, h1], h2⟩
  | writer b ns ps c => obtain ⟨h1, h2⟩ := copc_congr (c := c) h; exact ⟨by simp only [Thing.worth, h1], h2⟩
  | lazConfig c =>
    have := laz_congr (s := s) (s' := s') (c := c) (h _ (by simp [Thing.foot, Thing.copc, Thing.header]))
    exact ⟨by simp only [Thing.worth, this], rfl⟩
  | lazWriter b c =>
    have := laz_congr (s := s) (s' := s') (c := c) (h _ (by simp [Thing.foot, Thing.copc, Thing.header]))
    exact ⟨by simp only [Thing.worth, this], rfl⟩

/-! ### Objects that exist -/

theorem lt_of_some {s : Store} {a : Nat} {x : Cell} (h : s[a]? = some x) : a < s.length := by
  rw [List.getElem?_eq_some_iff] at h; exact h.1

theorem header_some {s : Store} {a : Nat} {h : LasHeader} (e : s.header a = some h) : s[a]? = some (.header h) := by
  unfold Store.header at e
  split at e
  · rename_i h' he; rw [he]; simpa using e
  · cases e

theorem info_some {s : Store} {a : Nat} {h : CopcInfo} (e : s.info a = some h) : s[a]? = some (.info h) := by
  unfold Store.info at e
  split at e
  · rename_i h' he; rw [he]; simpa using e
  · cases e

theorem items_lt {s : Store} : ∀ {l : List Nat} {es : List Extent}, s.items l = some es →
    ∀ a ∈ l, ∃ e, s[a]? = some (.extent e)
  | [], _, _, a, ha => by cases ha
  | b :: l, es, h, a, ha => by
    unfold Store.items at h
    split at h
    · rename_i e es' he hes
      rcases List.mem_cons.1 ha with rfl | ha
      · unfold Store.extent at he
        split at he
        · rename_i e' h'; exact ⟨e', h'⟩
        · cases he
      · exact items_lt hes a ha
    · cases h

theorem extents_some {s : Store} {a : Nat} {x : Extents} (e : s.extents a = some x) :
    ∃ l, s[a]? = some (.extents x.fmt x.extStats l) ∧ s.items l = some x.extents := by
  unfold Store.extents at e
  split at e
  · rename_i f b l he
    split at e
    · rename_i es hes
      obtain rfl := Option.some.inj e
      exact ⟨l, he, hes⟩
    · cases e
  · cases e

theorem copcValue_some {s : Store} {c : CopcObj} {v : CopcConfig} (e : c.value s = some v) :
    s.header c.header = some v.header ∧ v.wkt = c.wkt ∧ v.eb = c.eb ∧ s.info c.info = some v.info ∧
      s.extents c.extents = some v.extents := by
  unfold CopcObj.value at e
  split at e
  · rename_i l i x hl hi hx
    obtain rfl := Option.some.inj e
    unfold LazObj.value at hl
    split at hl
    · rename_i h hh
      obtain rfl := Option.some.inj hl
      exact ⟨hh, rfl, rfl, hi, hx⟩
    · cases hl
  · cases e

theorem lazValue_some {s : Store} {c : LazObj} {v : LazConfig} (e : c.value s = some v) :
    s.header c.header = some v.header ∧ v.wkt = c.wkt ∧ v.eb = c.eb := by
  unfold LazObj.value at e
  split at e
  · rename_i h hh
    obtain rfl := Option.some.inj e
    exact ⟨hh, rfl, rfl⟩
  · cases e

theorem copcValue_of {s : Store} {c : CopcObj} {v : CopcConfig} (h1 : s.header c.header = some v.header) (h2 : v.wkt = c.wkt)
    (h3 : v.eb = c.eb) (h4 : s.info c.info = some v.info) (h5 : s.extents c.extents = some v.extents) : c.value s = some v := by
  unfold CopcObj.value LazObj.value
  rw [h1, h4, h5]
  dsimp only
  rw [← h2, ← h3]

theorem copc_lt {s : Store} {c : CopcObj} {v : CopcConfig} (e : c.value s = some v) : ∀ a ∈ c.foot s, a < s.length := by
  obtain ⟨h1, _, _, h4, h5⟩ := copcValue_some e
  obtain ⟨l, h6, h7⟩ := extents_some h5
  intro a ha
  have hp : s.pointers c.extents = l := by unfold Store.pointers; rw [h6]
  unfold CopcObj.foot at ha
  rw [hp] at ha
  simp only [List.mem_cons] at ha
  rcases ha with rfl | rfl | rfl | ha
  · exact lt_of_some (header_some h1)
  · exact lt_of_some (info_some h4)
  · exact lt_of_some h6
  · obtain ⟨e, he⟩ := items_lt h7 a ha
    exact lt_of_some he

theorem thing_lt {s : Store} {t : Thing} {v : Worth} (e : t.worth s = some v) : ∀ a ∈ t.foot s, a < s.length := by
  cases t with
  | copcConfig c =>
    unfold Thing.worth at e
    obtain ⟨w, hw, _⟩ := Option.map_eq_some_iff.1 e
    exact copc_lt hw
  | writer b ns ps c =>
    unfold Thing.worth at e
    obtain ⟨w, hw, _⟩ := Option.map_eq_some_iff.1 e
    exact copc_lt hw
  | lazConfig c =>
    unfold Thing.worth at e
    obtain ⟨w, hw, _⟩ := Option.map_eq_some_iff.1 e
    intro a ha
    obtain rfl := List.mem_singleton.1 ha
    exact lt_of_some (header_some (lazValue_some hw).1)
  | lazWriter b c =>
    unfold Thing.worth at e
    obtain ⟨w, hw, _⟩ := Option.map_eq_some_iff.1 e
    intro a ha
    obtain rfl := List.mem_singleton.1 ha
    exact lt_of_some (header_some (lazValue_some hw).1)

/-! ### New objects -/

theorem agree_append {s t : Store} {l : List Nat} (h : ∀ a ∈ l, a < s.length) : Agree s (s ++ t) l := fun a ha =>
  List.getElem?_append_left (h a ha)

theorem newLaz_eq (s : Store) (c : LazConfig) :
    s.newLaz c = (⟨s.length, c.wkt, c.eb⟩, s ++ [.header c.header]) := rfl

theorem newLaz_value (s : Store) (c : LazConfig) : (s.newLaz c).1.value (s.newLaz c).2 = some c := by
  rw [newLaz_eq]
  unfold LazObj.value Store.header
  simp

theorem items_new (s t : Store) : ∀ (es : List Extent) (n : Nat) (p : Store), p.length = n →
    Store.items (p ++ es.map Cell.extent ++ t) (List.range' n es.length) = some es
  | [], _, _, _ => rfl
  | e :: es, n, p, hp => by
    have ih := items_new s t es (n + 1) (p ++ [.extent e]) (by simp [hp])
    rw [List.length_cons, List.range'_succ, Store.items]
    have h1 : Store.extent (p ++ (e :: es).map Cell.extent ++ t) n = some e := by
      unfold Store.extent
      rw [List.append_assoc, List.getElem?_append_right (by omega)]
      simp [hp]
    have h2 : p ++ [Cell.extent e] ++ es.map Cell.extent ++ t = p ++ (e :: es).map Cell.extent ++ t := by simp
    rw [h2] at ih
    rw [h1, ih]

/-- What a new configuration adds to the store. -/
def copcCells (n : Nat) (c : CopcConfig) : Store :=
  [.header c.header, .info c.info] ++ c.extents.extents.map Cell.extent ++
    [.extents c.extents.fmt c.extents.extStats (List.range' (n + 2) c.extents.extents.length)]

theorem newCopc_eq (s : Store) (c : CopcConfig) : s.newCopc c =
    (⟨⟨s.length, c.wkt, c.eb⟩, s.length + 1, s.length + 2 + c.extents.extents.length⟩, s ++ copcCells s.length c) := by
  unfold Store.newCopc Store.newLaz Store.allocExtents Store.alloc copcCells
  simp [Nat.add_assoc]
  omega

theorem newCopc_cell (s : Store) (c : CopcConfig) : (s ++ copcCells s.length c)[s.length + 2 + c.extents.extents.length]? =
    some (.extents c.extents.fmt c.extents.extStats (List.range' (s.length + 2) c.extents.extents.length)) := by
  have : s ++ copcCells s.length c = (s ++ [.header c.header, .info c.info] ++ c.extents.extents.map Cell.extent) ++
    [.extents c.extents.fmt c.extents.extStats (List.range' (s.length + 2) c.extents.extents.length)] := by
    unfold copcCells; simp
  have hl : (s ++ [Cell.header c.header, Cell.info c.info] ++ c.extents.extents.map Cell.extent).length =
    s.length + 2 + c.extents.extents.length := by simp; omega
  rw [this, List.getElem?_append_right (by omega), hl, Nat.sub_self]
  rfl

theorem newCopc_value (s : Store) (c : CopcConfig) : (s.newCopc c).1.value (s.newCopc c).2 = some c := by
  rw [newCopc_eq]
  refine copcValue_of ?_ rfl rfl ?_ ?_
  · unfold Store.header copcCells; simp
  · unfold Store.info copcCells; simp
  · unfold Store.extents
    dsimp only
    rw [newCopc_cell]
    dsimp only
    have := items_new s [.extents c.extents.fmt c.extents.extStats (List.range' (s.length + 2) c.extents.extents.length)]
      c.extents.extents (s.length + 2) (s ++ [.header c.header, .info c.info]) (by simp)
    unfold copcCells
    rw [show s ++ ([.header c.header, .info c.info] ++ c.extents.extents.map Cell.extent ++
      [.extents c.extents.fmt c.extents.extStats (List.range' (s.length + 2) c.extents.extents.length)]) =
      s ++ [.header c.header, .info c.info] ++ c.extents.extents.map Cell.extent ++
      [.extents c.extents.fmt c.extents.extStats (List.range' (s.length + 2) c.extents.extents.length)] by simp, this]

theorem newCopc_foot (s : Store) (c : CopcConfig) : (∀ a ∈ (s.newCopc c).1.foot (s.newCopc c).2, s.length ≤ a) ∧
    ((s.newCopc c).1.foot (s.newCopc c).2).Nodup := by
  rw [newCopc_eq]
  have hp : Store.pointers (s ++ copcCells s.length c) (s.length + 2 + c.extents.extents.length) =
    List.range' (s.length + 2) c.extents.extents.length := by
    unfold Store.pointers
    rw [newCopc_cell]
  unfold CopcObj.foot
  dsimp only
  rw [hp]
  constructor
  · intro a ha
    simp only [List.mem_cons, List.mem_range'_1] at ha
    omega
  · simp only [List.nodup_cons, List.mem_cons, List.mem_range'_1, not_or]
    refine ⟨⟨by omega, by omega, by omega⟩, ⟨by omega, by omega⟩, by omega, List.nodup_range'⟩

/-! ### The invariant of a program -/

structure World.Inv (W : World) : Prop where
  alive : ∀ (o : Nat) (t : Thing), W.things[o]? = some t → (t.worth W.store).isSome
  nodup : ∀ (o : Nat) (t : Thing), W.things[o]? = some t → (t.foot W.store).Nodup
  apart : ∀ (o p : Nat) (t u : Thing), W.things[o]? = some t → W.things[p]? = some u → o ≠ p → t.copc.isSome →
    ∀ a ∈ t.foot W.store, a ∉ u.foot W.store

theorem World.Inv.lt {W : World} (h : W.Inv) {o : Nat} {t : Thing} (ho : W.things[o]? = some t) :
    ∀ a ∈ t.foot W.store, a < W.store.length := by
  obtain ⟨v, hv⟩ := Option.isSome_iff_exists.1 (h.alive o t ho)
  exact thing_lt hv

/-- Objects whose addresses agree stay as they are. -/
theorem same_of_agree {s s' : Store} {t : Thing} (h : Agree s s' (t.foot s)) (ha : (t.worth s).isSome) :
    (t.worth s').isSome ∧ t.foot s' = t.foot s := by
  obtain ⟨h1, h2⟩ := thing_congr h
  exact ⟨by rw [h1]; exact ha, h2⟩

theorem lt_of_singleton {α : Type} {x : α} {n : Nat} {y : α} (h : [x][n]? = some y) : n < 1 := by
  rw [List.getElem?_eq_some_iff] at h; exact h.1

theorem things_add {W : World} {t : Thing} {s : Store} {o : Nat} {u : Thing} (h : (W.add t s).things[o]? = some u) :
    (o < W.things.length ∧ W.things[o]? = some u) ∨ (o = W.things.length ∧ u = t) := by
  unfold World.add at h
  dsimp only at h
  by_cases ho : o < W.things.length
  · rw [List.getElem?_append_left ho] at h; exact .inl ⟨ho, h⟩
  · rw [List.getElem?_append_right (by omega)] at h
    have h' := lt_of_singleton h
    have e : o = W.things.length := by omega
    subst e
    simp at h
    exact .inr ⟨rfl, h.symm⟩

/-- A new object, made of new parts. -/
theorem inv_new {W : World} (hI : W.Inv) {t : Thing} {s : Store} (hs : ∃ r, s = W.store ++ r) (hw : (t.worth s).isSome)
    (hf : ∀ a ∈ t.foot s, W.store.length ≤ a) (hn : (t.foot s).Nodup) : (W.add t s).Inv := by
  obtain ⟨r, rfl⟩ := hs
  have old : ∀ (o : Nat) (u : Thing), W.things[o]? = some u → (u.worth (W.store ++ r)).isSome ∧ u.foot (W.store ++ r) = u.foot W.store :=
    fun o u h => same_of_agree (agree_append (hI.lt h)) (hI.alive o u h)
  refine ⟨?_, ?_, ?_⟩
  · intro o u h
    rcases things_add h with ⟨_, h⟩ | ⟨_, rfl⟩
    · exact (old o u h).1
    · exact hw
  · intro o u h
    show (u.foot (W.store ++ r)).Nodup
    rcases things_add h with ⟨_, h⟩ | ⟨_, rfl⟩
    · rw [(old o u h).2]; exact hI.nodup o u h
    · exact hn
  · intro o p u v h1 h2 hne hc a ha
    change a ∈ u.foot (W.store ++ r) at ha
    show a ∉ v.foot (W.store ++ r)
    rcases things_add h1 with ⟨l1, k1⟩ | ⟨rfl, rfl⟩
    · rcases things_add h2 with ⟨l2, k2⟩ | ⟨rfl, rfl⟩
      · rw [(old o u k1).2] at ha
        rw [(old p v k2).2]
        exact hI.apart o p u v k1 k2 hne hc a ha
      · intro hb
        rw [(old o u k1).2] at ha
        have := hI.lt k1 a ha
        have := hf a hb
        omega
    · rcases things_add h2 with ⟨l2, k2⟩ | ⟨rfl, rfl⟩
      · rw [(old p v k2).2]
        intro hb
        have := hI.lt k2 a hb
        have := hf a ha
        omega
      · exact absurd rfl hne

/-- A new LAZ object that shares the header of another. -/
theorem inv_share {W : World} (hI : W.Inv) {t u : Thing} {o : Nat} (ho : W.things[o]? = some u) (hu : u.copc = none)
    (ht : t.copc = none) (hh : t.header = u.header) (hw : (t.worth W.store).isSome) : (W.add t W.store).Inv := by
  have hf : t.foot W.store = u.foot W.store := by unfold Thing.foot; rw [hu, ht]; dsimp only; rw [hh]
  refine ⟨?_, ?_, ?_⟩
  · intro p v h
    rcases things_add h with ⟨_, h⟩ | ⟨_, rfl⟩
    · exact hI.alive p v h
    · exact hw
  · intro p v h
    show (v.foot W.store).Nodup
    rcases things_add h with ⟨_, h⟩ | ⟨_, rfl⟩
    · exact hI.nodup p v h
    · rw [hf]; exact hI.nodup o u ho
  · intro p q v x h1 h2 hne hc a ha
    change a ∈ v.foot W.store at ha
    show a ∉ x.foot W.store
    rcases things_add h1 with ⟨l1, k1⟩ | ⟨rfl, rfl⟩
    · rcases things_add h2 with ⟨l2, k2⟩ | ⟨rfl, rfl⟩
      · exact hI.apart p q v x k1 k2 hne hc a ha
      · rw [hf]
        refine hI.apart p o v u k1 ho ?_ hc a ha
        rintro rfl
        rw [k1] at ho
        obtain rfl := Option.some.inj ho
        rw [hu] at hc
        cases hc
    · rw [ht] at hc; cases hc

theorem things_set {l : List Thing} {o p : Nat} {t u : Thing} (h : (l.set o t)[p]? = some u) :
    (p ≠ o ∧ l[p]? = some u) ∨ (p = o ∧ u = t) := by
  by_cases hp : p = o
  · subst hp
    by_cases hl : p < l.length
    · rw [List.getElem?_set_self hl] at h; exact .inr ⟨rfl, (Option.some.inj h).symm⟩
    · rw [List.getElem?_eq_none (by simp; omega)] at h; cases h
  · rw [List.getElem?_set_ne (Ne.symm hp)] at h; exact .inl ⟨hp, h⟩

/-- A change of one object. -/
theorem inv_change {W : World} (hI : W.Inv) {o : Nat} {t t' : Thing} {s : Store} (ho : W.things[o]? = some t)
    (hothers : ∀ p u, p ≠ o → W.things[p]? = some u → (u.worth s).isSome ∧ u.foot s = u.foot W.store)
    (hw : (t'.worth s).isSome) (hf : ∀ a ∈ t'.foot s, a ∈ t.foot W.store ∨ W.store.length ≤ a)
    (hn : (t'.foot s).Nodup) (hc : t'.copc.isSome = t.copc.isSome) : World.Inv ⟨s, W.things.set o t'⟩ := by
  refine ⟨?_, ?_, ?_⟩
  · intro p u h
    rcases things_set h with ⟨hp, h⟩ | ⟨_, rfl⟩
    · exact (hothers p u hp h).1
    · exact hw
  · intro p u h
    show (u.foot s).Nodup
    rcases things_set h with ⟨hp, h⟩ | ⟨_, rfl⟩
    · rw [(hothers p u hp h).2]; exact hI.nodup p u h
    · exact hn
  · intro p q u v h1 h2 hne hcu a ha
    change a ∈ u.foot s at ha
    show a ∉ v.foot s
    rcases things_set h1 with ⟨hp, k1⟩ | ⟨rfl, rfl⟩
    · rw [(hothers p u hp k1).2] at ha
      rcases things_set h2 with ⟨hq, k2⟩ | ⟨rfl, rfl⟩
      · rw [(hothers q v hq k2).2]
        exact hI.apart p q u v k1 k2 hne hcu a ha
      · intro hb
        rcases hf a hb with hb | hb
        · exact hI.apart p q u t k1 ho hne hcu a ha hb
        · have := hI.lt k1 a ha; omega
    · rcases things_set h2 with ⟨hq, k2⟩ | ⟨rfl, rfl⟩
      · rw [(hothers q v hq k2).2]
        intro hb
        rcases hf a ha with ha | ha
        · exact hI.apart p q t v ho k2 (Ne.symm hq) (by rw [← hc]; exact hcu) a ha hb
        · have := hI.lt k2 a hb; omega
      · exact absurd rfl hne

theorem agree_set {s : Store} {a : Nat} {x : Cell} {l : List Nat} (h : a ∉ l) : Agree s (s.set a x) l := fun b hb => by
  rw [List.getElem?_set_ne]
  rintro rfl
  exact h hb

theorem set_thing {l : List Thing} {o : Nat} {t : Thing} (h : l[o]? = some t) : l.set o t = l := by
  apply List.ext_getElem?
  intro p
  by_cases hp : p = o
  · subst hp
    rw [List.getElem?_set_self (by rw [List.getElem?_eq_some_iff] at h; exact h.1), h]
  · rw [List.getElem?_set_ne (Ne.symm hp)]

end Copc
