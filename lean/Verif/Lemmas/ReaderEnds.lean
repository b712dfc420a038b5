import Verif.Lemmas.PageGraph
/-! # Every call of a reader ends on a file without cycles of pages -/
namespace Copc
open Spec VoxelKey

theorem sum_modify {α : Type} (g : α → Nat) (f : α → α) : ∀ (l : List α) (i : Nat) (a : α), l[i]? = some a →
    ((l.modify i f).map g).sum + g a = (l.map g).sum + g (f a)
  | [], i, a, h => by simp at h
  | b :: l, 0, a, h => by
    simp at h
    subst h
    simp only [List.modify_zero_cons, List.map_cons, List.sum_cons]
    omega
  | b :: l, i + 1, a, h => by
    have := sum_modify g f l i a (by simpa using h)
    simp only [List.modify_succ_cons, List.map_cons, List.sum_cons]
    omega

theorem map_modify_same {α β : Type} (g : α → β) (f : α → α) (h : ∀ a, g (f a) = g a) (l : List α) (i : Nat) :
    (l.modify i f).map g = l.map g := by
  refine List.ext_getElem? fun j => ?_
  rw [List.getElem?_map, List.getElem?_map, List.getElem?_modify]
  cases l[j]? with
  | none => rfl
  | some a => simp; split <;> simp [h]

section
variable {data : Bytes} {root : Place} {rank : Place → Nat}

/-- The heap of a reader: all its pages are pages of the file, and the sub pages of a page rank lower. -/
structure TInv (data : Bytes) (root : Place) (rank : Place → Nat) (heap : List RPage) : Prop where
  pages : ∀ (id : Nat) (p : RPage), heap[id]? = some p → PageAt data root p.place
  subs : ∀ (id : Nat) (p : RPage), heap[id]? = some p → ∀ j ∈ p.subs, ∃ q : RPage, heap[j]? = some q ∧ rank q.place < rank p.place

/-- Weight of the pages not read yet. -/
def todo (data : Bytes) (rank : Place → Nat) (heap : List RPage) : Nat :=
  (heap.map fun p => if p.loaded then 0 else wt data rank p.place).sum

/-- Pages stay where they are. -/
def SamePlaces (a b : List RPage) : Prop :=
  ∀ (j : Nat) (q : RPage), a[j]? = some q → ∃ q' : RPage, b[j]? = some q' ∧ q'.place = q.place

theorem SamePlaces.refl (a : List RPage) : SamePlaces a a := fun _ q h => ⟨q, h, rfl⟩
theorem SamePlaces.trans {a b c : List RPage} (h1 : SamePlaces a b) (h2 : SamePlaces b c) : SamePlaces a c := by
  intro j q h
  obtain ⟨q1, a1, a2⟩ := h1 j q h
  obtain ⟨q2, b1, b2⟩ := h2 j q1 a1
  exact ⟨q2, b1, b2.trans a2⟩

theorem SamePlaces.modify (a : List RPage) (i : Nat) (f : RPage → RPage) (hf : ∀ p, (f p).place = p.place) :
    SamePlaces a (a.modify i f) := by
  intro j q h
  rw [List.getElem?_modify, h]
  simp only [Option.map_eq_map, Option.map_some]
  split
  · exact ⟨_, rfl, hf q⟩
  · exact ⟨_, rfl, rfl⟩

theorem TInv.modify {heap : List RPage} (h : TInv data root rank heap) (i : Nat) (f : RPage → RPage)
    (hf : ∀ p, (f p).place = p.place ∧ (f p).subs = p.subs) : TInv data root rank (heap.modify i f) := by
  have key : ∀ (id : Nat) (p : RPage), (heap.modify i f)[id]? = some p → ∃ p0 : RPage, heap[id]? = some p0 ∧ p.place = p0.place ∧
      p.subs = p0.subs := by
    intro id p hp
    rw [List.getElem?_modify] at hp
    cases h0 : heap[id]? with
    | none => rw [h0] at hp; cases hp
    | some p0 =>
      rw [h0] at hp
      simp only [Option.map_eq_map, Option.map_some] at hp
      split at hp
      · cases hp; exact ⟨p0, rfl, (hf p0).1, (hf p0).2⟩
      · cases hp; exact ⟨_, rfl, rfl, rfl⟩
  refine ⟨fun id p hp => ?_, fun id p hp j hj => ?_⟩
  · obtain ⟨p0, h0, h1, _⟩ := key id p hp
    rw [h1]
    exact h.pages id p0 h0
  · obtain ⟨p0, h0, h1, h2⟩ := key id p hp
    rw [h2] at hj
    obtain ⟨q, hq, hlt⟩ := h.subs id p0 h0 j hj
    obtain ⟨q', hq', he⟩ := SamePlaces.modify heap i f (fun p => (hf p).1) j q hq
    exact ⟨q', hq', by rw [he, h1]; exact hlt⟩

/-- One entry. -/
theorem addEntry_inv (hr : Ranked data root rank) {h : RHier} (hi : TInv data root rank h.heap) {id : Nat}
    {p : RPage} (hp : h.heap[id]? = some p) {e : Entry}
    (he : e.isPage = true → PageRefers data p.place (e.offset, e.byteSize)) :
    TInv data root rank (h.addEntry id e).heap ∧ SamePlaces h.heap (h.addEntry id e).heap ∧
    (∃ p', (h.addEntry id e).heap[id]? = some p' ∧ p'.place = p.place) ∧
    todo data rank (h.addEntry id e).heap = todo data rank h.heap + ((subPlaces [e]).map (wt data rank)).sum := by
  have hlt : id < h.heap.length := (List.getElem?_eq_some_iff.1 hp).1
  unfold RHier.addEntry
  split
  · next hpg =>
    have href := he hpg
    have hat := hi.pages id p hp
    have hrk := hr _ _ hat href
    simp only
    have hk : SamePlaces h.heap ((h.heap.modify id fun p => { p with subs := p.subs ++ [h.heap.length] }) ++ [RPage.ofEntry e]) := by
      refine (SamePlaces.modify h.heap id (fun p => { p with subs := p.subs ++ [h.heap.length] }) fun _ => rfl).trans
        fun j q hj => ?_
      have := (List.getElem?_eq_some_iff.1 hj).1
      exact ⟨q, by rw [List.getElem?_append_left this]; exact hj, rfl⟩
    have hnew : ((h.heap.modify id fun p => { p with subs := p.subs ++ [h.heap.length] }) ++ [RPage.ofEntry e])[h.heap.length]?
        = some (RPage.ofEntry e) := by
      rw [List.getElem?_append_right (by simp)]
      simp
    have hold : ∀ (i : Nat) (q : RPage), ((h.heap.modify id fun p => { p with subs := p.subs ++ [h.heap.length] }) ++ [RPage.ofEntry e])[i]?
        = some q → (i = h.heap.length ∧ q = RPage.ofEntry e) ∨
          ∃ q0 : RPage, h.heap[i]? = some q0 ∧ q.place = q0.place ∧
            (q.subs = q0.subs ∨ (i = id ∧ q.subs = q0.subs ++ [h.heap.length])) := by
      intro i q hq
      by_cases hil : i < h.heap.length
      · rw [List.getElem?_append_left (by simpa using hil), List.getElem?_modify] at hq
        cases h0 : h.heap[i]? with
        | none => rw [h0] at hq; cases hq
        | some q0 =>
          rw [h0] at hq
          simp only [Option.map_eq_map, Option.map_some] at hq
          split at hq
          · next hid => cases hq; exact .inr ⟨q0, rfl, rfl, .inr ⟨hid.symm, rfl⟩⟩
          · cases hq; exact .inr ⟨_, rfl, rfl, .inl rfl⟩
      · have hb := (List.getElem?_eq_some_iff.1 hq).1
        have : i = h.heap.length := by simp at hb; omega
        subst this
        rw [hnew] at hq
        cases hq
        exact .inl ⟨rfl, rfl⟩
    refine ⟨⟨fun i q hq => ?_, fun i q hq j hj => ?_⟩, hk, ?_, ?_⟩
    · rcases hold i q hq with ⟨_, rfl⟩ | ⟨q0, h0, h1, _⟩
      · exact hat.sub href
      · rw [h1]; exact hi.pages i q0 h0
    · rcases hold i q hq with ⟨_, rfl⟩ | ⟨q0, h0, h1, h2 | ⟨rfl, h2⟩⟩
      · simp [RPage.ofEntry] at hj
      · rw [h2] at hj
        obtain ⟨x, hx, hl⟩ := hi.subs i q0 h0 j hj
        obtain ⟨x', hx', he'⟩ := hk j x hx
        exact ⟨x', hx', by rw [he', h1]; exact hl⟩
      · rw [h2, List.mem_append] at hj
        rcases hj with hj | hj
        · obtain ⟨x, hx, hl⟩ := hi.subs i q0 h0 j hj
          obtain ⟨x', hx', he'⟩ := hk j x hx
          exact ⟨x', hx', by rw [he', h1]; exact hl⟩
        · rw [List.mem_singleton] at hj
          subst hj
          refine ⟨_, hnew, ?_⟩
          rw [h1]
          rw [h0] at hp
          cases hp
          exact hrk
    · obtain ⟨p', h1, h2⟩ := hk id p hp
      exact ⟨p', h1, h2⟩
    · unfold todo
      rw [List.map_append, List.sum_append, map_modify_same _ _ (fun a => by rfl)]
      congr 1
      unfold subPlaces
      rw [List.filter_cons_of_pos hpg]
      rfl
  · next hpg =>
    simp only
    refine ⟨hi.modify id _ fun _ => ⟨rfl, rfl⟩, SamePlaces.modify _ _ _ fun _ => rfl, ?_, ?_⟩
    · exact SamePlaces.modify h.heap id (fun p => { p with nodes := AList.put e.key ⟨e, p.key⟩ p.nodes })
        (fun _ => rfl) id p hp
    · unfold todo
      rw [map_modify_same _ _ (fun a => by rfl)]
      unfold subPlaces
      rw [List.filter_cons_of_neg hpg]
      rfl

theorem addEntries_inv (hr : Ranked data root rank) {id : Nat} : ∀ (es : List Entry) {h : RHier}
    (_ : TInv data root rank h.heap) {p : RPage} (_ : h.heap[id]? = some p)
    (_ : ∀ e ∈ es, e.isPage = true → PageRefers data p.place (e.offset, e.byteSize)),
    TInv data root rank (es.foldl (RHier.addEntry id) h).heap ∧ SamePlaces h.heap (es.foldl (RHier.addEntry id) h).heap ∧
    todo data rank (es.foldl (RHier.addEntry id) h).heap = todo data rank h.heap + ((subPlaces es).map (wt data rank)).sum
  | [], h, hi, p, hp, he => ⟨hi, SamePlaces.refl _, by simp [subPlaces]⟩
  | e :: es, h, hi, p, hp, he => by
    obtain ⟨a1, a2, ⟨p', a3, a4⟩, a5⟩ := addEntry_inv hr hi hp (he e (by simp))
    obtain ⟨b1, b2, b3⟩ := addEntries_inv hr es a1 a3 (fun x hx => by rw [a4]; exact he x (by simp [hx]))
    rw [List.foldl_cons]
    refine ⟨b1, a2.trans b2, ?_⟩
    rw [b3, a5, Nat.add_assoc, ← List.sum_append, ← List.map_append]
    have : subPlaces [e] ++ subPlaces es = subPlaces (e :: es) := by
      unfold subPlaces
      rw [← List.map_append, ← List.filter_append]
      rfl
    rw [this]

/-- Reading a page: the state stays in order, and if it returns there is less to do. -/
theorem readPage_inv (hr : Ranked data root rank) {s : HReader} (hd : s.str.data = data)
    (hi : TInv data root rank s.hier.heap) (id : Nat) :
    (HReader.readAndParsePage id s).2.str.data = data ∧
    TInv data root rank (HReader.readAndParsePage id s).2.hier.heap ∧
    SamePlaces s.hier.heap (HReader.readAndParsePage id s).2.hier.heap ∧
    ∀ p, s.hier.heap[id]? = some p → p.loaded = false → (HReader.readAndParsePage id s).1 = .ok () →
      todo data rank (HReader.readAndParsePage id s).2.hier.heap < todo data rank s.hier.heap := by
  unfold HReader.readAndParsePage
  cases hp : s.hier.heap[id]? with
  | none => exact ⟨hd, hi, SamePlaces.refl _, fun p hp' => by cases hp'⟩
  | some p =>
    simp only
    have hdat := readPage_data s.str p.isValid p.offset p.byteSize
    cases hread : readPage s.str p.isValid p.offset p.byteSize with
    | mk res str' =>
      rw [hread] at hdat
      cases res with
      | throw e => exact ⟨hdat.trans hd, hi, SamePlaces.refl _, fun _ _ _ h => by cases h⟩
      | ub => exact ⟨hdat.trans hd, hi, SamePlaces.refl _, fun _ _ _ h => by cases h⟩
      | ok es =>
        simp only
        obtain ⟨r1, r2⟩ := readPage_ok hread
        rw [hd] at r1 r2
        have hi1 : TInv data root rank (s.hier.heap.modify id fun p => { p with loaded := true }) :=
          hi.modify id _ fun _ => ⟨rfl, rfl⟩
        have hp1 : (s.hier.heap.modify id fun p => { p with loaded := true })[id]? = some { p with loaded := true } := by
          rw [List.getElem?_modify, hp]
          simp
        obtain ⟨b1, b2, b3⟩ := addEntries_inv hr (id := id) es
          (h := { s.hier with heap := s.hier.heap.modify id fun p => { p with loaded := true } }) hi1 hp1 r2
        refine ⟨hdat.trans hd, b1, (SamePlaces.modify s.hier.heap id (fun p => { p with loaded := true }) fun _ => rfl).trans b2, fun q hq hl _ => ?_⟩
        cases hq
        rw [b3, r1]
        have h1 := wt_refs hr (hi.pages id p hp)
        have h2 := sum_modify (fun p => if p.loaded then 0 else wt data rank p.place)
          (fun p => { p with loaded := true }) s.hier.heap id p hp
        simp only [hl] at h2
        simp only [Bool.false_eq_true, if_false, if_true] at h2
        unfold todo
        simp only
        have e1 : wt data rank (p.offset, p.byteSize) = wt data rank p.place := rfl
        have e2 : refs data (p.offset, p.byteSize) = refs data p.place := rfl
        rw [e2]
        omega

/-- The state of a reader that is in order. -/
def Fit (data : Bytes) (root : Place) (rank : Place → Nat) (s : HReader) : Prop :=
  s.str.data = data ∧ TInv data root rank s.hier.heap

theorem findNode_fit (hr : Ranked data root rank) (key : VoxelKey) : ∀ (n : Nat) (s : HReader), Fit data root rank s →
    todo data rank s.hier.heap < n →
    ∃ res s', HReader.findNode n key s = some (res, s') ∧ Fit data root rank s'
  | 0, s, hf, hn => by omega
  | n + 1, s, hf, hn => by
    rw [HReader.findNode]
    simp only
    split
    · exact ⟨_, _, rfl, hf⟩
    · split
      · exact ⟨_, _, rfl, hf⟩
      · next id _ =>
        split
        · exact ⟨_, _, rfl, hf⟩
        · next p hp =>
          split
          · exact ⟨_, _, rfl, hf⟩
          · next hl =>
            obtain ⟨h1, h2, _, h4⟩ := readPage_inv hr hf.1 hf.2 id
            rw [Run.bind_apply, Run.ofAct_apply]
            cases hx : HReader.readAndParsePage id s with
            | mk res s' =>
              rw [hx] at h1 h2 h4
              cases res with
              | throw e => exact ⟨_, _, rfl, h1, h2⟩
              | ub => exact ⟨_, _, rfl, h1, h2⟩
              | ok u =>
                have := h4 p hp (by simpa using hl) rfl
                exact findNode_fit hr key n s' ⟨h1, h2⟩ (by simp only at this ⊢; omega)

theorem collect_fit {β : Type} {f : Nat → Run HReader (List β)} (P : List RPage → Nat → Prop)
    (hP : ∀ a b, SamePlaces a b → ∀ j, P a j → P b j)
    (hf : ∀ j s, Fit data root rank s → P s.hier.heap j → ∃ res s', f j s = some (res, s') ∧ Fit data root rank s' ∧
      SamePlaces s.hier.heap s'.hier.heap) : ∀ (l : List Nat) (s : HReader), Fit data root rank s →
    (∀ j ∈ l, P s.hier.heap j) → ∃ res s', Run.collect f l s = some (res, s') ∧ Fit data root rank s' ∧
      SamePlaces s.hier.heap s'.hier.heap
  | [], s, hs, _ => ⟨_, s, rfl, hs, SamePlaces.refl _⟩
  | j :: l, s, hs, hl => by
    rw [Run.collect_cons, Run.bind_apply]
    obtain ⟨res, s1, h1, h2, h3⟩ := hf j s hs (hl j (by simp))
    rw [h1]
    cases res with
    | throw e => exact ⟨_, s1, rfl, h2, h3⟩
    | ub => exact ⟨_, s1, rfl, h2, h3⟩
    | ok a =>
      simp only
      rw [Run.bind_apply]
      obtain ⟨res, s2, g1, g2, g3⟩ := collect_fit P hP hf l s1 h2 (fun i hi => hP _ _ h3 i (hl i (by simp [hi])))
      rw [g1]
      cases res with
      | throw e => exact ⟨_, s2, rfl, g2, h3.trans g3⟩
      | ub => exact ⟨_, s2, rfl, g2, h3.trans g3⟩
      | ok b => exact ⟨_, s2, rfl, g2, h3.trans g3⟩

theorem load_fit (hr : Ranked data root rank) (ord : ROrder) : ∀ (n id : Nat) (s : HReader), Fit data root rank s →
    (∀ p, s.hier.heap[id]? = some p → rank p.place < n) → 0 < n →
    ∃ res s', HReader.loadPageHierarchy ord n id s = some (res, s') ∧ Fit data root rank s' ∧
      SamePlaces s.hier.heap s'.hier.heap
  | 0, id, s, hf, hn, h0 => by omega
  | n + 1, id, s, hf, hn, _ => by
    rw [HReader.loadPageHierarchy]
    simp only
    split
    · exact ⟨_, _, rfl, hf, SamePlaces.refl _⟩
    · next p hp =>
      split
      · exact ⟨_, _, rfl, hf, SamePlaces.refl _⟩
      · have he : Fit data root rank (HReader.ensureLoaded id p s).2 ∧
            SamePlaces s.hier.heap (HReader.ensureLoaded id p s).2.hier.heap := by
          unfold HReader.ensureLoaded
          split
          · exact ⟨hf, SamePlaces.refl _⟩
          · obtain ⟨h1, h2, h3, _⟩ := readPage_inv hr hf.1 hf.2 id
            exact ⟨⟨h1, h2⟩, h3⟩
        rw [Run.bind_apply, Run.ofAct_apply]
        cases hx : HReader.ensureLoaded id p s with
        | mk res s1 =>
          rw [hx] at he
          obtain ⟨hf1, hk1⟩ := he
          cases res with
          | throw e => exact ⟨_, _, rfl, hf1, hk1⟩
          | ub => exact ⟨_, _, rfl, hf1, hk1⟩
          | ok u =>
            simp only
            rw [Run.bind_ok (Run.gets_apply _ _)]
            obtain ⟨q, hq, hqp⟩ := hk1 id p hp
            have hq' : s1.hier.heap[id]? = some q := hq
            simp only [hq']
            have hlt := hn p hp
            obtain ⟨res, s2, g1, g2, g3⟩ := collect_fit (data := data) (root := root) (rank := rank)
              (f := HReader.loadPageHierarchy ord n)
              (fun heap j => ∃ x : RPage, heap[j]? = some x ∧ rank x.place < n)
              (fun a b hk j ⟨x, hx, hl⟩ => by
                obtain ⟨x', h1, h2⟩ := hk j x hx
                exact ⟨x', h1, by rw [h2]; exact hl⟩)
              (fun j s hs ⟨x, hx, hl⟩ => load_fit hr ord n j s hs
                (fun p hp => by rw [hx] at hp; cases hp; exact hl) (by omega))
              (ord.subs q.subs) s1 hf1 (fun j hj => by
                obtain ⟨x, hx, hl⟩ := hf1.2.subs id q hq' j ((ord.subs_perm q.subs).mem_iff.1 hj)
                exact ⟨x, hx, by rw [hqp] at hl; omega⟩)
            rw [Run.bind_apply, g1]
            cases res with
            | throw e => exact ⟨_, s2, rfl, g2, hk1.trans g3⟩
            | ub => exact ⟨_, s2, rfl, g2, hk1.trans g3⟩
            | ok l => exact ⟨_, s2, rfl, g2, hk1.trans g3⟩

/-! ### Calls of a reader -/

/-- The call ends and keeps the reader in order. -/
def Stops {α : Type} (data : Bytes) (root : Place) (rank : Place → Nat) (x : Nat → Run Reader α) (r : Reader) : Prop :=
  ∃ res r', Run.Ends x r (res, r') ∧ Fit data root rank r'.h

variable {α β : Type}

theorem Stops.bind {x : Nat → Run Reader α} {f : Nat → α → Run Reader β} {r : Reader}
    (h : Stops data root rank x r)
    (hf : ∀ a r', Fit data root rank r'.h → Stops data root rank (fun n => f n a) r') :
    Stops data root rank (fun n => x n >>= f n) r := by
  obtain ⟨res, r1, ⟨n, h1⟩, h2⟩ := h
  cases res with
  | throw e => exact ⟨.throw e, r1, ⟨n, fun k hk => Run.bind_throw (h1 k hk)⟩, h2⟩
  | ub => exact ⟨.ub, r1, ⟨n, fun k hk => Run.bind_ub (h1 k hk)⟩, h2⟩
  | ok a =>
    obtain ⟨res, r2, ⟨m, g1⟩, g2⟩ := hf a r1 h2
    refine ⟨res, r2, ⟨max n m, fun k hk => ?_⟩, g2⟩
    show (x k >>= f k) r = _
    rw [Run.bind_ok (h1 k (by omega))]
    exact g1 k (by omega)

theorem StreamOnly.stops {x : Run Reader α} (hx : StreamOnly x) {r : Reader} (hi : Fit data root rank r.h) :
    Stops data root rank (fun _ => x) r := by
  obtain ⟨res, s, h1, h2⟩ := hx r
  exact ⟨res, r.withStr s, ⟨0, fun _ _ => h1⟩, h2.trans hi.1, hi.2⟩

theorem Stops.void {x : Nat → Run Reader α} {r : Reader} (h : Stops data root rank x r) :
    Stops data root rank (fun n => (x n).void) r :=
  h.bind fun _ _ hi => (StreamOnly.pure ()).stops hi

theorem onHier_stops {x : Nat → Run HReader α} {r : Reader}
    (h : ∃ res s', Run.Ends x r.h (res, s') ∧ Fit data root rank s') :
    Stops data root rank (fun n => Reader.onHier (x n)) r := by
  obtain ⟨res, s', ⟨n, h1⟩, h2⟩ := h
  refine ⟨res, { r with h := s' }, ⟨n, fun m hm => ?_⟩, h2⟩
  show (x m r.h).map _ = _
  rw [h1 m hm]
  rfl

variable (hr : Ranked data root rank)
include hr

theorem findNode_ends' {s : HReader} (hi : Fit data root rank s) (key : VoxelKey) :
    ∃ res s', Run.Ends (fun n => HReader.findNode n key) s (res, s') ∧ Fit data root rank s' := by
  obtain ⟨res, s', h1, h2⟩ := findNode_fit hr key _ s hi (Nat.lt_succ_self _)
  exact ⟨res, s', Run.ends_of (HReader.findNode_succ key) h1, h2⟩

theorem children_ends' {s : HReader} (hi : Fit data root rank s) (ord : ROrder) (key : VoxelKey) :
    ∃ res s', Run.Ends (fun n => HReader.getAllChildrenOfPage ord n key) s (res, s') ∧ Fit data root rank s' := by
  by_cases hv : key.isValid = false
  · refine ⟨.ok [], s, ⟨0, fun m _ => ?_⟩, hi⟩
    show HReader.getAllChildrenOfPage ord m key s = _
    unfold HReader.getAllChildrenOfPage
    rw [if_pos hv]
    rfl
  · have : (fun n => HReader.getAllChildrenOfPage ord n key) = fun n => HReader.findNode n key >>= fun node =>
        HReader.childrenFrom ord n key node := by
      funext n
      unfold HReader.getAllChildrenOfPage
      rw [if_neg hv]
    rw [this]
    obtain ⟨res, s1, ⟨n, h1⟩, h2⟩ := findNode_ends' hr hi key
    cases res with
    | throw e => exact ⟨.throw e, s1, ⟨n, fun m hm => Run.bind_throw (h1 m hm)⟩, h2⟩
    | ub => exact ⟨.ub, s1, ⟨n, fun m hm => Run.bind_ub (h1 m hm)⟩, h2⟩
    | ok node =>
      cases hs : AList.get key s1.hier.seen with
      | none =>
        refine ⟨.ok (if node.isValid then [node] else []), s1, ⟨n, fun m hm => (Run.bind_ok (h1 m hm)).trans ?_⟩, h2⟩
        unfold HReader.childrenFrom
        rw [hs]
      | some id =>
        obtain ⟨res, s2, g1, g2, _⟩ := load_fit hr ord
          ((s1.hier.heap[id]?.map fun p => rank p.place).getD 0 + 1) id s1 h2
          (fun p hp => by rw [hp]; simp) (by omega)
        obtain ⟨k, hk⟩ := Run.ends_of (fun n => HReader.load_succ ord n id) g1
        refine ⟨res, s2, ⟨max n k, fun m hm => (Run.bind_ok (h1 m (by omega))).trans ?_⟩, g2⟩
        unfold HReader.childrenFrom
        rw [hs]
        exact hk m (by omega)

variable {r : Reader} (hi : Fit data root rank r.h)
include hi

theorem findNode_stops (key : VoxelKey) : Stops data root rank (fun n => Reader.findNode n key) r :=
  onHier_stops (findNode_ends' hr hi key)

theorem children_stops (ord : ROrder) (key : VoxelKey) :
    Stops data root rank (fun n => Reader.getAllChildrenOfPage ord n key) r :=
  onHier_stops (children_ends' hr hi ord key)

theorem allNodes_stops (ord : ROrder) : Stops data root rank (fun n => Reader.getAllNodes ord n) r :=
  onHier_stops (children_ends' hr hi ord VoxelKey.root)

theorem pageList_stops (ord : ROrder) : Stops data root rank (fun n => Reader.getPageList ord n) r := by
  refine onHier_stops ?_
  obtain ⟨res, s1, ⟨n, h1⟩, h2⟩ := children_ends' hr hi ord VoxelKey.root
  cases res with
  | throw e => exact ⟨.throw e, s1, ⟨n, fun m hm => Run.bind_throw (h1 m hm)⟩, h2⟩
  | ub => exact ⟨.ub, s1, ⟨n, fun m hm => Run.bind_ub (h1 m hm)⟩, h2⟩
  | ok l => exact ⟨.ok _, s1, ⟨n, fun m hm => (Run.bind_ok (h1 m hm)).trans rfl⟩, h2⟩

theorem depth_stops (ord : ROrder) (res : Dbl) :
    Stops data root rank (fun n => Reader.getDepthAtResolution ord n res) r :=
  (allNodes_stops hr hi ord).bind fun _ _ hi' => (StreamOnly.gets _).stops hi'

theorem filter_stops (ord : ROrder) (res : Dbl) (keep : LasHeader → Int → Node → Bool) :
    Stops data root rank (fun n => Reader.filterNodes ord n res keep) r :=
  (depth_stops hr hi ord res).bind fun _ _ hi1 => (allNodes_stops hr hi1 ord).bind fun _ _ hi2 =>
    (StreamOnly.gets _).stops hi2

theorem pointDataAt_stops (L : Lazperf) (key : VoxelKey) :
    Stops data root rank (fun n => Reader.getPointDataAt L n key) r := by
  by_cases hv : key.isValid = false
  · have : (fun n => Reader.getPointDataAt L n key) = fun _ => (Pure.pure [] : Run Reader Bytes) := by
      funext n; unfold Reader.getPointDataAt; rw [if_pos hv]
    rw [this]
    exact (StreamOnly.pure _).stops hi
  · have : (fun n => Reader.getPointDataAt L n key) = fun n => Reader.findNode n key >>= fun node =>
        if node.isValid = false then Pure.pure [] else Run.ofAct (Reader.getPointData L node) := by
      funext n; unfold Reader.getPointDataAt; rw [if_neg hv]
    rw [this]
    refine (findNode_stops hr hi key).bind fun node r' hi' => ?_
    split
    · exact (StreamOnly.pure _).stops hi'
    · exact (getPointData_streamOnly L node).stops hi'

theorem compressedAt_stops (key : VoxelKey) :
    Stops data root rank (fun n => Reader.getPointDataCompressedAt n key) r := by
  by_cases hv : key.isValid = false
  · have : (fun n => Reader.getPointDataCompressedAt n key) = fun _ => (Pure.pure [] : Run Reader Bytes) := by
      funext n; unfold Reader.getPointDataCompressedAt; rw [if_pos hv]
    rw [this]
    exact (StreamOnly.pure _).stops hi
  · have : (fun n => Reader.getPointDataCompressedAt n key) = fun n => Reader.findNode n key >>= fun node =>
        if node.isValid = false then Pure.pure [] else Run.ofAct (Reader.getPointDataCompressed node) := by
      funext n; unfold Reader.getPointDataCompressedAt; rw [if_neg hv]
    rw [this]
    refine (findNode_stops hr hi key).bind fun node r' hi' => ?_
    split
    · exact (StreamOnly.pure _).stops hi'
    · exact (getCompressed_streamOnly node).stops hi'

theorem pointsAt_stops (L : Lazperf) (key : VoxelKey) :
    Stops data root rank (fun n => Reader.getPointsAt L n key) r := by
  refine (pointDataAt_stops hr hi L key).bind fun d r' hi' => ?_
  refine StreamOnly.stops ((StreamOnly.gets _).bind fun h => ?_) hi'
  split <;> exact StreamOnly.lift _

theorem query_stops (L : Lazperf) (q : Query) : Stops data root rank (fun n => q.run L n) r := by
  cases q with
  | findNode key => exact (findNode_stops hr hi key).void
  | children ord key => exact (children_stops hr hi ord key).void
  | allNodes ord => exact (allNodes_stops hr hi ord).void
  | pageList ord => exact (pageList_stops hr hi ord).void
  | pointData n => exact ((getPointData_streamOnly L n).stops hi).void
  | pointDataAt key => exact (pointDataAt_stops hr hi L key).void
  | compressed n => exact ((getCompressed_streamOnly n).stops hi).void
  | compressedAt key => exact (compressedAt_stops hr hi key).void
  | points n => exact ((getPoints_streamOnly L n).stops hi).void
  | pointsAt key => exact (pointsAt_stops hr hi L key).void
  | allPoints ord res =>
    refine Stops.void ((depth_stops hr hi ord res).bind fun d r1 hi1 => ?_)
    refine (allNodes_stops hr hi1 ord).bind fun l r2 hi2 => ?_
    refine (StreamOnly.collect (fun n => ?_) l).stops hi2
    split
    · exact getPoints_streamOnly L n
    · exact StreamOnly.pure _
  | depthAtResolution ord res => exact (depth_stops hr hi ord res).void
  | maxDepth ord => exact (depth_stops hr hi ord _).void
  | nodesAt ord res => exact (filter_stops hr hi ord res _).void
  | nodesUpTo ord res => exact (filter_stops hr hi ord res _).void
  | nodesWithin ord b res => exact (filter_stops hr hi ord res _).void
  | nodesIntersect ord b res => exact (filter_stops hr hi ord res _).void
  | pointsWithin ord b res =>
    refine Stops.void ((depth_stops hr hi ord res).bind fun d r1 hi1 => ?_)
    refine (allNodes_stops hr hi1 ord).bind fun l r2 hi2 => ?_
    exact (StreamOnly.collect (fun n => boxPoints_streamOnly L b d n) l).stops hi2
  | validate ord verbose =>
    refine Stops.void ((allNodes_stops hr hi ord).bind fun l r2 hi2 => ?_)
    exact (validate_streamOnly L verbose l).stops hi2

end

end Copc
