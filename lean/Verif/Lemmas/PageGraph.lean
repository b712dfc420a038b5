import Verif.Spec.PageGraph
import Verif.Lemmas.ReaderFuel
import Verif.Lemmas.ReaderCalls
import Mathlib.Data.Set.Card
import Mathlib.Data.Set.Finite.Lattice
/-! # Reading the pages of a file without cycles of pages -/
namespace Copc
open Spec VoxelKey

theorem slice_add {data : Bytes} {a b n m : Nat} (h : b + m ≤ n) :
    slice (slice data a n) b m = slice data (a + b) m := by
  unfold slice
  rw [List.drop_take, List.drop_drop, List.take_take]
  congr 1
  omega

/-- What an entry that was read without an exception is. -/
theorem unpackValid_ok {s s' : IStream} {e : Entry} (h : Entry.unpackValid s = (.ok e, s')) :
    s.fail = false ∧ slice s.data s.pos 32 = e.pack ∧ e.InRange ∧ e.isValid = true ∧
      s' = ⟨s.data, s.pos + 32, false⟩ := by
  cases hf : s.fail with
  | true => rw [Entry.unpackValid_of_fail hf] at h; cases h
  | false =>
    by_cases hl : s.data.length < s.pos + 32
    · have := (Entry.unpackValid_short hf hl).1
      rw [h] at this
      simp at this
    · have hlen : (slice s.data s.pos 32).length = 32 := by
        unfold slice; simp; omega
      obtain ⟨e', hr, hp⟩ := Entry.exists_pack hlen
      have hs : s = ⟨s.data.take s.pos ++ (e'.pack ++ s.data.drop (s.pos + 32)), (s.data.take s.pos).length, false⟩ := by
        obtain ⟨data, pos, fail⟩ := s
        simp only at hf hl hp
        subst hf
        have h1 : data.take pos ++ (e'.pack ++ data.drop (pos + 32)) = data := by
          rw [hp]
          unfold slice
          rw [← List.drop_drop, List.take_append_drop, List.take_append_drop]
        rw [IStream.mk.injEq]
        refine ⟨h1.symm, ?_, rfl⟩
        show pos = (data.take pos).length
        rw [List.length_take]
        omega
      cases hv : e'.isValid with
      | false =>
        have := Entry.unpackValid_pack_invalid hr hv (s.data.take s.pos) (s.data.drop (s.pos + 32))
        rw [← hs, h] at this
        cases this
      | true =>
        have := Entry.unpackValid_pack hr hv (s.data.take s.pos) (s.data.drop (s.pos + 32))
        rw [← hs, h] at this
        cases this
        refine ⟨rfl, hp.symm, hr, hv, ?_⟩
        rw [IStream.mk.injEq]
        refine ⟨(congrArg IStream.data hs).symm, ?_, rfl⟩
        rw [List.length_take]
        omega

/-- What the entries of a page that was read without an exception are. -/
theorem readEntries_ok : ∀ {n : Nat} {s s' : IStream} {es : List Entry}, Entry.readEntries n s = (.ok es, s') →
    es.length = n ∧ ∀ i e, es[i]? = some e →
      s.fail = false ∧ slice s.data (s.pos + 32 * i) 32 = e.pack ∧ e.InRange ∧ e.isValid = true
  | 0, s, s', es, h => by
    rw [Entry.readEntries] at h
    cases h
    exact ⟨rfl, by simp⟩
  | n + 1, s, s', es, h => by
    rw [Entry.readEntries] at h
    split at h
    · next e s1 h1 =>
      split at h
      · next es1 s2 h2 =>
        cases h
        obtain ⟨a1, a2, a3, a4, rfl⟩ := unpackValid_ok h1
        obtain ⟨b1, b2⟩ := readEntries_ok h2
        refine ⟨by simp [b1], fun i e' hi => ?_⟩
        cases i with
        | zero => cases hi; exact ⟨a1, a2, a3, a4⟩
        | succ i =>
          obtain ⟨_, c2, c3, c4⟩ := b2 i e' hi
          refine ⟨a1, ?_, c3, c4⟩
          rw [← c2]
          congr 1
          simp only
          omega
      · next r hr => rw [h] at hr; exact absurd rfl (hr _ _)
    · cases h
    · cases h

theorem unpackValid_data (s : IStream) : (Entry.unpackValid s).2.data = s.data := by
  have hk : ∀ s, (Entry.readKeyField s).2.data = s.data := fun s => IStream.read_data s 4
  have hr : ∀ s k, (Entry.readRaw s k).2.data = s.data := fun s k => IStream.read_data s k
  show (Entry.unpackRaw s).2.data = s.data
  unfold Entry.unpackRaw
  simp only [hk, hr]

theorem readEntries_data : ∀ (n : Nat) (s : IStream), (Entry.readEntries n s).2.data = s.data
  | 0, _ => rfl
  | n + 1, s => by
    have h0 := unpackValid_data s
    rw [Entry.readEntries]
    split
    · next e s1 h1 =>
      rw [h1] at h0
      have := readEntries_data n s1
      split
      · next h2 => rw [h2] at this; exact this.trans h0
      · exact this.trans h0
    · next h1 => rw [h1] at h0; exact h0
    · next h1 => rw [h1] at h0; exact h0

/-- The place of a page object. -/
def RPage.place (p : RPage) : Place := (p.offset, p.byteSize)

/-- The places of the pages among some entries. -/
def subPlaces (es : List Entry) : List Place :=
  (es.filter (·.isPage)).map fun e => (e.offset, e.byteSize)

/-- The places a page refers to, as a reader would find them. -/
def refs (data : Bytes) (p : Place) : List Place :=
  match readPage ⟨data, 0, false⟩ true p.1 p.2 with
  | (.ok es, _) => subPlaces es
  | _ => []

theorem readPage_ok {s s' : IStream} {v : Bool} {o : Nat} {b : Int} {es : List Entry}
    (h : readPage s v o b = (.ok es, s')) : subPlaces es = refs s.data (o, b) ∧
    ∀ e ∈ es, e.isPage = true → PageRefers s.data (o, b) (e.offset, e.byteSize) := by
  unfold readPage at h
  split at h
  · cases h
  · next hv =>
    obtain ⟨h1, h2⟩ := readEntries_ok h
    have hgood : es ≠ [] → s.fail = false ∧ s.seekg o = ⟨s.data, o, false⟩ := by
      intro hne
      cases es with
      | nil => exact absurd rfl hne
      | cons e es =>
        obtain ⟨hf, _⟩ := h2 0 e rfl
        unfold IStream.seekg at hf ⊢
        split at hf
        · next hc => rw [hc] at hf; cases hf
        · next hc =>
          split at hf
          · next ho =>
            rw [if_neg hc, if_pos ho]
            exact ⟨hf, by rw [← hf]⟩
          · cases hf
    constructor
    · by_cases hne : es = []
      · subst hne
        unfold refs readPage
        rw [if_neg (by simp)]
        simp only
        rw [show (b.tdiv 32).toNat = 0 from h1.symm]
        rfl
      · obtain ⟨_, hs⟩ := hgood hne
        unfold refs readPage
        rw [if_neg (by simp)]
        simp only
        have : IStream.seekg ⟨s.data, 0, false⟩ o = s.seekg o := by
          rw [hs]
          have ho : o < 2 ^ 63 := by
            unfold IStream.seekg at hs
            split at hs
            · next hc => have := congrArg IStream.fail hs; rw [hc] at this; cases this
            · split at hs
              · assumption
              · have := congrArg IStream.fail hs; cases this
          unfold IStream.seekg
          rw [if_neg (by simp), if_pos ho]
        rw [this, h]
    · intro e he hp
      obtain ⟨i, hi⟩ := List.mem_iff_getElem?.1 he
      have hne : es ≠ [] := List.ne_nil_of_mem he
      obtain ⟨hf, hs⟩ := hgood hne
      obtain ⟨_, c2, c3, c4⟩ := h2 i e hi
      rw [hs] at c2
      have hil : i < es.length := (List.getElem?_eq_some_iff.1 hi).1
      unfold Entry.isPage at hp
      unfold Entry.isValid at c4
      simp only [Bool.and_eq_true, decide_eq_true_eq] at hp c4
      refine ⟨i, e, ?_, c2, c3, (isValid_iff e.key).1 c4.2, c4.1, hp.2, rfl⟩
      rw [h1] at hil
      show 32 * ((i : Int) + 1) ≤ b
      have : (i : Int) + 1 ≤ b.tdiv 32 := by omega
      have hb : 0 ≤ b := by
        by_contra hc
        have : b.tdiv 32 ≤ 0 := by
          have hb : b = -(-b) := by omega
          rw [hb, Int.neg_tdiv, Int.tdiv_eq_ediv_of_nonneg (by omega)]
          omega
        omega
      rw [Int.tdiv_eq_ediv_of_nonneg hb] at this
      omega

theorem readPage_data (s : IStream) (v : Bool) (o : Nat) (b : Int) : (readPage s v o b).2.data = s.data := by
  unfold readPage
  split
  · rfl
  · exact (readEntries_data _ _).trans (IStream.seekg_data s o)

theorem refs_refers {data : Bytes} {p q : Place} (h : q ∈ refs data p) : PageRefers data p q := by
  unfold refs at h
  split at h
  · next es _ he =>
    obtain ⟨_, h2⟩ := readPage_ok he
    obtain ⟨e, he, rfl⟩ := List.mem_map.1 h
    obtain ⟨he, hp⟩ := List.mem_filter.1 he
    exact h2 e he hp
  · cases h

/-! ### A rank -/

/-- Pages can be numbered so that a page has a larger number than those it refers to. -/
def Ranked (data : Bytes) (root : Place) (rank : Place → Nat) : Prop :=
  ∀ p q, PageAt data root p → PageRefers data p q → rank q < rank p

theorem finite_refs (data : Bytes) : {q : Place | ∃ p, PageRefers data p q}.Finite := by
  have : {q : Place | ∃ p, PageRefers data p q} ⊆
      ⋃ x ∈ Finset.range (data.length + 1), {q | ∃ e : Entry, e.InRange ∧ slice data x 32 = e.pack ∧
        q = (e.offset, e.byteSize)} := by
    rintro q ⟨p, i, e, _, h2, h3, _, _, _, rfl⟩
    simp only [Set.mem_iUnion, Finset.mem_range]
    refine ⟨p.1 + 32 * i, ?_, e, h3, h2, rfl⟩
    have := congrArg List.length h2
    rw [Entry.length_pack] at this
    unfold slice at this
    rw [List.length_take, List.length_drop] at this
    omega
  refine Set.Finite.subset (Set.Finite.biUnion (Finset.finite_toSet _) fun x _ => ?_) this
  refine Set.Subsingleton.finite ?_
  rintro _ ⟨e, h1, h2, rfl⟩ _ ⟨e', h3, h4, rfl⟩
  have : e = e' := by
    have a := Entry.unpack_pack h1 [] []
    have b := Entry.unpack_pack h3 [] []
    rw [← h2] at a
    rw [← h4] at b
    rw [a] at b
    cases b
    rfl
  rw [this]

theorem exists_rank {data : Bytes} {root : Place} (h : NoCycle data root) : ∃ rank, Ranked data root rank := by
  refine ⟨fun p => {q | Relation.TransGen (PageRefers data) p q}.ncard, fun p q hp hpq => ?_⟩
  refine Set.ncard_lt_ncard ⟨fun x hx => Relation.TransGen.head hpq hx, fun hsub => ?_⟩ ?_
  · exact h q (hp.sub hpq) (hsub (Relation.TransGen.single hpq))
  · refine (finite_refs data).subset fun x hx => ?_
    induction hx with
    | single h => exact ⟨_, h⟩
    | tail _ h _ => exact ⟨_, h⟩

/-! ### A weight -/

/-- Number of pages below a place, following entries `n` levels deep. -/
def weight (data : Bytes) : Nat → Place → Nat
  | 0, _ => 1
  | n + 1, p => 1 + ((refs data p).map (weight data n)).sum

theorem sum_le_sum {α : Type} {f g : α → Nat} : ∀ {l : List α}, (∀ x ∈ l, f x ≤ g x) → (l.map f).sum ≤ (l.map g).sum
  | [], _ => Nat.le_refl _
  | a :: l, h => by
    rw [List.map_cons, List.map_cons, List.sum_cons, List.sum_cons]
    exact Nat.add_le_add (h a (by simp)) (sum_le_sum fun x hx => h x (by simp [hx]))

theorem weight_succ (data : Bytes) : ∀ n p, weight data n p ≤ weight data (n + 1) p
  | 0, p => by rw [weight, weight]; omega
  | n + 1, p => by
    rw [weight, weight]
    exact Nat.add_le_add_left (sum_le_sum fun x _ => weight_succ data n x) 1

theorem weight_mono (data : Bytes) {n m : Nat} (h : n ≤ m) (p : Place) : weight data n p ≤ weight data m p := by
  induction h with
  | refl => exact Nat.le_refl _
  | step _ ih => exact ih.trans (weight_succ data _ p)

/-- Weight of a page. -/
def wt (data : Bytes) (rank : Place → Nat) (p : Place) : Nat := weight data (rank p) p

theorem wt_refs {data : Bytes} {root : Place} {rank : Place → Nat} (hr : Ranked data root rank) {p : Place}
    (hp : PageAt data root p) : 1 + ((refs data p).map (wt data rank)).sum ≤ wt data rank p := by
  unfold wt
  cases hk : rank p with
  | zero =>
    rw [weight]
    cases hl : refs data p with
    | nil => simp
    | cons q l =>
      have := hr p q hp (refs_refers (by rw [hl]; simp))
      omega
  | succ k =>
    rw [weight]
    refine Nat.add_le_add_left (sum_le_sum fun q hq => ?_) 1
    have := hr p q hp (refs_refers hq)
    exact weight_mono data (by omega) q

end Copc
