import Verif.Lemmas.Entry
/-!
# C06, C07: hierarchy entries and pages
-/
namespace Copc
open Entry

/-- **C06.** `Pack` emits exactly 32 bytes laid out as in the COPC specification: key d, x, y, z
(int32), offset (uint64), byte size (int32), point count (int32), all little-endian. -/
theorem C06_layout (e : Entry) (h : e.InRange) :
    e.pack.length = 32 ∧
    unLeI 4 (e.pack.take 4) = e.key.d ∧ unLeI 4 ((e.pack.drop 4).take 4) = e.key.x ∧
    unLeI 4 ((e.pack.drop 8).take 4) = e.key.y ∧ unLeI 4 ((e.pack.drop 12).take 4) = e.key.z ∧
    unLe ((e.pack.drop 16).take 8) = e.offset ∧ unLeI 4 ((e.pack.drop 24).take 4) = e.byteSize ∧
    unLeI 4 ((e.pack.drop 28).take 4) = e.pointCount := by
  obtain ⟨⟨rd, rx, ry, rz⟩, ro, rb, rc⟩ := h
  have ho : e.offset < 256 ^ 8 := Nat.lt_of_lt_of_eq ro (by decide)
  refine ⟨by simp, ?_, ?_, ?_, ?_, ?_, ?_, ?_⟩ <;>
    simp [pack, List.drop_append, List.take_append, unLeI4_leI, rd, rx, ry, rz, rb, rc,
      List.drop_of_length_le, List.take_of_length_le, unLe_leN_lt ho]

/-- **C06.** Round trip: unpacking at the place where an entry was packed, whatever is before and
after, returns that entry, and leaves the stream right behind it. -/
theorem C06_roundtrip (e : Entry) (h : e.InRange) (pre rest : Bytes) :
    Entry.unpack ⟨pre ++ (e.pack ++ rest), pre.length, false⟩ =
      (.ok e, ⟨pre ++ (e.pack ++ rest), pre.length + 32, false⟩) :=
  unpack_pack h pre rest

/-- **C06.** Distinct entries have distinct encodings. -/
theorem C06_injective (a b : Entry) (ha : a.InRange) (hb : b.InRange) (h : a.pack = b.pack) :
    a = b := by
  have h1 := unpack_pack ha [] []
  have h2 := unpack_pack hb [] []
  rw [h] at h1
  rw [h1] at h2
  simpa using h2

/-- **C06.** Every 32 bytes are the encoding of some entry. -/
theorem C06_surjective (bs : Bytes) (h : bs.length = 32) : ∃ e : Entry, e.InRange ∧ e.pack = bs :=
  exists_pack h

example : Entry.InRange ⟨⟨3, 5, 2, 7⟩, 2 ^ 40 + 17, 1234, -1⟩ := by decide

/-- **C06/C07.** A page of valid entries reads back as that list, with the stream still good. -/
theorem C07_complete_page (es : List Entry) (h : ∀ e ∈ es, e.InRange ∧ e.isValid = true)
    (pre rest : Bytes) (hl : pre.length < 2 ^ 63) (size : Int) (hs : size / 32 = es.length)
    (h0 : 0 ≤ size) (p0 : Nat) :
    readPage ⟨pre ++ (es.flatMap pack ++ rest), p0, false⟩ true pre.length size =
      (.ok es, ⟨pre ++ (es.flatMap pack ++ rest), pre.length + 32 * es.length, false⟩) := by
  simp only [readPage, IStream.seekg, hl, if_true]
  rw [if_neg (by simp), Int.tdiv_eq_ediv_of_nonneg h0, hs, if_neg (by simp)]
  exact readEntries_pack h pre rest

/-- The loop on a truncated file. -/
theorem readEntries_truncated (n : Nat) (hn : 0 < n) (s : IStream) (hf : s.fail = false)
    (hl : s.data.length < s.pos + 32 * n) :
    ((readEntries n s).1 = .throw .invalidEntry) ∨ ((readEntries n s).1 = .ub ∧
      ∃ i < n, s.pos + 32 * i + 16 ≤ s.data.length ∧ s.data.length < s.pos + 32 * i + 32) := by
  induction n generalizing s with
  | zero => omega
  | succ n ih =>
    by_cases h32 : s.pos + 32 ≤ s.data.length
    · obtain ⟨e, _, _, he⟩ := unpackValid_full hf h32
      simp only [readEntries, he]
      by_cases hv : e.isValid = true
      · simp only [hv, if_true]
        have hn' : 0 < n := by
          rcases Nat.eq_zero_or_pos n with h | h
          · subst h; omega
          · exact h
        rcases ih hn' ⟨s.data, s.pos + 32, false⟩ rfl (by simp only; omega) with h | ⟨h, i, hi, h1, h2⟩
        · left
          cases hr : readEntries n ⟨s.data, s.pos + 32, false⟩ with
          | mk r s' => rw [hr] at h; simp only at h; subst h; rfl
        · right
          refine ⟨?_, i + 1, by omega, by simp only at h1; omega, by simp only at h2; omega⟩
          cases hr : readEntries n ⟨s.data, s.pos + 32, false⟩ with
          | mk r s' => rw [hr] at h; simp only at h; subst h; rfl
      · simp only [hv]
        exact .inl rfl
    · have h := unpackValid_short hf (by omega)
      simp only [readEntries]
      rcases h.1 with h1 | ⟨h1, h2⟩
      · left
        cases hr : unpackValid s with
        | mk r s' => rw [hr] at h1; simp only at h1; subst h1; rfl
      · right
        refine ⟨?_, 0, by omega, by omega, by omega⟩
        cases hr : unpackValid s with
        | mk r s' => rw [hr] at h1; simp only at h1; subst h1; rfl

/-- **C07.** If the file ends inside a hierarchy page, `ReadPage` does not return entries: it throws
"Entry is invalid", or the cut is inside the last 16 bytes of some entry of the page (whose members
are then indeterminate) and the behaviour is undefined. -/
theorem C07_truncated_page (data : Bytes) (p0 offset : Nat) (size : Int) (h0 : 0 ≤ size)
    (hne : 32 ≤ size) (ho : offset < 2 ^ 63)
    (hcut : (data.length : Int) < offset + 32 * (size / 32)) :
    (readPage ⟨data, p0, false⟩ true offset size).1 = .throw .invalidEntry ∨
    ((readPage ⟨data, p0, false⟩ true offset size).1 = .ub ∧
      ∃ i : Nat, (i : Int) < size / 32 ∧ offset + 32 * i + 16 ≤ data.length ∧
        data.length < offset + 32 * i + 32) := by
  simp only [readPage, IStream.seekg, ho, if_true]
  rw [if_neg (by simp), Int.tdiv_eq_ediv_of_nonneg h0, if_neg (by simp)]
  rcases readEntries_truncated (size / 32).toNat (by omega) ⟨data, offset, false⟩ rfl
    (by simp only; omega) with h | ⟨h, i, hi, h1, h2⟩
  · exact .inl h
  · exact .inr ⟨h, i, by omega, h1, h2⟩

/-- **C07.** A page reference beyond any seekable position is not accepted either. -/
theorem C07_unseekable_page (data : Bytes) (p0 offset : Nat) (size : Int) (h0 : 0 ≤ size)
    (hne : 32 ≤ size) (ho : 2 ^ 63 ≤ offset) :
    (readPage ⟨data, p0, false⟩ true offset size).1 = .throw .invalidEntry := by
  simp only [readPage, IStream.seekg, show ¬ offset < 2 ^ 63 by omega, if_false]
  rw [if_neg (by simp), Int.tdiv_eq_ediv_of_nonneg h0, if_neg (by simp)]
  obtain ⟨n, hn⟩ : ∃ n, (size / 32).toNat = n + 1 := ⟨(size / 32).toNat - 1, by omega⟩
  rw [hn]
  simp [readEntries, unpackValid_of_fail]

/-- A cut in the first entry of a two-entry page: rejected. -/
example : (readPage ⟨(Entry.pack ⟨⟨1, 0, 0, 0⟩, 600, 5, 7⟩).take 15, 0, false⟩ true 0 64).1 =
    .throw .invalidEntry := by decide +kernel
/-- A cut in the last 16 bytes of the second entry: undefined behaviour. -/
example : (readPage ⟨Entry.pack ⟨⟨1, 0, 0, 0⟩, 600, 5, 7⟩ ++
      (Entry.pack ⟨⟨1, 0, 0, 1⟩, 600, 5, 7⟩).take 20, 0, false⟩ true 0 64).1 = .ub := by
  decide +kernel
/-- The complete page is accepted. -/
example : (readPage ⟨Entry.pack ⟨⟨1, 0, 0, 0⟩, 600, 5, 7⟩ ++ Entry.pack ⟨⟨1, 0, 0, 1⟩, 605, 5, 7⟩,
      9, false⟩ true 0 64).1 =
    .ok [⟨⟨1, 0, 0, 0⟩, 600, 5, 7⟩, ⟨⟨1, 0, 0, 1⟩, 605, 5, 7⟩] := by decide +kernel

end Copc
