import Verif.Lemmas.ReaderCalls
/-! # Files that are refused for want of an info VLR -/
namespace Copc
namespace Refuse

/-- Byte `i` of a file, zero past its end. -/
def byteAt (d : Bytes) (i : Nat) : UInt8 := (d[i]?).getD 0

theorem unLe_two (a b : UInt8) : unLe [a, b] = a.toNat + 256 * b.toNat := by
  simp [unLe]

theorem getD_pad (bs : Bytes) (n i : Nat) (h : i < n) : ((padTo n bs)[i]?).getD 0 = (bs[i]?).getD 0 := by
  unfold padTo
  rw [List.getElem?_append]
  by_cases h1 : i < (bs.take n).length
  · rw [if_pos h1]
    rw [List.getElem?_take, if_pos h]
  · rw [if_neg h1]
    have h2 : bs.length ≤ i := by simp at h1; omega
    rw [List.getElem?_eq_none h2, List.getElem?_replicate]
    split <;> rfl

/-- The record id of a VLR header that starts at `p`. -/
def idAt (d : Bytes) (p : Nat) : Nat := (byteAt d (p + 18)).toNat + 256 * (byteAt d (p + 19)).toNat

theorem unLe_take2 (bs : Bytes) : unLe (bs.take 2) = ((bs[0]?).getD 0).toNat + 256 * ((bs[1]?).getD 0).toNat := by
  match bs with
  | [] => rfl
  | [a] => simp [unLe]
  | a :: b :: l => simp [unLe]

theorem decode_id (bs : Bytes) : (VlrHeader.decode bs).recordId =
    UInt16.ofNat (((bs[18]?).getD 0).toNat + 256 * ((bs[19]?).getD 0).toNat) := by
  have h : (VlrHeader.decode bs).recordId = UInt16.ofNat (unLe (((bs.drop 2).drop 16).take 2)) := rfl
  rw [h, unLe_take2]
  simp [List.getElem?_drop]

theorem decodeE_id (bs : Bytes) : (VlrHeader.decodeE bs).recordId =
    UInt16.ofNat (((bs[18]?).getD 0).toNat + 256 * ((bs[19]?).getD 0).toNat) := by
  have h : (VlrHeader.decodeE bs).recordId = UInt16.ofNat (unLe (((bs.drop 2).drop 16).take 2)) := rfl
  rw [h, unLe_take2]
  simp [List.getElem?_drop]

/-- What an entry of the VLR table is: found at the end of its tether, or read from its place. -/
def Ok (d : Bytes) (x : Nat × VlrHeader) : Prop := x.1 = 2 ^ 64 - 1 ∨ x.2.recordId = UInt16.ofNat (idAt d x.1)

theorem insertVlr_mem {p : Nat} {h : VlrHeader} : ∀ {l : List (Nat × VlrHeader)} {x}, 
    x ∈ BaseReader.insertVlr p h l → x = (p, h) ∨ x ∈ l
  | [], x, hx => by simp only [BaseReader.insertVlr, List.mem_singleton] at hx; exact .inl hx
  | (q, g) :: l, x, hx => by
    unfold BaseReader.insertVlr at hx
    split at hx
    · rcases List.mem_cons.1 hx with e | e
      · exact .inl e
      · exact .inr e
    · split at hx
      · exact .inr hx
      · rcases List.mem_cons.1 hx with e | e
        · exact .inr (by rw [e]; exact List.mem_cons_self ..)
        · rcases insertVlr_mem e with e | e
          · exact .inl e
          · exact .inr (List.mem_cons_of_mem _ e)

theorem read_data (s : IStream) (n : Nat) : (s.readFilled n).2.data = s.data := by
  have h : (s.readFilled n).2 = (s.read n).2 := rfl
  rw [h]
  unfold IStream.read
  split
  · rfl
  · split <;> rfl

theorem skip_data (s : IStream) (n : UInt64) : (s.skip64 n).data = s.data := by
  unfold IStream.skip64 IStream.seekg
  split <;> (try split) <;> (try split) <;> rfl

theorem read_bytes (s : IStream) (n i : Nat) (hi : i < n) (hf : s.fail = false) :
    (((s.readFilled n).1)[i]?).getD 0 = byteAt s.data (s.pos + i) := by
  unfold IStream.readFilled
  dsimp only
  rw [getD_pad _ _ _ hi]
  unfold IStream.read byteAt
  rw [hf]
  simp only [Bool.false_eq_true, if_false]
  split
  · rw [List.getElem?_take, if_pos hi, List.getElem?_drop]
  · rw [List.getElem?_drop]

theorem entry_ok (s : IStream) (h : VlrHeader) (n : Nat) (hn : 20 ≤ n)
    (hh : h.recordId = UInt16.ofNat (((((s.readFilled n).1)[18]?).getD 0).toNat +
      256 * ((((s.readFilled n).1)[19]?).getD 0).toNat)) : Ok s.data (s.tellg, h) := by
  cases hf : s.fail with
  | true => left; unfold IStream.tellg; rw [hf]; rfl
  | false =>
    right
    have ht : s.tellg = s.pos := by unfold IStream.tellg; rw [hf]; rfl
    rw [read_bytes s n 18 (by omega) hf, read_bytes s n 19 (by omega) hf] at hh
    rw [hh, ht]
    rfl

theorem vlrLoop_ok : ∀ (n : Nat) (s : IStream) (out : List (Nat × VlrHeader)), (∀ x ∈ out, Ok s.data x) →
    (∀ x ∈ (BaseReader.vlrLoop n s out).1, Ok s.data x) ∧ (BaseReader.vlrLoop n s out).2.data = s.data
  | 0, s, out, h => ⟨h, rfl⟩
  | n + 1, s, out, h => by
    unfold BaseReader.vlrLoop
    dsimp only
    have hd := (skip_data (s.readFilled 54).2 (VlrHeader.decode (s.readFilled 54).1).dataLength).trans (read_data s 54)
    have := vlrLoop_ok n ((s.readFilled 54).2.skip64 (VlrHeader.decode (s.readFilled 54).1).dataLength)
      (BaseReader.insertVlr s.tellg (VlrHeader.decode (s.readFilled 54).1) out) (by
        rw [hd]
        intro x hx
        rcases insertVlr_mem hx with rfl | hx
        · exact entry_ok s _ 54 (by omega) (decode_id _)
        · exact h x hx)
    rw [hd] at this
    exact this

theorem evlrLoop_ok : ∀ (n : Nat) (s : IStream) (out : List (Nat × VlrHeader)), (∀ x ∈ out, Ok s.data x) →
    (∀ x ∈ (BaseReader.evlrLoop n s out).1, Ok s.data x) ∧ (BaseReader.evlrLoop n s out).2.data = s.data
  | 0, s, out, h => ⟨h, rfl⟩
  | n + 1, s, out, h => by
    unfold BaseReader.evlrLoop
    dsimp only
    have hd := (skip_data (s.readFilled 60).2 (VlrHeader.decodeE (s.readFilled 60).1).dataLength).trans (read_data s 60)
    have := evlrLoop_ok n ((s.readFilled 60).2.skip64 (VlrHeader.decodeE (s.readFilled 60).1).dataLength)
      (BaseReader.insertVlr s.tellg (VlrHeader.decodeE (s.readFilled 60).1) out) (by
        rw [hd]
        intro x hx
        rcases insertVlr_mem hx with rfl | hx
        · exact entry_ok s _ 60 (by omega) (decodeE_id _)
        · exact h x hx)
    rw [hd] at this
    exact this

theorem seek_data (s : IStream) (p : Nat) : (s.seekg p).data = s.data := by
  unfold IStream.seekg; split <;> (try split) <;> rfl

theorem readVlrHeaders_ok {h : Header14} {s : IStream} {t : List (Nat × VlrHeader)}
    (ht : (BaseReader.readVlrHeaders h s).1 = .ok t) : ∀ x ∈ t, Ok s.data x := by
  unfold BaseReader.readVlrHeaders at ht
  dsimp only at ht
  have h1 := vlrLoop_ok h.vlrCount.toNat (s.seekg h.headerSize.toNat) [] (by simp)
  rw [seek_data] at h1
  split at ht
  · cases ht
  · have h2 := evlrLoop_ok h.evlrCount.toNat
      (((BaseReader.vlrLoop h.vlrCount.toNat (s.seekg h.headerSize.toNat) []).2).seekg h.evlrOffset.toNat)
      (BaseReader.vlrLoop h.vlrCount.toNat (s.seekg h.headerSize.toNat) []).1 (by
        rw [seek_data, h1.2]; exact h1.1)
    rw [seek_data, h1.2] at h2
    injection ht with ht
    rw [← ht]
    exact h2.1

theorem fetch_mem {t : List (Nat × VlrHeader)} {u : Bytes} {i : UInt16} (h : BaseReader.fetchVlr t u i ≠ 0) :
    ∃ x ∈ t, x.1 = BaseReader.fetchVlr t u i ∧ x.2.userId = u ∧ x.2.recordId = i := by
  unfold BaseReader.fetchVlr at h ⊢
  cases hx : t.find? (fun v => decide (v.2.userId = u) && decide (v.2.recordId = i)) with
  | none => rw [hx] at h; exact absurd rfl h
  | some x =>
    have h1 := List.find?_some hx
    simp only [Bool.and_eq_true, decide_eq_true_eq] at h1
    exact ⟨x, List.mem_of_find?_eq_some hx, rfl, h1.1, h1.2⟩

theorem idAt_lt (d : Bytes) (p : Nat) : idAt d p < 65536 := by
  unfold idAt
  have := (byteAt d (p + 18)).toNat_lt
  have := (byteAt d (p + 19)).toNat_lt
  omega

/-- A file that opens has the record id 1 where the first VLR has its record id. -/
theorem opens_id {d : Bytes} {r : Reader} (h : Reader.init ⟨d, 0, false⟩ = .ok r) : byteAt d 393 = 1 := by
  unfold Reader.init at h
  obtain ⟨b, hb, h⟩ := Res.bind_ok_iff.1 h
  unfold BaseReader.init at hb
  simp only [Bool.false_eq_true, if_false] at hb
  obtain ⟨h14, _, hb⟩ := Res.bind_ok_iff.1 hb
  obtain ⟨hd, _, hb⟩ := Res.bind_ok_iff.1 hb
  obtain ⟨t, ht, hb⟩ := Res.bind_ok_iff.1 hb
  obtain ⟨wkt, _, hb⟩ := Res.bind_ok_iff.1 hb
  obtain ⟨eb, _, hb⟩ := Res.bind_ok_iff.1 hb
  have hok := readVlrHeaders_ok ht
  injection hb with hb
  subst hb
  unfold Reader.initCopc at h
  dsimp only at h
  split at h
  · cases h
  · obtain ⟨info, hi, _⟩ := Res.bind_ok_iff.1 h
    unfold Reader.readInfo at hi
    dsimp only at hi
    split at hi
    · cases hi
    · rename_i h0
      split at hi
      · cases hi
      · rename_i h375
        have h375 := Decidable.not_not.1 h375
        obtain ⟨x, hx, e1, _, e3⟩ := fetch_mem h0
        rw [h375] at e1
        rcases hok x hx with e | e
        · omega
        · rw [e1, e3] at e
          have e' := congrArg UInt16.toNat e
          have hl := idAt_lt d 375
          rw [UInt16.toNat_ofNat_of_lt' (by simpa using hl)] at e'
          unfold idAt at e'
          have h1 : (1 : UInt16).toNat = 1 := rfl
          rw [h1] at e'
          dsimp only at e'
          have : (byteAt d (375 + 18)).toNat = 1 := by omega
          exact UInt8.toNat_inj.1 this

end Refuse
end Copc
