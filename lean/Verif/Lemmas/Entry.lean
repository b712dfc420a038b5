import Verif.Model.Entry
import Verif.Lemmas.Key
/-! Helper lemmas about streams, entries and pages. -/
namespace Copc

namespace IStream

theorem read_ok {s : IStream} {n : Nat} (hf : s.fail = false) (h : s.pos + n ≤ s.data.length) :
    s.read n = ((s.data.drop s.pos).take n, { s with pos := s.pos + n }) := by
  simp [read, hf, h]

theorem read_short {s : IStream} {n : Nat} (hf : s.fail = false) (h : ¬ s.pos + n ≤ s.data.length) :
    s.read n = (s.data.drop s.pos, { s with pos := s.data.length, fail := true }) := by
  simp [read, hf, h]

theorem read_fail {s : IStream} {n : Nat} (hf : s.fail = true) : s.read n = ([], s) := by
  simp [read, hf]

/-- Reading when the next bytes are known. -/
theorem read_append {data pre bs rest : Bytes} {n : Nat} (hd : data = pre ++ (bs ++ rest))
    (hn : bs.length = n) :
    (IStream.mk data pre.length false).read n = (bs, ⟨data, pre.length + n, false⟩) := by
  subst hd hn
  rw [read_ok rfl (by simp)]
  simp

end IStream

theorem length_drop_take {α} (l : List α) (a b : Nat) (h : a + b ≤ l.length) :
    ((l.drop a).take b).length = b := by simp; omega

/-- The bytes of the stream from `pos` on. -/
def IStream.rest (s : IStream) : Bytes := s.data.drop s.pos

theorem i32_pow : ((256 : Int) ^ 4) = 4294967296 := by decide

theorem unLeI4_leI {v : Int} (h : InI32 v) : unLeI 4 (leI 4 v) = v := by
  unfold InI32 at h
  exact unLeI_leI (by decide) (by rw [i32_pow]; omega) (by rw [i32_pow]; omega)

theorem signed4_unLe_leI {v : Int} (h : InI32 v) : signed 4 (unLe (leI 4 v)) = v := unLeI4_leI h

/-- Padding with `0xff` in the top byte gives a negative number. -/
theorem unLeI4_pad_neg {bs : Bytes} (h : bs.length < 4) :
    unLeI 4 (bs ++ List.replicate (4 - bs.length) 255) < 0 := by
  have key : ∀ l : Bytes, l.length = 4 → l[3]? = some 255 → unLeI 4 l < 0 := by
    intro l hl h3
    obtain ⟨a, b, c, d, rfl⟩ : ∃ a b c d, l = [a, b, c, d] := by
      match l, hl with
      | [a, b, c, d], _ => exact ⟨a, b, c, d, rfl⟩
    simp at h3
    subst h3
    simp only [unLeI, signed, unLe]
    have := a.toNat_lt; have := b.toNat_lt; have := c.toNat_lt
    simp
    omega
  apply key
  · simp; omega
  · rw [List.getElem?_append_right (by omega)]
    rw [List.getElem?_replicate]
    split <;> simp; omega

namespace Entry

@[simp] theorem length_pack (e : Entry) : e.pack.length = 32 := by simp [pack]

theorem readKeyField_ok {data pre rest : Bytes} {v : Int} (hv : InI32 v)
    (hd : data = pre ++ (leI 4 v ++ rest)) :
    readKeyField ⟨data, pre.length, false⟩ = (v, ⟨data, pre.length + 4, false⟩) := by
  simp only [readKeyField, IStream.read_append hd (length_leI 4 v)]
  simp [unLeI4_leI hv]

theorem readRaw_ok {data pre rest bs : Bytes} {k : Nat} (hk : bs.length = k)
    (hd : data = pre ++ (bs ++ rest)) :
    readRaw ⟨data, pre.length, false⟩ k = (some (unLe bs), ⟨data, pre.length + k, false⟩) := by
  simp [readRaw, IStream.read_append hd hk, hk]

theorem unpackRaw_pack {e : Entry} (h : e.InRange) (pre rest : Bytes) :
    unpackRaw ⟨pre ++ (e.pack ++ rest), pre.length, false⟩ =
      (⟨e.key, some e.offset, some (unLe (leI 4 e.byteSize)), some (unLe (leI 4 e.pointCount))⟩,
        ⟨pre ++ (e.pack ++ rest), pre.length + 32, false⟩) := by
  obtain ⟨⟨⟨d, x, y, z⟩, o, b, c⟩, hk⟩ : ∃ e' : Entry, e' = e := ⟨e, rfl⟩
  subst hk
  obtain ⟨⟨rd, rx, ry, rz⟩, ro, rb, rc⟩ := h
  simp only at rd rx ry rz ro rb rc
  unfold unpackRaw
  rw [readKeyField_ok rd (rest := leI 4 x ++ (leI 4 y ++ (leI 4 z ++ (leN 8 o ++ (leI 4 b ++ (leI 4 c ++ rest))))))
    (by simp [pack])]
  simp only
  rw [show pre.length + 4 = (pre ++ leI 4 d).length by simp,
    readKeyField_ok rx (rest := leI 4 y ++ (leI 4 z ++ (leN 8 o ++ (leI 4 b ++ (leI 4 c ++ rest)))))
    (by simp [pack])]
  simp only
  rw [show (pre ++ leI 4 d).length + 4 = (pre ++ leI 4 d ++ leI 4 x).length by simp,
    readKeyField_ok ry (rest := leI 4 z ++ (leN 8 o ++ (leI 4 b ++ (leI 4 c ++ rest))))
    (by simp [pack])]
  simp only
  rw [show (pre ++ leI 4 d ++ leI 4 x).length + 4 = (pre ++ leI 4 d ++ leI 4 x ++ leI 4 y).length by
      simp,
    readKeyField_ok rz (rest := leN 8 o ++ (leI 4 b ++ (leI 4 c ++ rest)))
    (by simp [pack])]
  simp only
  rw [show (pre ++ leI 4 d ++ leI 4 x ++ leI 4 y).length + 4 =
      (pre ++ leI 4 d ++ leI 4 x ++ leI 4 y ++ leI 4 z).length by simp,
    readRaw_ok (k := 8) (bs := leN 8 o) (rest := leI 4 b ++ (leI 4 c ++ rest)) (by simp)
    (by simp [pack])]
  simp only
  rw [show (pre ++ leI 4 d ++ leI 4 x ++ leI 4 y ++ leI 4 z).length + 8 =
      (pre ++ leI 4 d ++ leI 4 x ++ leI 4 y ++ leI 4 z ++ leN 8 o).length by simp,
    readRaw_ok (k := 4) (bs := leI 4 b) (rest := leI 4 c ++ rest) (by simp) (by simp [pack])]
  simp only
  rw [show (pre ++ leI 4 d ++ leI 4 x ++ leI 4 y ++ leI 4 z ++ leN 8 o).length + 4 =
      (pre ++ leI 4 d ++ leI 4 x ++ leI 4 y ++ leI 4 z ++ leN 8 o ++ leI 4 b).length by simp,
    readRaw_ok (k := 4) (bs := leI 4 c) (rest := rest) (by simp) (by simp [pack])]
  simp only [Prod.mk.injEq, Raw.mk.injEq, true_and, Option.some.injEq, IStream.mk.injEq, and_true]
  refine ⟨?_, by simp⟩
  rw [unLe_leN_lt]
  exact Nat.lt_of_lt_of_eq ro (by decide)

theorem unpack_pack {e : Entry} (h : e.InRange) (pre rest : Bytes) :
    unpack ⟨pre ++ (e.pack ++ rest), pre.length, false⟩ =
      (.ok e, ⟨pre ++ (e.pack ++ rest), pre.length + 32, false⟩) := by
  simp only [unpack, unpackRaw_pack h, signed4_unLe_leI h.2.2.1, signed4_unLe_leI h.2.2.2]

theorem unpackValid_pack {e : Entry} (h : e.InRange) (hv : e.isValid = true) (pre rest : Bytes) :
    unpackValid ⟨pre ++ (e.pack ++ rest), pre.length, false⟩ =
      (.ok e, ⟨pre ++ (e.pack ++ rest), pre.length + 32, false⟩) := by
  have hk : e.key.isValid = true := by simp [isValid] at hv; exact hv.2
  simp only [unpackValid, unpackRaw_pack h, signed4_unLe_leI h.2.2.1, signed4_unLe_leI h.2.2.2, hk]
  simp [hv]

theorem unpackValid_pack_invalid {e : Entry} (h : e.InRange) (hv : e.isValid = false)
    (pre rest : Bytes) :
    (unpackValid ⟨pre ++ (e.pack ++ rest), pre.length, false⟩).1 = .throw .invalidEntry := by
  simp only [unpackValid, unpackRaw_pack h, signed4_unLe_leI h.2.2.1, signed4_unLe_leI h.2.2.2]
  split <;> simp [hv]

theorem readEntries_pack {es : List Entry} (h : ∀ e ∈ es, e.InRange ∧ e.isValid = true)
    (pre rest : Bytes) :
    readEntries es.length ⟨pre ++ (es.flatMap pack ++ rest), pre.length, false⟩ =
      (.ok es, ⟨pre ++ (es.flatMap pack ++ rest), pre.length + 32 * es.length, false⟩) := by
  induction es generalizing pre with
  | nil => simp [readEntries]
  | cons e es ih =>
    have he := h e (by simp)
    have h' := ih (fun x hx => h x (by simp [hx])) (pre ++ e.pack)
    simp only [List.flatMap_cons, List.append_assoc, List.length_cons, readEntries,
      unpackValid_pack he.1 he.2]
    rw [List.append_assoc] at h'
    rw [show (pre ++ e.pack).length = pre.length + 32 by simp] at h'
    rw [h']
    simp only [Prod.mk.injEq, true_and, IStream.mk.injEq, and_true]
    omega

/-- Any stream content of 32 bytes is the packing of some entry. -/
theorem exists_pack {bs : Bytes} (h : bs.length = 32) : ∃ e : Entry, e.InRange ∧ e.pack = bs := by
  have r : ∀ l : Bytes, l.length = 4 → InI32 (unLeI 4 l) := by
    intro l hl
    have := signed_range (k := 4) (n := unLe l) (by have := unLe_lt l; rwa [hl] at this)
    rw [i32_pow] at this
    unfold InI32 unLeI; omega
  have p4 : ∀ l : Bytes, l.length = 4 → leI 4 (unLeI 4 l) = l := by
    intro l hl; have := leI_unLeI l; rwa [hl] at this
  have p8 : ∀ l : Bytes, l.length = 8 → leN 8 (unLe l) = l := by
    intro l hl; have := leN_unLe l; rwa [hl] at this
  let f (i n : Nat) := (bs.drop i).take n
  have hf : ∀ i n, i + n ≤ 32 → (f i n).length = n := by
    intro i n hin; simp [f]; omega
  refine ⟨⟨⟨unLeI 4 (f 0 4), unLeI 4 (f 4 4), unLeI 4 (f 8 4), unLeI 4 (f 12 4)⟩,
    unLe (f 16 8), unLeI 4 (f 24 4), unLeI 4 (f 28 4)⟩, ⟨⟨?_, ?_, ?_, ?_⟩, ?_, ?_, ?_⟩, ?_⟩
  · exact r _ (hf _ _ (by decide))
  · exact r _ (hf _ _ (by decide))
  · exact r _ (hf _ _ (by decide))
  · exact r _ (hf _ _ (by decide))
  · have := unLe_lt (f 16 8); rw [hf 16 8 (by decide)] at this
    exact Nat.lt_of_lt_of_eq this (by decide)
  · exact r _ (hf _ _ (by decide))
  · exact r _ (hf _ _ (by decide))
  · simp only [pack]
    rw [p4 _ (hf 0 4 (by decide)), p4 _ (hf 4 4 (by decide)), p4 _ (hf 8 4 (by decide)),
      p4 _ (hf 12 4 (by decide)), p8 _ (hf 16 8 (by decide)), p4 _ (hf 24 4 (by decide)),
      p4 _ (hf 28 4 (by decide))]
    have step : ∀ i n m, f i n ++ f (i + n) m = f i (n + m) := by
      intro i n m
      simp only [f]
      rw [List.take_add, List.drop_drop]
    rw [show f 4 4 = f (0 + 4) 4 from rfl, step, show f 8 4 = f (0 + (4 + 4)) 4 from rfl, step,
      show f 12 4 = f (0 + (4 + 4 + 4)) 4 from rfl, step,
      show f 16 8 = f (0 + (4 + 4 + 4 + 4)) 8 from rfl, step,
      show f 24 4 = f (0 + (4 + 4 + 4 + 4 + 8)) 4 from rfl, step,
      show f 28 4 = f (0 + (4 + 4 + 4 + 4 + 8 + 4)) 4 from rfl, step]
    simp only [f, List.drop_zero]
    exact List.take_of_length_le (by omega)

end Entry

namespace IStream

theorem read_data (s : IStream) (n : Nat) : (s.read n).2.data = s.data := by
  unfold read; split
  · rfl
  · split <;> rfl

theorem seekg_data (s : IStream) (p : Nat) : (s.seekg p).data = s.data := by
  unfold seekg; split
  · rfl
  · split <;> rfl

end IStream

namespace Entry

theorem readKeyField_of_fail {s : IStream} (hf : s.fail = true) :
    (readKeyField s).1 < 0 ∧ (readKeyField s).2 = s := by
  unfold readKeyField
  rw [IStream.read_fail hf]
  exact ⟨by simp only; decide, rfl⟩

theorem readRaw_of_fail {s : IStream} {k : Nat} (hf : s.fail = true) (hk : k ≠ 0) :
    readRaw s k = (none, s) := by
  unfold readRaw
  rw [IStream.read_fail hf]
  simp [Ne.symm hk]

/-- On a failed stream every entry is invalid: the caller throws. -/
theorem unpackValid_of_fail {s : IStream} (hf : s.fail = true) :
    unpackValid s = (.throw .invalidEntry, s) := by
  obtain ⟨h1, h2⟩ := readKeyField_of_fail hf
  unfold unpackValid unpackRaw
  simp only [h2, readRaw_of_fail hf (by decide : 8 ≠ 0), readRaw_of_fail hf (by decide : 4 ≠ 0)]
  have : VoxelKey.isValid ⟨(readKeyField s).1, (readKeyField s).1, (readKeyField s).1,
    (readKeyField s).1⟩ = false := by
    simp only [VoxelKey.isValid, decide_eq_false_iff_not]; omega
  simp [this]

/-- A short tail never yields a valid entry. -/
theorem unpackValid_short {s : IStream} (hf : s.fail = false) (hl : s.data.length < s.pos + 32) :
    ((unpackValid s).1 = .throw .invalidEntry ∨
      ((unpackValid s).1 = .ub ∧ s.pos + 16 ≤ s.data.length)) ∧
    (unpackValid s).2.fail = true ∧ (unpackValid s).2.data = s.data := by
  obtain ⟨data, pos, fail⟩ := s
  simp only at hf hl
  subst hf
  have neg : ∀ d x y z : Int, (d < 0 ∨ x < 0 ∨ y < 0 ∨ z < 0) →
      VoxelKey.isValid ⟨d, x, y, z⟩ = false := by
    intro d x y z h; simp only [VoxelKey.isValid, decide_eq_false_iff_not]; omega
  -- one key field at a time
  have kf : ∀ p, p + 4 ≤ data.length →
      ∃ v, readKeyField ⟨data, p, false⟩ = (v, ⟨data, p + 4, false⟩) := by
    intro p hp
    unfold readKeyField
    rw [IStream.read_ok rfl hp]
    exact ⟨_, rfl⟩
  have ks : ∀ p, ¬ p + 4 ≤ data.length →
      ∃ v, v < 0 ∧ readKeyField ⟨data, p, false⟩ = (v, ⟨data, data.length, true⟩) := by
    intro p hp
    unfold readKeyField
    rw [IStream.read_short rfl hp]
    exact ⟨_, unLeI4_pad_neg (by simp; omega), rfl⟩
  have kt : ∃ v, v < 0 ∧
      readKeyField ⟨data, data.length, true⟩ = (v, ⟨data, data.length, true⟩) := by
    have h := readKeyField_of_fail (s := ⟨data, data.length, true⟩) rfl
    exact ⟨_, h.1, Prod.ext rfl h.2⟩
  obtain ⟨vt, hvt, et⟩ := kt
  have rt : ∀ k, k ≠ 0 → readRaw ⟨data, data.length, true⟩ k = (none, ⟨data, data.length, true⟩) :=
    fun k hk => readRaw_of_fail rfl hk
  have rs : ∀ p k, k ≠ 0 → ¬ p + k ≤ data.length →
      readRaw ⟨data, p, false⟩ k = (none, ⟨data, data.length, true⟩) := by
    intro p k hk hp
    unfold readRaw
    rw [IStream.read_short rfl hp]
    have : ¬ data.length - p = k := by omega
    simp [this]
  have rf : ∀ p k, p + k ≤ data.length →
      ∃ v, readRaw ⟨data, p, false⟩ k = (some v, ⟨data, p + k, false⟩) := by
    intro p k hp
    unfold readRaw
    rw [IStream.read_ok rfl hp]
    have : min k (data.length - p) = k := by omega
    simp [this]
  unfold unpackValid unpackRaw
  by_cases h0 : pos + 4 ≤ data.length
  · obtain ⟨v0, e0⟩ := kf _ h0
    simp only [e0]
    by_cases h1 : pos + 4 + 4 ≤ data.length
    · obtain ⟨v1, e1⟩ := kf _ h1
      simp only [e1]
      by_cases h2 : pos + 4 + 4 + 4 ≤ data.length
      · obtain ⟨v2, e2⟩ := kf _ h2
        simp only [e2]
        by_cases h3 : pos + 4 + 4 + 4 + 4 ≤ data.length
        · obtain ⟨v3, e3⟩ := kf _ h3
          simp only [e3]
          by_cases h4 : pos + 4 + 4 + 4 + 4 + 8 ≤ data.length
          · obtain ⟨v4, e4⟩ := rf _ _ h4
            simp only [e4]
            by_cases h5 : pos + 4 + 4 + 4 + 4 + 8 + 4 ≤ data.length
            · obtain ⟨v5, e5⟩ := rf _ _ h5
              simp only [e5]
              rw [rs _ _ (by decide) (by omega)]
              simp only
              refine ⟨?_, by simp⟩
              split
              · exact .inl rfl
              · exact .inr ⟨rfl, by omega⟩
            · rw [rs _ _ (by decide) h5]
              simp only [rt _ (by decide : 4 ≠ 0)]
              refine ⟨?_, by simp⟩
              split
              · exact .inl rfl
              · exact .inr ⟨rfl, by omega⟩
          · rw [rs _ _ (by decide) h4]
            simp only [rt _ (by decide : 4 ≠ 0)]
            refine ⟨?_, by simp⟩
            split
            · exact .inl rfl
            · exact .inr ⟨rfl, by omega⟩
        · obtain ⟨v3, hv, e3⟩ := ks _ h3
          simp only [e3, rt _ (by decide : 8 ≠ 0), rt _ (by decide : 4 ≠ 0),
            neg v0 v1 v2 v3 (by omega)]
          simp
      · obtain ⟨v2, hv, e2⟩ := ks _ h2
        simp only [e2, et, rt _ (by decide : 8 ≠ 0), rt _ (by decide : 4 ≠ 0),
          neg v0 v1 v2 vt (by omega)]
        simp
    · obtain ⟨v1, hv, e1⟩ := ks _ h1
      simp only [e1, et, rt _ (by decide : 8 ≠ 0), rt _ (by decide : 4 ≠ 0),
        neg v0 v1 vt vt (by omega)]
      simp
  · obtain ⟨v0, hv, e0⟩ := ks _ h0
    simp only [e0, et, rt _ (by decide : 8 ≠ 0), rt _ (by decide : 4 ≠ 0),
      neg v0 vt vt vt (by omega)]
    simp

/-- A complete 32-byte entry at the current position is read as some entry, the stream moves on. -/
theorem unpackValid_full {s : IStream} (hf : s.fail = false) (hl : s.pos + 32 ≤ s.data.length) :
    ∃ e : Entry, e.InRange ∧ e.pack = (s.data.drop s.pos).take 32 ∧
      unpackValid s = (if e.isValid then .ok e else .throw .invalidEntry,
        ⟨s.data, s.pos + 32, false⟩) := by
  obtain ⟨data, pos, fail⟩ := s
  simp only at hf hl
  subst hf
  obtain ⟨e, he, hp⟩ := exists_pack (bs := (data.drop pos).take 32) (by simp; omega)
  refine ⟨e, he, hp, ?_⟩
  have hd : data = data.take pos ++ (e.pack ++ data.drop (pos + 32)) := by
    rw [hp, ← List.drop_drop, List.take_append_drop, List.take_append_drop]
  have hpos : pos = (data.take pos).length := by simp; omega
  have hraw := unpackRaw_pack he (data.take pos) (data.drop (pos + 32))
  rw [← hd, ← hpos] at hraw
  simp only [unpackValid, hraw, signed4_unLe_leI he.2.2.1, signed4_unLe_leI he.2.2.2]
  congr 1
  by_cases hk : e.key.isValid = true
  · simp [hk]
  · have : e.isValid = false := by simp [isValid]; intro; simpa using hk
    simp only [Bool.not_eq_true] at hk
    simp [hk, this]

end Entry
end Copc
