import Verif.Spec.Conforming
import Verif.Lemmas.Format
/-! # Opening a file of another program -/
namespace Copc
open Spec

section
variable {data : Bytes}

/-! ### Fields of a part of the file -/

theorem drop_text {j k p : Nat} : (Format.text data k p).drop j = Format.text data (k - j) (p + j) := by
  unfold Format.text
  rw [List.drop_take, List.drop_drop]

theorem text_text {j k p q : Nat} (h : q + j ≤ k) : Format.text (Format.text data k p) j q = Format.text data j (p + q) := by
  show ((Format.text data k p).drop q).take j = _
  rw [drop_text]
  unfold Format.text
  rw [List.take_take, Nat.min_eq_left (by omega)]

theorem num_text {j k p q : Nat} (h : q + j ≤ k) : Format.num (Format.text data k p) j q = Format.num data j (p + q) := by
  have := text_text (data := data) (p := p) h
  unfold Format.text at this
  unfold Format.num getN Format.text
  rw [this]

theorem dbl_text {k p q : Nat} (h : q + 8 ≤ k) : Format.dbl (Format.text data k p) q = Format.dbl data (p + q) := by
  unfold Format.dbl; rw [num_text h]

theorem length_text {k p : Nat} (h : p + k ≤ data.length) : (Format.text data k p).length = k := by
  unfold Format.text; simp; omega

theorem takeWhile_all {f : UInt8 → Bool} {b : UInt8} : ∀ {l : Bytes}, b ∈ l.takeWhile f → f b = true
  | [], h => by cases h
  | a :: l, h => by
    rw [List.takeWhile_cons] at h
    split at h
    · rcases List.mem_cons.1 h with rfl | h
      · assumption
      · exact takeWhile_all h
    · cases h

theorem trimNul_holds (s : Bytes) : s = trimNul s ++ List.replicate (s.length - (trimNul s).length) 0 := by
  unfold trimNul
  have h := List.takeWhile_append_dropWhile (p := fun b : UInt8 => b == 0) (l := s.reverse)
  have h2 : ∀ l : Bytes, l.takeWhile (fun b : UInt8 => b == 0) = List.replicate (l.takeWhile (fun b : UInt8 => b == 0)).length 0 := by
    intro l
    apply List.eq_replicate_of_mem
    intro b hb
    have := takeWhile_all hb
    simpa using this
  have h3 := congrArg List.reverse h
  rw [List.reverse_append, List.reverse_reverse] at h3
  have hl := congrArg List.length h3
  rw [List.length_append, List.length_reverse (as := List.takeWhile _ _)] at hl
  rw [h2 s.reverse, List.reverse_replicate] at h3
  rw [show s.length - (List.dropWhile (fun b : UInt8 => b == 0) s.reverse).reverse.length = (s.reverse.takeWhile (fun b : UInt8 => b == 0)).length by omega]
  exact h3.symm

theorem trimNul_clean {k p : Nat} {s : Bytes} (h : Format.Holds data k p s) (hs : 0 ∉ s) (hl : s.length ≤ k) :
    trimNul (Format.text data k p) = s := by
  unfold Format.Holds at h
  rw [h]
  have := trimNul_padTo (k := k) (s := s) ?_ hl
  · rw [padTo, List.take_of_length_le hl] at this
    exact this
  · intro b hb h0
    exact hs (h0 ▸ hb)

/-! ### Headers of VLRs -/

/-- Size of a header. -/
def hsz (b : Bool) : Nat := if b then 60 else 54
/-- Size of the payload length. -/
def lsz (b : Bool) : Nat := if b then 8 else 2

/-- The header at `p` as the reader gets it. -/
def headAt (data : Bytes) (b : Bool) (p : Nat) : VlrHeader :=
  if b then VlrHeader.decodeE (Format.text data 60 p) else VlrHeader.decode (Format.text data 54 p)

theorem headAt_facts {b : Bool} {p : Nat} (h : p + hsz b ≤ data.length) :
    (headAt data b p).userId = trimNul (Format.text data 16 (p + 2)) ∧
    (headAt data b p).recordId.toNat = Format.num data 2 (p + 18) ∧
    (headAt data b p).dataLength.toNat = Format.num data (lsz b) (p + 20) := by
  cases b with
  | false =>
    simp only [hsz, lsz, Bool.false_eq_true, if_false, headAt] at h ⊢
    have hl := length_text h
    have t1 := text_text (data := data) (j := 16) (k := 54) (p := p) (q := 2) (by omega)
    have t2 := num_text (data := data) (j := 2) (k := 54) (p := p) (q := 18) (by omega)
    have t3 := num_text (data := data) (j := 2) (k := 54) (p := p) (q := 20) (by omega)
    rw [← t1, ← t2, ← t3]
    generalize Format.text data 54 p = B at hl
    have := num_lt B 2 20
    simp only [VlrHeader.decode, getRaw, getU16, getU, List.drop_drop, num_eq, toNat16]
    refine ⟨?_, trivial, ?_⟩
    · rw [raw_eq (p := 2) (by omega)]
    · exact UInt64.toNat_ofNat_of_lt' (lt_trans this (by decide))
  | true =>
    simp only [hsz, lsz, if_true, headAt] at h ⊢
    have hl := length_text h
    have t1 := text_text (data := data) (j := 16) (k := 60) (p := p) (q := 2) (by omega)
    have t2 := num_text (data := data) (j := 2) (k := 60) (p := p) (q := 18) (by omega)
    have t3 := num_text (data := data) (j := 8) (k := 60) (p := p) (q := 20) (by omega)
    rw [← t1, ← t2, ← t3]
    generalize Format.text data 60 p = B at hl
    simp only [VlrHeader.decodeE, getRaw, getU16, getU64, getU, List.drop_drop, num_eq, toNat16, toNat64]
    refine ⟨?_, trivial, trivial⟩
    rw [raw_eq (p := 2) (by omega)]

/-- The table of the records from `p`. -/
def tableOf (data : Bytes) (b : Bool) : Nat → Nat → List (Nat × VlrHeader)
  | 0, _ => []
  | n + 1, p => (p, headAt data b p) :: tableOf data b n (p + hsz b + Format.num data (lsz b) (p + 20))

theorem readFilled_text {p k : Nat} (h : p + k ≤ data.length) :
    (IStream.mk data p false).readFilled k = (Format.text data k p, ⟨data, p + k, false⟩) := by
  unfold IStream.readFilled IStream.read
  rw [if_neg (by simp), if_pos h]
  simp only
  exact Prod.ext (raw_eq h) rfl

theorem skip64_good_c {p : Nat} {n : UInt64} (h : p + n.toNat ≤ data.length) (hl : data.length < 2 ^ 63) :
    (IStream.mk data p false).skip64 n = ⟨data, p + n.toNat, false⟩ := by
  unfold IStream.skip64
  rw [if_pos (by omega), RecFile.seekg_good (by simp only; omega)]

theorem vlrLoop_table (hlen : data.length < 2 ^ 63) : ∀ (n p : Nat) (out : List (Nat × VlrHeader)),
    (∀ r ∈ Format.records data 54 2 n p, r.offset + r.size ≤ data.length) → (∀ x ∈ out, x.1 < p) →
    ∃ q, BaseReader.vlrLoop n ⟨data, p, false⟩ out = (out ++ tableOf data false n p, ⟨data, q, false⟩)
  | 0, p, out, _, _ => ⟨p, by simp [BaseReader.vlrLoop, tableOf]⟩
  | n + 1, p, out, hr, ho => by
    have h0 := hr _ (List.mem_cons_self)
    simp only at h0
    have hin : p + 54 ≤ data.length := by omega
    obtain ⟨_, _, hd⟩ := headAt_facts (data := data) (b := false) (p := p) hin
    have hh : VlrHeader.decode (Format.text data 54 p) = headAt data false p := rfl
    rw [BaseReader.vlrLoop, readFilled_text hin]
    simp only [hh]
    have ht : IStream.tellg ⟨data, p, false⟩ = p := rfl
    rw [ht, insertVlr_last _ _ _ ho, skip64_good_c (by rw [hd]; simp only [lsz, Bool.false_eq_true, if_false]; omega) hlen, hd]
    obtain ⟨q, hq⟩ := vlrLoop_table hlen n (p + 54 + Format.num data (lsz false) (p + 20)) (out ++ [(p, headAt data false p)])
      (fun r h => hr r (List.mem_cons_of_mem _ h)) (by
        intro x hx
        rcases List.mem_append.1 hx with hx | hx
        · have := ho x hx; omega
        · rw [List.mem_singleton] at hx; subst hx; simp only; omega)
    refine ⟨q, hq.trans ?_⟩
    rw [tableOf, List.append_assoc]
    rfl

theorem evlrLoop_table (hlen : data.length < 2 ^ 63) : ∀ (n p : Nat) (out : List (Nat × VlrHeader)),
    (∀ r ∈ Format.records data 60 8 n p, r.offset + r.size ≤ data.length) → (∀ x ∈ out, x.1 < p) →
    ∃ q, BaseReader.evlrLoop n ⟨data, p, false⟩ out = (out ++ tableOf data true n p, ⟨data, q, false⟩)
  | 0, p, out, _, _ => ⟨p, by simp [BaseReader.evlrLoop, tableOf]⟩
  | n + 1, p, out, hr, ho => by
    have h0 := hr _ (List.mem_cons_self)
    simp only at h0
    have hin : p + 60 ≤ data.length := by omega
    obtain ⟨_, _, hd⟩ := headAt_facts (data := data) (b := true) (p := p) hin
    have hh : VlrHeader.decodeE (Format.text data 60 p) = headAt data true p := rfl
    rw [BaseReader.evlrLoop, readFilled_text hin]
    simp only [hh]
    have ht : IStream.tellg ⟨data, p, false⟩ = p := rfl
    rw [ht, insertVlr_last _ _ _ ho, skip64_good_c (by rw [hd]; simp only [lsz, if_true]; omega) hlen, hd]
    obtain ⟨q, hq⟩ := evlrLoop_table hlen n (p + 60 + Format.num data (lsz true) (p + 20)) (out ++ [(p, headAt data true p)])
      (fun r h => hr r (List.mem_cons_of_mem _ h)) (by
        intro x hx
        rcases List.mem_append.1 hx with hx | hx
        · have := ho x hx; omega
        · rw [List.mem_singleton] at hx; subst hx; simp only; omega)
    refine ⟨q, hq.trans ?_⟩
    rw [tableOf, List.append_assoc]
    rfl

/-- An entry of the table belongs to a record of the file. -/
def Belongs (b : Bool) (x : Nat × VlrHeader) (r : Format.Record) : Prop :=
  x.1 + hsz b = r.offset ∧ x.2.userId = r.user ∧ x.2.recordId.toNat = r.id ∧ x.2.dataLength.toNat = r.size

theorem tableOf_belongs (b : Bool) : ∀ (n p : Nat),
    (∀ r ∈ Format.records data (hsz b) (lsz b) n p, r.offset + r.size ≤ data.length) →
    (∀ r ∈ Format.records data (hsz b) (lsz b) n p, Format.Holds data 16 (r.offset - (hsz b - 2)) r.user) →
    List.Forall₂ (Belongs b) (tableOf data b n p) (Format.records data (hsz b) (lsz b) n p)
  | 0, _, _, _ => .nil
  | n + 1, p, hr, hu => by
    rw [tableOf, Format.records]
    have h0 := hr _ (List.mem_cons_self)
    have h1 := hu _ (List.mem_cons_self)
    simp only at h0 h1
    have hb : 2 ≤ hsz b := by cases b <;> decide
    rw [show p + hsz b - (hsz b - 2) = p + 2 by omega] at h1
    obtain ⟨f1, f2, f3⟩ := headAt_facts (data := data) (b := b) (p := p) (by omega)
    refine .cons ⟨rfl, ?_, f2, f3⟩ (tableOf_belongs b n _ (fun r h => hr r (List.mem_cons_of_mem _ h))
      (fun r h => hu r (List.mem_cons_of_mem _ h)))
    rw [f1]
    refine trimNul_clean h1 ?_ ?_
    · intro h
      have := takeWhile_all h
      simp at this
    · refine le_trans (List.takeWhile_sublist _).length_le ?_
      unfold Format.text; simp

theorem tableOf_range (b : Bool) : ∀ (n p : Nat), (∀ x ∈ tableOf data b n p, p ≤ x.1 ) ∧ (AList.keys (tableOf data b n p)).Nodup
  | 0, _ => ⟨by simp [tableOf], by simp [tableOf, AList.keys]⟩
  | n + 1, p => by
    obtain ⟨i1, i2⟩ := tableOf_range b n (p + hsz b + Format.num data (lsz b) (p + 20))
    have hb : 0 < hsz b := by cases b <;> decide
    refine ⟨?_, ?_⟩
    · intro x hx
      rcases List.mem_cons.1 hx with rfl | hx
      · exact Nat.le_refl _
      · have := i1 x hx; omega
    · rw [tableOf, AList.keys_cons, List.nodup_cons]
      refine ⟨?_, i2⟩
      intro h
      obtain ⟨x, hx, he⟩ := List.mem_map.1 h
      have := i1 x hx
      omega

theorem find_belongs {α β : Type} {R : α → β → Prop} {f : α → Bool} {g : β → Bool} {l : List α} {m : List β}
    (h : List.Forall₂ R l m) (hfg : ∀ x r, R x r → f x = g r) :
    (l.find? f = none ∧ m.find? g = none) ∨ ∃ x r, l.find? f = some x ∧ m.find? g = some r ∧ R x r ∧ x ∈ l ∧ r ∈ m := by
  induction h with
  | nil => exact .inl ⟨rfl, rfl⟩
  | cons hR _ ih =>
    rename_i a b l1 l2 _
    rw [List.find?_cons, List.find?_cons, hfg _ _ hR]
    cases g b with
    | true => exact .inr ⟨a, b, rfl, rfl, hR, List.mem_cons_self, List.mem_cons_self⟩
    | false =>
      rcases ih with h | ⟨x, r, h1, h2, h3, h4, h5⟩
      · exact .inl h
      · exact .inr ⟨x, r, h1, h2, h3, List.mem_cons_of_mem _ h4, List.mem_cons_of_mem _ h5⟩

end
end Copc
