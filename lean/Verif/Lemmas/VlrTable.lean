import Verif.Lemmas.ReaderCalls
import Verif.Lemmas.WriterHead
/-! # Reading the table of VLRs of a file -/
namespace Copc
open Spec

/-- A VLR or extended VLR of a file. -/
structure VRec where
  evlr : Bool
  user : Bytes
  id : UInt16
  desc : Bytes
  payload : Bytes

namespace VRec

def header (v : VRec) : VlrHeader := ⟨0, v.user, v.id, UInt64.ofNat v.payload.length, v.desc, v.evlr⟩
def hsize (v : VRec) : Nat := if v.evlr then 60 else 54
def hbytes (v : VRec) : Bytes := if v.evlr then v.header.encodeE else v.header.encode
def bytes (v : VRec) : Bytes := v.hbytes ++ v.payload
/-- The header as read back. -/
def head (v : VRec) : VlrHeader := if v.evlr then VlrHeader.decodeE v.hbytes else VlrHeader.decode v.hbytes

/-- The user id fits its field, and the payload its length field. -/
structure Fit (v : VRec) : Prop where
  noNul : NoNul v.user
  short : v.user.length ≤ 16
  small : v.payload.length < if v.evlr then 2 ^ 63 else 2 ^ 16

theorem length_hbytes (v : VRec) : v.hbytes.length = v.hsize := by
  unfold hbytes hsize
  split
  · simp [VlrHeader.encodeE]
  · simp [VlrHeader.encode]

theorem length_bytes (v : VRec) : v.bytes.length = v.hsize + v.payload.length := by
  simp [bytes, length_hbytes]

theorem head_facts {v : VRec} (h : v.Fit) :
    v.head.userId = v.user ∧ v.head.recordId = v.id ∧ v.head.dataLength.toNat = v.payload.length ∧
    v.head.evlr = v.evlr := by
  have ht := trimNul_padTo h.noNul h.short
  have hl := h.small
  cases he : v.evlr with
  | true =>
    rw [he] at hl
    simp only [if_true] at hl
    have e0 : v.hbytes = v.header.encodeE := by unfold hbytes; rw [he]; rfl
    have e1 : v.head = VlrHeader.decodeE v.header.encodeE := by unfold head; rw [he, e0]; rfl
    rw [e1]
    unfold header VlrHeader.encodeE VlrHeader.decodeE
    simp only [getU16_put, getRaw_padTo, getU64_put, ht, true_and, and_true]
    simp only [UInt64.toNat_ofNat']
    omega
  | false =>
    rw [he] at hl
    simp only [Bool.false_eq_true, if_false] at hl
    have e0 : v.hbytes = v.header.encode := by unfold hbytes; rw [he]; rfl
    have e1 : v.head = VlrHeader.decode v.header.encode := by unfold head; rw [he, e0]; rfl
    rw [e1]
    unfold header VlrHeader.encode VlrHeader.decode
    simp only [getU16_put, getRaw_padTo, ht, true_and, and_true]
    simp only [UInt64.toNat_ofNat', UInt16.toNat_ofNat']
    omega

end VRec

/-- Total size. -/
def vsize (l : List VRec) : Nat := (l.flatMap VRec.bytes).length

@[simp] theorem vsize_nil : vsize [] = 0 := rfl
theorem vsize_cons (v : VRec) (l : List VRec) : vsize (v :: l) = v.hsize + v.payload.length + vsize l := by
  simp only [vsize, List.flatMap_cons, List.length_append, VRec.length_bytes]
theorem vsize_append (l m : List VRec) : vsize (l ++ m) = vsize l + vsize m := by simp [vsize]

/-- The table of records that follow each other from position `p` on. -/
def places : Nat → List VRec → List (Nat × VlrHeader)
  | _, [] => []
  | p, v :: l => (p, v.head) :: places (p + (v.hsize + v.payload.length)) l

theorem hsize_pos (v : VRec) : 0 < v.hsize := by unfold VRec.hsize; split <;> omega

theorem insertVlr_last (p : Nat) (h : VlrHeader) : ∀ l : List (Nat × VlrHeader), (∀ x ∈ l, x.1 < p) →
    BaseReader.insertVlr p h l = l ++ [(p, h)]
  | [], _ => rfl
  | (q, g) :: l, hl => by
    have : q < p := hl (q, g) (by simp)
    rw [BaseReader.insertVlr, if_neg (by omega), if_neg (by omega),
      insertVlr_last p h l fun x hx => hl x (by simp [hx])]
    rfl

theorem readFilled_append {data pre bs rest : Bytes} {n : Nat} (hd : data = pre ++ (bs ++ rest))
    (hn : bs.length = n) :
    (IStream.mk data pre.length false).readFilled n = (bs, ⟨data, pre.length + n, false⟩) := by
  unfold IStream.readFilled
  rw [IStream.read_append hd hn]
  simp only [padTo_of_length hn]

theorem vlrLoop_places : ∀ (l : List VRec) (pre rest data : Bytes) (out : List (Nat × VlrHeader)),
    data = pre ++ (l.flatMap VRec.bytes ++ rest) → data.length < 2 ^ 63 →
    (∀ v ∈ l, v.evlr = false ∧ v.Fit) → (∀ x ∈ out, x.1 < pre.length) →
    BaseReader.vlrLoop l.length ⟨data, pre.length, false⟩ out =
      (out ++ places pre.length l, ⟨data, pre.length + vsize l, false⟩)
  | [], pre, rest, data, out, _, _, _, _ => by simp [BaseReader.vlrLoop, places]
  | v :: l, pre, rest, data, out, hd, hlen, hv, ho => by
    obtain ⟨he, hfit⟩ := hv v (by simp)
    obtain ⟨_, _, hdl, _⟩ := VRec.head_facts hfit
    have hsz : v.hsize = 54 := by unfold VRec.hsize; rw [he]; rfl
    have hhb : v.hbytes.length = 54 := by rw [VRec.length_hbytes, hsz]
    have hd' : data = pre ++ (v.hbytes ++ (v.payload ++ (l.flatMap VRec.bytes ++ rest))) := by
      rw [hd]; simp [VRec.bytes]
    have hhead : VlrHeader.decode v.hbytes = v.head := by unfold VRec.head; rw [he]; rfl
    have hps := hfit.small
    rw [he] at hps
    simp only [Bool.false_eq_true, if_false] at hps
    rw [List.length_cons, BaseReader.vlrLoop, readFilled_append hd' hhb]
    simp only [hhead]
    have htell : IStream.tellg ⟨data, pre.length, false⟩ = pre.length := rfl
    rw [htell, insertVlr_last _ _ _ ho]
    have hle : pre.length + 54 + v.payload.length ≤ data.length := by
      rw [hd']; simp [hhb]; omega
    have hskip : IStream.skip64 ⟨data, pre.length + 54, false⟩ v.head.dataLength =
        ⟨data, (pre ++ v.bytes).length, false⟩ := by
      unfold IStream.skip64
      rw [hdl, if_pos (by omega)]
      unfold IStream.seekg
      rw [if_neg (by simp), if_pos (by simp only; omega)]
      simp only [List.length_append, VRec.length_bytes, hsz]
      congr 1
      omega
    rw [hskip, vlrLoop_places l (pre ++ v.bytes) rest data _ (by rw [hd]; simp) hlen
      (fun w hw => hv w (by simp [hw])) (by
        intro x hx
        rcases List.mem_append.1 hx with hx | hx
        · have := ho x hx
          simp only [List.length_append]; omega
        · simp only [List.mem_singleton] at hx
          subst hx
          simp only [List.length_append, VRec.length_bytes, hsz]; omega)]
    rw [places, List.append_assoc, vsize_cons]
    simp only [List.length_append, VRec.length_bytes, hsz, List.singleton_append, Prod.mk.injEq, true_and]
    congr 1
    omega

theorem evlrLoop_places : ∀ (l : List VRec) (pre rest data : Bytes) (out : List (Nat × VlrHeader)),
    data = pre ++ (l.flatMap VRec.bytes ++ rest) → data.length < 2 ^ 63 →
    (∀ v ∈ l, v.evlr = true ∧ v.Fit) → (∀ x ∈ out, x.1 < pre.length) →
    BaseReader.evlrLoop l.length ⟨data, pre.length, false⟩ out =
      (out ++ places pre.length l, ⟨data, pre.length + vsize l, false⟩)
  | [], pre, rest, data, out, _, _, _, _ => by simp [BaseReader.evlrLoop, places]
  | v :: l, pre, rest, data, out, hd, hlen, hv, ho => by
    obtain ⟨he, hfit⟩ := hv v (by simp)
    obtain ⟨_, _, hdl, _⟩ := VRec.head_facts hfit
    have hsz : v.hsize = 60 := by unfold VRec.hsize; rw [he]; rfl
    have hhb : v.hbytes.length = 60 := by rw [VRec.length_hbytes, hsz]
    have hd' : data = pre ++ (v.hbytes ++ (v.payload ++ (l.flatMap VRec.bytes ++ rest))) := by
      rw [hd]; simp [VRec.bytes]
    have hhead : VlrHeader.decodeE v.hbytes = v.head := by unfold VRec.head; rw [he]; rfl
    have hps := hfit.small
    rw [he] at hps
    simp only [if_true] at hps
    rw [List.length_cons, BaseReader.evlrLoop, readFilled_append hd' hhb]
    simp only [hhead]
    have htell : IStream.tellg ⟨data, pre.length, false⟩ = pre.length := rfl
    rw [htell, insertVlr_last _ _ _ ho]
    have hle : pre.length + 60 + v.payload.length ≤ data.length := by
      rw [hd']; simp [hhb]; omega
    have hskip : IStream.skip64 ⟨data, pre.length + 60, false⟩ v.head.dataLength =
        ⟨data, (pre ++ v.bytes).length, false⟩ := by
      unfold IStream.skip64
      rw [hdl, if_pos (by omega)]
      unfold IStream.seekg
      rw [if_neg (by simp), if_pos (by simp only; omega)]
      simp only [List.length_append, VRec.length_bytes, hsz]
      congr 1
      omega
    rw [hskip, evlrLoop_places l (pre ++ v.bytes) rest data _ (by rw [hd]; simp) hlen
      (fun w hw => hv w (by simp [hw])) (by
        intro x hx
        rcases List.mem_append.1 hx with hx | hx
        · have := ho x hx
          simp only [List.length_append]; omega
        · simp only [List.mem_singleton] at hx
          subst hx
          simp only [List.length_append, VRec.length_bytes, hsz]; omega)]
    rw [places, List.append_assoc, vsize_cons]
    simp only [List.length_append, VRec.length_bytes, hsz, List.singleton_append, Prod.mk.injEq, true_and]
    congr 1
    omega

/-- All positions of a table lie in the bytes of the records. -/
theorem places_range : ∀ (l : List VRec) (p : Nat), ∀ x ∈ places p l, p ≤ x.1 ∧ x.1 < p + vsize l
  | [], _, x, hx => by cases hx
  | v :: l, p, x, hx => by
    rw [vsize_cons]
    have hp := hsize_pos v
    rw [places] at hx
    rcases List.mem_cons.1 hx with rfl | hx
    · exact ⟨Nat.le_refl p, by simp only; omega⟩
    · have := places_range l _ x hx
      omega

theorem places_nodup : ∀ (l : List VRec) (p : Nat), (AList.keys (places p l)).Nodup
  | [], _ => by simp [places, AList.keys]
  | v :: l, p => by
    have hp := hsize_pos v
    have ih := places_nodup l (p + (v.hsize + v.payload.length))
    unfold AList.keys at ih ⊢
    rw [places, List.map_cons, List.nodup_cons]
    refine ⟨?_, ih⟩
    intro hm
    obtain ⟨x, hx, hxp⟩ := List.mem_map.1 hm
    have := places_range l _ x hx
    simp only at hxp
    omega

theorem places_append : ∀ (l m : List VRec) (p : Nat), places p (l ++ m) = places p l ++ places (p + vsize l) m
  | [], m, p => by simp [places]
  | v :: l, m, p => by
    rw [List.cons_append, places, places, places_append l m, vsize_cons, List.cons_append]
    congr 3
    omega

/-- The record asked for. -/
def VRec.Is (v : VRec) (user : Bytes) (id : UInt16) : Prop := v.user = user ∧ v.id = id

instance (v : VRec) (user : Bytes) (id : UInt16) : Decidable (v.Is user id) := by
  unfold VRec.Is; infer_instance

theorem find_places_none {user : Bytes} {id : UInt16} : ∀ (l : List VRec) (p : Nat), (∀ v ∈ l, v.Fit) →
    (∀ v ∈ l, ¬v.Is user id) →
    (places p l).find? (fun v => decide (v.2.userId = user) && decide (v.2.recordId = id)) = none
  | [], _, _, _ => rfl
  | v :: l, p, hf, hn => by
    obtain ⟨h1, h2, _⟩ := VRec.head_facts (hf v (by simp))
    have := hn v (by simp)
    rw [places, List.find?_cons_of_neg]
    · exact find_places_none l _ (fun w hw => hf w (by simp [hw])) fun w hw => hn w (by simp [hw])
    · simp only [h1, h2, Bool.and_eq_true, decide_eq_true_eq]
      exact this

/-- `FetchVlr` on a table whose first matching record comes after `l`. -/
theorem fetch_places {user : Bytes} {id : UInt16} {l m : List VRec} {v : VRec} {p : Nat}
    {before after : List (Nat × VlrHeader)}
    (hb : before.find? (fun v => decide (v.2.userId = user) && decide (v.2.recordId = id)) = none)
    (hf : ∀ w ∈ l, w.Fit) (hv : v.Fit) (hl : ∀ w ∈ l, ¬w.Is user id) (hi : v.Is user id) :
    BaseReader.fetchVlr (before ++ (places p (l ++ v :: m) ++ after)) user id = p + vsize l := by
  obtain ⟨h1, h2, _⟩ := VRec.head_facts hv
  unfold BaseReader.fetchVlr
  rw [List.find?_append, hb, Option.none_or, places_append, List.append_assoc, List.find?_append,
    find_places_none l p hf hl, Option.none_or, places, List.cons_append, List.find?_cons_of_pos]
  simp only [h1, h2, hi.1, hi.2, decide_true, Bool.and_self]

theorem fetch_none {user : Bytes} {id : UInt16} {t : List (Nat × VlrHeader)}
    (h : t.find? (fun v => decide (v.2.userId = user) && decide (v.2.recordId = id)) = none) :
    BaseReader.fetchVlr t user id = 0 := by
  unfold BaseReader.fetchVlr
  rw [h]

/-- The length in the table. -/
theorem lengthAt_places {l m : List VRec} {v : VRec} {p : Nat} {before after : List (Nat × VlrHeader)}
    (hb : ∀ x ∈ before, x.1 < p) (hv : v.Fit) (hs : v.payload.length < 2 ^ 31) :
    BaseReader.lengthAt (before ++ (places p (l ++ v :: m) ++ after)) (p + vsize l) = v.payload.length := by
  have hget : AList.get (p + vsize l) (before ++ (places p (l ++ v :: m) ++ after)) = some v.head := by
    have hskip : ∀ (a b : List (Nat × VlrHeader)) (k : Nat), (∀ x ∈ a, x.1 ≠ k) → AList.get k (a ++ b) = AList.get k b := by
      intro a b k
      induction a with
      | nil => intro _; rfl
      | cons x a ih =>
        intro h
        obtain ⟨q, g⟩ := x
        rw [List.cons_append, AList.get, if_neg (h (q, g) (by simp)), ih fun y hy => h y (by simp [hy])]
    rw [hskip _ _ _ (fun x hx => by have := hb x hx; omega), places_append, List.append_assoc,
      hskip _ _ _ (fun x hx => by have := places_range l p x hx; omega), places, List.cons_append, AList.get,
      if_pos rfl]
  unfold BaseReader.lengthAt
  rw [hget]
  simp only [Option.map_some, Option.getD_some, (VRec.head_facts hv).2.2.1]
  exact signed4_small hs

end Copc
