import Verif.Lemmas.RecFile
import Verif.Spec.Directory
/-! # The ids of the records of a file -/
namespace Copc
open Spec

theorem takeWhile_padTo {k : Nat} {s : Bytes} (h : NoNul s) (hl : s.length ≤ k) :
    (padTo k s).takeWhile (· ≠ 0) = s := by
  unfold padTo
  rw [List.take_of_length_le hl, List.takeWhile_append_of_pos (by intro a ha; simpa using h a ha)]
  suffices (List.replicate (k - s.length) (0 : UInt8)).takeWhile (· ≠ 0) = [] by simpa using this
  cases k - s.length <;> simp [List.replicate_succ]

theorem recordAt_rec {data rest : Bytes} {p : Nat} {v : VRec} (h : data.drop p = v.bytes ++ rest) (hv : v.Fit) :
    recordAt data p = (v.user, v.id.toNat) := by
  have key : ∃ a t : Bytes, data.drop p = a ++ (padTo 16 v.user ++ (putU16 v.id ++ t)) ∧ a.length = 2 := by
    rw [h]
    unfold VRec.bytes VRec.hbytes
    split
    · refine ⟨putU16 0, putU64 (UInt64.ofNat v.payload.length) ++ (padTo 32 v.desc ++ (v.payload ++ rest)), ?_, by simp⟩
      unfold VlrHeader.encodeE VRec.header; simp only [List.append_assoc]
    · refine ⟨putU16 0, putU16 (UInt16.ofNat (UInt64.ofNat v.payload.length).toNat) ++
        (padTo 32 v.desc ++ (v.payload ++ rest)), ?_, by simp⟩
      unfold VlrHeader.encode VRec.header; simp only [List.append_assoc]
  obtain ⟨a, t, e, ha⟩ := key
  have e2 : data.drop (p + 2) = padTo 16 v.user ++ (putU16 v.id ++ t) := by
    rw [← List.drop_drop, e, List.drop_left' ha]
  have e3 : data.drop (p + 18) = putU16 v.id ++ t := by
    rw [show p + 18 = (p + 2) + 16 by omega, ← List.drop_drop, e2, List.drop_left' (by simp)]
  unfold recordAt
  rw [e2, e3, List.take_left' (by simp), takeWhile_padTo hv.noNul hv.short]
  unfold putU16
  rw [getN_leN]
  have := v.id.toNat_lt
  rw [Nat.mod_eq_of_lt (by omega)]

theorem vlr_len {data rest : Bytes} {p : Nat} {v : VRec} (h : data.drop p = v.bytes ++ rest) (hv : v.Fit)
    (he : v.evlr = false) : 54 + getN 2 (data.drop (p + 20)) = v.bytes.length := by
  have hl := hv.small
  rw [he] at hl
  simp only [Bool.false_eq_true, if_false] at hl
  rw [VRec.length_bytes, VRec.hsize, he]
  simp only [Bool.false_eq_true, if_false]
  congr 1
  rw [← List.drop_drop, h]
  unfold VRec.bytes VRec.hbytes
  rw [he]
  simp only [Bool.false_eq_true, if_false]
  unfold VRec.header VlrHeader.encode
  simp only [List.append_assoc]
  rw [← List.append_assoc, ← List.append_assoc, List.drop_left' (by simp)]
  unfold putU16
  rw [getN_leN]
  simp only [UInt64.toNat_ofNat', UInt16.toNat_ofNat']
  omega

theorem evlr_len {data rest : Bytes} {p : Nat} {v : VRec} (h : data.drop p = v.bytes ++ rest) (hv : v.Fit)
    (he : v.evlr = true) : 60 + getN 8 (data.drop (p + 20)) = v.bytes.length := by
  have hl := hv.small
  rw [he] at hl
  simp only [if_true] at hl
  rw [VRec.length_bytes, VRec.hsize, he]
  simp only [if_true]
  congr 1
  rw [← List.drop_drop, h]
  unfold VRec.bytes VRec.hbytes
  rw [he]
  simp only [if_true]
  unfold VRec.header VlrHeader.encodeE
  simp only [List.append_assoc]
  rw [← List.append_assoc, ← List.append_assoc, List.drop_left' (by simp)]
  unfold putU64
  rw [getN_leN]
  simp only [UInt64.toNat_ofNat']
  omega

theorem vlrIds_recs : ∀ (vs : List VRec) {data rest : Bytes} {p : Nat}, data.drop p = vs.flatMap VRec.bytes ++ rest →
    (∀ v ∈ vs, v.evlr = false ∧ v.Fit) →
    vlrIds data vs.length p = vs.map (fun v => (v.user, v.id.toNat)) ∧ vlrEnd data vs.length p = p + vsize vs
  | [], _, _, _, _, _ => ⟨rfl, rfl⟩
  | v :: vs, data, rest, p, h, hv => by
    rw [List.flatMap_cons, List.append_assoc] at h
    obtain ⟨he, hf⟩ := hv v (by simp)
    have hl := vlr_len h hf he
    have hnext : data.drop (p + v.bytes.length) = vs.flatMap VRec.bytes ++ rest := by
      rw [← List.drop_drop, h, List.drop_left]
    obtain ⟨i1, i2⟩ := vlrIds_recs vs hnext (fun w hw => hv w (by simp [hw]))
    rw [List.length_cons, vlrIds, vlrEnd, recordAt_rec h hf, Nat.add_assoc, hl, i1, i2, vsize_cons, ← VRec.length_bytes]
    exact ⟨rfl, by omega⟩

theorem evlrIds_recs : ∀ (vs : List VRec) {data rest : Bytes} {p : Nat}, data.drop p = vs.flatMap VRec.bytes ++ rest →
    (∀ v ∈ vs, v.evlr = true ∧ v.Fit) →
    evlrIds data vs.length p = vs.map (fun v => (v.user, v.id.toNat)) ∧ evlrEnd data vs.length p = p + vsize vs
  | [], _, _, _, _, _ => ⟨rfl, rfl⟩
  | v :: vs, data, rest, p, h, hv => by
    rw [List.flatMap_cons, List.append_assoc] at h
    obtain ⟨he, hf⟩ := hv v (by simp)
    have hl := evlr_len h hf he
    have hnext : data.drop (p + v.bytes.length) = vs.flatMap VRec.bytes ++ rest := by
      rw [← List.drop_drop, h, List.drop_left]
    obtain ⟨i1, i2⟩ := evlrIds_recs vs hnext (fun w hw => hv w (by simp [hw]))
    rw [List.length_cons, evlrIds, evlrEnd, recordAt_rec h hf, Nat.add_assoc, hl, i1, i2, vsize_cons, ← VRec.length_bytes]
    exact ⟨rfl, by omega⟩

/-- The records announced by the header are those of the file. -/
theorem RecFile.directory {data : Bytes} {h14 : Header14} {vs es : List VRec} (h : RecFile data h14 vs es) :
    Header14.decode data = h14 ∧
    vlrIds data h14.vlrCount.toNat 375 = vs.map (fun v => (v.user, v.id.toNat)) ∧
    vlrEnd data h14.vlrCount.toNat 375 = 375 + vsize vs ∧
    evlrIds data h14.evlrCount.toNat h14.evlrOffset.toNat = es.map (fun v => (v.user, v.id.toNat)) ∧
    evlrEnd data h14.evlrCount.toNat h14.evlrOffset.toNat = h14.evlrOffset.toNat + vsize es := by
  obtain ⟨rest, hh⟩ := h.head
  obtain ⟨pre, rest', ht, hp⟩ := h.tail
  have d1 : data.drop 375 = vs.flatMap VRec.bytes ++ rest := by
    rw [hh, List.drop_left' (Header14.length_encode h.sized)]
  have d2 : data.drop h14.evlrOffset.toNat = es.flatMap VRec.bytes ++ rest' := by
    rw [ht, List.drop_left' hp]
  obtain ⟨a1, a2⟩ := vlrIds_recs vs d1 h.vfit
  obtain ⟨b1, b2⟩ := evlrIds_recs es d2 h.efit
  rw [h.vcount, h.ecount]
  exact ⟨by rw [hh]; exact Header14.decode_encode h.sized _, a1, a2, b1, b2⟩

end Copc
