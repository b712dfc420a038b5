import Verif.Lemmas.VlrTable
/-! # Files made of a header, VLRs and extended VLRs -/
namespace Copc
open Spec

/-- A file with the header `h14` whose VLRs are `vs` and whose extended VLRs are `es`. -/
structure RecFile (data : Bytes) (h14 : Header14) (vs es : List VRec) : Prop where
  sized : h14.Sized
  size375 : h14.headerSize = 375
  head : ∃ rest, data = h14.encode ++ (vs.flatMap VRec.bytes ++ rest)
  tail : ∃ pre rest, data = pre ++ (es.flatMap VRec.bytes ++ rest) ∧ pre.length = h14.evlrOffset.toNat
  apart : 375 + vsize vs ≤ h14.evlrOffset.toNat
  vcount : h14.vlrCount.toNat = vs.length
  ecount : h14.evlrCount.toNat = es.length
  few : es.length < 2 ^ 31
  vfit : ∀ v ∈ vs, v.evlr = false ∧ v.Fit
  efit : ∀ v ∈ es, v.evlr = true ∧ v.Fit
  len : data.length < 2 ^ 63

namespace RecFile
variable {data : Bytes} {h14 : Header14} {vs es : List VRec}

/-- The table of the VLRs. -/
def table (h14 : Header14) (vs es : List VRec) : List (Nat × VlrHeader) :=
  places 375 vs ++ places h14.evlrOffset.toNat es

theorem seekg_good {d : Bytes} {p q : Nat} (h : q < 2 ^ 63) :
    (IStream.mk d p false).seekg q = ⟨d, q, false⟩ := by
  unfold IStream.seekg
  rw [if_neg (by simp), if_pos h]

theorem vlrEnd_le (h : RecFile data h14 vs es) : 375 + vsize vs ≤ data.length := by
  obtain ⟨rest, hd⟩ := h.head
  rw [hd, List.length_append, List.length_append, Header14.length_encode h.sized]
  unfold vsize
  omega

theorem offset_le (h : RecFile data h14 vs es) : h14.evlrOffset.toNat + vsize es ≤ data.length := by
  obtain ⟨pre, rest, hd, hp⟩ := h.tail
  rw [hd, List.length_append, List.length_append, hp]
  unfold vsize
  omega

theorem readHeaders (h : RecFile data h14 vs es) (p : Nat) :
    ∃ q, BaseReader.readVlrHeaders (stripFormat h14) ⟨data, p, false⟩ =
      (.ok (table h14 vs es), ⟨data, q, false⟩) := by
  obtain ⟨rest, hd⟩ := h.head
  obtain ⟨pre, rest', hd', hp⟩ := h.tail
  have hlen := h.len
  have hle := h.vlrEnd_le
  have hoe := h.offset_le
  have h375 := Header14.length_encode h.sized
  have hs : (375 : UInt16).toNat = 375 := rfl
  unfold BaseReader.readVlrHeaders
  have e1 : (stripFormat h14).headerSize = 375 := h.size375
  have e2 : (stripFormat h14).vlrCount = h14.vlrCount := rfl
  have e3 : (stripFormat h14).evlrCount = h14.evlrCount := rfl
  have e4 : (stripFormat h14).evlrOffset = h14.evlrOffset := rfl
  rw [e1, e2, e3, e4, h.vcount, h.ecount, hs, seekg_good (by omega)]
  have v1 := vlrLoop_places vs h14.encode rest data [] hd hlen h.vfit (by simp)
  rw [h375] at v1
  rw [v1]
  simp only
  rw [if_neg (by have := h.few; omega), seekg_good (by omega), ← hp]
  have v2 := evlrLoop_places es pre rest' data (places 375 vs) hd' hlen h.efit (by
    intro x hx
    have := places_range vs 375 x hx
    have := h.apart
    omega)
  rw [List.nil_append, v2]
  exact ⟨_, by rw [table, hp]⟩

/-- The first of the VLRs asked for is found at its place. -/
theorem fetch_vlr {l m : List VRec} {v : VRec} (h : RecFile data h14 (l ++ v :: m) es) {user : Bytes}
    {id : UInt16} (hl : ∀ w ∈ l, ¬w.Is user id) (hv : v.Is user id) :
    BaseReader.fetchVlr (table h14 (l ++ v :: m) es) user id = 375 + vsize l := by
  have := fetch_places (user := user) (id := id) (l := l) (m := m) (v := v) (p := 375) (before := [])
    (after := places h14.evlrOffset.toNat es) rfl (fun w hw => (h.vfit w (by simp [hw])).2)
    (h.vfit v (by simp)).2 hl hv
  rwa [List.nil_append] at this

/-- If no VLR has the ids asked for, the first of the extended VLRs that has is found. -/
theorem fetch_evlr {l m : List VRec} {v : VRec} (h : RecFile data h14 vs (l ++ v :: m)) {user : Bytes}
    {id : UInt16} (hvs : ∀ w ∈ vs, ¬w.Is user id) (hl : ∀ w ∈ l, ¬w.Is user id) (hv : v.Is user id) :
    BaseReader.fetchVlr (table h14 vs (l ++ v :: m)) user id = h14.evlrOffset.toNat + vsize l := by
  have := fetch_places (user := user) (id := id) (l := l) (m := m) (v := v) (p := h14.evlrOffset.toNat)
    (before := places 375 vs) (after := []) (find_places_none vs 375 (fun w hw => (h.vfit w hw).2) hvs)
    (fun w hw => (h.efit w (by simp [hw])).2)
    (h.efit v (by simp)).2 hl hv
  rwa [List.append_nil] at this

theorem fetch_none (h : RecFile data h14 vs es) {user : Bytes}
    {id : UInt16} (hvs : ∀ w ∈ vs, ¬w.Is user id) (hes : ∀ w ∈ es, ¬w.Is user id) :
    BaseReader.fetchVlr (table h14 vs es) user id = 0 := by
  apply Copc.fetch_none
  rw [table, List.find?_append, find_places_none vs 375 (fun w hw => (h.vfit w hw).2) hvs, Option.none_or]
  exact find_places_none es _ (fun w hw => (h.efit w hw).2) hes

theorem length_vlr {l m : List VRec} {v : VRec} (h : RecFile data h14 (l ++ v :: m) es) :
    BaseReader.lengthAt (table h14 (l ++ v :: m) es) (375 + vsize l) = v.payload.length := by
  have hv := h.vfit v (by simp)
  have hs := hv.2.small
  rw [hv.1] at hs
  have := lengthAt_places (l := l) (m := m) (v := v) (p := 375) (before := [])
    (after := places h14.evlrOffset.toNat es) (by simp) hv.2 (by simp at hs; omega)
  rwa [List.nil_append] at this

theorem length_evlr {l m : List VRec} {v : VRec} (h : RecFile data h14 vs (l ++ v :: m))
    (hs : v.payload.length < 2 ^ 31) :
    BaseReader.lengthAt (table h14 vs (l ++ v :: m)) (h14.evlrOffset.toNat + vsize l) = v.payload.length := by
  have hv := h.efit v (by simp)
  have := lengthAt_places (l := l) (m := m) (v := v) (p := h14.evlrOffset.toNat) (before := places 375 vs)
    (after := []) (by
      intro x hx
      have := places_range vs 375 x hx
      have := h.apart
      omega) hv.2 hs
  rwa [List.append_nil] at this

/-- The payload of a VLR follows its header of 54 bytes. -/
theorem split_vlr {l m : List VRec} {v : VRec} (h : RecFile data h14 (l ++ v :: m) es) :
    ∃ pre rest, data = pre ++ (v.payload ++ rest) ∧ pre.length = 375 + vsize l + 54 := by
  obtain ⟨rest, hd⟩ := h.head
  refine ⟨h14.encode ++ (l.flatMap VRec.bytes ++ v.hbytes), m.flatMap VRec.bytes ++ rest, ?_, ?_⟩
  · rw [hd, List.flatMap_append, List.flatMap_cons, VRec.bytes]
    simp only [List.append_assoc]
  · have h1 : v.hsize = 54 := by
      unfold VRec.hsize; rw [(h.vfit v (by simp)).1]; rfl
    simp only [List.length_append, Header14.length_encode h.sized, VRec.length_hbytes, vsize, h1]
    omega

theorem split_evlr {l m : List VRec} {v : VRec} (h : RecFile data h14 vs (l ++ v :: m)) :
    ∃ pre rest, data = pre ++ (v.payload ++ rest) ∧ pre.length = h14.evlrOffset.toNat + vsize l + 60 := by
  obtain ⟨pre, rest, hd, hp⟩ := h.tail
  refine ⟨pre ++ (l.flatMap VRec.bytes ++ v.hbytes), m.flatMap VRec.bytes ++ rest, ?_, ?_⟩
  · rw [hd, List.flatMap_append, List.flatMap_cons, VRec.bytes]
    simp only [List.append_assoc]
  · have h1 : v.hsize = 60 := by
      unfold VRec.hsize; rw [(h.efit v (by simp)).1]; rfl
    simp only [List.length_append, hp, VRec.length_hbytes, vsize, h1]
    omega

end RecFile

/-- A read of bytes that are there. -/
theorem read_at {data pre bs rest : Bytes} (hd : data = pre ++ (bs ++ rest)) (hl : data.length < 2 ^ 63)
    {o : Nat} (ho : o = pre.length) (p : Nat) {n : Nat} (hn : n = bs.length) :
    ((IStream.mk data p false).seekg o).read n = (bs, ⟨data, o + n, false⟩) := by
  have : pre.length ≤ data.length := by rw [hd]; simp
  rw [RecFile.seekg_good (by omega), ho]
  exact IStream.read_append hd hn.symm

theorem readFilled_at {data pre bs rest : Bytes} (hd : data = pre ++ (bs ++ rest)) (hl : data.length < 2 ^ 63)
    {o : Nat} (ho : o = pre.length) (p : Nat) {n : Nat} (hn : n = bs.length) :
    ((IStream.mk data p false).seekg o).readFilled n = (bs, ⟨data, o + n, false⟩) := by
  have : pre.length ≤ data.length := by rw [hd]; simp
  rw [RecFile.seekg_good (by omega), ho]
  exact readFilled_append hd hn.symm

/-- Opening the header of such a file. -/
theorem RecFile.readHeader {data : Bytes} {h14 : Header14} {vs es : List VRec} (h : RecFile data h14 vs es)
    (p : Nat) (f : Bool) : BaseReader.readHeader ⟨data, p, f⟩ = .ok (stripFormat h14) := by
  obtain ⟨rest, hd⟩ := h.head
  have h375 := Header14.length_encode h.sized
  have := h.vlrEnd_le
  unfold BaseReader.readHeader
  simp only
  rw [if_neg (by omega)]
  have : data.take 375 = h14.encode ++ [] := by
    rw [hd, List.take_left' h375, List.append_nil]
  rw [this, Header14.decode_encode h.sized]

end Copc
