import Verif.Props.Conforming
/-! # C88: a file of another program

A file that this library does not write: a VLR and an extended VLR of another program, extended VLRs in another order, WKT before
the hierarchy, no means and variances, the creating software, a point source id. -/
namespace Copc
open Spec
namespace Foreign

/-- The bytes, but for the GUID, the size of the page, the id of the extents VLR, and further entries of the page. -/
def file (guid : Bytes) (size id : UInt8) (more : Bytes) : Bytes :=
  [76, 65, 83, 70, 5, 0, 17, 0] ++ (guid ++ ([1, 4, 115, 99, 97, 110, 110, 101, 114] ++ (List.replicate 25 0 ++ ([111, 116, 104, 101, 114, 32, 112, 114, 111, 103, 114, 97, 109] ++
  (List.replicate 19 0 ++ ([100, 0, 232, 7, 119, 1, 226, 4, 0, 0, 5, 0, 0, 0, 134, 32] ++ (List.replicate 25 0 ++
  ([123, 20, 174, 71, 225, 122, 132, 63, 123, 20, 174, 71, 225, 122, 132, 63, 123, 20, 174, 71, 225, 122, 132, 63] ++
  (List.replicate 30 0 ++ ([34, 64, 0, 0, 0, 0, 0, 0, 28, 192, 0, 0, 0, 0, 0, 0, 36, 64, 0, 0, 0, 0, 0, 0, 24, 192, 0,
  0, 0, 0, 0, 0, 38, 64, 0, 0, 0, 0, 0, 0, 20, 192] ++ (List.replicate 8 0 ++ ([50, 5, 0, 0, 0, 0, 0, 0, 3, 0, 0, 0,
  2, 0, 0, 0, 0, 0, 0, 0, 2] ++ (List.replicate 121 0 ++ ([99, 111, 112, 99] ++ (List.replicate 12 0 ++ ([1, 0, 160]
  ++ (List.replicate 39 0 ++ ([240, 63, 0, 0, 0, 0, 0, 0, 0, 64, 0, 0, 0, 0, 0, 0, 8, 64, 0, 0, 0, 0, 0, 0, 32, 64, 0,
  0, 0, 0, 0, 0, 224, 63, 183, 5, 0, 0, 0, 0, 0, 0, size] ++ (List.replicate 13 0 ++ ([36, 64, 0, 0, 0, 0, 0, 0, 52, 64]
  ++ (List.replicate 90 0 ++ ([111, 116, 104, 101, 114] ++ (List.replicate 11 0 ++ ([7, 0, 3, 0, 97, 32, 110, 111,
  116, 101] ++ (List.replicate 26 0 ++ ([97, 98, 99, 0, 0, 76, 65, 83, 70, 95, 83, 112, 101, 99, 0, 0, 0, 0, 0, 0, 0,
  4, 0, 192] ++ (List.replicate 35 0 ++ ([3, 0, 104, 101, 105, 103, 104, 116] ++ (List.replicate 150 0 ++ ([97, 98,
  111, 118, 101] ++ (List.replicate 29 0 ++ ([99, 111, 112, 99] ++ (List.replicate 12 0 ++ ([id, 39, 240] ++
  (List.replicate 47 0 ++ ([240, 63, 0, 0, 0, 0, 0, 0, 240, 63, 0, 0, 0, 0, 0, 0, 0, 64, 0, 0, 0, 0, 0, 0, 0, 64, 0,
  0, 0, 0, 0, 0, 8, 64, 0, 0, 0, 0, 0, 0, 8, 64, 0, 0, 0, 0, 0, 0, 16, 64, 0, 0, 0, 0, 0, 0, 16, 64, 0, 0, 0, 0, 0, 0,
  20, 64, 0, 0, 0, 0, 0, 0, 20, 64, 0, 0, 0, 0, 0, 0, 24, 64, 0, 0, 0, 0, 0, 0, 24, 64, 0, 0, 0, 0, 0, 0, 28, 64, 0,
  0, 0, 0, 0, 0, 28, 64, 0, 0, 0, 0, 0, 0, 32, 64, 0, 0, 0, 0, 0, 0, 32, 64, 0, 0, 0, 0, 0, 0, 34, 64, 0, 0, 0, 0, 0,
  0, 34, 64, 0, 0, 0, 0, 0, 0, 36, 64, 0, 0, 0, 0, 0, 0, 36, 64, 0, 0, 0, 0, 0, 0, 38, 64, 0, 0, 0, 0, 0, 0, 38, 64,
  0, 0, 0, 0, 0, 0, 40, 64, 0, 0, 0, 0, 0, 0, 40, 64, 0, 0, 0, 0, 0, 0, 42, 64, 0, 0, 0, 0, 0, 0, 42, 64, 0, 0, 0, 0,
  0, 0, 44, 64, 0, 0, 0, 0, 0, 0, 44, 64, 0, 0, 0, 0, 0, 0, 46, 64, 0, 0, 108, 97, 115, 122, 105, 112, 32, 101, 110,
  99, 111, 100, 101, 100, 0, 0, 188, 86, 10] ++ (List.replicate 43 0 ++ ([42, 5, 0, 0, 0, 0, 0, 0, 156, 255, 255, 255,
  250, 0, 0, 0, 7, 0, 0, 0, 244, 1, 33, 1, 6, 9, 226, 255, 77, 0, 0, 0, 0, 0, 0, 0, 41, 64, 132, 3, 100, 0, 0, 0, 6,
  255, 255, 255, 70, 0, 0, 0, 245, 1, 17, 0, 2, 8, 30, 0, 78, 0, 0, 0, 0, 0, 0, 0, 43, 64, 133, 3] ++ (List.replicate
  10 0 ++ ([76, 65, 83, 70, 95, 80, 114, 111, 106, 101, 99, 116, 105, 111, 110, 0, 64, 8, 13] ++ (List.replicate 39 0
  ++ ([76, 79, 67, 65, 76, 95, 67, 83, 91, 34, 120, 34, 93, 0, 0, 99, 111, 112, 99] ++ (List.replicate 12 0 ++ ([232,
  3, size] ++ (List.replicate 55 0 ++ ([234, 4, 0, 0, 0, 0, 0, 0, 64, 0, 0, 0, 2, 0, 0, 0] ++ (more ++ ([0, 0, 111, 116, 104, 101,
  114] ++ (List.replicate 11 0 ++ ([9, 0, 2] ++ (List.replicate 39 0 ++ ([122,
  122]))))))))))))))))))))))))))))))))))))))))))))))))))))

/-- "0123456789" -/
def guid1 : Bytes := [48, 49, 50, 51, 52, 53, 54, 55, 56, 57, 0, 0, 0, 0, 0, 0]
/-- 16 bytes, none of them zero. -/
def guid2 : Bytes := [1, 2, 3, 4, 5, 6, 7, 8, 9, 10, 11, 12, 13, 14, 15, 16]

def bytes1 : Bytes := file guid1 32 16 []
def bytes2 : Bytes := file guid2 32 16 []

end Foreign

/-- The conditions that can be computed. -/
def Format.conformsB (data : Bytes) : Bool :=
  decide (data.length < 2 ^ 63) && decide (375 ≤ data.length) && decide (text data 4 0 = [76, 65, 83, 70]) &&
  decide (num data 1 24 = 1 ∧ num data 1 25 = 4) && decide (num data 2 6 / 16 % 2 = 1) && decide (num data 2 94 = 375) &&
  decide (num data 1 104 = 134 ∨ num data 1 104 = 135 ∨ num data 1 104 = 136) &&
  decide (∀ r ∈ vlrs data, r.offset + r.size ≤ num data 4 96) && decide (num data 4 96 ≤ num data 8 235) &&
  decide (∀ r ∈ evlrs data, r.offset + r.size ≤ data.length) &&
  decide (∀ r ∈ vlrs data, text data 16 (r.offset - 52) = r.user ++ List.replicate (16 - r.user.length) 0) &&
  decide (∀ r ∈ evlrs data, text data 16 (r.offset - 58) = r.user ++ List.replicate (16 - r.user.length) 0) &&
  decide ((vlrs data).head? = some ⟨uCopc, 1, 429, 160⟩) &&
  decide (∃ r ∈ evlrs data, r.user = uCopc ∧ r.id = 1000) &&
  (found data uCopc 10000).all (fun r => decide (r.size = 16 * (dims data + ebCount data) ∧
    ∀ i < r.size / 16, Flt.lt' (dbl data (r.offset + 16 * i + 8)) (dbl data (r.offset + 16 * i)) = false)) &&
  (found data uRock 10001).all (fun r => decide (r.size = 16 * (dims data + ebCount data) ∧
    ∀ i < r.size / 16, Flt.lt' (dbl data (r.offset + 16 * i + 8)) Flt.zero = false))

theorem Format.conforms_of {data : Bytes} (h : Format.conformsB data = true) : Format.Conforms data := by
  unfold Format.conformsB at h
  simp only [Bool.and_eq_true, decide_eq_true_eq] at h
  obtain ⟨⟨⟨⟨⟨⟨⟨⟨⟨⟨⟨⟨⟨⟨⟨h1, h2⟩, h3⟩, h4⟩, h5⟩, h6⟩, h7⟩, h8⟩, h9⟩, h10⟩, h11⟩, h12⟩, h13⟩, h14⟩, h15⟩, h16⟩ := h
  refine ⟨h1, h2, h3, h4, h5, h6, h7, h8, h9, h10, h11, h12, h13, h14, ?_, ?_⟩
  · intro r hr
    rw [hr] at h15
    exact of_decide_eq_true h15
  · intro r hr
    rw [hr] at h16
    exact of_decide_eq_true h16

/-- The conditions that can be computed. -/
def Format.suitsB (data : Bytes) : Bool :=
  decide (0 ∈ text data 16 8) && decide (0 ∈ text data 32 26) && decide (0 ∈ text data 32 58) &&
  decide (∀ r ∈ vlrs data, ¬(r.user = uProj ∧ r.id = 2112)) &&
  decide (∀ r ∈ evlrs data, ¬(r.user = uSpec ∧ r.id = 4) ∧ ¬(r.user = uCopc ∧ r.id = 10000) ∧
    ¬(r.user = uRock ∧ r.id = 10001)) &&
  (found data uProj 2112).all (fun r => decide (r.size < 2 ^ 31)) && decide (num data 4 243 < 2 ^ 31)

theorem Format.suits_of {data : Bytes} (h : Format.suitsB data = true) : Format.Suits data := by
  unfold Format.suitsB at h
  simp only [Bool.and_eq_true, decide_eq_true_eq] at h
  obtain ⟨⟨⟨⟨⟨⟨h1, h2⟩, h3⟩, h4⟩, h5⟩, h6⟩, h7⟩ := h
  refine ⟨h1, h2, h3, h4, h5, ?_, h7⟩
  intro r hr
  rw [hr] at h6
  exact of_decide_eq_true h6

namespace Foreign

theorem conforms1 : Format.Conforms bytes1 := Format.conforms_of (by decide +kernel)
theorem conforms2 : Format.Conforms bytes2 := Format.conforms_of (by decide +kernel)
theorem suits1 : Format.Suits bytes1 := Format.suits_of (by decide +kernel)

/-- The one page. -/
def page : FPage := ⟨VoxelKey.root, 1463, 32, [⟨VoxelKey.root, 1258, 64, 2⟩]⟩

theorem good1 : GoodHierarchy bytes1 [page] where
  distinct := by decide
  root := by decide
  inTree := by
    intro p hp
    rw [List.mem_singleton.1 hp]
    exact ⟨by decide, by decide, by decide, by decide, by decide, by decide, by decide⟩
  stored := by
    intro p hp
    rw [List.mem_singleton.1 hp]
    refine ⟨[], List.nodup_nil, ?_, [⟨VoxelKey.root, 1258, 64, 2⟩], List.Perm.refl _, by decide, by decide +kernel⟩
    intro q
    constructor
    · intro h; cases h
    · rintro ⟨hq, _, _, hne, _⟩
      rw [List.mem_singleton.1 hq] at hne
      exact absurd rfl hne
  pageRange := by
    intro p hp
    rw [List.mem_singleton.1 hp]
    exact ⟨by decide, by decide, by decide⟩
  entries := by
    intro p hp e he
    rw [List.mem_singleton.1 hp] at he ⊢
    rw [List.mem_singleton.1 he]
    exact ⟨⟨by decide, by decide, by decide, by decide⟩, by decide, by decide, by decide, ⟨0, by decide, by decide⟩⟩
  nodesDistinct := by decide

end Foreign

/-- The file is opened and says what it has: among other things the WKT `LOCAL_CS["x"]`, an extra byte field "height" of type 3, the
extents of 14 + 1 dimensions; the reader finds its one node. -/
example : ∃ r, Opened Foreign.bytes1 [Foreign.page] r ∧ Format.ReadAs Foreign.bytes1 r.cfg :=
  C88_opened_partial Foreign.conforms1 Foreign.suits1 ⟨Foreign.page, by simp, rfl, by decide +kernel, by decide +kernel⟩

example : ((Format.found Foreign.bytes1 Format.uProj 2112).map fun r => Format.text Foreign.bytes1 r.size r.offset) =
    some [76, 79, 67, 65, 76, 95, 67, 83, 91, 34, 120, 34, 93] ∧ Format.ebCount Foreign.bytes1 = 1 ∧
    Format.dims Foreign.bytes1 = 14 := by decide +kernel

/-- The whole claim fails: a file with a GUID without a zero byte (any 16 bytes are a GUID) follows the formats, opening it is
undefined behaviour (the GUID is read as a string that ends with a zero). -/
theorem C88_violated : ∃ data, Format.Conforms data ∧ Reader.init ⟨data, 0, false⟩ = .ub := by
  refine ⟨Foreign.bytes2, Foreign.conforms2, ?_⟩
  have h : (match Reader.init ⟨Foreign.bytes2, 0, false⟩ with | .ub => true | _ => false) = true := by decide +kernel
  generalize Reader.init ⟨Foreign.bytes2, 0, false⟩ = x at h
  cases x with
  | ub => rfl
  | ok _ => cases h
  | throw _ => cases h

end Copc
