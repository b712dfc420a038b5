import Verif.Props.ConformingLaz
/-! # C89: a LAZ file of another program

A file that this library does not write: point format 7, the LASzip VLR before the others, a VLR of another program, gaps between the
parts, two chunks of 2 and 1 points. -/
namespace Copc
open Spec
namespace ForeignLaz

/-- The bytes, but for the GUID and the chunk size. -/
def file (guid size : Bytes) : Bytes :=
  [76, 65, 83, 70, 5, 0, 17, 0] ++ (guid ++ (
  [1, 4, 115, 99, 97, 110, 110, 101, 114] ++ (List.replicate 25 0 ++ ([111, 116, 104, 101, 114, 32, 112, 114, 111,
  103, 114, 97, 109] ++ (List.replicate 19 0 ++ ([100, 0, 232, 7, 119, 1, 12, 3, 0, 0, 3, 0, 0, 0, 135, 38] ++
  (List.replicate 25 0 ++ ([123, 20, 174, 71, 225, 122, 132, 63, 123, 20, 174, 71, 225, 122, 132, 63, 123, 20, 174,
  71, 225, 122, 132, 63] ++ (List.replicate 30 0 ++ ([34, 64, 0, 0, 0, 0, 0, 0, 28, 192, 0, 0, 0, 0, 0, 0, 36, 64, 0,
  0, 0, 0, 0, 0, 24, 192, 0, 0, 0, 0, 0, 0, 38, 64, 0, 0, 0, 0, 0, 0, 20, 192] ++ (List.replicate 8 0 ++ ([178, 3, 0,
  0, 0, 0, 0, 0, 1, 0, 0, 0, 3, 0, 0, 0, 0, 0, 0, 0, 2] ++ (List.replicate 121 0 ++ ([108, 97, 115, 122, 105, 112, 32,
  101, 110, 99, 111, 100, 101, 100, 0, 0, 188, 86, 46] ++ (List.replicate 33 0 ++ ([3, 0, 0, 0, 2, 2, 0, 0, 0, 0, 0,
  0] ++ (size ++ ([255, 255, 255, 255, 255, 255, 255, 255, 255, 255, 255, 255, 255, 255, 255, 255, 2, 0, 10, 0,
  30, 0, 3, 0, 11, 0, 6, 0, 3, 0, 0, 0, 76, 65, 83, 70, 95, 83, 112, 101, 99, 0, 0, 0, 0, 0, 0, 0, 4, 0, 192] ++
  (List.replicate 35 0 ++ ([3, 0, 104, 101, 105, 103, 104, 116] ++ (List.replicate 150 0 ++ ([97, 98, 111, 118, 101]
  ++ (List.replicate 29 0 ++ ([111, 116, 104, 101, 114] ++ (List.replicate 11 0 ++ ([7, 0, 3, 0, 97, 32, 110, 111,
  116, 101] ++ (List.replicate 26 0 ++ ([97, 98, 99, 0, 0, 137, 3, 0, 0, 0, 0, 0, 0, 156, 255, 255, 255, 250, 0, 0, 0,
  7, 0, 0, 0, 244, 1, 33, 1, 6, 9, 226, 255, 77, 0, 0, 0, 0, 0, 0, 0, 41, 64, 10, 0, 20, 0, 30, 0, 132, 3, 100, 0, 0,
  0, 6, 255, 255, 255, 70, 0, 0, 0, 245, 1, 17, 1, 5, 9, 30, 0, 77, 0, 0, 0, 0, 0, 0, 0, 43, 64, 11, 0, 21, 0, 31, 0,
  133, 3, 44, 1, 0, 0, 18, 253, 255, 255, 133, 0, 0, 0, 246, 1, 1, 1, 4, 9, 90, 0, 77, 0, 0, 0, 0, 0, 0, 0, 45, 64,
  12, 0, 22, 0, 32, 0, 134, 3, 0, 0, 0, 0, 0, 0, 0, 2, 0, 0, 0, 2, 0, 0, 0, 0, 0, 0, 0, 76, 0, 0, 0, 0, 0, 0, 0, 1, 0,
  0, 0, 0, 0, 0, 0, 38] ++ (List.replicate 10 0 ++ ([76, 65, 83, 70, 95, 80, 114, 111, 106, 101, 99, 116, 105, 111,
  110, 0, 64, 8, 13] ++ (List.replicate 39 0 ++ ([76, 79, 67, 65, 76, 95, 67, 83, 91, 34, 120, 34,
  93]))))))))))))))))))))))))))))))))

def bytes1 : Bytes := file Foreign.guid1 [255, 255, 255, 255]
def bytes2 : Bytes := file Foreign.guid2 [255, 255, 255, 255]

/-- The same file with chunks of 2 points. -/
def bytes3 : Bytes := file Foreign.guid1 [2, 0, 0, 0]

/-- The records of the chunks. -/
def recss : List (List Bytes) := [
  [[156, 255, 255, 255, 250, 0, 0, 0, 7, 0, 0, 0, 244, 1, 33, 1, 6, 9, 226, 255, 77, 0, 0, 0, 0, 0, 0, 0, 41, 64, 10, 0, 20, 0, 30, 0, 132, 3],
   [100, 0, 0, 0, 6, 255, 255, 255, 70, 0, 0, 0, 245, 1, 17, 1, 5, 9, 30, 0, 77, 0, 0, 0, 0, 0, 0, 0, 43, 64, 11, 0, 21, 0, 31, 0, 133, 3]],
  [[44, 1, 0, 0, 18, 253, 255, 255, 133, 0, 0, 0, 246, 1, 1, 1, 4, 9, 90, 0, 77, 0, 0, 0, 0, 0, 0, 0, 45, 64, 12, 0, 22, 0, 32, 0, 134, 3]]]

end ForeignLaz

/-- The conditions that can be computed. -/
def Format.lasB (data : Bytes) : Bool :=
  decide (data.length < 2 ^ 63) && decide (375 ≤ data.length) && decide (text data 4 0 = [76, 65, 83, 70]) &&
  decide (num data 1 24 = 1 ∧ num data 1 25 = 4) && decide (num data 2 6 / 16 % 2 = 1) && decide (num data 2 94 = 375) &&
  decide (num data 1 104 = 134 ∨ num data 1 104 = 135 ∨ num data 1 104 = 136) &&
  decide (∀ r ∈ vlrs data, r.offset + r.size ≤ num data 4 96) && decide (375 ≤ num data 4 96 ∧ num data 4 96 ≤ data.length) &&
  decide (num data 8 235 ≤ data.length ∧ (num data 4 243 ≠ 0 → num data 4 96 ≤ num data 8 235)) &&
  decide (∀ r ∈ evlrs data, r.offset + r.size ≤ data.length) &&
  decide (∀ r ∈ vlrs data, text data 16 (r.offset - 52) = r.user ++ List.replicate (16 - r.user.length) 0) &&
  decide (∀ r ∈ evlrs data, text data 16 (r.offset - 58) = r.user ++ List.replicate (16 - r.user.length) 0)

theorem Format.las_of {data : Bytes} (h : Format.lasB data = true) : Format.Las data := by
  unfold Format.lasB at h
  simp only [Bool.and_eq_true, decide_eq_true_eq] at h
  obtain ⟨⟨⟨⟨⟨⟨⟨⟨⟨⟨⟨⟨h1, h2⟩, h3⟩, h4⟩, h5⟩, h6⟩, h7⟩, h8⟩, h9⟩, h10⟩, h11⟩, h12⟩, h13⟩ := h
  exact ⟨h1, h2, h3, h4, h5, h6, h7, h8, h9, h10, h11, h12, h13⟩

namespace ForeignLaz

theorem las1 : Format.Las bytes1 := Format.las_of (by decide +kernel)
theorem las2 : Format.Las bytes2 := Format.las_of (by decide +kernel)
theorem las3 : Format.Las bytes3 := Format.las_of (by decide +kernel)
theorem suits1 : Format.SuitsLas bytes1 := (Format.suits_of (by decide +kernel)).las
theorem suits3 : Format.SuitsLas bytes3 := (Format.suits_of (by decide +kernel)).las

theorem chunks_of {data : Bytes} (h1 : Format.num data 1 104 = 135 ∧ Format.num data 2 105 = 38 ∧ Format.num data 4 96 = 780 ∧
    Format.num data 8 780 = 905)
    (h3 : Format.text data 114 788 = recss.flatten.flatten) (h4 : data.length = 1019) (h5 : Format.num data 4 905 = 0 ∧ Format.num data 4 909 = 2)
    (h7 : Format.num data 8 247 = 3) : Format.Chunks Lazperf.plain data recss := by
  obtain ⟨e1, e2, e3, e4⟩ := h1
  constructor
  · unfold Format.chunk
    rw [e1, e2, e3]
    exact h3
  · unfold Format.chunk
    rw [e1, e2, e3, h4]
    decide
  · rw [e3, e4, h4]; decide
  · rw [e3, e4]; exact h5.1
  · rw [e3, e4]; exact h5.2
  · decide
  · rw [e2]; decide
  · rw [h7]; rfl

theorem varying_of {data : Bytes} (h1 : Format.num data 1 104 = 135 ∧ Format.num data 2 105 = 38 ∧ Format.num data 4 96 = 780 ∧
    Format.num data 8 780 = 905)
    (h2 : ∃ r ∈ Format.vlrs data, Format.found data laszipUser 22204 = some r ∧ Format.num data 4 (r.offset + 12) = 4294967295)
    (h6 : Format.text data 32 913 = [2, 0, 0, 0, 0, 0, 0, 0, 76, 0, 0, 0, 0, 0, 0, 0, 1, 0, 0, 0, 0, 0, 0, 0, 38, 0, 0, 0, 0, 0, 0, 0]) :
    Format.Varying Lazperf.plain data recss := by
  obtain ⟨e1, e2, e3, e4⟩ := h1
  constructor
  · exact h2
  · unfold Format.chunk
    rw [e1, e2, e3, e4]
    refine ⟨(data.drop 913).drop 32, ?_⟩
    have ht : Lazperf.plain.table (recss.map fun recs => (recs.length, (Lazperf.plain.compress (((135 : Nat) : Int) - 128)
        (38 - baseSize (((135 : Nat) : Int) - 128)) recs).length)) = Format.text data 32 913 := by
      rw [h6]; decide
    rw [ht]
    unfold Format.text
    rw [List.take_append_drop]
  · unfold Format.chunk
    rw [e1, e2]
    decide

theorem laszip_of {data : Bytes} {c : Nat} (h : (Format.vlrs data).any (fun r => decide (Format.found data laszipUser 22204 = some r) &&
    decide (Format.num data 4 (r.offset + 12) = c)) = true) :
    ∃ r ∈ Format.vlrs data, Format.found data laszipUser 22204 = some r ∧ Format.num data 4 (r.offset + 12) = c := by
  obtain ⟨r, h1, h2⟩ := List.any_eq_true.1 h
  simp only [Bool.and_eq_true, decide_eq_true_eq] at h2
  exact ⟨r, h1, h2⟩

theorem chunks1 : Format.Chunks Lazperf.plain bytes1 recss :=
  chunks_of (by decide +kernel) (by decide +kernel) (by decide +kernel) (by decide +kernel) (by decide +kernel)
theorem chunks2 : Format.Chunks Lazperf.plain bytes2 recss :=
  chunks_of (by decide +kernel) (by decide +kernel) (by decide +kernel) (by decide +kernel) (by decide +kernel)
theorem chunks3 : Format.Chunks Lazperf.plain bytes3 recss :=
  chunks_of (by decide +kernel) (by decide +kernel) (by decide +kernel) (by decide +kernel) (by decide +kernel)

theorem varying1 : Format.Varying Lazperf.plain bytes1 recss :=
  varying_of (by decide +kernel) (laszip_of (by decide +kernel)) (by decide +kernel)
theorem varying2 : Format.Varying Lazperf.plain bytes2 recss :=
  varying_of (by decide +kernel) (laszip_of (by decide +kernel)) (by decide +kernel)
theorem fixed3 : Format.Fixed bytes3 recss 2 :=
  ⟨laszip_of (by decide +kernel), by decide, by decide, by decide⟩

end ForeignLaz

/-- The file with chunks of varying sizes and the file with chunks of 2 points are read: three points, with what the records
have. -/
example (data : Bytes) (h : data = ForeignLaz.bytes1 ∨ data = ForeignLaz.bytes3) :
    ∃ r p q s, LazReader.init Lazperf.plain ⟨data, 0, false⟩ = .ok r ∧ Format.ReadAsLas data r.base.las ∧
    LazReader.getPoints Lazperf.plain r = .ok [p, q, s] ∧ p.intensity = 500 ∧ q.green = 21 ∧ s.scanAngle = 90 := by
  have hk : Format.num data 1 104 = 135 ∧ Format.num data 2 105 = 38 := by rcases h with rfl | rfl <;> decide +kernel
  obtain ⟨r, h1, h2, _, h3⟩ := C89_read_partial (data := data) (L := Lazperf.plain) (recss := ForeignLaz.recss)
    (by rcases h with rfl | rfl; exacts [ForeignLaz.las1, ForeignLaz.las3])
    (by rcases h with rfl | rfl; exacts [ForeignLaz.suits1, ForeignLaz.suits3])
    (by rcases h with rfl | rfl; exacts [ForeignLaz.chunks1, ForeignLaz.chunks3])
    (by rcases h with rfl | rfl; exacts [.inl ForeignLaz.varying1, .inr ⟨2, ForeignLaz.fixed3⟩]) (by rw [hk.1, hk.2]; decide)
  obtain ⟨pts, h4, h5⟩ := h3 (by decide)
  cases h5 with
  | cons a1 h5 => cases h5 with
    | cons a2 h5 => cases h5 with
      | cons a3 h5 => cases h5 with
        | nil =>
          obtain ⟨_, _, _, k1, _⟩ := a1
          obtain ⟨_, _, _, k2, f2, _⟩ := a2
          obtain ⟨_, _, _, k3, _⟩ := a3
          refine ⟨r, _, _, _, h1, h2, h4, UInt16.toNat.inj k1.intensity.symm, ?_, Int16.toInt_inj.1 k3.scanAngle.symm⟩
          rw [hk.1] at f2
          exact UInt16.toNat.inj (k2.green (by omega)).symm

/-- The whole claim fails as for COPC files: opening a file with a GUID without a zero byte is undefined behaviour. -/
theorem C89_violated : ∃ data, Format.Las data ∧ Format.Chunks Lazperf.plain data ForeignLaz.recss ∧
    Format.Varying Lazperf.plain data ForeignLaz.recss ∧ LazReader.init Lazperf.plain ⟨data, 0, false⟩ = .ub := by
  refine ⟨ForeignLaz.bytes2, ForeignLaz.las2, ForeignLaz.chunks2, ForeignLaz.varying2, ?_⟩
  have h : (match LazReader.init Lazperf.plain ⟨ForeignLaz.bytes2, 0, false⟩ with | .ub => true | _ => false) = true := by decide +kernel
  generalize LazReader.init Lazperf.plain ⟨ForeignLaz.bytes2, 0, false⟩ = x at h
  cases x with
  | ub => rfl
  | ok => cases h
  | throw => cases h

end Copc
