import Verif.Props.ToLazAny
import Verif.Props.CopyAnySample
/-! # C91: the file of another program, converted -/
namespace Copc
open Spec VoxelKey

theorem Foreign.has_of {data : Bytes} (h1 : Format.text data 64 1258 = Foreign.rec1 ++ Foreign.rec2)
    (h2 : Format.num data 2 105 = 32) : Format.NodeHas Lazperf.plain data Foreign.node [Foreign.rec1, Foreign.rec2] := by
  refine ⟨?_, ?_, rfl⟩
  · show Format.text data 64 1258 = Format.chunk Lazperf.plain data [Foreign.rec1, Foreign.rec2]
    rw [h1]
    unfold Format.chunk
    show _ = [Foreign.rec1, Foreign.rec2].flatten
    simp
  · intro x hx
    rw [h2]
    rcases List.mem_cons.1 hx with rfl | hx
    · decide
    · rw [List.mem_singleton.1 hx]; decide

theorem Foreign.inside_of {k : Nat} (h : 1322 ≤ k) : ∀ n, NodeOf [Foreign.page] n → 0 < n.entry.pointCount ∧
    n.entry.offset + n.entry.byteSize.toNat ≤ k := by
  rintro n ⟨p, hp, hn⟩
  rw [List.mem_singleton.1 hp] at hn
  obtain rfl : n = Foreign.node := List.mem_singleton.1 hn
  exact ⟨by decide, h⟩

/-- The conditions of `C91_convert_partial` hold for a file that this library does not write; without the extents VLR as well
(`Foreign.bytes5`, whose copies cannot be opened: `C90_extents_violated`). -/
example : (∃ r, Opened Foreign.bytes1 [Foreign.page] r ∧ Format.ReadAs Foreign.bytes1 r.cfg ∧ ItemsFit r.cfg ∧
      ∃ all r2, Run.Ends (fun k => Reader.getAllNodes .plain k) r (.ok all, r2) ∧
        List.Forall₂ (Format.NodeHas Lazperf.plain Foreign.bytes1) (all.filter fun _ => true) [[Foreign.rec1, Foreign.rec2]] ∧
        (∀ n, NodeOf [Foreign.page] n → 0 < n.entry.pointCount ∧ n.entry.offset + n.entry.byteSize.toNat ≤ Foreign.bytes1.length) ∧
        Format.num Foreign.bytes1 2 105 ≤ 255) ∧
    (∃ r, Opened Foreign.bytes5 [Foreign.page] r ∧ Format.ReadAs Foreign.bytes5 r.cfg ∧ ItemsFit r.cfg ∧
      ∃ all r2, Run.Ends (fun k => Reader.getAllNodes .plain k) r (.ok all, r2) ∧
        List.Forall₂ (Format.NodeHas Lazperf.plain Foreign.bytes5) (all.filter fun _ => true) [[Foreign.rec1, Foreign.rec2]] ∧
        (∀ n, NodeOf [Foreign.page] n → 0 < n.entry.pointCount ∧ n.entry.offset + n.entry.byteSize.toNat ≤ Foreign.bytes5.length) ∧
        Format.num Foreign.bytes5 2 105 ≤ 255) := by
  constructor
  · obtain ⟨r, ho, hr⟩ := Foreign.opened1
    obtain ⟨h1, _⟩ := Foreign.items_opened ho (by decide +kernel)
    obtain ⟨all, _, r2, _, h3, _, h4, _⟩ := C36_allNodes Foreign.good1 ho (Asked.none (L := Lazperf.plain)) (Asked.none (L := Lazperf.plain))
      .plain .plain
    refine ⟨r, ho, hr, h1, all, r2, h3, ?_, Foreign.inside_of (by decide +kernel), by decide +kernel⟩
    rw [Foreign.all_one h4]
    exact .cons (Foreign.has_of (by decide +kernel) (by decide +kernel)) .nil
  · obtain ⟨r, ho, hr⟩ := Foreign.opened5
    obtain ⟨h1, _⟩ := Foreign.items_opened ho (by decide +kernel)
    obtain ⟨all, _, r2, _, h3, _, h4, _⟩ := C36_allNodes Foreign.good5 ho (Asked.none (L := Lazperf.plain)) (Asked.none (L := Lazperf.plain))
      .plain .plain
    refine ⟨r, ho, hr, h1, all, r2, h3, ?_, Foreign.inside_of (by decide +kernel), by decide +kernel⟩
    rw [Foreign.all_one h4]
    exact .cons (Foreign.has_of (by decide +kernel) (by decide +kernel)) .nil

end Copc
