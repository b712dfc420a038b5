import Verif.Props.WritesChunks
import Verif.Props.CopcIsLazSample
/-! # C100: an example -/
namespace Copc
open Spec

/-- The theorem on chunks applies to a file with two nodes and five records. -/
theorem boxFile_chunks : Format.Chunks Sample.L BoxFile.data [[recAt 1 2 3, recAt 7 0 8], [recAt 5 1 6, recAt 6 4 4, recAt 8 0 8]] := by
  have hr : BoxFile.w0.cfg.header.recLen.toNat = 31 := by decide +kernel
  exact (C100_copcChunks BoxFile.written.1 (notLarge_of (by rw [BoxFile.outcomes]; exact BoxFile.oks))
    (by
      rw [boxFile_calls]
      refine .cons ⟨by simp, by decide, ?_, ?_⟩ (.cons ⟨by simp, by decide, ?_, ?_⟩ .nil)
      · rw [hr]; intro x hx
        simp only [List.mem_cons, List.not_mem_nil, or_false] at hx
        rcases hx with rfl | rfl <;> rfl
      · simp
      · rw [hr]; intro x hx
        simp only [List.mem_cons, List.not_mem_nil, or_false] at hx
        rcases hx with rfl | rfl | rfl <;> rfl
      · simp) (by decide)).1

end Copc
