import Verif.Lemmas.RetryFile
import Verif.Model.Reader
/-!
# C53: the file of a repeated `Close`
-/
namespace Copc
open Spec

def isUb {α : Type} : Res α → Bool
  | .ub => true
  | _ => false

theorem isUb_iff {α : Type} {r : Res α} (h : isUb r = true) : r = .ub := by
  cases r <;> first | rfl | cases h

theorem retried_opens : isUb (Reader.init ⟨retriedData, 0, false⟩) = true := by decide +kernel

/-- There are a history and bounds with which `Close` throws, such that after their repair `Close` returns, but
what happens on opening the file is undefined: the reader takes the declared number of EVLRs, goes past the end
of the file, and then takes the extents from variables that were never set. -/
theorem C53_unreadable_violated : ∃ (L : Lazperf) (ord : Order) (c : CopcConfig) (w0 w w1 w2 : Writer)
    (h : List (Op × Res (Option Node))) (cb cg : CopcConfig) (e : Exc),
    Writer.make OStream.fresh c {} = .ok w0 ∧ Consistent w0.cfg ∧ History L ord w0 h w ∧ Unclosed h ∧
    PublicEdit w.cfg cb ∧ Writer.close L ord { w with cfg := cb } = (.throw e, w1) ∧
    PublicEdit w1.cfg cg ∧ Writer.close L ord { w1 with cfg := cg } = (.ok (), w2) ∧
    Reader.init ⟨w2.base.out.data, 0, false⟩ = .ub := by
  have h1 : Writer.close Sample.L Sample.ord { Sample.w with cfg := badBounds Sample.w.cfg } =
      (.throw .extentOrder, tried.2) := by rw [← tried_throws]; rfl
  have h2 : Writer.close Sample.L Sample.ord { tried.2 with cfg := mended } = (.ok (), retried.2) := by
    rw [← retried_ok]; rfl
  refine ⟨Sample.L, Sample.ord, Sample.cfg, Sample.w0, Sample.w, tried.2, retried.2, Sample.hist,
    badBounds Sample.w.cfg, mended, .extentOrder, Sample.made, sample_consistent, Sample.history,
    Sample.unclosed, ⟨rfl, rfl, rfl, rfl, rfl, rfl, rfl, rfl, rfl, rfl, rfl⟩, h1, mended_edit, h2, ?_⟩
  rw [retried_data]
  exact isUb_iff retried_opens

end Copc
