import Verif.Props.CopcIsLaz
import Verif.Props.BoxSample
/-! # C95: cases -/
namespace Copc
open Spec

namespace PtsFile

def ops : List Op := [.addPoints VoxelKey.root 6 31 [LazSample.pt 1, LazSample.pt 5] VoxelKey.root,
  .addPoints Sample.kA 6 31 [LazSample.pt (-8)] Sample.kA]
def outs : List (Res (Option Node)) := [.ok (some ⟨⟨VoxelKey.root, 1531, 62, 2⟩, VoxelKey.root⟩),
  .ok (some ⟨⟨Sample.kA, 1593, 31, 1⟩, Sample.kA⟩)]
def hist : List (Op × Res (Option Node)) := (Sample.run Sample.L Sample.ord ops BoxFile.w0 []).1
def w : Writer := (Sample.run Sample.L Sample.ord ops BoxFile.w0 []).2
def data : Bytes := (Writer.close Sample.L Sample.ord w).2.base.out.data

theorem hist_eq : (Sample.run Sample.L Sample.ord ops BoxFile.w0 []).1 = hist := by rw [hist]
theorem w_eq : (Sample.run Sample.L Sample.ord ops BoxFile.w0 []).2 = w := by rw [w]
theorem data_eq : (Writer.close Sample.L Sample.ord w).2.base.out.data = data := by rw [data]

theorem outcomes : hist.map (·.2) = outs := by decide +kernel
theorem closes : (Writer.close Sample.L Sample.ord w).1 = .ok () := by decide +kernel
theorem cfg_eq : w.cfg = BoxFile.w.cfg := by decide +kernel
theorem storable : Storable w.cfg := by rw [cfg_eq]; exact BoxFile.storable
theorem adds : ∀ op ∈ ops, op.isAdd = true := by
  intro op h
  simp only [ops, List.mem_cons, List.not_mem_nil, or_false] at h
  rcases h with rfl | rfl <;> rfl
theorem oks : ∀ x ∈ outs, x.isOk = true := by decide
theorem distinct : ((gotNodes outs).map (·.entry.key)).Nodup := by decide
theorem counted : ∀ n ∈ gotNodes outs, n.entry.key.InRange ∧ 0 < n.entry.pointCount ∧ n.entry.pointCount < 2 ^ 31 := by
  decide
theorem size : data.length < 2 ^ 63 := by decide +kernel
theorem few : w.pages.length + 1 < 2 ^ 31 := by decide +kernel

theorem written : Written Sample.L Sample.ord BoxFile.w0 w hist data :=
  (written_of BoxFile.made adds hist_eq w_eq data_eq outcomes oks closes distinct counted storable size few).1

end PtsFile

theorem notLarge_of {h : List (Op × Res (Option Node))} (ho : ∀ x ∈ h.map (·.2), x.isOk = true) : NoneTooLarge h := by
  intro x hx he
  have := ho _ (List.mem_map_of_mem hx)
  rw [he] at this
  cases this

theorem run_calls (L : Lazperf) (ord : Order) (l : List Op) (w : Writer) :
    ∀ h, (Sample.run L ord l w h).1.map (·.1) = h.map (·.1) ++ l := by
  induction l generalizing w with
  | nil => intro h; simp [Sample.run]
  | cons o l ih => intro h; rw [Sample.run, ih]; simp

theorem addedCalls_of {h : List (Op × Res (Option Node))} (ho : ∀ x ∈ h, ∃ n, x.2 = .ok (some n)) : addedCalls h = h.map (·.1) := by
  induction h with
  | nil => rfl
  | cons x h ih =>
    obtain ⟨n, hn⟩ := ho x List.mem_cons_self
    have := ih fun y hy => ho y (List.mem_cons_of_mem _ hy)
    obtain ⟨op, r⟩ := x
    obtain rfl : r = .ok (some n) := hn
    unfold addedCalls at this ⊢
    rw [List.filterMap_cons, List.map_cons, this]

theorem calls_all {L : Lazperf} {ord : Order} {ops : List Op} {w0 : Writer} {h : List (Op × Res (Option Node))} {outs}
    (he : (Sample.run L ord ops w0 []).1 = h) (ho : h.map (·.2) = outs) (hn : ∀ x ∈ outs, ∃ n, x = .ok (some n)) :
    addedCalls h = ops := by
  rw [addedCalls_of fun x hx => hn x.2 (by rw [← ho]; exact List.mem_map_of_mem hx), ← he, run_calls]
  rfl

theorem ptsFile_calls : addedCalls PtsFile.hist = PtsFile.ops :=
  calls_all PtsFile.hist_eq PtsFile.outcomes (by
    intro x hx
    simp only [PtsFile.outs, List.mem_cons, List.not_mem_nil, or_false] at hx
    rcases hx with rfl | rfl <;> exact ⟨_, rfl⟩)

theorem boxFile_calls : addedCalls BoxFile.hist = BoxFile.ops :=
  calls_all BoxFile.hist_eq BoxFile.outcomes (by
    intro x hx
    simp only [BoxFile.outs, List.mem_cons, List.not_mem_nil, or_false] at hx
    rcases hx with rfl | rfl <;> exact ⟨_, rfl⟩)

/-- The theorem on points applies to a file with two nodes and three points. -/
theorem ptsFile_ok : ∃ r qs, LazReader.init Sample.L ⟨PtsFile.data, 0, false⟩ = .ok r ∧ LazReader.getPoints Sample.L r = .ok qs ∧
    r.base.las.header.pointCount.toNat = 3 ∧ qs.length = 3 := by
  have hp : (addedCalls PtsFile.hist).flatMap Op.points = [LazSample.pt 1, LazSample.pt 5, LazSample.pt (-8)] := by
    rw [ptsFile_calls]; rfl
  obtain ⟨r, qs, h1, h2, h3, h4⟩ := C95_points PtsFile.written
    (notLarge_of (by rw [PtsFile.outcomes]; exact PtsFile.oks)) (by decide +kernel)
    (by
      rw [ptsFile_calls]
      intro op ho
      simp only [PtsFile.ops, List.mem_cons, List.not_mem_nil, or_false] at ho
      rcases ho with rfl | rfl <;> exact ⟨_, _, _, _, _, rfl⟩)
    (by
      rw [hp]
      intro p hp
      have hf : BoxFile.w0.cfg.header.fmt = 6 := by decide +kernel
      have hr : BoxFile.w0.cfg.header.recLen.toNat = 31 := by decide +kernel
      rw [hf, hr]
      simp only [List.mem_cons, List.not_mem_nil, or_false] at hp
      rcases hp with rfl | rfl | rfl <;> exact LazSample.pt_reach _)
    (by rw [hp]; decide)
  rw [hp] at h3 h4
  exact ⟨r, qs, h1, h2, h3, h4.length_eq.symm⟩

/-- The theorem on records applies to a file with two nodes and five records. -/
theorem boxFile_records : ∃ r, LazReader.init Sample.L ⟨BoxFile.data, 0, false⟩ = .ok r ∧
    r.base.las.header.pointCount.toNat = 5 ∧
    LazReader.getPointData Sample.L r = .ok [recAt 1 2 3, recAt 7 0 8, recAt 5 1 6, recAt 6 4 4, recAt 8 0 8].flatten := by
  have hr : BoxFile.w0.cfg.header.recLen.toNat = 31 := by decide +kernel
  obtain ⟨r, h1, h2, h3, h4⟩ := C95_records (recss := [[recAt 1 2 3, recAt 7 0 8], [recAt 5 1 6, recAt 6 4 4, recAt 8 0 8]])
    BoxFile.written.1 (notLarge_of (by rw [BoxFile.outcomes]; exact BoxFile.oks)) (by rw [hr]; decide)
    (by
      rw [boxFile_calls]
      refine .cons ⟨by simp, by decide, ?_, ?_⟩ (.cons ⟨by simp, by decide, ?_, ?_⟩ .nil)
      · rw [hr]; intro x hx
        simp only [List.mem_cons, List.not_mem_nil, or_false] at hx
        rcases hx with rfl | rfl <;> rfl
      · simp
      · rw [hr]; intro x hx
        simp only [List.mem_cons, List.not_mem_nil, or_false] at hx
        rcases hx with rfl | rfl | rfl <;> rfl
      · simp) (by decide)
  exact ⟨r, h1, h3, h4⟩

end Copc
