import Verif.Props.RewritePoints
import Verif.Props.FilterSample
/-! # C99 applies to a program that reads points and writes them -/
namespace Copc
open Spec

open FilterSample in
/-- Two nodes of two and three points are read as points and written again: the same file. -/
example : ∃ (r : Reader) (pts : Node → List Point) (v0 v v' : Writer),
    Reader.init ⟨BoxFile.data, 0, false⟩ = .ok r ∧
    (∀ n ∈ addedNodes BoxFile.hist, ((pts n).length : Int) = n.entry.pointCount ∧
      ∃ r2, Run.Ends (fun k => Reader.getPointsAt Sample.L k n.entry.key) r (.ok (pts n), r2)) ∧
    (addedNodes BoxFile.hist).map (·.entry.pointCount) = [2, 3] ∧
    Writer.make OStream.fresh r.cfg {} = .ok v0 ∧
    History Sample.L Sample.ord v0 (BoxFile.hist.map (replaced fun n =>
      .addPoints n.entry.key r.cfg.header.fmt r.cfg.header.recLen.toNat (pts n) n.pageKey)) v ∧
    Writer.close Sample.L Sample.ord v = (.ok (), v') ∧ v'.base.out.data = BoxFile.data := by
  obtain ⟨r, all, r2, hw, hr, h31, hall, hp, f1, f2, f3, f4, hold, _⟩ := facts
  obtain ⟨_, _, _, h4, h5⟩ := header
  have hrep : ∀ n, reported BoxFile.hist n = n := fun n => CopySample.reported_eq n
  have hin : ∀ n ∈ addedNodes BoxFile.hist, n ∈ all := by
    intro n hn
    rw [BoxFile.written.2.1] at hn
    exact hp.symm.subset hn
  have hpts : ∀ n, ∃ ps : List Point, n ∈ addedNodes BoxFile.hist → (ps.length : Int) = n.entry.pointCount ∧
      ∃ r2, Run.Ends (fun k => Reader.getPointsAt Sample.L k n.entry.key) r (.ok ps, r2) := by
    intro n
    by_cases hn : n ∈ addedNodes BoxFile.hist
    · obtain ⟨_, _, ps, k1, k2, _⟩ := hw.node_points hr .none (by omega) hn (recs := recsOf n)
        (by rw [hrep]; exact hold n (hin n hn))
      exact ⟨ps, fun _ => ⟨k1, k2⟩⟩
    · exact ⟨[], fun h => absurd h hn⟩
  obtain ⟨pts, hpts⟩ := Classical.axiomOfChoice hpts
  have hx : GoodScale r.cfg.header.scale.x r.cfg.header.offset.x ∧ GoodScale r.cfg.header.scale.y r.cfg.header.offset.y ∧
      GoodScale r.cfg.header.scale.z r.cfg.header.offset.z := by
    rw [f3, f4, h4, h5]; exact ⟨good_one, good_one, good_one⟩
  obtain ⟨v0, v, v', a1, a2, _, a3, a4⟩ := C99_points hw hr .none (by omega) hx.1 hx.2.1 hx.2.2
    (fun n hn => ⟨_, hold n (hin n hn)⟩) (by
      intro n hn
      rw [h31]
      rw [BoxFile.written.2.1] at hn
      rcases List.mem_cons.1 hn with rfl | hn
      · decide
      · rw [List.mem_singleton.1 hn]; decide) (fun n hn => (hpts n hn).2)
  exact ⟨r, pts, v0, v, v', hr, hpts, by rw [BoxFile.written.2.1]; rfl, a1, a2, a3, a4⟩

end Copc
