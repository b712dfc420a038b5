import Verif.Props.LazRewrite
import Verif.Props.FilterSample
/-! # C98 applies to a program -/
namespace Copc.LazSample
open Copc Spec

/-- What the reader of the sample file has and gives. -/
def readCfg : Res LazConfig := (LazReader.init L ⟨closed.base.out.data, 0, false⟩).bind fun r => .ok r.base.las
def readPts : Res (List Point) := (LazReader.init L ⟨closed.base.out.data, 0, false⟩).bind (LazReader.getPoints L)
def rwPts : List Point := Sample.getOk readPts
def rwCfg : LazConfig := Sample.getOk readCfg
def rw0 : LazWriter := Sample.getOk (LazWriter.make OStream.fresh rwCfg)

/-- The points, as many at a time as in the chunks. -/
def rwGroups : List (List Point) := [rwPts.take 2, (rwPts.drop 2).take 1, rwPts.drop 3]
def rwOps : List LazOp := rwGroups.map (LazOp.points 6 31)
def rwHist : List (LazOp × Res Unit) := (run L rwOps rw0 []).1
def rwW : LazWriter := (run L rwOps rw0 []).2
def rwClosed : LazWriter := (LazWriter.close L rwW).2

theorem rwOutcomes : rwHist.map (·.2) = [.ok (), .ok (), .ok ()] := by decide +kernel
theorem rwCloses : (LazWriter.close L rwW).1 = .ok () := by decide +kernel
theorem rwMade : LazWriter.make OStream.fresh rwCfg = .ok rw0 := make_of_ok (by decide +kernel) rfl

theorem rwHist_eq : rwHist = rwOps.zip [.ok (), .ok (), .ok ()] := by
  rw [zip_maps rwHist, rwOutcomes, show rwHist.map (·.1) = [] ++ rwOps from run_ops rwOps rw0 []]
  rfl

theorem rwHistory : LazHistory L rw0 rwHist rwW :=
  run_history rwOps rw0 [] .start (by
    intro x hx
    have hm : x.2 ∈ rwHist.map (·.2) := List.mem_map_of_mem hx
    rw [rwOutcomes] at hm
    intro he
    rw [he] at hm
    simp at hm)

theorem rwCfg_eq : rwW.cfg = rw0.cfg := by
  have h1 : rwW.cfg.header = rw0.cfg.header := by decide +kernel
  have h2 : rwW.cfg.wkt = rw0.cfg.wkt := by decide +kernel
  have h3 : rwW.cfg.eb = rw0.cfg.eb := by decide +kernel
  cases h : rwW.cfg
  cases h' : rw0.cfg
  rw [h, h'] at h1 h2 h3
  simp only at h1 h2 h3
  rw [h1, h2, h3]

theorem rwRead : ∃ r, LazReader.init L ⟨closed.base.out.data, 0, false⟩ = .ok r ∧ r.base.las = rwCfg := by
  have hg : List.Forall₂ (LazOp.Gives L w0.cfg.header) (chunkCalls hist)
      [lazSampleRecs [pt 1, pt 5], [List.replicate 31 4], lazSampleRecs [pt (-8)]] := by
    rw [lazSample_calls]
    exact .cons lazSample_points1 (.cons lazSample_compressed (.cons lazSample_points2 .nil))
  obtain ⟨r, h1, _⟩ := lazSample_written.reader (by decide +kernel) hg (by decide +kernel)
  refine ⟨r, h1, ?_⟩
  unfold rwCfg readCfg
  rw [h1]
  rfl

theorem rwStorable : LazStorable rwW.cfg := by
  obtain ⟨_, _, _, _, _, hd, _⟩ := lazSample_written.doneAt
  obtain ⟨r, h1, h2⟩ := rwRead
  have hlas := lazSample_written.restores h1 hd
  obtain ⟨_, _, _, hc⟩ := lazMake_ok rwMade
  rw [rwCfg_eq, hc, ← h2, hlas]
  exact LazStorable.again lazSample_storable _

theorem rwClose_eq : LazWriter.close L rwW = (.ok (), rwClosed) := by
  unfold rwClosed
  have h := rwCloses
  generalize LazWriter.close L rwW = x at h ⊢
  obtain ⟨a, b⟩ := x
  cases h
  rfl

theorem rwUnclosed : ∀ op ∈ rwOps, op ≠ LazOp.close := by
  intro op h
  obtain ⟨_, _, rfl⟩ := List.mem_map.1 h
  intro e
  cases e

theorem rwSize : rwClosed.base.out.data.length < 2 ^ 63 := by decide +kernel

theorem rwWritten : LazWritten L rw0 rwW rwHist rwClosed.base.out.data where
  made := ⟨_, rwMade⟩
  history := rwHistory
  unclosed := by
    intro x hx
    have hm : x.1 ∈ rwHist.map (·.1) := List.mem_map_of_mem hx
    rw [show rwHist.map (·.1) = [] ++ rwOps from run_ops rwOps rw0 [], List.nil_append] at hm
    exact rwUnclosed _ hm
  noneTooLarge := by
    intro x hx
    have hm : x.2 ∈ rwHist.map (·.2) := List.mem_map_of_mem hx
    rw [rwOutcomes] at hm
    intro he
    rw [he] at hm
    simp at hm
  closed := ⟨_, rwClose_eq, rfl⟩
  storable := rwStorable
  size := rwSize

theorem rwCalls : chunkCalls rwHist = rwGroups.map (LazOp.points 6 31) := by
  have hne : ∀ g ∈ rwGroups, g ≠ [] := by decide +kernel
  rw [rwHist_eq]
  unfold rwOps
  unfold rwGroups at *
  generalize rwPts.take 2 = a at *
  generalize (rwPts.drop 2).take 1 = b at *
  generalize rwPts.drop 3 = c at *
  obtain ⟨a1, a2, rfl⟩ := List.exists_cons_of_ne_nil (hne a (by simp))
  obtain ⟨b1, b2, rfl⟩ := List.exists_cons_of_ne_nil (hne b (by simp))
  obtain ⟨c1, c2, rfl⟩ := List.exists_cons_of_ne_nil (hne c (by simp))
  rfl

/-- The points of the sample file, read and written again, give the sample file. -/
example : rwClosed.base.out.data = closed.base.out.data := by
  have hg : List.Forall₂ (LazOp.Gives L w0.cfg.header) (chunkCalls hist)
      [lazSampleRecs [pt 1, pt 5], [List.replicate 31 4], lazSampleRecs [pt (-8)]] := by
    rw [lazSample_calls]
    exact .cons lazSample_points1 (.cons lazSample_compressed (.cons lazSample_points2 .nil))
  obtain ⟨r, h1, _, _, h4, h5⟩ := lazSample_written.reader (by decide +kernel) hg (by decide +kernel)
  have hc : r.base.las = rwCfg := by
    unfold rwCfg readCfg
    rw [h1]
    rfl
  have hok : readPts.isOk = true := by decide +kernel
  have hp : LazReader.getPoints L r = .ok rwPts := by
    unfold rwPts
    have e : readPts = LazReader.getPoints L r := by unfold readPts; rw [h1]; rfl
    rw [e] at hok ⊢
    cases h : LazReader.getPoints L r with
    | ok a => rfl
    | throw e => rw [h] at hok; cases hok
    | ub => rw [h] at hok; cases hok
  have hs : w0.cfg.header.scale = ⟨Flt.ofInt 1, Flt.ofInt 1, Flt.ofInt 1⟩ := by decide +kernel
  have ho : w0.cfg.header.offset = ⟨Flt.ofInt 0, Flt.ofInt 0, Flt.ofInt 0⟩ := by decide +kernel
  have gd : ∀ {s o : Dbl}, s = Flt.ofInt 1 → o = Flt.ofInt 0 → GoodScale s o := by
    rintro _ _ rfl rfl; exact FilterSample.good_one
  refine C98_points lazSample_written (by decide +kernel) hg (by decide +kernel) (gd (by rw [hs]) (by rw [ho]))
    (gd (by rw [hs]) (by rw [ho])) (gd (by rw [hs]) (by rw [ho])) h1 hp (by rw [hc]; exact rwMade) rwWritten rwCfg_eq
    (qss := rwGroups) ?_ ?_ rwCalls
  · decide +kernel
  · rw [h5]; decide +kernel

end Copc.LazSample
