import Verif.Model.LazAgain
import Verif.Props.LazReader
/-! # C81: reading a LAZ file more than once -/
namespace Copc
open Spec

/-- The first call is the call of C55. -/
theorem C81_first (L : Lazperf) (r : LazReader) : LazReader.getPointDataNth L r 0 = LazReader.getPointData L r ∧
    LazReader.getPointsNth L r 0 = LazReader.getPoints L r := by
  have h : LazReader.getPointDataNth L r 0 = LazReader.getPointData L r := by
    unfold LazReader.getPointDataNth LazReader.getPointData
    simp only [Nat.zero_add, Nat.one_mul, Nat.zero_mul, List.drop_zero]
  refine ⟨h, ?_⟩
  unfold LazReader.getPointsNth LazReader.getPoints
  rw [h]

/-- With chunks that are not empty and hold all `n` points, more points than `n` cannot be read. -/
theorem readRecords_beyond {L : Lazperf} {fmt : Int} {eb : Nat} (m : Nat) : ∀ (cs : List Nat) (n : Nat) (ahead : Bytes)
    (recs : List Bytes), (∀ c ∈ cs, 0 < c) → cs.sum = n → LazReader.readRecords L fmt eb cs n ahead = .ok recs →
    LazReader.readRecords L fmt eb cs (n + m + 1) ahead = .ub
  | [], n, ahead, recs, _, hs, h => rfl
  | c :: cs, n, ahead, recs, hp, hs, h => by
    have hc := hp c (by simp)
    rw [List.sum_cons] at hs
    obtain ⟨n', rfl⟩ : ∃ n', n = n' + 1 := ⟨n - 1, by omega⟩
    rw [LazReader.readRecords] at h ⊢
    have hk : (if c = 0 then n' + 1 else min c (n' + 1)) = c := by rw [if_neg (by omega), Nat.min_eq_left (by omega)]
    have hk' : (if c = 0 then n' + 1 + m + 1 else min c (n' + 1 + m + 1)) = c := by
      rw [if_neg (by omega), Nat.min_eq_left (by omega)]
    simp only [hk] at h
    simp only [hk']
    cases hd : L.decompress fmt eb c ahead with
    | none => rw [hd] at h; cases h
    | some l =>
      rw [hd] at h
      obtain ⟨l', h1, _⟩ := Res.bind_ok_iff.1 h
      simp only
      have ih := readRecords_beyond m cs (n' + 1 - c) _ l' (fun x hx => hp x (by simp [hx])) (by omega) h1
      rw [show n' + 1 + m + 1 - c = n' + 1 - c + m + 1 by omega, ih]
      rfl

/-- C81 (for files without points): every call gives the empty collection. -/
theorem C81_empty_partial {L : Lazperf} {r : LazReader} (hn : r.base.las.header.pointCount = 0) (k : Nat) :
    LazReader.getPointDataNth L r k = LazReader.getPointDataNth L r 0 ∧
      LazReader.getPointsNth L r k = LazReader.getPointsNth L r 0 := by
  have h : LazReader.getPointDataNth L r k = LazReader.getPointDataNth L r 0 := by
    unfold LazReader.getPointDataNth
    have hz : r.base.las.header.pointCount.toNat = 0 := by rw [hn]; rfl
    simp only [hz, Nat.mul_zero]
  refine ⟨h, ?_⟩
  unfold LazReader.getPointsNth
  rw [h]

/-- Any LAZ file, whoever wrote it: if its chunks are not empty and hold the points that the header declares, at least
one, and the first call returns, every later call is undefined. -/
theorem C81_later_violated {L : Lazperf} {r : LazReader} (hp : ∀ c ∈ r.chunks, 0 < c)
    (hs : r.chunks.sum = r.base.las.header.pointCount.toNat) (hn : 0 < r.base.las.header.pointCount.toNat)
    {bs : Bytes} (h : LazReader.getPointData L r = .ok bs) (k : Nat) :
    LazReader.getPointDataNth L r (k + 1) = .ub ∧ LazReader.getPointsNth L r (k + 1) = .ub := by
  have hd : LazReader.getPointDataNth L r (k + 1) = .ub := by
    unfold LazReader.getPointData at h
    unfold LazReader.getPointDataNth
    obtain ⟨eb, h1, h⟩ := Res.bind_ok_iff.1 h
    obtain ⟨size, h2, h⟩ := Res.bind_ok_iff.1 h
    dsimp only
    rw [h1, Res.okBind, h2, Res.okBind]
    dsimp only at h ⊢
    split at h
    · cases h
    · rename_i hb
      obtain ⟨recs, h3, _⟩ := Res.bind_ok_iff.1 h
      rw [if_neg hb]
      have hm : 0 < (k + 1) * r.base.las.header.pointCount.toNat := Nat.mul_pos (by omega) hn
      have e : (k + 1 + 1) * r.base.las.header.pointCount.toNat =
          r.base.las.header.pointCount.toNat + ((k + 1) * r.base.las.header.pointCount.toNat - 1) + 1 := by
        rw [Nat.add_mul (k + 1) 1, Nat.one_mul]
        omega
      rw [e, readRecords_beyond _ r.chunks _ _ recs hp hs h3]
      rfl
  refine ⟨hd, ?_⟩
  unfold LazReader.getPointsNth
  rw [hd]
  rfl

/-- So for every file with points that a LAZ writer wrote: the first `GetPointData` returns the records (C55), every
later one is undefined. -/
theorem C81_written_violated {L : Lazperf} {w0 w : LazWriter} {h : List (LazOp × Res Unit)} {data : Bytes}
    (hw : LazWritten L w0 w h data) (hs : w0.cfg.header.recLen.toNat ≤ 255) {recss : List (List Bytes)}
    (hg : List.Forall₂ (LazOp.Gives L w0.cfg.header) (chunkCalls h) recss) (hn : recss.flatten.length < 2 ^ 64)
    (hne : recss ≠ []) :
    ∃ r, LazReader.init L ⟨data, 0, false⟩ = .ok r ∧ LazReader.getPointDataNth L r 0 = .ok recss.flatten.flatten ∧
      ∀ k, LazReader.getPointDataNth L r (k + 1) = .ub ∧ LazReader.getPointsNth L r (k + 1) = .ub := by
  obtain ⟨r, h1, _, h3, h4, h5⟩ := hw.reader hs hg hn
  have hgr := gives_each hg
  have hpos : ∀ c ∈ r.chunks, 0 < c := by
    rw [h5]
    intro c hc
    obtain ⟨recs, hr, rfl⟩ := List.mem_map.1 hc
    exact List.length_pos_iff.2 (hgr recs hr).1
  have hsum : r.chunks.sum = r.base.las.header.pointCount.toNat := by rw [h5, h3, List.length_flatten]
  refine ⟨r, h1, by rw [(C81_first L r).1, h4], C81_later_violated hpos hsum ?_ h4⟩
  rw [← hsum]
  obtain ⟨recs, l, rfl⟩ := List.exists_cons_of_ne_nil hne
  rw [h5, List.map_cons, List.sum_cons]
  have := List.length_pos_iff.2 (hgr recs (by simp)).1
  omega

/-- Non-vacuity: the sample file. -/
example : ∃ r, LazReader.init LazSample.L ⟨LazSample.closed.base.out.data, 0, false⟩ = .ok r ∧
    ∀ k, LazReader.getPointsNth LazSample.L r (k + 1) = .ub := by
  have hg : List.Forall₂ (LazOp.Gives LazSample.L LazSample.w0.cfg.header) (chunkCalls LazSample.hist)
      [lazSampleRecs [LazSample.pt 1, LazSample.pt 5], [List.replicate 31 4], lazSampleRecs [LazSample.pt (-8)]] := by
    rw [lazSample_calls]
    exact .cons lazSample_points1 (.cons lazSample_compressed (.cons lazSample_points2 .nil))
  obtain ⟨r, h1, _, h2⟩ := C81_written_violated lazSample_written (by decide +kernel) hg (by decide +kernel) (by simp)
  exact ⟨r, h1, fun k => (h2 k).2⟩

end Copc
