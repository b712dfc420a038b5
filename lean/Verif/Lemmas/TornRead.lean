import Verif.Props.RoundTrip
import Verif.Spec.Crash
/-! # Two files that differ only before the point data -/
namespace Copc
open Spec VoxelKey

theorem seekg_failed {s : IStream} (h : s.fail = true) (p : Nat) : (s.seekg p).fail = true := by
  unfold IStream.seekg
  rw [if_pos h]; exact h

theorem read_failed {s : IStream} (h : s.fail = true) (n : Nat) : (s.read n).2.fail = true := by
  unfold IStream.read
  rw [if_pos h]; exact h

theorem items_failed {v : List (Nat × VlrHeader)} {o : Nat} {s : IStream} (h : s.fail = true) :
    (Reader.readExtentItems v o s).2.fail = true := read_failed (seekg_failed h _) _

theorem extents_failed {f : Int} {v : List (Nat × VlrHeader)} {eb : List EbField} {s : IStream}
    (h : s.fail = true) : (Reader.readExtents f v eb s).2.fail = true := by
  unfold Reader.readExtents
  dsimp only
  split
  · split
    · split
      · exact items_failed (items_failed h)
      · exact items_failed h
    · exact items_failed h
    · exact items_failed h
  · exact h

/-- The configuration a file opens with: header and COPC information come from its first 589 bytes. -/
theorem opens_parts {d : Bytes} {r : Reader} (h : Reader.init ⟨d, 0, false⟩ = .ok r) (hg : r.h.str.fail = false) :
    ∃ hd, LasHeader.fromLazPerf (stripFormat (Header14.decode (d.take 375))) = .ok hd ∧
      r.cfg.header = hd.withCopc true ∧ r.cfg.info = CopcInfo.decode (padTo 160 ((d.drop 429).take 160)) ∧
      589 ≤ d.length := by
  unfold Reader.init at h
  obtain ⟨b, hb, h⟩ := Res.bind_ok_iff.1 h
  unfold BaseReader.init at hb
  simp only [Bool.false_eq_true, if_false] at hb
  obtain ⟨h14, e14, hb⟩ := Res.bind_ok_iff.1 hb
  obtain ⟨hd, ehd, hb⟩ := Res.bind_ok_iff.1 hb
  obtain ⟨t, ht, hb⟩ := Res.bind_ok_iff.1 hb
  obtain ⟨wkt, _, hb⟩ := Res.bind_ok_iff.1 hb
  obtain ⟨eb, _, hb⟩ := Res.bind_ok_iff.1 hb
  injection hb with hb
  have hdat : b.str.data = d := by
    rw [← hb]
    exact (readEb_data _ _).trans ((readWkt_data _ _).trans (readVlrHeaders_data _ _))
  have hhd : b.las.header = hd := by rw [← hb]
  clear hb
  unfold BaseReader.readHeader at e14
  split at e14
  · cases e14
  injection e14 with e14
  rw [← e14] at ehd
  unfold Reader.initCopc at h
  dsimp only at h
  split at h
  · cases h
  obtain ⟨info, hi, h⟩ := Res.bind_ok_iff.1 h
  obtain ⟨ex, _, h⟩ := Res.bind_ok_iff.1 h
  obtain ⟨cfg, hcfg, h⟩ := Res.bind_ok_iff.1 h
  injection h with h
  rw [← h] at hg
  have hgi : (Reader.readInfo b.vlrs b.str).2.fail = false := by
    cases e : (Reader.readInfo b.vlrs b.str).2.fail with
    | false => rfl
    | true => exact absurd (extents_failed e) (by rw [hg]; simp)
  unfold CopcConfig.ofParts at hcfg
  obtain ⟨e, _, hcfg⟩ := Res.bind_ok_iff.1 hcfg
  injection hcfg with hcfg
  refine ⟨hd, ehd, by rw [← h, ← hcfg, hhd], ?_⟩
  have hinf : r.cfg.info = info := by rw [← h, ← hcfg]
  rw [hinf]
  unfold Reader.readInfo at hi hgi
  dsimp only at hi hgi
  split at hi
  · cases hi
  rename_i h0
  rw [if_neg h0] at hgi
  split at hi
  · cases hi
  rename_i h375
  rw [if_neg h375] at hgi
  rw [Decidable.not_not.1 h375] at hi hgi
  injection hi with hi
  rw [← hi]
  unfold IStream.readFilled at hgi ⊢
  dsimp only at hgi ⊢
  unfold IStream.read at hgi ⊢
  by_cases hf : (b.str.seekg (375 + 54)).fail = true
  · rw [if_pos hf] at hgi
    rw [hf] at hgi
    cases hgi
  · rw [if_neg hf] at hgi ⊢
    have hs : b.str.seekg (375 + 54) = { b.str with pos := 429 } := by
      unfold IStream.seekg at hf ⊢
      by_cases hb : b.str.fail = true
      · rw [if_pos hb] at hf; exact absurd hb hf
      · rw [if_neg hb, if_pos (by decide)]
    rw [hs] at hgi ⊢
    split at hgi
    · rename_i hle
      rw [if_pos hle]
      dsimp only at hle ⊢
      rw [hdat] at hle ⊢
      exact ⟨rfl, by omega⟩
    · cases hgi

/-- Two files of the same length with the same bytes from `n` on. -/
structure SameFrom (n : Nat) (a b : Bytes) : Prop where
  length : a.length = b.length
  drop : a.drop n = b.drop n

theorem SameFrom.at {n : Nat} {a b : Bytes} (h : SameFrom n a b) {p : Nat} (hp : n ≤ p) : a.drop p = b.drop p := by
  have : p = n + (p - n) := by omega
  rw [this, ← List.drop_drop, ← List.drop_drop, h.drop]

theorem SameFrom.slice {n : Nat} {a b : Bytes} (h : SameFrom n a b) {p : Nat} (hp : n ≤ p) (k : Nat) :
    slice a p k = slice b p k := by
  unfold Copc.slice
  rw [h.at hp]

theorem SameFrom.good {n : Nat} {a b : Bytes} (h : SameFrom n a b) {ps : List FPage} (hg : GoodHierarchy a ps)
    (hp : ∀ q ∈ ps, n ≤ q.offset) : GoodHierarchy b ps where
  distinct := hg.distinct
  root := hg.root
  inTree := hg.inTree
  stored := fun p hpm => by
    obtain ⟨subs, h1, h2, es, h3, h4, h5⟩ := hg.stored p hpm
    exact ⟨subs, h1, h2, es, h3, h4, (h.slice (hp p hpm) _).symm.trans h5⟩
  pageRange := hg.pageRange
  entries := hg.entries
  nodesDistinct := hg.nodesDistinct

theorem ZeroGap.sameFrom {f d : Bytes} {j n : Nat} (h : ZeroGap f j n d) : SameFrom n f d where
  length := h.2.2.1.symm
  drop := by
    apply List.ext_getElem?
    intro i
    rw [List.getElem?_drop, List.getElem?_drop, h.2.2.2, if_neg (by omega)]

theorem ZeroGap.take {f d : Bytes} {j n m : Nat} (h : ZeroGap f j n d) (hj : m ≤ j) : d.take m = f.take m := by
  apply List.ext_getElem?
  intro i
  rw [List.getElem?_take, List.getElem?_take]
  split
  · rw [h.2.2.2, if_neg (by omega)]
  · rfl

end Copc
