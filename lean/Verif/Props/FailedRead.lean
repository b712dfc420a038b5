import Verif.Props.BoxSample
/-!
# C43: reads after a failed read

The property does not hold: a read past the end of the file leaves the stream failed, and no later call
clears it before it reads.
-/
namespace Copc
open Spec VoxelKey

theorem Opened.bytes {data : Bytes} {ps : List FPage} {r : Reader} (h : Opened data ps r) : r.h.str.data = data :=
  (init_facts h.init).1

section
variable {data : Bytes} {ps : List FPage} {r r1 : Reader} {L : Lazperf} {l : List Query}

/-- While no call has left the stream failed: the compressed data of a node that lies in the file is the
slice its entry describes, and reading it leaves the stream good. -/
theorem C43_compressed_partial (hg : GoodHierarchy data ps) (ho : Opened data ps r) (ha : Asked L r l r1) {n : Node}
    (hlen : data.length < 2 ^ 63) (hv : n.isValid = true)
    (hin : n.entry.offset + n.entry.byteSize.toNat ≤ data.length) :
    ∃ r2, Reader.getPointDataCompressed n r1 = (.ok (slice data n.entry.offset n.entry.byteSize.toNat), r2) ∧
      r2.h.str.fail = false := by
  obtain ⟨hi, _⟩ := ha.rInv hg (ho.rInv hg)
  exact ⟨_, compressed_reads hi.data hi.good hlen hv hin, rfl⟩

/-- While no call has left the stream failed: a node that could be read at the start gives the same points. -/
theorem C43_points_partial (hg : GoodHierarchy data ps) (ho : Opened data ps r) (ha : Asked L r l r1) {n : Node}
    {pts : List Point} (hp : PointsOf L r n pts) :
    ∃ r2, Reader.getPoints L n r1 = (.ok pts, r2) ∧ r2.h.str.fail = false := by
  obtain ⟨hi, hc⟩ := ha.rInv hg (ho.rInv hg)
  obtain ⟨r2, e, f⟩ := hp.again ho.good ((ho.rInv hg).fresh hi hc)
  exact ⟨r2, e, f.good⟩

end

/-- A read past the end of the file returns normally and leaves the stream failed. -/
theorem C43_short {r : Reader} {n : Node} (hr : r.h.str.fail = false) (hv : n.isValid = true)
    (hpos : n.entry.offset < 2 ^ 63) (hout : r.h.str.data.length < n.entry.offset + n.entry.byteSize.toNat) :
    ∃ bs r', Reader.getPointDataCompressed n r = (.ok bs, r') ∧ r'.h.str.fail = true := by
  unfold Reader.getPointDataCompressed
  rw [Act.bind_apply, Act.throwIf_apply, if_neg (by simp [hv])]
  refine ⟨((r.h.str.seekg n.entry.offset).readFilled n.entry.byteSize.toNat).1,
    r.withStr ((r.h.str.seekg n.entry.offset).readFilled n.entry.byteSize.toNat).2, rfl, ?_⟩
  show ((r.h.str.seekg n.entry.offset).read n.entry.byteSize.toNat).2.fail = true
  unfold IStream.seekg IStream.read
  rw [hr]
  simp only [Bool.false_eq_true, if_false, if_pos hpos]
  rw [if_neg (by omega)]

/-- From then on every compressed read of every node returns zeros, and the stream stays failed. -/
theorem C43_poisoned {r : Reader} {n : Node} (hr : r.h.str.fail = true) (hv : n.isValid = true) :
    Reader.getPointDataCompressed n r = (.ok (List.replicate n.entry.byteSize.toNat 0), r) := by
  have h1 : r.h.str.seekg n.entry.offset = r.h.str := by unfold IStream.seekg; rw [if_pos hr]
  have h2 : r.h.str.readFilled n.entry.byteSize.toNat = (List.replicate n.entry.byteSize.toNat 0, r.h.str) := by
    unfold IStream.readFilled IStream.read
    rw [if_pos hr]
    simp [padTo]
  unfold Reader.getPointDataCompressed
  rw [Act.bind_apply, Act.throwIf_apply, if_neg (by simp [hv])]
  show ((Res.ok ((r.h.str.seekg n.entry.offset).readFilled n.entry.byteSize.toNat).1 : Res Bytes),
    (r.withStr ((r.h.str.seekg n.entry.offset).readFilled n.entry.byteSize.toNat).2)) = _
  rw [h1, h2]
  rfl

/-- A node read with `GetPoints` in that state throws, unless it claims to have no points. -/
theorem C43_poisoned_points {L : Lazperf} {r : Reader} {n : Node} (hr : r.h.str.fail = true) (hv : n.isValid = true)
    (hn : 0 < n.entry.pointCount) (hempty : ∀ fmt eb k, 0 < k → L.decompress fmt eb k [] = none) :
    ∀ ps r', Reader.getPoints L n r ≠ (.ok ps, r') := by
  intro ps r' h
  rw [getPoints_eq hv] at h
  obtain ⟨bs, e1, _⟩ := Res.bind_ok_iff.1 (congrArg Prod.fst h)
  have h1 : r.h.str.seekg n.entry.offset = r.h.str := by unfold IStream.seekg; rw [if_pos hr]
  rw [h1] at e1
  unfold Reader.decompressBytes Reader.decompressStream at e1
  split at e1
  · split at e1
    · rw [if_neg (by omega)] at e1
      split at e1
      · cases e1
      · rw [hempty _ _ _ (by omega)] at e1
        cases e1
    · cases e1
    · cases e1
  · cases e1
  · cases e1

namespace BoxFile

/-- A node that does not lie in the file. -/
def beyond : Node := ⟨⟨Sample.kB, 2000, 4000, 1⟩, VoxelKey.root⟩

theorem after_short : reader.map (fun r => ((Reader.getPointDataCompressed root r).1,
      (Reader.getPointDataCompressed root (Reader.getPointDataCompressed beyond r).2).1)) =
    some (.ok (recAt 1 2 3 ++ recAt 7 0 8), .ok (List.replicate 62 0)) := by decide +kernel

theorem length_between : 1600 ≤ data.length ∧ data.length < 6000 := by decide +kernel
theorem valid : root.isValid = true ∧ beyond.isValid = true := by decide +kernel

end BoxFile

/-- On a file written by the library, a node of it that reads correctly on a fresh reader reads as zeros
after a read past the end of the file, which itself returned normally. -/
theorem C43_violated : ∃ ps r n m good bad bs r1 r2 r3, GoodHierarchy BoxFile.data ps ∧ Opened BoxFile.data ps r ∧
    NodeOf ps n ∧ Reader.getPointDataCompressed n r = (.ok good, r1) ∧
    Reader.getPointDataCompressed m r = (.ok bs, r2) ∧ Reader.getPointDataCompressed n r2 = (.ok bad, r3) ∧
    good = slice BoxFile.data n.entry.offset n.entry.byteSize.toNat ∧ bad ≠ good := by
  obtain ⟨ps, r, _, g1, g4, hnode, _⟩ := boxFile_ok
  have hr : BoxFile.reader = some r := by unfold BoxFile.reader; rw [g4.init]
  have h := BoxFile.after_short
  rw [hr] at h
  obtain ⟨h1, h2⟩ := Prod.mk.inj (Option.some.inj h)
  obtain ⟨d1, d2⟩ := BoxFile.length_between
  have hin : BoxFile.root.entry.offset + BoxFile.root.entry.byteSize.toNat = 1593 := by decide
  have hout : BoxFile.beyond.entry.offset + BoxFile.beyond.entry.byteSize.toNat = 6000 := by decide
  obtain ⟨r1, e1, _⟩ := C43_compressed_partial (L := Sample.L) (n := BoxFile.root) g1 g4 .none (by omega) BoxFile.valid.1
    (by omega)
  have hdata := g4.bytes
  obtain ⟨bs, r2, e2, f2⟩ := C43_short (n := BoxFile.beyond) g4.good BoxFile.valid.2 (by decide)
    (by rw [hdata]; omega)
  have e3 := C43_poisoned (n := BoxFile.root) f2 BoxFile.valid.1
  refine ⟨ps, r, BoxFile.root, BoxFile.beyond, _, _, bs, r1, r2, r2, g1, g4, (hnode _).2 (.inl rfl), e1, e2, e3, rfl, ?_⟩
  have hg : Res.ok (slice BoxFile.data BoxFile.root.entry.offset BoxFile.root.entry.byteSize.toNat) =
      Res.ok (recAt 1 2 3 ++ recAt 7 0 8) := by
    rw [← h1, e1]
  rw [Res.ok.inj hg]
  have : BoxFile.root.entry.byteSize.toNat = 62 := by decide
  rw [this]
  decide

end Copc
