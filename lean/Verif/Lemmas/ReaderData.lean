import Verif.Lemmas.ReaderCalls
import Verif.Lemmas.RecFile
/-! # Reading the data of a node -/
namespace Copc
open Spec VoxelKey

theorem split_slice {data : Bytes} {o n : Nat} (h : o + n ≤ data.length) :
    data = data.take o ++ (slice data o n ++ data.drop (o + n)) ∧ (data.take o).length = o ∧
      (slice data o n).length = n := by
  refine ⟨?_, by rw [List.length_take]; omega, ?_⟩
  · unfold slice
    have : data.drop (o + n) = (data.drop o).drop n := by rw [List.drop_drop]
    rw [this, List.take_append_drop, List.take_append_drop]
  · unfold slice; rw [List.length_take, List.length_drop]; omega

theorem str_eta {s : IStream} {data : Bytes} (h1 : s.data = data) (h2 : s.fail = false) :
    s = ⟨data, s.pos, false⟩ := by
  obtain ⟨d, p, f⟩ := s
  subst h1
  obtain rfl : f = false := h2
  rfl

/-- Reading the compressed data of a node that lies in the file. -/
theorem compressed_reads {r : Reader} {data : Bytes} (h1 : r.h.str.data = data) (h2 : r.h.str.fail = false)
    (hlen : data.length < 2 ^ 63) {n : Node} (hv : n.isValid = true)
    (hin : n.entry.offset + n.entry.byteSize.toNat ≤ data.length) :
    Reader.getPointDataCompressed n r = (.ok (slice data n.entry.offset n.entry.byteSize.toNat),
      r.withStr ⟨data, n.entry.offset + n.entry.byteSize.toNat, false⟩) := by
  obtain ⟨e, el, es⟩ := split_slice hin
  have hr := readFilled_at e hlen el.symm r.h.str.pos es.symm
  unfold Reader.getPointDataCompressed
  rw [Act.bind_apply, Act.throwIf_apply, if_neg (by simp [hv])]
  show ((Res.ok ((r.h.str.seekg n.entry.offset).readFilled n.entry.byteSize.toNat).1 : Res Bytes),
    (r.withStr ((r.h.str.seekg n.entry.offset).readFilled n.entry.byteSize.toNat).2)) = _
  rw [str_eta h1 h2, hr]

theorem take_all {size : Nat} : ∀ {recs : List Bytes}, (∀ x ∈ recs, x.length = size) →
    (recs.map (·.take size)) = recs
  | [], _ => rfl
  | a :: l, h => by
    rw [List.map_cons, take_all fun x hx => h x (by simp [hx]), List.take_of_length_le (h a (by simp)).le]

theorem size_eq {fmt : Int} {eb size : Nat} (hp : pointByteSize fmt eb = .ok size) :
    (fmt = 6 ∨ fmt = 7 ∨ fmt = 8) ∧ size = (lazBase fmt + eb) % 65536 := by
  unfold pointByteSize pointBaseByteSize at hp
  unfold lazBase
  by_cases h6 : fmt = 6
  · rw [if_pos h6] at hp; simp [h6] at hp ⊢; exact hp.symm
  · by_cases h7 : fmt = 7
    · rw [if_neg h6, if_pos h7] at hp; simp [h7] at hp ⊢; exact hp.symm
    · by_cases h8 : fmt = 8
      · rw [if_neg h6, if_neg h7, if_pos h8] at hp; simp [h8] at hp ⊢; exact hp.symm
      · rw [if_neg h6, if_neg h7, if_neg h8] at hp; simp at hp

/-- Reading the records of a node whose bytes are the compression of some records. -/
theorem pointData_reads {L : Lazperf} {r : Reader} {data : Bytes} (h1 : r.h.str.data = data)
    (h2 : r.h.str.fail = false) (hlen : data.length < 2 ^ 63) {n : Node} (hv : n.isValid = true)
    (hin : n.entry.offset + n.entry.byteSize.toNat ≤ data.length) {eb size : Nat} {recs : List Bytes}
    (he : r.cfg.header.ebSize = .ok eb) (hp : pointByteSize r.cfg.header.fmt eb = .ok size) (hs : lazBase r.cfg.header.fmt + eb ≤ 255)
    (hf : r.cfg.header.fmt = 6 ∨ r.cfg.header.fmt = 7 ∨ r.cfg.header.fmt = 8)
    (hc : slice data n.entry.offset n.entry.byteSize.toNat = L.compress r.cfg.header.fmt eb recs)
    (hrec : ∀ x ∈ recs, x.length = lazBase r.cfg.header.fmt + eb)
    (hn : n.entry.pointCount = recs.length) :
    Reader.getPointData L n r = (.ok recs.flatten, r.withStr ⟨data, n.entry.offset, false⟩) := by
  obtain ⟨e, el, es⟩ := split_slice hin
  have hseek : r.h.str.seekg n.entry.offset = ⟨data, n.entry.offset, false⟩ := by
    rw [str_eta h1 h2]
    exact RecFile.seekg_good (by omega)
  have hdrop : data.drop n.entry.offset = L.compress r.cfg.header.fmt eb recs ++
      data.drop (n.entry.offset + n.entry.byteSize.toNat) := by
    rw [← hc]
    unfold slice
    have : data.drop (n.entry.offset + n.entry.byteSize.toNat) = (data.drop n.entry.offset).drop n.entry.byteSize.toNat := by
      rw [List.drop_drop]
    rw [this, List.take_append_drop]
  have hdec : Reader.decompressBytes L r.cfg.header n.entry.pointCount ⟨data, n.entry.offset, false⟩ =
      (.ok recs.flatten, ⟨data, n.entry.offset, false⟩) := by
    unfold Reader.decompressBytes Reader.decompressStream
    rw [he]
    simp only
    rw [hp]
    simp only
    by_cases h0 : n.entry.pointCount ≤ 0
    · rw [if_pos h0]
      have : recs = [] := by
        cases recs with
        | nil => rfl
        | cons a l => rw [hn] at h0; simp only [List.length_cons] at h0; omega
      rw [this]; rfl
    · rw [if_neg h0, if_neg (by omega)]
      have hcount : n.entry.pointCount.toNat = recs.length := by rw [hn]; simp
      rw [if_neg (by simp), hcount, hdrop, L.lossless _ _ _ _ hf hrec]
      simp only
      rw [take_all fun x hx => by rw [hrec x hx, (size_eq hp).2]; omega]
  unfold Reader.getPointData
  rw [Act.bind_apply, Act.throwIf_apply, if_neg (by simp [hv])]
  show (fun p : Res Bytes × IStream => (p.1, r.withStr p.2))
    (Reader.decompressBytes L r.cfg.header n.entry.pointCount (r.h.str.seekg n.entry.offset)) = _
  rw [hseek, hdec]

end Copc
