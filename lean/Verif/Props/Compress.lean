import Verif.Model.Compress
import Verif.Lemmas.ReaderData
import Verif.Spec.Config
import Verif.Props.RoundTrip
import Verif.Lemmas.Sample
/-!
# C56: compressing and decompressing byte vectors
-/
namespace Copc
open Spec

theorem pointByteSize_las {fmt : Int} (hf : fmt = 6 ∨ fmt = 7 ∨ fmt = 8) (eb : Nat) :
    pointByteSize fmt eb = .ok ((lasBaseSize fmt + eb) % 65536) := by
  rcases hf with rfl | rfl | rfl <;> rfl

theorem lazBase_las {fmt : Int} : lazBase fmt = lasBaseSize fmt := rfl

/-- Records of at most 255 bytes: compressing whole records, at most 2^31 - 1 bytes, returns, and decompressing
the result with the number of records gives the bytes back. -/
theorem C56_roundtrip (L : Lazperf) {fmt : Int} (hf : fmt = 6 ∨ fmt = 7 ∨ fmt = 8) {eb n : Nat} {bs : Bytes}
    (hs : lasBaseSize fmt + eb ≤ 255) (hn : bs.length = n * (lasBaseSize fmt + eb))
    (hm : bs.length ≤ 2147483647) :
    ∃ c, compressVector L bs fmt eb = .ok c ∧ Reader.decompressVector L c fmt eb n = .ok bs := by
  have hpos : 0 < lasBaseSize fmt := by unfold lasBaseSize; split <;> (try split) <;> omega
  have hz : (lasBaseSize fmt + eb) % 65536 = lasBaseSize fmt + eb := Nat.mod_eq_of_lt (by omega)
  obtain ⟨c1, c2, c3⟩ := cut_flatten (lasBaseSize fmt + eb) n bs hn
  have hdiv : bs.length / (lasBaseSize fmt + eb) = n := by rw [hn, Nat.mul_div_cancel _ (by omega)]
  refine ⟨L.compress fmt eb (BaseW.cut (lasBaseSize fmt + eb) n bs), ?_, ?_⟩
  · unfold compressVector
    rw [pointByteSize_las hf, hz, Res.okBind, if_neg (by omega), hdiv,
      if_neg (by rw [hn, Nat.mul_mod_left]; simp), if_neg (by omega)]
  · unfold Reader.decompressVector Reader.decompressStream
    rw [pointByteSize_las hf, hz]
    simp only
    by_cases h0 : (n : Int) ≤ 0
    · rw [if_pos h0]
      have : n = 0 := by omega
      rw [this, Nat.zero_mul] at hn
      rw [List.length_eq_zero_iff.1 hn]
    · rw [if_neg h0, if_neg (by rw [lazBase_las]; omega), if_neg (by simp), List.drop_zero]
      have hl := L.lossless fmt eb (BaseW.cut (lasBaseSize fmt + eb) n bs) [] hf (by rw [lazBase_las]; exact c2)
      rw [List.append_nil, c3] at hl
      rw [Int.toNat_natCast, hl]
      simp only
      rw [take_all fun x hx => by rw [c2 x hx], c1]

/-- Compression is refused exactly when the bytes are not whole records or are more than 2^31 - 1. -/
theorem C56_refused (L : Lazperf) {fmt : Int} (hf : fmt = 6 ∨ fmt = 7 ∨ fmt = 8) {eb : Nat} {bs : Bytes}
    (hs : lasBaseSize fmt + eb < 65536) :
    compressVector L bs fmt eb = .throw .compressSize ↔
      (∀ n, bs.length ≠ n * (lasBaseSize fmt + eb)) ∨ 2147483647 < bs.length := by
  have hpos : 0 < lasBaseSize fmt := by unfold lasBaseSize; split <;> (try split) <;> omega
  have hz : (lasBaseSize fmt + eb) % 65536 = lasBaseSize fmt + eb := Nat.mod_eq_of_lt hs
  unfold compressVector
  rw [pointByteSize_las hf, hz, Res.okBind, if_neg (by omega)]
  by_cases h1 : bs.length % (lasBaseSize fmt + eb) = 0
  · rw [if_neg (by simp [h1])]
    have hex : ¬∀ n, bs.length ≠ n * (lasBaseSize fmt + eb) := fun h =>
      h _ (Nat.div_mul_cancel (Nat.dvd_of_mod_eq_zero h1)).symm
    by_cases h2 : bs.length > 2147483647
    · rw [if_pos h2]; exact ⟨fun _ => Or.inr h2, fun _ => rfl⟩
    · rw [if_neg h2]
      constructor
      · intro h; cases h
      · rintro (h | h)
        · exact absurd h hex
        · exact absurd h h2
  · rw [if_pos h1]
    refine ⟨fun _ => Or.inl fun n hn => h1 (by rw [hn, Nat.mul_mod_left]), fun _ => rfl⟩

/-- The same with a header that gives the format and the extra bytes. -/
theorem C56_header (L : Lazperf) {hd : LasHeader} (hf : hd.fmt = 6 ∨ hd.fmt = 7 ∨ hd.fmt = 8) {n : Nat} {bs : Bytes}
    (hb : lasBaseSize hd.fmt ≤ hd.recLen.toNat) (hs : hd.recLen.toNat ≤ 255) (hn : bs.length = n * hd.recLen.toNat)
    (hm : bs.length ≤ 2147483647) :
    ∃ c, compressVectorH L bs hd = .ok c ∧ decompressVectorH L c hd n = .ok bs := by
  have he : hd.ebSize = .ok (hd.recLen.toNat - lasBaseSize hd.fmt) := by
    unfold LasHeader.ebSize ebByteSize
    rcases hf with h | h | h <;> rw [h] at hb ⊢ <;> simp [pointBaseByteSize, lasBaseSize] at hb ⊢ <;> omega
  unfold compressVectorH decompressVectorH
  rw [he, Res.okBind]
  simp only [Res.okBind]
  exact C56_roundtrip L hf (by omega) (by rw [hn]; congr 1; omega) hm

/-- Giving the result to `AddNodeCompressed` has the same outcome and leaves the writer in the same state as giving
the bytes to `AddNode`. -/
theorem C56_same_as_add (L : Lazperf) {w : Writer} {bs c : Bytes} {n : Nat}
    (hf : w.cfg.header.fmt = 6 ∨ w.cfg.header.fmt = 7 ∨ w.cfg.header.fmt = 8)
    (hb : lasBaseSize w.cfg.header.fmt ≤ w.cfg.header.recLen.toNat) (hn : bs.length = n * w.cfg.header.recLen.toNat)
    (hne : bs ≠ []) (hc : compressVectorH L bs w.cfg.header = .ok c) (key page : VoxelKey) :
    Writer.addNodeCompressed L key c n page w = Writer.addNode L key bs page w := by
  have hpos : 0 < lasBaseSize w.cfg.header.fmt := by unfold lasBaseSize; split <;> (try split) <;> omega
  have hlt := w.cfg.header.recLen.toNat_lt
  have he : w.cfg.header.ebSize = .ok (w.cfg.header.recLen.toNat - lasBaseSize w.cfg.header.fmt) := by
    unfold LasHeader.ebSize ebByteSize
    rcases hf with h | h | h <;> rw [h] at hb ⊢ <;> simp [pointBaseByteSize, lasBaseSize] at hb ⊢ <;> omega
  have hsz : pointByteSize w.cfg.header.fmt (w.cfg.header.recLen.toNat - lasBaseSize w.cfg.header.fmt) =
      .ok w.cfg.header.recLen.toNat := by
    rw [pointByteSize_las hf]; congr 1; omega
  have hn0 : n ≠ 0 := by
    rintro rfl
    rw [Nat.zero_mul] at hn
    exact hne (List.length_eq_zero_iff.1 hn)
  have hmod : bs.length % w.cfg.header.recLen.toNat = 0 := by rw [hn, Nat.mul_mod_left]
  have hdiv : bs.length / w.cfg.header.recLen.toNat = n := by rw [hn, Nat.mul_div_cancel _ (by omega)]
  unfold compressVectorH at hc
  rw [he, Res.okBind] at hc
  unfold compressVector at hc
  rw [hsz, Res.okBind, if_neg (by omega), if_neg (by simp [hmod])] at hc
  have hm : ¬bs.length > 2147483647 := by
    intro h; rw [if_pos h] at hc; cases hc
  rw [if_neg hm] at hc
  obtain rfl := Res.ok.inj hc
  have hcomp : ∀ b : BaseW, BaseW.compressBytes L w.cfg.header bs b =
      (.ok (n : Int), { b with out := b.out.write (L.compress w.cfg.header.fmt
        (w.cfg.header.recLen.toNat - lasBaseSize w.cfg.header.fmt)
        (BaseW.cut w.cfg.header.recLen.toNat (bs.length / w.cfg.header.recLen.toNat) bs)) }) := by
    intro b
    unfold BaseW.compressBytes
    rw [Act.bind_ok (by rw [Act.lift_apply, he]), Act.bind_ok (by rw [Act.lift_apply, hsz]), if_neg (by omega),
      Act.bind_ok (by rw [Act.throwIf_neg (by simp [hmod])]), Act.bind_ok (by rw [Act.throwIf_neg hm])]
    simp only [Act.bind_apply, BaseW.emit, BaseW.onOut, Act.modify_apply]
    rw [hdiv]
    rfl
  have hchunk : BaseW.writeChunk L w.cfg.header (L.compress w.cfg.header.fmt
        (w.cfg.header.recLen.toNat - lasBaseSize w.cfg.header.fmt)
        (BaseW.cut w.cfg.header.recLen.toNat (bs.length / w.cfg.header.recLen.toNat) bs)) n true w.base =
      BaseW.writeChunk L w.cfg.header bs 0 false w.base := by
    unfold BaseW.writeChunk
    simp only [if_true, Bool.false_eq_true, if_false]
    rw [Act.bind_ok (Act.gets_apply _ _), Act.bind_ok (Act.gets_apply _ _)]
    by_cases h0 : w.base.out.tellp ≤ 0
    · simp only [Act.bind_apply, Act.throwIf_pos h0]
    · simp only [Act.bind_apply, Act.throwIf_neg h0, hcomp, BaseW.emit, BaseW.onOut, Act.modify_apply]
  have hzoom : Writer.onBase (BaseW.writeChunk L w.cfg.header (L.compress w.cfg.header.fmt
        (w.cfg.header.recLen.toNat - lasBaseSize w.cfg.header.fmt)
        (BaseW.cut w.cfg.header.recLen.toNat (bs.length / w.cfg.header.recLen.toNat) bs)) n true) w =
      Writer.onBase (BaseW.writeChunk L w.cfg.header bs 0 false) w := by
    unfold Writer.onBase
    rw [Act.zoom_apply, Act.zoom_apply, hchunk]
  have hdo : Writer.doAddNode L key (L.compress w.cfg.header.fmt
        (w.cfg.header.recLen.toNat - lasBaseSize w.cfg.header.fmt)
        (BaseW.cut w.cfg.header.recLen.toNat (bs.length / w.cfg.header.recLen.toNat) bs)) n true page w =
      Writer.doAddNode L key bs 0 false page w := by
    unfold Writer.doAddNode
    by_cases h1 : page.isValid = false ∨ key.isValid = false
    · simp only [Act.bind_apply, Act.throwIf_pos h1]
    · rw [Act.bind_ok (Act.throwIf_neg h1 _ _), Act.bind_ok (Act.throwIf_neg h1 _ _)]
      by_cases h2 : key.childOf page = false
      · simp only [Act.bind_apply, Act.throwIf_pos h2]
      · rw [Act.bind_ok (Act.throwIf_neg h2 _ _), Act.bind_ok (Act.throwIf_neg h2 _ _),
          Act.bind_ok (Act.gets_apply _ _), Act.bind_ok (Act.gets_apply _ _), Act.bind_apply, Act.bind_apply, hzoom]
  unfold Writer.addNodeCompressed Writer.addNode
  rw [Act.bind_ok (Act.throwIf_neg (by omega) _ _), Act.bind_ok (Act.gets_apply _ _), Act.bind_ok (Act.throwIf_neg hne _ _),
    if_neg (by omega), Act.bind_ok (Act.throwIf_neg (by simp [hmod]) _ _), hdo]

/-- Non-vacuity: two records of format 6 with one extra byte, with the sample configuration. -/
example : ∃ c, compressVectorH Sample.L (List.replicate 62 7) Sample.cfg.header = .ok c ∧
    decompressVectorH Sample.L c Sample.cfg.header 2 = .ok (List.replicate 62 7) :=
  C56_header Sample.L (by decide +kernel) (by decide +kernel) (by decide +kernel) (n := 2) (by decide +kernel)
    (by decide +kernel)

/-- Non-vacuity: 61 bytes are not whole records of 30 bytes. -/
example : compressVector Sample.L (List.replicate 61 7) 6 0 = .throw .compressSize :=
  (C56_refused Sample.L (Or.inl rfl) (by decide)).2 (Or.inl fun n hn => by
    have h : lasBaseSize 6 + 0 = 30 := rfl
    rw [h, List.length_replicate] at hn; omega)

/-- Non-vacuity: the sample writer with two records. -/
example : ∃ c, compressVectorH Sample.L (List.replicate 62 7) Sample.w0.cfg.header = .ok c ∧
    Writer.addNodeCompressed Sample.L Sample.kA c 2 VoxelKey.root Sample.w0 =
      Writer.addNode Sample.L Sample.kA (List.replicate 62 7) VoxelKey.root Sample.w0 := by
  obtain ⟨c, h, -⟩ := C56_header Sample.L (hd := Sample.w0.cfg.header) (by decide +kernel) (by decide +kernel)
    (by decide +kernel) (n := 2) (bs := List.replicate 62 7) (by decide +kernel) (by decide +kernel)
  exact ⟨c, h, C56_same_as_add Sample.L (n := 2) (by decide +kernel) (by decide +kernel) (by decide +kernel)
    (by decide) h _ _⟩

/-- ... and the node is accepted. -/
example : (match (Writer.addNode Sample.L Sample.kA (List.replicate 62 7) VoxelKey.root Sample.w0).1 with
    | .ok n => decide (n.entry.pointCount = 2) | _ => false) = true := by decide +kernel

end Copc
