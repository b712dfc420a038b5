import Verif.Spec.Refused
import Verif.Lemmas.Refuse
import Verif.Lemmas.Conforming
import Verif.Props.LazReader
/-!
# C96: files that are not what they should be are not opened
-/
namespace Copc
open Spec
namespace Refuse

/-- What an entry of the VLR table is: without user, or a header read from its place. -/
def Read (d : Bytes) (x : Nat × VlrHeader) : Prop :=
  x.2.userId = [] ∨ x.2 = VlrHeader.decode (padTo 54 (d.drop x.1)) ∨ x.2 = VlrHeader.decodeE (padTo 60 (d.drop x.1))

theorem padTo_take (n : Nat) (l : Bytes) : padTo n (l.take n) = padTo n l := by
  unfold padTo
  rw [List.take_take, Nat.min_self, List.length_take]
  by_cases h : n ≤ l.length
  · rw [Nat.min_eq_left h, Nat.sub_self, Nat.sub_eq_zero_of_le h]
  · rw [Nat.min_eq_right (by omega)]

theorem filled (s : IStream) (n : Nat) (hf : s.fail = false) : (s.readFilled n).1 = padTo n (s.data.drop s.pos) := by
  show padTo n (s.read n).1 = _
  unfold IStream.read
  rw [hf]
  simp only [Bool.false_eq_true, if_false]
  split
  · exact padTo_take n _
  · rfl

theorem unfilled (s : IStream) (n : Nat) (hf : s.fail = true) : (s.readFilled n).1 = List.replicate n 0 := by
  show padTo n (s.read n).1 = _
  unfold IStream.read
  rw [hf]
  simp [padTo]

theorem entry_read (s : IStream) : Read s.data (s.tellg, VlrHeader.decode (s.readFilled 54).1) ∧
    Read s.data (s.tellg, VlrHeader.decodeE (s.readFilled 60).1) := by
  cases hf : s.fail with
  | true =>
    rw [unfilled s 54 hf, unfilled s 60 hf]
    exact ⟨.inl (show (VlrHeader.decode (List.replicate 54 0)).userId = [] by decide),
      .inl (show (VlrHeader.decodeE (List.replicate 60 0)).userId = [] by decide)⟩
  | false =>
    rw [filled s 54 hf, filled s 60 hf]
    have ht : s.tellg = s.pos := by unfold IStream.tellg; rw [hf]; rfl
    rw [ht]
    exact ⟨.inr (.inl rfl), .inr (.inr rfl)⟩

theorem vlrLoop_read : ∀ (n : Nat) (s : IStream) (out : List (Nat × VlrHeader)), (∀ x ∈ out, Read s.data x) →
    (∀ x ∈ (BaseReader.vlrLoop n s out).1, Read s.data x) ∧ (BaseReader.vlrLoop n s out).2.data = s.data
  | 0, s, out, h => ⟨h, rfl⟩
  | n + 1, s, out, h => by
    unfold BaseReader.vlrLoop
    dsimp only
    have hd := (skip_data (s.readFilled 54).2 (VlrHeader.decode (s.readFilled 54).1).dataLength).trans (read_data s 54)
    have := vlrLoop_read n ((s.readFilled 54).2.skip64 (VlrHeader.decode (s.readFilled 54).1).dataLength)
      (BaseReader.insertVlr s.tellg (VlrHeader.decode (s.readFilled 54).1) out) (by
        rw [hd]
        intro x hx
        rcases insertVlr_mem hx with rfl | hx
        · exact (entry_read s).1
        · exact h x hx)
    rw [hd] at this
    exact this

theorem evlrLoop_read : ∀ (n : Nat) (s : IStream) (out : List (Nat × VlrHeader)), (∀ x ∈ out, Read s.data x) →
    (∀ x ∈ (BaseReader.evlrLoop n s out).1, Read s.data x) ∧ (BaseReader.evlrLoop n s out).2.data = s.data
  | 0, s, out, h => ⟨h, rfl⟩
  | n + 1, s, out, h => by
    unfold BaseReader.evlrLoop
    dsimp only
    have hd := (skip_data (s.readFilled 60).2 (VlrHeader.decodeE (s.readFilled 60).1).dataLength).trans (read_data s 60)
    have := evlrLoop_read n ((s.readFilled 60).2.skip64 (VlrHeader.decodeE (s.readFilled 60).1).dataLength)
      (BaseReader.insertVlr s.tellg (VlrHeader.decodeE (s.readFilled 60).1) out) (by
        rw [hd]
        intro x hx
        rcases insertVlr_mem hx with rfl | hx
        · exact (entry_read s).2
        · exact h x hx)
    rw [hd] at this
    exact this

theorem readVlrHeaders_read {h : Header14} {s : IStream} {t : List (Nat × VlrHeader)}
    (ht : (BaseReader.readVlrHeaders h s).1 = .ok t) : ∀ x ∈ t, Read s.data x := by
  unfold BaseReader.readVlrHeaders at ht
  dsimp only at ht
  have h1 := vlrLoop_read h.vlrCount.toNat (s.seekg h.headerSize.toNat) [] (by simp)
  rw [seek_data] at h1
  split at ht
  · cases ht
  · have h2 := evlrLoop_read h.evlrCount.toNat
      (((BaseReader.vlrLoop h.vlrCount.toNat (s.seekg h.headerSize.toNat) []).2).seekg h.evlrOffset.toNat)
      (BaseReader.vlrLoop h.vlrCount.toNat (s.seekg h.headerSize.toNat) []).1 (by
        rw [seek_data, h1.2]; exact h1.1)
    rw [seek_data, h1.2] at h2
    injection ht with ht
    rw [← ht]
    exact h2.1

theorem num_bytes (d : Bytes) (p : Nat) : Format.num d 2 p = (byteAt d p).toNat + 256 * (byteAt d (p + 1)).toNat := by
  unfold Format.num getN byteAt
  rw [unLe_take2, List.getElem?_drop, List.getElem?_drop, Nat.add_zero]

/-- The ids of an entry are those at its place. -/
theorem read_ids {d : Bytes} {x : Nat × VlrHeader} (h : Read d x) {u : Bytes} (hu : u ≠ []) (h1 : x.2.userId = u) {i : UInt16}
    (h2 : x.2.recordId = i) (hi : i ≠ 0) : Format.RecordAt d x.1 u i.toNat := by
  have key : ∀ n, 54 ≤ n → u = trimNul (padTo 16 ((((padTo n (d.drop x.1)).drop 2)).take 16)) →
      i = UInt16.ofNat ((((padTo n (d.drop x.1))[18]?).getD 0).toNat + 256 * (((padTo n (d.drop x.1))[19]?).getD 0).toNat) →
      Format.RecordAt d x.1 u i.toNat := by
    intro n hn k1 k2
    have hi' : Format.num d 2 (x.1 + 18) = i.toNat := by
      rw [num_bytes, k2, getD_pad _ _ _ (by omega), getD_pad _ _ _ (by omega), List.getElem?_drop, List.getElem?_drop]
      have a := (byteAt d (x.1 + 18)).toNat_lt
      have b := (byteAt d (x.1 + 19)).toNat_lt
      show (byteAt d (x.1 + 18)).toNat + 256 * (byteAt d (x.1 + 19)).toNat =
        (UInt16.ofNat ((byteAt d (x.1 + 18)).toNat + 256 * (byteAt d (x.1 + 19)).toNat)).toNat
      rw [UInt16.toNat_ofNat_of_lt' (by rw [UInt16.size]; omega)]
    have hlen : x.1 + 18 < d.length := by
      by_contra hc
      have : Format.num d 2 (x.1 + 18) = 0 := by
        rw [num_bytes]
        unfold byteAt
        rw [List.getElem?_eq_none (by omega), List.getElem?_eq_none (by omega)]
        rfl
      rw [this] at hi'
      exact hi (UInt16.toNat_inj.1 hi'.symm)
    refine ⟨?_, hi'⟩
    have ht : ((padTo n (d.drop x.1)).drop 2).take 16 = Format.text d 16 (x.1 + 2) := by
      unfold padTo Format.text
      have e : (d.drop x.1).length = d.length - x.1 := List.length_drop
      rw [List.drop_append_of_le_length (by rw [List.length_take]; omega),
        List.take_append_of_le_length (by rw [List.length_drop, List.length_take]; omega), List.drop_take, List.take_take, List.drop_drop,
        Nat.min_eq_left (by omega)]
    have hl16 : (Format.text d 16 (x.1 + 2)).length = 16 := by
      unfold Format.text
      rw [List.length_take, List.length_drop]; omega
    rw [ht] at k1
    have hp : padTo 16 (Format.text d 16 (x.1 + 2)) = Format.text d 16 (x.1 + 2) := by
      unfold padTo
      rw [hl16, Nat.sub_self, List.replicate_zero, List.append_nil, List.take_of_length_le (by omega)]
    rw [hp] at k1
    unfold Format.Holds
    have := trimNul_holds (Format.text d 16 (x.1 + 2))
    rw [← k1, hl16] at this
    exact this
  rcases h with h | h | h
  · exact absurd (h1.symm.trans h) hu
  · refine key 54 (by omega) ?_ ?_
    · rw [← h1, h]; rfl
    · rw [← h2, h]; exact decode_id _
  · refine key 60 (by omega) ?_ ?_
    · rw [← h1, h]; rfl
    · rw [← h2, h]; exact decodeE_id _

theorem fetched_at {d : Bytes} {t : List (Nat × VlrHeader)} (ht : ∀ x ∈ t, Read d x) {u : Bytes} (hu : u ≠ []) {i : UInt16} (hi : i ≠ 0)
    (h : BaseReader.fetchVlr t u i ≠ 0) : Format.RecordAt d (BaseReader.fetchVlr t u i) u i.toNat := by
  obtain ⟨x, hx, e1, e2, e3⟩ := fetch_mem h
  rw [← e1]
  exact read_ids (ht x hx) hu e2 e3 hi

theorem wkt_bit {g : UInt16} (h : ¬ (g &&& 0x10 = 0)) : g.toNat / 16 % 2 = 1 := by
  by_contra hc
  apply h
  apply UInt16.toNat_inj.1
  rw [UInt16.toNat_and]
  show g.toNat &&& 2 ^ 4 = 0
  have hb : g.toNat.testBit 4 = false := by
    rw [Nat.testBit_eq_decide_div_mod_eq]
    simpa using hc
  apply Nat.eq_of_testBit_eq
  intro i
  rw [Nat.testBit_and, Nat.testBit_two_pow, Nat.zero_testBit]
  by_cases hi : 4 = i
  · rw [← hi, hb]; rfl
  · simp [hi]

theorem low_six (f : UInt8) : (f &&& 0x3F).toNat = f.toNat % 64 := by
  rw [UInt8.toNat_and]
  show f.toNat &&& 2 ^ 6 - 1 = _
  rw [Nat.and_two_pow_sub_one_eq_mod]

theorem headed {d : Bytes} {b : BaseReader} (hb : BaseReader.init ⟨d, 0, false⟩ = .ok b) :
    Format.LasHeaded d ∧ ∀ x ∈ b.vlrs, Read d x := by
  unfold BaseReader.init at hb
  simp only [Bool.false_eq_true, if_false] at hb
  obtain ⟨h14, h1, hb⟩ := Res.bind_ok_iff.1 hb
  obtain ⟨hd, h2, hb⟩ := Res.bind_ok_iff.1 hb
  obtain ⟨t, ht, hb⟩ := Res.bind_ok_iff.1 hb
  obtain ⟨wkt, _, hb⟩ := Res.bind_ok_iff.1 hb
  obtain ⟨eb, _, hb⟩ := Res.bind_ok_iff.1 hb
  have hok := readVlrHeaders_read ht
  injection hb with hb
  subst hb
  refine ⟨?_, hok⟩
  unfold BaseReader.readHeader at h1
  split at h1
  · cases h1
  rename_i hl
  dsimp only at hl
  have hl : 375 ≤ d.length := by omega
  obtain rfl := Res.ok.inj h1
  dsimp only at h2
  have htk : (d.take 375).length = 375 := by rw [List.length_take]; omega
  obtain ⟨_, _, g3, _, g5, g6, _, _, _, _, g11, _, _, g14, _⟩ := header_raw (data := d.take 375) (by omega) rfl
  have hn : ∀ k p, p + k ≤ 375 → Format.num (d.take 375) k p = Format.num d k p := by
    intro k p hkp
    unfold Format.num getN
    rw [List.drop_take, List.take_take, Nat.min_eq_left (by omega)]
  rw [hn _ _ (by omega)] at g3 g5 g6 g11 g14
  unfold LasHeader.fromLazPerf at h2
  split at h2
  · cases h2
  rename_i w1
  obtain ⟨_, _, h2⟩ := Res.bind_ok_iff.1 h2
  split at h2
  · cases h2
  rename_i w2
  obtain ⟨_, _, h2⟩ := Res.bind_ok_iff.1 h2
  obtain ⟨_, _, h2⟩ := Res.bind_ok_iff.1 h2
  split at h2
  · cases h2
  rename_i w3
  split at h2
  · cases h2
  rename_i w4
  unfold stripFormat at w1 w2 w3 w4
  dsimp only at w1 w2 w3 w4
  generalize Header14.decode (d.take 375) = H at *
  refine ⟨hl, ?_, ?_, ?_, ?_⟩
  · simp only [not_or, not_not] at w2
    rw [← g5, ← g6, w2.1, w2.2]
    decide
  · rw [← g3]; exact wkt_bit w1
  · rw [← g11, Decidable.not_not.1 w3]; rfl
  · simp only [not_or, UInt8.not_lt, UInt8.le_iff_toNat_le] at w4
    rw [low_six, show (6 : UInt8).toNat = 6 from rfl, show (8 : UInt8).toNat = 8 from rfl, g14] at w4
    omega

end Refuse

/-- Bytes that a `Reader` opens: they have the header of LAS 1.4 with WKT and a point format that COPC knows, the info VLR of
COPC right after the header (as COPC asks for), and a record of the hierarchy. Other files are not opened. -/
theorem C96_copc {data : Bytes} {r : Reader} (h : Reader.init ⟨data, 0, false⟩ = .ok r) :
    Format.LasHeaded data ∧ Format.RecordAt data 375 Format.uCopc 1 ∧ ∃ p, Format.RecordAt data p Format.uCopc 1000 := by
  unfold Reader.init at h
  obtain ⟨b, hb, h⟩ := Res.bind_ok_iff.1 h
  obtain ⟨h1, h2⟩ := Refuse.headed hb
  refine ⟨h1, ?_⟩
  unfold Reader.initCopc at h
  dsimp only at h
  split at h
  · cases h
  · rename_i h0
    simp only [not_or] at h0
    obtain ⟨info, hi, _⟩ := Res.bind_ok_iff.1 h
    unfold Reader.readInfo at hi
    dsimp only at hi
    split at hi
    · cases hi
    · split at hi
      · cases hi
      · rename_i h375
        have h375 := Decidable.not_not.1 h375
        have k1 := Refuse.fetched_at h2 (u := idCopc) (i := 1) (by decide) (by decide) h0.1
        rw [h375] at k1
        exact ⟨k1, _, Refuse.fetched_at h2 (u := idCopc) (i := 1000) (by decide) (by decide) h0.2⟩

/-- Bytes that a `LazReader` opens: they have the header of LAS 1.4 with WKT and a point format that COPC knows, and the
LASzip record. -/
theorem C96_laz {L : Lazperf} {data : Bytes} {r : LazReader} (h : LazReader.init L ⟨data, 0, false⟩ = .ok r) :
    Format.LasHeaded data ∧ ∃ p, Format.RecordAt data p Format.uLaszip 22204 := by
  unfold LazReader.init at h
  obtain ⟨b, hb, h⟩ := Res.bind_ok_iff.1 h
  obtain ⟨c, hc, h⟩ := Res.bind_ok_iff.1 h
  obtain ⟨h1, h2⟩ := Refuse.headed hb
  refine ⟨h1, ?_⟩
  unfold LazReader.chunkSize at hc
  dsimp only at hc
  split at hc
  · cases hc
  · rename_i h0
    exact ⟨_, Refuse.fetched_at h2 (u := idLaz) (i := 22204) (by decide) (by decide) h0⟩

/-- A LAZ file that a `LazWriter` wrote is refused by `Reader`, with the exception for a missing VLR. -/
theorem C96_laz_refused {L : Lazperf} {w0 w : LazWriter} {h : List (LazOp × Res Unit)} {data : Bytes}
    (hw : LazWritten L w0 w h data) : Reader.init ⟨data, 0, false⟩ = .throw .missingVlr := by
  obtain ⟨otpd, eb, h14, log, hd, _⟩ := hw.done
  obtain ⟨q, hq⟩ := hd.opens hw.storable
  have hrf := hd.recFile hw.storable.header.byReturn hw.storable.few
  have hf : BaseReader.fetchVlr (RecFile.table h14 (lazRecs L w.cfg eb) (wktRecs w.cfg.wkt)) idCopc 1 = 0 := by
    refine hrf.fetch_none ?_ ?_
    · intro v hv hc
      unfold lazRecs at hv
      simp only [List.mem_append] at hv
      rcases hv with hv | hv
      · split at hv
        · rw [List.mem_singleton.1 hv] at hc
          exact absurd (show idSpec = idCopc from hc.1) (by decide)
        · cases hv
      · rw [List.mem_singleton.1 hv] at hc
        exact absurd (show idLaz = idCopc from hc.1) (by decide)
    · intro v hv hc
      unfold wktRecs at hv
      split at hv
      · cases hv
      · rw [List.mem_singleton.1 hv] at hc
        exact absurd (show idProj = idCopc from hc.1) (by decide)
  unfold Reader.init
  rw [hq, Res.okBind]
  unfold Reader.initCopc
  dsimp only
  rw [if_pos (.inl hf)]

end Copc
