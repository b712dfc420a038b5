import Verif.Props.ConformingPoints
import Verif.Props.LazReader
/-! # C89: LAZ files of other programs -/
namespace Copc
open Spec

/-- The records of a chunk, compressed, for a file with the point format and the record length that the header gives. -/
def Format.chunk (L : Lazperf) (data : Bytes) (recs : List Bytes) : Bytes :=
  L.compress ((num data 1 104 : Int) - 128) (num data 2 105 - baseSize ((num data 1 104 : Int) - 128)) recs

/-- The points of a LAZ file: the 8 bytes at the offset to point data give the place of the chunk table, after them the chunks
follow each other (chunk `i` holds the records `recss[i]` compressed); the table has its version 0 and the number of chunks; the
header has the number of points. -/
structure Format.Chunks (L : Lazperf) (data : Bytes) (recss : List (List Bytes)) : Prop where
  chunks : text data ((recss.map (chunk L data)).flatten).length (num data 4 96 + 8) = (recss.map (chunk L data)).flatten
  inside : num data 4 96 + 8 + ((recss.map (chunk L data)).flatten).length ≤ data.length
  place : num data 8 (num data 4 96) + 8 ≤ data.length
  version : num data 4 (num data 8 (num data 4 96)) = 0
  number : num data 4 (num data 8 (num data 4 96) + 4) = recss.length
  nonempty : ∀ recs ∈ recss, recs ≠ []
  records : ∀ recs ∈ recss, ∀ x ∈ recs, x.length = num data 2 105
  count : num data 8 247 = recss.flatten.length

/-- Chunks of varying sizes: the chunk size in the LASzip VLR is 2^32 - 1, the table goes on with the number of points and the
size of each chunk, compressed. -/
structure Format.Varying (L : Lazperf) (data : Bytes) (recss : List (List Bytes)) : Prop where
  laszip : ∃ r ∈ vlrs data, found data laszipUser 22204 = some r ∧ num data 4 (r.offset + 12) = 4294967295
  table : ∃ rest, data.drop (num data 8 (num data 4 96) + 8) =
    L.table (recss.map fun recs => (recs.length, (chunk L data recs).length)) ++ rest
  sizes : ∀ recs ∈ recss, recs.length < 2 ^ 32 ∧ (chunk L data recs).length < 2 ^ 32

/-- Chunks of one size: it is in the LASzip VLR; every chunk but the last has this number of points, the last no more. -/
structure Format.Fixed (data : Bytes) (recss : List (List Bytes)) (c : Nat) : Prop where
  laszip : ∃ r ∈ vlrs data, found data laszipUser 22204 = some r ∧ num data 4 (r.offset + 12) = c
  notVarying : c ≠ 4294967295
  full : ∀ recs ∈ recss.dropLast, recs.length = c
  most : ∀ recs ∈ recss, recs.length ≤ c

section
variable {data : Bytes}

theorem las_open (hc : Format.Las data) (hs : Format.SuitsLas data) :
    ∃ b q, BaseReader.init ⟨data, 0, false⟩ = .ok b ∧ b.str = ⟨data, q, false⟩ ∧ b.vlrs = fileTable data ∧ Format.ReadAsLas data b.las ∧
      b.h14.pointOffset = b.las.header.pointOffset := by
  obtain ⟨h14, hd, e1, e2, e3, g1, g2, g3, g4⟩ := header_read hc hs 0
  obtain ⟨q1, e4⟩ := readHeaders_table hc hs.few g1 g2 g3 g4 0
  obtain ⟨q2, e5⟩ := wkt_read hc hs q1
  obtain ⟨l, q3, e6, k1, k2, k3⟩ := eb_read hc hs q2
  have hpo : h14.pointOffset = hd.pointOffset := by
    unfold LasHeader.fromLazPerf at e2
    split at e2
    · cases e2
    obtain ⟨_, _, e2⟩ := Res.bind_ok_iff.1 e2
    split at e2
    · cases e2
    obtain ⟨_, _, e2⟩ := Res.bind_ok_iff.1 e2
    obtain ⟨_, _, e2⟩ := Res.bind_ok_iff.1 e2
    split at e2
    · cases e2
    split at e2
    · cases e2
    rw [← Res.ok.inj e2]
  unfold BaseReader.init
  rw [if_neg (by simp), e1]
  simp only [Res.bind]
  rw [e2]
  simp only
  rw [e4]
  simp only
  rw [e5]
  simp only
  rw [e6]
  exact ⟨_, q3, rfl, rfl, rfl, ⟨e3, rfl, k1, k3⟩, hpo⟩

/-- Records are unpacked to the points they are. -/
theorem points_are {hd : LasHeader} (hh : Format.HeaderIs data hd) (hf : hd.fmt = 6 ∨ hd.fmt = 7 ∨ hd.fmt = 8) {recs : List Bytes}
    (hl : lasBaseSize hd.fmt ≤ hd.recLen.toNat ∧ hd.recLen.toNat ≤ 255) (hrec : ∀ x ∈ recs, x.length = hd.recLen.toNat)
    (hmax : recs.length < 2147483648) :
    ∃ pts, Reader.unpackWith hd recs.flatten = .ok pts ∧ List.Forall₂ (Format.PointIs data) recs pts := by
  obtain ⟨pts, u1, u2⟩ := unpack_records hf hl.1 hrec hmax
  refine ⟨pts, u1, ?_⟩
  have hx : ∀ x ∈ recs, ∀ p, Point.unpack hd.fmt hd.scale hd.offset
      (hd.recLen.toNat - lasBaseSize hd.fmt) x = .ok (p, []) → Format.PointIs data x p := by
    intro x hx p hp
    have hxl : x.length = baseSize hd.fmt + (hd.recLen.toNat - lasBaseSize hd.fmt) := by
      rw [hrec x hx, show baseSize hd.fmt = lasBaseSize hd.fmt from rfl]; omega
    obtain ⟨q, X, Y, Z, k1, k2, k3, k4, k5, k6⟩ := C14_any x [] _ hf _ (by omega) hxl hd.scale hd.offset
    rw [List.append_nil, hp] at k1
    obtain ⟨rfl, _⟩ := Prod.mk.inj (Res.ok.inj k1)
    rw [hh.scale, hh.offset] at k4 k5 k6
    exact ⟨X, Y, Z, k3, by rw [k2]; exact hh.format, k4, k5, k6⟩
  clear u1 hmax
  induction u2 with
  | nil => exact .nil
  | cons h1 _ ih =>
    exact .cons (hx _ List.mem_cons_self _ h1) (ih (fun x h => hrec x (List.mem_cons_of_mem _ h))
      (fun x h => hx x (List.mem_cons_of_mem _ h)))

theorem chunkSize_read (hc : Format.Las data) {r : Format.Record} (hr : r ∈ Format.vlrs data)
    (hf : Format.found data laszipUser 22204 = some r) :
    LazReader.chunkSize (fileTable data) data = .ok (Format.num data 4 (r.offset + 12)) := by
  have h : Fetched data laszipUser 22204 (BaseReader.fetchVlr (fileTable data) idLaz 22204) := fetched hc idLaz 22204
  unfold LazReader.chunkSize
  generalize BaseReader.fetchVlr (fileTable data) idLaz 22204 = o at h
  dsimp only
  cases h with
  | none h1 => rw [hf] at h1; cases h1
  | vlr r' h1 h2 h3 h4 =>
    rw [hf] at h1
    obtain rfl := Option.some.inj h1
    rw [if_neg h4, h3]
    rfl
  | evlr r' h1 h2 h3 h4 =>
    rw [hf] at h1
    obtain rfl := Option.some.inj h1
    exfalso
    have k1 := evlr_from (data := data) _ _ _ h2
    have k2 := hc.vlrsEnd _ hr
    have k3 : Format.num data 4 243 ≠ 0 := by
      intro h0
      unfold Format.evlrs at h2
      rw [h0] at h2
      cases h2
    have k4 := hc.evlrsFrom.2 k3
    omega

/-- A LAZ file of any program that follows the format (and meets what `SuitsLas` asks for) is opened, with chunks of varying sizes
or of one size; everything that the configuration gives to a program is what the file has at the positions of the format;
`GetPointData` gives the records of the chunks in order and `GetPoints` the points they are. -/
theorem C89_read_partial {L : Lazperf} (hc : Format.Las data) (hs : Format.SuitsLas data) {recss : List (List Bytes)}
    (hk : Format.Chunks L data recss) (hkind : Format.Varying L data recss ∨ ∃ c, Format.Fixed data recss c)
    (hlen : baseSize ((Format.num data 1 104 : Int) - 128) ≤ Format.num data 2 105 ∧ Format.num data 2 105 ≤ 255) :
    ∃ r, LazReader.init L ⟨data, 0, false⟩ = .ok r ∧ Format.ReadAsLas data r.base.las ∧
      LazReader.getPointData L r = .ok recss.flatten.flatten ∧
      (recss.flatten.length < 2 ^ 31 →
        ∃ pts, LazReader.getPoints L r = .ok pts ∧ List.Forall₂ (Format.PointIs data) recss.flatten pts) := by
  obtain ⟨b, q, hb, hstr, hvl, hr, hpo⟩ := las_open hc hs
  have hh := hr.header
  have hf : b.las.header.fmt = 6 ∨ b.las.header.fmt = 7 ∨ b.las.header.fmt = 8 := by
    have hfm := hh.format
    rcases hc.format with h | h | h <;> omega
  have e1 : (Format.num data 1 104 : Int) - 128 = b.las.header.fmt := by have := hh.format; omega
  obtain ⟨k1, k2, k3, k4, k5, k7, k8, k9⟩ := hk
  have hchunk : Format.chunk L data = L.compress b.las.header.fmt (b.las.header.recLen.toNat - lasBaseSize b.las.header.fmt) := by
    unfold Format.chunk
    rw [e1, hh.record]
    rfl
  -- the counts of the table
  have htable : ∃ c cs, LazReader.chunkSize b.vlrs data = .ok c ∧ LazReader.chunkTable L c b.h14 data = .ok cs ∧ CountsFit cs recss := by
    have hT : ∀ c, LazReader.chunkTable L c b.h14 data = if c = 4294967295 then
        .ok ((L.readTable recss.length (data.drop (Format.num data 8 (Format.num data 4 96) + 8))).map (·.1))
        else .ok (List.replicate recss.length c) := by
      intro c
      unfold LazReader.chunkTable
      simp only
      rw [hpo]
      have hp8 : Format.num data 4 96 + 8 ≤ data.length := by omega
      rw [← hh.pointOffset] at k3 k4 k5 hp8 ⊢
      unfold Format.num at k3 k4 k5 ⊢
      generalize getN 8 (data.drop b.las.header.pointOffset.toNat) = T at k3 k4 k5 ⊢
      rw [if_neg (by rw [List.length_drop]; omega), if_neg (by rw [List.length_drop]; omega), if_neg (by rw [k4]; simp), List.drop_drop, k5,
        List.drop_drop]
    rcases hkind with ⟨⟨r, v1, v2, v3⟩, ⟨rest, v4⟩, v5⟩ | ⟨c, ⟨r, v1, v2, v3⟩, v4, v5, v6⟩
    · refine ⟨_, _, by rw [hvl]; exact chunkSize_read hc v1 v2, by rw [hT, if_pos v3, v4], ?_⟩
      have := L.table_lossless (recss.map fun recs => (recs.length, (Format.chunk L data recs).length)) rest (by
          intro c hcm
          obtain ⟨recs, hm, rfl⟩ := List.mem_map.1 hcm
          exact v5 recs hm)
      rw [List.length_map] at this
      rw [this, List.map_map]
      exact countsFit_map k7
    · subst v3
      exact ⟨_, _, by rw [hvl]; exact chunkSize_read hc v1 v2, by rw [hT, if_neg v4],
        countsFit_replicate (fun recs hm => ⟨k7 recs hm, v6 recs hm⟩) v5⟩
  obtain ⟨c, cs, t1, t2, t3⟩ := htable
  rw [hchunk, ← hh.pointOffset] at k1 k2
  rw [← hh.record] at hlen
  rw [e1, show baseSize b.las.header.fmt = lasBaseSize b.las.header.fmt from rfl] at hlen
  simp only [← hh.record] at k8
  obtain ⟨c1, c2, c3⟩ := ebSize_consistent hf hlen.1
  have hfit := hc.fits
  have hdata : LazReader.getPointData L ⟨b, cs⟩ = .ok recss.flatten.flatten := by
    unfold LazReader.getPointData
    simp only
    rw [c1, Res.okBind, c2, Res.okBind, if_neg (by rw [c3]; omega), hstr, RecFile.seekg_good (by omega)]
    simp only [Bool.false_eq_true, if_false]
    have hd : data.drop (b.las.header.pointOffset.toNat + 8) = (recss.map (L.compress b.las.header.fmt
        (b.las.header.recLen.toNat - lasBaseSize b.las.header.fmt))).flatten ++ (data.drop (b.las.header.pointOffset.toNat + 8)).drop
        ((recss.map (L.compress b.las.header.fmt (b.las.header.recLen.toNat - lasBaseSize b.las.header.fmt))).flatten).length := by
      unfold Format.text at k1
      conv_lhs => rw [← List.take_append_drop ((recss.map (L.compress b.las.header.fmt
        (b.las.header.recLen.toNat - lasBaseSize b.las.header.fmt))).flatten).length (data.drop (b.las.header.pointOffset.toNat + 8)), k1]
    rw [hd, hh.pointCount, k9, readRecords_fit hf _ t3 (fun recs hm x hx => by rw [c3]; exact k8 recs hm x hx),
      Res.okBind, take_all]
    intro x hx
    obtain ⟨recs, hm, hx⟩ := List.mem_flatten.1 hx
    exact k8 recs hm x hx
  refine ⟨⟨b, cs⟩, ?_, hr, hdata, ?_⟩
  · unfold LazReader.init
    rw [hb]
    simp only [Res.bind]
    rw [t1]
    simp only
    rw [t2]
  · intro hmax
    have hall : ∀ x ∈ recss.flatten, x.length = b.las.header.recLen.toNat := by
      intro x hx
      obtain ⟨recs, hm, hx⟩ := List.mem_flatten.1 hx
      exact k8 recs hm x hx
    obtain ⟨pts, u1, u2⟩ := points_are hh hf hlen hall (by omega)
    unfold LazReader.getPoints
    simp only
    rw [hdata, Res.okBind]
    by_cases h0 : recss.flatten.flatten = []
    · rw [if_pos h0, c1, Res.okBind]
      have hcoll : ∃ c, Coll.make b.las.header.fmt (b.las.header.recLen.toNat - lasBaseSize b.las.header.fmt) = .ok c := by
        unfold Coll.make
        rw [if_neg (by omega), c2]
        exact ⟨_, rfl⟩
      obtain ⟨c, hcoll⟩ := hcoll
      rw [hcoll, Res.okBind]
      have hnil : recss.flatten = [] := by
        rw [List.eq_nil_iff_forall_not_mem]
        intro x hx
        have h1 := hall x hx
        have h2 : x = [] := by
          have := List.flatten_eq_nil_iff.1 h0 x hx
          exact this
        have h3 : 0 < lasBaseSize b.las.header.fmt := by rcases hf with e | e | e <;> rw [e] <;> decide
        rw [h2] at h1
        simp only [List.length_nil] at h1
        omega
      exact ⟨[], rfl, by rw [hnil]; exact .nil⟩
    · rw [if_neg h0]
      exact ⟨pts, u1, u2⟩

end
end Copc
