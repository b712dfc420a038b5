import Verif.Lemmas.ConformingOpen
import Verif.Lemmas.ReaderCalls
/-! # C88: files of other programs -/
namespace Copc
open Spec

section
variable {data : Bytes}

theorem mapL_make2 {l : List (Dbl × Dbl)} (h : ∀ x ∈ l, Flt.lt' x.2 x.1 = false) :
    Res.mapL (fun i : Dbl × Dbl => Extent.make2 i.1 i.2) l = .ok (l.map fun i => ⟨i.1, i.2, Flt.zero, Extent.one⟩) := by
  have h1 : Flt.lt' Extent.one Flt.zero = false := by decide +kernel
  induction l with
  | nil => rfl
  | cons a l ih =>
    have ha := h a List.mem_cons_self
    rw [Res.mapL, ih fun x hx => h x (List.mem_cons_of_mem _ hx)]
    unfold Extent.make2 Extent.make
    rw [ha, h1]
    rfl

theorem mapL_copy {l : List Extent} (h : ∀ x ∈ l, Flt.lt' x.maximum x.minimum = false ∧ Flt.lt' x.var Flt.zero = false) :
    Res.mapL Extent.copy l = .ok l := by
  induction l with
  | nil => rfl
  | cons a l ih =>
    obtain ⟨h1, h2⟩ := h a List.mem_cons_self
    rw [Res.mapL, ih fun x hx => h x (List.mem_cons_of_mem _ hx)]
    unfold Extent.copy
    rw [h1, h2]
    rfl

theorem items_read (hc : Format.Conforms data) {r : Format.Record} (hr : r ∈ Format.vlrs data) {o : Nat} (ho : o + 54 = r.offset)
    (hl : BaseReader.lengthAt (fileTable data) o = r.size) (p : Nat) :
    ∃ q, Reader.readExtentItems (fileTable data) o ⟨data, p, false⟩ =
      (.ok ((List.range (r.size / 16)).map fun i => (Format.dbl data (r.offset + 16 * i), Format.dbl data (r.offset + 16 * i + 8))),
        ⟨data, q, false⟩) := by
  have hin := vlr_inside hc.las hr
  have hle : r.offset + 16 * (r.size / 16) ≤ data.length := by omega
  unfold Reader.readExtentItems
  dsimp only
  rw [hl, ho, Int.toNat_natCast, seek_read hle hc.fits]
  dsimp only
  rw [items_at hle]
  exact ⟨_, rfl⟩

theorem zip_range {α β : Type} (f : Nat → α) (g : Nat → β) (n : Nat) :
    ((List.range n).map f).zip ((List.range n).map g) = (List.range n).map fun i => (f i, g i) := by
  rw [List.zip_map']

/-- The point format of the header. -/
theorem dims_fmt (hc : Format.Conforms data) {fmt : Int} (hf : fmt + 128 = (Format.num data 1 104 : Int)) :
    ¬(fmt < 6 ∨ fmt > 8) ∧ ∀ n, Extents.number fmt n = .ok (Format.dims data + n) := by
  unfold Extents.number pointBaseNumberDimensions Format.dims
  rcases hc.format with h | h | h
  · obtain rfl : fmt = 6 := by omega
    rw [h]
    exact ⟨by omega, fun _ => rfl⟩
  · obtain rfl : fmt = 7 := by omega
    rw [h]
    exact ⟨by omega, fun _ => rfl⟩
  · obtain rfl : fmt = 8 := by omega
    rw [h]
    exact ⟨by omega, fun _ => rfl⟩

theorem extents_read (hc : Format.Conforms data) (hs : Format.Suits data) {fmt : Int}
    (hf : fmt + 128 = (Format.num data 1 104 : Int)) {eb : List EbField} (he : eb.length = Format.ebCount data) (hlt : eb.length < 65536)
    (p : Nat) : ∃ e q, Reader.readExtents fmt (fileTable data) eb ⟨data, p, false⟩ = (.ok e, ⟨data, q, false⟩) ∧
      e.copy = .ok e ∧ e.fmt = fmt ∧ Format.ExtentsAre data e.extents ∧
      e.extStats = ((Format.found data Format.uCopc 10000).isSome && (Format.found data Format.uRock 10001).isSome) := by
  have h1 : Fetched data Format.uCopc 10000 (BaseReader.fetchVlr (fileTable data) idCopc 10000) := fetched hc.las idCopc 10000
  have h2 : Fetched data Format.uRock 10001 (BaseReader.fetchVlr (fileTable data) idRock 10001) := fetched hc.las idRock 10001
  obtain ⟨hfmt, hnum⟩ := dims_fmt hc hf
  have h1z : Flt.lt' Extent.one Flt.zero = false := by decide +kernel
  have hzz : Flt.lt' (Flt.zero : Dbl) Flt.zero = false := by decide +kernel
  have hone : Extent.one = Flt.ofBits 0x3FF0000000000000 := rfl
  unfold Reader.readExtents
  generalize BaseReader.fetchVlr (fileTable data) idCopc 10000 = o at h1
  generalize BaseReader.fetchVlr (fileTable data) idRock 10001 = x at h2
  dsimp only
  cases h1 with
  | none g1 g2 =>
    rw [if_neg (by simp [g2])]
    unfold Extents.make
    rw [if_neg hfmt, hnum]
    refine ⟨_, p, rfl, ?_, rfl, ?_, ?_⟩
    · unfold Extents.copy
      rw [mapL_copy]
      · rfl
      · intro y hy
        obtain rfl := List.eq_of_mem_replicate hy
        exact ⟨hzz, h1z⟩
    · unfold Format.ExtentsAre
      rw [g1]
      rfl
    · rw [g1]; rfl
  | evlr r g1 g2 =>
    exfalso
    refine (hs.others r g2).2.1 ?_
    have := List.find?_some g1
    simpa using this
  | vlr r g1 g2 g3 g4 g5 =>
    obtain ⟨c1, c2⟩ := hc.extents r g1
    have hsz := vlr_size g2
    obtain ⟨q, hq⟩ := items_read hc g2 g3 (g5 (by omega)) p
    rw [if_pos g4, hq]
    have hn : r.size / 16 = Format.dims data + Format.ebCount data := by omega
    rw [hn] at c2 ⊢
    generalize hN : Format.dims data + Format.ebCount data = N at *
    have hof : Extents.ofVlr ((List.range N).map fun i => (Format.dbl data (r.offset + 16 * i), Format.dbl data (r.offset + 16 * i + 8))) fmt
        (eb.length % 65536) (decide (x ≠ 0)) = .ok ⟨fmt, decide (x ≠ 0), (List.range N).map fun i =>
          ⟨Format.dbl data (r.offset + 16 * i), Format.dbl data (r.offset + 16 * i + 8), Flt.zero, Extent.one⟩⟩ := by
      unfold Extents.ofVlr
      rw [if_neg hfmt, hnum, Nat.mod_eq_of_lt hlt, he, hN]
      simp only [Res.bind]
      rw [if_neg (by simp), mapL_make2, List.map_map]
      · rfl
      · intro y hy
        obtain ⟨i, hi, rfl⟩ := List.mem_map.1 hy
        exact c2 i (List.mem_range.1 hi)
    simp only [Res.bind]
    rw [hof]
    dsimp only
    have hexists : (Format.found data Format.uCopc 10000).isSome = true := by rw [g1]; rfl
    cases h2 with
    | none k1 k2 =>
      rw [if_neg (by simp [k2])]
      refine ⟨_, q, rfl, ?_, rfl, ?_, ?_⟩
      · unfold Extents.copy
        rw [mapL_copy]
        · rfl
        · intro y hy
          obtain ⟨i, hi, rfl⟩ := List.mem_map.1 hy
          exact ⟨c2 i (List.mem_range.1 hi), h1z⟩
      · unfold Format.ExtentsAre Format.statOf
        rw [g1, k1]
        dsimp only
        rw [hN, ← hone]
      · rw [hexists, k1, k2]; rfl
    | evlr r' k1 k2 =>
      exfalso
      refine (hs.others r' k2).2.2 ?_
      have := List.find?_some k1
      simpa using this
    | vlr r' k1 k2 k3 k4 k5 =>
      obtain ⟨d1, d2⟩ := hc.stats r' k1
      have hsz' := vlr_size k2
      obtain ⟨q', hq'⟩ := items_read hc k2 k3 (k5 (by omega)) q
      have hn' : r'.size / 16 = N := by omega
      rw [hn'] at d2 hq'
      rw [if_pos k4, hq']
      dsimp only
      unfold Extents.setExtendedStats
      rw [if_neg (by simp [k4]), if_neg (by simp)]
      dsimp only
      rw [zip_range, List.map_map]
      refine ⟨_, q', rfl, ?_, rfl, ?_, ?_⟩
      · unfold Extents.copy
        rw [mapL_copy]
        · rfl
        · intro y hy
          obtain ⟨i, hi, rfl⟩ := List.mem_map.1 hy
          exact ⟨c2 i (List.mem_range.1 hi), d2 i (List.mem_range.1 hi)⟩
      · unfold Format.ExtentsAre Format.statOf
        rw [g1, k1]
        dsimp only
        rw [hN]
        rfl
      · rw [hexists, k1]
        simp [k4]

theorem wkt_flag {g : UInt16} (h : g.toNat / 16 % 2 = 1) : ¬(g &&& 0x10 = 0) := by
  intro h0
  have h1 := congrArg UInt16.toNat h0
  rw [UInt16.toNat_and] at h1
  have h3 := congrArg (fun n => n.testBit 4) h1
  simp only [Nat.testBit_and] at h3
  have h4 : g.toNat.testBit 4 = true := by
    rw [Nat.testBit_eq_decide_div_mod_eq, show (2 : Nat) ^ 4 = 16 from rfl, h]; rfl
  rw [h4] at h3
  exact absurd h3 (by decide)

theorem char_array {a : Bytes} (h : 0 ∈ a) : LasHeader.ofCharArray a = .ok (a.takeWhile (· ≠ 0)) := by
  unfold LasHeader.ofCharArray cstr
  rw [if_pos h]
  congr 2
  funext b
  by_cases hb : b = 0 <;> simp [hb]

theorem header_read (hc : Format.Las data) (hs : Format.SuitsLas data) (p : Nat) :
    ∃ h14 hd, BaseReader.readHeader ⟨data, p, false⟩ = .ok h14 ∧ LasHeader.fromLazPerf h14 = .ok hd ∧ Format.HeaderIs data hd ∧
      h14.headerSize.toNat = 375 ∧ h14.vlrCount.toNat = Format.num data 4 100 ∧ h14.evlrCount.toNat = Format.num data 4 243 ∧
      h14.evlrOffset.toNat = Format.num data 8 235 := by
  have hfull := hc.full
  unfold BaseReader.readHeader
  rw [if_neg (by simp only; omega)]
  have hB : data.take 375 = Format.text data 375 0 := by unfold Format.text; rw [List.drop_zero]
  dsimp only
  rw [hB]
  have hlen : (Format.text data 375 0).length = 375 := length_text (by omega)
  obtain ⟨a1, a2, a3, a4, a5, a6, a7, a8, a9, a10, a11, a12, a13, a14, a15, a16⟩ := header_raw (by omega) (rfl : Header14.decode (Format.text data 375 0) = _)
  obtain ⟨b1, b2, b3, b4, b5, b6, b7, b8, b9, b10, b11, b12, b13, b14⟩ := header_raw2 (rfl : Header14.decode (Format.text data 375 0) = _)
  have hn (k q : Nat) (h : q + k ≤ 375) : Format.num (Format.text data 375 0) k q = Format.num data k q := by
    rw [num_text h, Nat.zero_add]
  have hd' (q : Nat) (h : q + 8 ≤ 375) : Format.dbl (Format.text data 375 0) q = Format.dbl data q := by
    rw [dbl_text h, Nat.zero_add]
  have ht (k q : Nat) (h : q + k ≤ 375) : Format.text (Format.text data 375 0) k q = Format.text data k q := by
    rw [text_text h, Nat.zero_add]
  have b14' : (Header14.decode (Format.text data 375 0)).pointsByReturn14.map (·.toNat) = (List.range 15).map fun i => Format.num data 8 (255 + 8 * i) := by
    rw [b14]
    apply List.map_congr_left
    intro i hi
    have := List.mem_range.1 hi
    exact hn _ _ (by omega)
  rw [hn _ _ (by omega)] at a2 a3 a5 a6 a9 a10 a11 a12 a13 a14 a15 b10 b11 b12
  rw [ht _ _ (by omega)] at a4 a7 a8
  rw [hd' _ (by omega), hd' _ (by omega), hd' _ (by omega)] at b1 b2
  rw [hd' _ (by omega)] at b3 b4 b5 b6 b7 b8
  generalize Header14.decode (Format.text data 375 0) = h at *
  have hfm : ¬((h.pointFormatId &&& 0x3F) < 6 ∨ (h.pointFormatId &&& 0x3F) > 8) ∧
      (((h.pointFormatId &&& 0x3F).toNat : Int) + 128 = (Format.num data 1 104 : Int)) := by
    have key (m : UInt8) (hm : Format.num data 1 104 = m.toNat) : h.pointFormatId = m := UInt8.toNat.inj (a14.trans hm)
    rcases hc.format with hf | hf | hf
    · rw [key 134 hf, hf]; decide
    · rw [key 135 hf, hf]; decide
    · rw [key 136 hf, hf]; decide
  have hv1 : h.versionMajor = 1 := UInt8.toNat.inj (a5.trans hc.version.1)
  have hv2 : h.versionMinor = 4 := UInt8.toNat.inj (a6.trans hc.version.2)
  have hsz : h.headerSize = 375 := UInt16.toNat.inj (a11.trans hc.header)
  refine ⟨stripFormat h, { fileSourceId := h.fileSourceId, globalEncoding := h.globalEncoding, creationDay := h.creationDay, creationYear := h.creationYear, max := ⟨h.maxx, h.maxy, h.maxz⟩, min := ⟨h.minx, h.miny, h.minz⟩, pointsByReturn := h.pointsByReturn14, scale := h.scale, offset := h.offset, fmt := (h.pointFormatId &&& 0x3F).toNat, recLen := h.pointRecordLength, pointCount := h.pointCount14, pointOffset := h.pointOffset, vlrCount := h.vlrCount, evlrOffset := h.evlrOffset, evlrCount := h.evlrCount, guid := h.guid.takeWhile (· ≠ 0), systemIdentifier := h.systemIdentifier.takeWhile (· ≠ 0), generatingSoftware := h.generatingSoftware.takeWhile (· ≠ 0), copcFlag := true }, rfl, ?_, ?_, by rw [show (stripFormat h).headerSize = h.headerSize from rfl, a11, hc.header], a13, b11, b10⟩
  · unfold LasHeader.fromLazPerf
    rw [show (stripFormat h).globalEncoding = h.globalEncoding from rfl, if_neg (wkt_flag (by rw [a3]; exact hc.wktBit)),
      show (stripFormat h).guid = h.guid from rfl, char_array (by rw [a4]; exact hs.guid)]
    simp only [Res.bind]
    rw [show (stripFormat h).versionMajor = h.versionMajor from rfl, show (stripFormat h).versionMinor = h.versionMinor from rfl, if_neg (by rw [hv1, hv2]; decide),
      show (stripFormat h).systemIdentifier = h.systemIdentifier from rfl, char_array (by rw [a7]; exact hs.system)]
    simp only
    rw [show (stripFormat h).generatingSoftware = h.generatingSoftware from rfl, char_array (by rw [a8]; exact hs.software)]
    simp only
    rw [show (stripFormat h).headerSize = h.headerSize from rfl, if_neg (by rw [hsz]; decide),
      show (stripFormat h).pointFormatId = h.pointFormatId &&& 0x3F from rfl, if_neg hfm.1]
    rfl
  · constructor <;> simp only
    · exact a2
    · exact a3
    · rw [a4]
    · rw [a7]
    · rw [a8]
    · exact ⟨a9, a10⟩
    · exact a12
    · exact a13
    · exact hfm.2
    · exact a15
    · exact b1
    · exact b2
    · exact congr (congr (congrArg Vec3.mk b3) b5) b7
    · exact congr (congr (congrArg Vec3.mk b4) b6) b8
    · exact b10
    · exact b11
    · exact b12
    · exact b14'

/-- A file of any program that follows the formats (and meets what `Suits` asks for) is opened, the stream stays good, and
everything that the configuration gives to a program is what the file has at the positions of the formats. -/
theorem C88_open_partial (hc : Format.Conforms data) (hs : Format.Suits data) :
    ∃ r, Reader.init ⟨data, 0, false⟩ = .ok r ∧ r.h.str.fail = false ∧ Format.ReadAs data r.cfg := by
  obtain ⟨h14, hd, e1, e2, e3, g1, g2, g3, g4⟩ := header_read hc.las hs.las 0
  obtain ⟨q1, e4⟩ := readHeaders_table hc.las hs.few g1 g2 g3 g4 0
  obtain ⟨q2, e5⟩ := wkt_read hc.las hs.las q1
  obtain ⟨l, q3, e6, k1, k2, k3⟩ := eb_read hc.las hs.las q2
  obtain ⟨i, q4, e7, k4⟩ := info_read hc q3
  obtain ⟨e, q5, e8, k5, k8, k6, k7⟩ := extents_read hc hs e3.format k1 k2 q4
  unfold Reader.init BaseReader.init
  rw [if_neg (by simp), e1]
  simp only [Res.bind]
  rw [e2]
  simp only
  rw [e4]
  simp only
  rw [e5]
  simp only
  rw [e6]
  simp only
  unfold Reader.initCopc
  simp only
  rw [if_neg (by
    rintro (h | h)
    · rw [info_first hc] at h; cases h
    · exact hierarchy_found hc h), e7]
  simp only [Res.bind]
  rw [e8]
  simp only
  unfold CopcConfig.ofParts
  rw [k5]
  refine ⟨_, rfl, rfl, ?_⟩
  exact ⟨⟨e3.source, e3.encoding, e3.guid, e3.system, e3.software, e3.created, e3.pointOffset, e3.vlrCount, e3.format, e3.record,
    e3.scale, e3.offset, e3.max, e3.min, e3.evlrOffset, e3.evlrCount, e3.pointCount, e3.returns⟩, k4, rfl, k1, k3, k8, k6, k7⟩

/-- So the theorems about readers (C36 to C43) are about all these files: the pages are those from the place that the info VLR
gives. -/
theorem C88_opened_partial {ps : List FPage} (hc : Format.Conforms data) (hs : Format.Suits data)
    (hp : ∃ q ∈ ps, q.key = VoxelKey.root ∧ Format.num data 8 469 = q.offset ∧ Format.num data 8 477 = q.size) :
    ∃ r, Opened data ps r ∧ Format.ReadAs data r.cfg := by
  obtain ⟨r, h1, h2, h3⟩ := C88_open_partial hc hs
  obtain ⟨q, hq, k1, k2, k3⟩ := hp
  exact ⟨r, ⟨h1, h2, q, hq, k1, h3.info.rootOffset.trans k2, h3.info.rootSize.trans k3⟩, h3⟩

end
end Copc
