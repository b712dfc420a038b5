import Verif.Props.ConformingLaz
import Verif.Props.Closes
import Verif.Props.RoundTripMeta
import Verif.Props.Copy
import Verif.Lemmas.Mp
/-! # C90: copying files of other programs -/
namespace Copc
open Spec VoxelKey

/-- The extra-byte descriptors of a configuration fit its records: types of LAS 1.4 that take space, texts without a zero byte,
and a record has the size of the point format and of the items. -/
structure ItemsFit (c : CopcConfig) : Prop where
  types : ∀ f ∈ c.eb, f.dataType ≤ 30 ∧ 0 < lasItemSize f
  texts : ∀ f ∈ c.eb, NoNul f.name ∧ NoNul f.description
  record : c.header.recLen.toNat = lasBaseSize c.header.fmt + (c.eb.map lasItemSize).sum

section
variable {data : Bytes} {c : CopcConfig}

theorem mem_until {s : Bytes} {b : UInt8} (h : b ∈ s.takeWhile (· ≠ 0)) : decide (b ≠ 0) = true :=
  List.all_eq_true.1 List.all_takeWhile b h

theorem fits_until {s : Bytes} {k : Nat} (h0 : 0 ∈ s) (hk : s.length ≤ k) : Fits (s.takeWhile (· ≠ 0)) k := by
  constructor
  · have h1 : s.takeWhile (· ≠ 0) ≠ s := by
      intro h
      rw [← h] at h0
      have := mem_until h0
      simp at this
    have h2 := (List.takeWhile_prefix (fun x : UInt8 => decide (x ≠ 0)) (l := s)).length_le
    rcases Nat.lt_or_ge (s.takeWhile (· ≠ 0)).length s.length with h | h
    · omega
    · exact absurd ((List.takeWhile_prefix _).eq_of_length (by omega)) h1
  · intro b hb
    have := mem_until hb
    simpa using this

/-- The parts of the configuration that a reader gives for a file of another program fit their places in a file. -/
theorem parts_read (hc : Format.Conforms data) (hs : Format.Suits data) (hr : Format.ReadAs data c) (hi : ItemsFit c) :
    GoodHeader c.header ∧ c.eb.length ≤ 341 ∧ (∀ f ∈ c.eb, EbOk f) ∧ c.wkt.length < 2 ^ 31 := by
  have hf : c.header.fmt = 6 ∨ c.header.fmt = 7 ∨ c.header.fmt = 8 := by
    have hfm := hr.header.format
    rcases hc.format with h | h | h <;> omega
  have hfew : Format.ebCount data ≤ 341 := by
    unfold Format.ebCount
    cases hfd : Format.found data Format.uSpec 4 with
    | none => simp
    | some r =>
      have hm := List.mem_of_find?_eq_some hfd
      rcases List.mem_append.1 hm with h | h
      · have := vlr_size h
        simp only [Option.map_some, Option.getD_some]
        omega
      · exfalso
        have hp := List.find?_some hfd
        exact (hs.others r h).1 (by simpa using hp)
  refine ⟨?_, ?_, ?_, ?_⟩
  · refine ⟨hf, ?_, ?_, ?_, ?_⟩
    · have := congrArg List.length hr.header.returns
      simpa using this
    · rw [hr.header.guid]; exact fits_until hs.guid (by unfold Format.text; simp)
    · rw [hr.header.system]; exact fits_until hs.system (by unfold Format.text; simp)
    · rw [hr.header.software]; exact fits_until hs.software (by unfold Format.text; simp)
  · rw [hr.ebLength]; exact hfew
  · intro f h
    obtain ⟨i, hi', rfl⟩ := List.getElem_of_mem h
    have hpos : Format.ebCount data ≠ 0 := by rw [← hr.ebLength]; omega
    cases hfd : Format.found data Format.uSpec 4 with
    | none => unfold Format.ebCount at hpos; rw [hfd] at hpos; simp at hpos
    | some r =>
      have hb := hr.eb r hfd i _ (List.getElem?_eq_getElem hi')
      have hm := List.mem_of_find?_eq_some hfd
      have hv : r ∈ Format.vlrs data := by
        rcases List.mem_append.1 hm with h' | h'
        · exact h'
        · exfalso
          have hp := List.find?_some hfd
          exact (hs.others r h').1 (by simpa using hp)
      have hend := hc.vlrsEnd r hv
      have hsz : i < r.size / 192 := by
        have := hr.ebLength
        unfold Format.ebCount at this
        rw [hfd] at this
        simp only [Option.map_some, Option.getD_some] at this
        omega
      have hpo := hc.las.pointsFrom.2
      have hlt : ∀ k p, p + k ≤ data.length → (Format.text data k p).length = k := by
        intro k p h
        unfold Format.text
        simp; omega
      have hholds : ∀ {k p : Nat} {s : Bytes}, p + k ≤ data.length → Format.Holds data k p s → s.length ≤ k := by
        intro k p s h1 h2
        have := congrArg List.length h2
        rw [hlt k p h1] at this
        simp at this
        omega
      obtain ⟨t1, t2⟩ := hi.texts _ h
      exact ⟨by rw [hb.reserved]; exact hlt _ _ (by omega), by rw [hb.unused]; exact hlt _ _ (by omega),
        ⟨t1, hholds (by omega) hb.name⟩, t2, hholds (by omega) hb.description⟩
  · rw [hr.wkt]
    cases hfd : Format.found data Format.uProj 2112 with
    | none => simp
    | some r =>
      have := hs.wktSize r hfd
      simp only [Option.map_some, Option.getD_some]
      unfold Format.text
      simp only [List.length_take]
      omega

/-- The configuration that a reader gives for a file of another program can be stored. -/
theorem storable_read (hc : Format.Conforms data) (hs : Format.Suits data) (hr : Format.ReadAs data c) (hi : ItemsFit c)
    (hx : (Format.found data Format.uCopc 10000).isSome = true ∨ Format.ebCount data = 0) : Storable c := by
  have hf : c.header.fmt = 6 ∨ c.header.fmt = 7 ∨ c.header.fmt = 8 := by
    have hfm := hr.header.format
    rcases hc.format with h | h | h <;> omega
  have hd : baseDims c.header.fmt = Format.dims data := by
    have hfm := hr.header.format
    unfold Format.dims
    rcases hc.format with h | h | h
    · rw [if_pos h, show c.header.fmt = 6 by omega]; rfl
    · rw [if_neg (by omega), if_pos h, show c.header.fmt = 7 by omega]; rfl
    · rw [if_neg (by omega), if_neg (by omega), show c.header.fmt = 8 by omega]; rfl
  have hex := hr.extents
  have hzz : Flt.lt' (Flt.zero : Dbl) Flt.zero = false := by decide +kernel
  have h1z : Flt.lt' (Flt.ofBits 0x3FF0000000000000 : Dbl) Flt.zero = false := by decide +kernel
  have hlen : c.extents.extents.length = Format.dims data + Format.ebCount data ∧ ∀ x ∈ c.extents.extents, Ordered x ∧ VarOk x := by
    unfold Format.ExtentsAre at hex
    cases hfd : Format.found data Format.uCopc 10000 with
    | none =>
      rw [hfd] at hx hex
      have h0 : Format.ebCount data = 0 := by
        rcases hx with h | h
        · cases h
        · exact h
      rw [show c.extents.extents = _ from hex]
      refine ⟨by rw [h0]; simp, fun x h => ?_⟩
      obtain rfl := List.eq_of_mem_replicate h
      exact ⟨(ordered_iff _).2 hzz, (varOk_iff _).2 h1z⟩
    | some r =>
      rw [hfd] at hex
      rw [show c.extents.extents = _ from hex]
      obtain ⟨c1, c2⟩ := hc.extents r hfd
      refine ⟨by simp, fun x h => ?_⟩
      obtain ⟨i, hi, rfl⟩ := List.mem_map.1 h
      have hi' := List.mem_range.1 hi
      refine ⟨(ordered_iff _).2 (c2 i (by omega)), (varOk_iff _).2 ?_⟩
      unfold Format.statOf
      cases hst : Format.found data Format.uRock 10001 with
      | none => exact h1z
      | some r' =>
        obtain ⟨d1, d2⟩ := hc.stats r' hst
        exact d2 i (by omega)
  obtain ⟨p1, p2, p3, p4⟩ := parts_read hc hs hr hi
  refine ⟨⟨hf, hi.record, fun f h => (hi.types f h).2, ?_⟩, p1, hr.extentsFormat, hlen.2, p2, p3, p4⟩
  rw [hlen.1, hd, hr.ebLength]

/-- A writer is made with a configuration that can be stored; it has this configuration. -/
theorem make_storable (hst : Storable c) (ht : ∀ f ∈ c.eb, f.dataType ≤ 30) :
    ∃ w0, Writer.make OStream.fresh c {} = .ok w0 ∧ w0.cfg = { c with header := c.header.withCopc true } := by
  obtain ⟨w0, hw0, _⟩ := C50_overrides hst.toConsistent hst.extentsFmt hst.ordered (by have := hst.few; omega)
    ht {} (by intro f hf; cases hf) (by intro f hf; cases hf) OStream.fresh
  refine ⟨w0, hw0, ?_⟩
  have h := hw0
  unfold Writer.make Writer.initConfig at h
  rw [if_neg (by decide)] at h
  obtain ⟨c1, g1, g2⟩ := Res.bind_ok_iff.1 h
  obtain ⟨n, _, g3⟩ := Res.bind_ok_iff.1 g2
  unfold CopcConfig.copy at g1
  rw [ofParts_good hst.ordered] at g1
  obtain rfl := Res.ok.inj g3
  obtain rfl := Res.ok.inj g1
  rfl

end

theorem NodeOf.copyable {data : Bytes} {ps : List FPage} (hg : GoodHierarchy data ps) {n : Node} (hn : NodeOf ps n)
    (hp : 0 < n.entry.pointCount) (hin : n.entry.offset + n.entry.byteSize.toNat ≤ data.length) :
    Copyable data n ∧ InOctree n.pageKey := by
  have hv := NodeOf.isValid hg hn
  obtain ⟨p, hp', hnp⟩ := hn
  obtain ⟨e, he, rfl⟩ := List.mem_map.1 hnp
  obtain ⟨⟨g1, g2, g3, g4⟩, g5, g6, g7, g8⟩ := hg.entries p hp' e he
  have ht := hg.inTree p hp'
  unfold InI32 at g3 g4
  dsimp only at *
  refine ⟨⟨hv, hin, by dsimp only; omega, by dsimp only; omega, ⟨g5, ?_, g8⟩, g1, hp, by dsimp only; omega⟩, ht⟩
  unfold InOctree at ht
  exact ⟨ht.1, ht.2.1, ht.2.2.2.1, ht.2.2.2.2.2.1⟩

/-- Copying any nodes whose data are in the file, with distinct keys. -/
theorem copy_any {L : Lazperf} {ord : Order} {data : Bytes} (hfit : data.length < 2 ^ 63) {c : CopcConfig} {o : Writer.Overrides}
    {v0 : Writer} (hm : Writer.make OStream.fresh c o = .ok v0) (hst : Storable v0.cfg) (hb : BoundsInOrder v0.cfg.header)
    {ns : List Node} (hcp : ∀ n ∈ ns, Copyable data n ∧ InOctree n.pageKey) (hnd : (ns.map (·.entry.key)).Nodup)
    (hlen : ns.length < 2 ^ 25) {r : Reader} (hd : r.h.str.data = data) (hf : r.h.str.fail = false) :
    ∃ r3 v v' t, copyNodes L ord ns (r, v0) = (.ok (), (r3, v)) ∧ v.cfg = v0.cfg ∧ r3.h.str.fail = false ∧
      Writer.close L ord v = (.ok (), v') ∧ (v'.base.out.data.length < 2 ^ 63 → Written L ord v0 v t v'.base.out.data ∧
      (∀ n ∈ ns, ∃ off, (blobOp (fun n => slice data n.entry.offset n.entry.byteSize.toNat) n,
          Res.ok (some (Node.mk ⟨n.entry.key, off, n.entry.byteSize, n.entry.pointCount⟩ n.pageKey))) ∈ t ∧
        finalPage t (Node.mk ⟨n.entry.key, off, n.entry.byteSize, n.entry.pointCount⟩ n.pageKey) = n.pageKey ∧
        slice v'.base.out.data off n.entry.byteSize.toNat = slice data n.entry.offset n.entry.byteSize.toNat) ∧
      ∀ m ∈ addedNodes t, ∃ n ∈ ns, m.entry.key = n.entry.key) := by
  obtain ⟨r3, v, t, g1, g2, g3, g4, g5, g6, g7, _⟩ := copy_run (L := L) (ord := ord) hfit hm ns (fun n hn => (hcp n hn).1) r v0 [] hd hf
    .start (by intro x hx; cases hx)
  rw [List.nil_append] at g2
  have hop : ∀ x ∈ t, ∃ n ∈ ns, x.1 = blobOp (fun n => slice data n.entry.offset n.entry.byteSize.toNat) n := by
    intro x hx
    have : x.1 ∈ t.map (·.1) := List.mem_map_of_mem hx
    rw [g3] at this
    obtain ⟨n, h1, h2⟩ := List.mem_map.1 this
    exact ⟨n, h1, h2.symm⟩
  have htl : t.length = ns.length := by
    have := congrArg List.length g3
    simpa using this
  obtain ⟨v', hc⟩ := C79_closes (L := L) (ord := ord) hm hst.toConsistent hst.header.byReturn g2 (by
      intro x hx he
      obtain ⟨n, _, h⟩ := hop x hx
      rw [h] at he
      cases he) (by omega) (by
      intro x hx _ p hp
      obtain ⟨n, h1, h2⟩ := hop x hx
      rw [h2] at hp
      obtain rfl : n.pageKey = p := Option.some.inj hp
      exact (hcp n h1).2) (by rw [g5]; exact hb)
  refine ⟨r3, v, v', t, g1, g5, g7, hc, fun hsize => ?_⟩
  have hbd := bounded_history (pageInv_make hm) (bounded_make hm) g2
  obtain ⟨hw', hpg, hent, hmem⟩ := blobs_written hm g2 g3 g4 hnd (fun n hn => by
    have := (hcp n hn).1
    exact ⟨this.range, this.count⟩) hc (by rw [g5]; exact hst) hsize (by have := hbd.count; omega)
  have hlen : ∀ n ∈ ns, ((slice data n.entry.offset n.entry.byteSize.toNat).length : Int) = n.entry.byteSize := by
    intro n hn
    have := (hcp n hn).1.inside
    have e := (hcp n hn).1.size
    rw [e]
    unfold slice; simp; omega
  refine ⟨hw', fun n hn => ?_, fun m hm' => ?_⟩
  · obtain ⟨off, hx⟩ := hmem _ hn
    rw [hlen _ hn] at hx
    refine ⟨off, hx, hpg _, ?_⟩
    obtain ⟨_, _, _, b, hsb, hb1, hb2, hb3⟩ := hw'.node hx
    obtain ⟨hsb, _⟩ := hsb
    have e : n.entry.byteSize.toNat = b.length := by
      have : n.entry.byteSize = b.length := hb1
      rw [this]; simp
    rw [e]
    exact hb3.trans (hsb.trans (by rw [← e]))
  · obtain ⟨n, hn, off, rfl⟩ := hent m hm'
    exact ⟨n, hn, rfl⟩

section
variable {L : Lazperf} {ord : Order} {rord : ROrder} {data : Bytes} {ps : List FPage} {r r1 r2 : Reader} {q : List Query}
  {all : List Node} {keep : Node → Bool}

/-- What `GetAllNodes` gives. -/
theorem all_listed (hg : GoodHierarchy data ps) (ho : Opened data ps r) (ha : Asked L r q r1)
    (hall : Run.Ends (fun k => Reader.getAllNodes rord k) r1 (.ok all, r2)) :
    ListsAll ps all ∧ (all.map (·.entry.key)).Nodup ∧ r2.h.str.data = data ∧ r2.h.str.fail = false := by
  obtain ⟨hi, _⟩ := ha.rInv hg (ho.rInv hg)
  obtain ⟨ns, r'', he, hi2, _, hA⟩ := (allNodes_gives hg hi rord).ends
  have e1 := Run.Ends.unique hall he
  injection e1 with e0 e1
  injection e0 with e0
  subst e1 e0
  refine ⟨hA, ?_, hi2.data, hi2.good⟩
  refine List.Nodup.map_on ?_ hA.1
  intro m hm n hn h
  exact NodeOf.unique hg ((hA.2 m).1 hm) ((hA.2 n).1 hn) h

/-- Copying any selection of the nodes of a file of another program, with the configuration of its reader: the writer is made, no
addition is refused, `Close` returns; the new file has the same metadata, and exactly the selected nodes, each with the number of
points, the page, the compressed bytes and the points that the original has. What is asked of the original beyond `Conforms` and
`Suits`: the selected nodes have points, in chunks inside the file (`hsel`); the extra-byte descriptors fit the records (`hitems`);
there is an extents VLR or there are no extra bytes (`hext`); its bounds are in order; fewer than 2^25 nodes are selected. -/
theorem C90_copy_partial (hc : Format.Conforms data) (hs : Format.Suits data) (hg : GoodHierarchy data ps) (ho : Opened data ps r)
    (hr : Format.ReadAs data r.cfg) (ha : Asked L r q r1)
    (hall : Run.Ends (fun k => Reader.getAllNodes rord k) r1 (.ok all, r2)) (hitems : ItemsFit r.cfg)
    (hext : (Format.found data Format.uCopc 10000).isSome = true ∨ Format.ebCount data = 0) (hbounds : BoundsInOrder r.cfg.header)
    (hsel : ∀ n, NodeOf ps n → keep n = true → 0 < n.entry.pointCount ∧ n.entry.offset + n.entry.byteSize.toNat ≤ data.length)
    (hfew : (all.filter keep).length < 2 ^ 25) :
    ∃ v0 r3 v v', Writer.make OStream.fresh r.cfg {} = .ok v0 ∧
      copyNodes L ord (all.filter keep) (r2, v0) = (.ok (), (r3, v)) ∧ Writer.close L ord v = (.ok (), v') ∧
      (v'.base.out.data.length < 2 ^ 63 → ∃ s, Reader.init ⟨v'.base.out.data, 0, false⟩ = .ok s ∧ SameMetadata r.cfg s.cfg ∧
        ∀ (q' : List Query) (s1 : Reader), Asked L s q' s1 →
          (∀ n, NodeOf ps n → keep n = true →
            (∃ off s2, Run.Ends (fun k => Reader.findNode k n.entry.key) s1
              (.ok ⟨⟨n.entry.key, off, n.entry.byteSize, n.entry.pointCount⟩, n.pageKey⟩, s2)) ∧
            (∃ s2, Run.Ends (fun k => Reader.getPointDataCompressedAt k n.entry.key) s1
              (.ok (Format.text data n.entry.byteSize.toNat n.entry.offset), s2)) ∧
            ∀ recs, Format.text data n.entry.byteSize.toNat n.entry.offset = Format.chunk L data recs →
              (∀ x ∈ recs, x.length = Format.num data 2 105) → n.entry.pointCount = recs.length → Format.num data 2 105 ≤ 255 →
              ∃ pts s2, Run.Ends (fun k => Reader.getPointsAt L k n.entry.key) s1 (.ok pts, s2) ∧
                List.Forall₂ (Format.PointIs data) recs pts) ∧
          ∀ key, (∀ n, NodeOf ps n → keep n = true → n.entry.key ≠ key) →
            ∃ s2, Run.Ends (fun k => Reader.findNode k key) s1 (.ok Node.empty, s2)) := by
  obtain ⟨hA, hnd, hd, hf⟩ := all_listed hg ho ha hall
  have hst := storable_read hc hs hr hitems hext
  obtain ⟨v0, hm, hcfg⟩ := make_storable hst fun f h => (hitems.types f h).1
  have hst0 : Storable v0.cfg := by
    rw [hcfg]
    exact ⟨⟨hst.fmt, hst.len, hst.items, hst.extents⟩, ⟨hst.header.fmt, hst.header.byReturn, hst.header.guid, hst.header.sys,
      hst.header.gen⟩, hst.extentsFmt, hst.ordered, hst.few, hst.descriptors, hst.wktLen⟩
  have hin : ∀ {n : Node}, n ∈ all.filter keep ↔ NodeOf ps n ∧ keep n = true := by
    intro n
    rw [List.mem_filter, hA.2]
  obtain ⟨r3, v, v', t, g1, g2, _, g4, g5⟩ := copy_any (L := L) (ord := ord) hc.fits hm hst0 (by rw [hcfg]; exact hbounds)
    (ns := all.filter keep) (fun n h => by
      obtain ⟨h1, h2⟩ := hin.1 h
      obtain ⟨h3, h4⟩ := hsel n h1 h2
      exact NodeOf.copyable hg h1 h3 h4) (List.Nodup.sublist (List.filter_sublist.map _) hnd) hfew hd hf
  refine ⟨v0, r3, v, v', hm, g1, g4, fun hsize => ?_⟩
  obtain ⟨hw, hmem, hnone⟩ := g5 hsize
  obtain ⟨s, m1, m2, m3⟩ := C35_metadata_partial hm hw.history hw.unclosed (by rw [g2]; exact hst0) g4 hsize hw.few
  have hsame : SameMetadata r.cfg s.cfg := by
    rw [g2, hcfg] at m3
    exact ⟨m3.fileSourceId, m3.globalEncoding, m3.creationDay, m3.creationYear, m3.max, m3.min, m3.pointsByReturn, m3.scale,
      m3.offset, m3.fmt, m3.recLen, m3.guid, m3.systemIdentifier, m3.generatingSoftware, m3.center, m3.halfsize, m3.spacing, m3.wkt,
      m3.eb, m3.extFmt, m3.extStats, m3.minmax, m3.stats⟩
  refine ⟨s, m1, hsame, fun q' s1 hq => ⟨fun n hn hk => ?_, fun key hno => ?_⟩⟩
  · obtain ⟨off, hx, hpg, hsl⟩ := hmem n (hin.2 ⟨hn, hk⟩)
    have hx1 := (hw.node hx).1
    obtain ⟨s2, f1⟩ := C33_findNode hw m1 hq hx1
    rw [hpg] at f1
    obtain ⟨s3, f2⟩ := hw.compressed_slice m1 hq hx1
    refine ⟨⟨off, s2, f1⟩, ⟨s3, ?_⟩, fun recs h1 h2 h3 h4 => ?_⟩
    · dsimp only at f2
      rw [hsl] at f2
      exact f2
    · have hh := hr.header
      have hfm : (Format.num data 1 104 : Int) - 128 = r.cfg.header.fmt := by have := hh.format; omega
      have hf6 := hst.fmt
      have hbase : lasBaseSize r.cfg.header.fmt ≤ r.cfg.header.recLen.toNat := by rw [hst.len]; omega
      obtain ⟨c1, c2, c3⟩ := ebSize_consistent hf6 hbase
      rw [← hh.record] at h2 h4
      unfold Format.chunk at h1
      rw [hfm, ← hh.record] at h1
      have hc0 : v0.cfg.header.fmt = r.cfg.header.fmt ∧ v0.cfg.header.recLen = r.cfg.header.recLen ∧
          v0.cfg.header.scale = r.cfg.header.scale ∧ v0.cfg.header.offset = r.cfg.header.offset := by
        rw [hcfg]; exact ⟨rfl, rfl, rfl, rfl⟩
      obtain ⟨z1, z2, z3, z4⟩ := hc0
      have heb : v0.cfg.header.ebSize = .ok (r.cfg.header.recLen.toNat - lasBaseSize r.cfg.header.fmt) := by
        rw [← c1]; unfold LasHeader.ebSize; rw [z1, z2]
      obtain ⟨s4, d1, _, d2⟩ := hw.data_slice (z2 ▸ h4) m1 hq hx heb (z2 ▸ h2) (by dsimp only; rw [hsl, z1]; exact h1) h3
      obtain ⟨_, _, _, _, _, k1, k2, k3, k4⟩ := hw.asked m1 hq
      rw [← d2.2] at k1 k2 k3 k4
      have hcnt := (hsel n hn hk).1
      have hcn := (NodeOf.copyable hg hn hcnt (hsel n hn hk).2).1.count
      have hp : 0 < recs.length := by omega
      have hp2 : recs.length < 2147483648 := by omega
      obtain ⟨pts, u1, u2⟩ := points_are hh hf6 ⟨hbase, h4⟩ h2 hp2
      obtain ⟨pts', _, p5, p6⟩ := points_of_data (hd := r.cfg.header) hf6 hbase h2 hp hp2 d1
        (k1.trans z1) (k2.trans z2) (k3.trans z3) (k4.trans z4)
      obtain rfl : pts = pts' := Res.ok.inj (u1.symm.trans p5)
      exact ⟨pts, s4, p6, u2⟩
  · obtain ⟨s2, f, _⟩ := C33_findNode_other hw m1 hq (key := key) (by
      intro m hm'
      obtain ⟨n, h1, h2⟩ := hnone m hm'
      rw [h2]
      exact hno n (hin.1 h1).1 (hin.1 h1).2)
    exact ⟨s2, f⟩

theorem first_empty : ∀ (ns : List Node), (∃ n ∈ ns, n.entry.pointCount = 0) →
    ∃ a n b, ns = a ++ n :: b ∧ n.entry.pointCount = 0 ∧ ∀ m ∈ a, m.entry.pointCount ≠ 0
  | [], h => by obtain ⟨_, h, _⟩ := h; cases h
  | m :: ns, h => by
    by_cases h0 : m.entry.pointCount = 0
    · exact ⟨[], m, ns, rfl, h0, by simp⟩
    · obtain ⟨a, n, b, rfl, h1, h2⟩ := first_empty ns (by
        obtain ⟨n, h1, h2⟩ := h
        rcases List.mem_cons.1 h1 with rfl | h1
        · exact absurd h2 h0
        · exact ⟨n, h1, h2⟩)
      refine ⟨m :: a, n, b, rfl, h1, fun x hx => ?_⟩
      rcases List.mem_cons.1 hx with rfl | hx
      · exact h0
      · exact h2 x hx

/-- The whole claim fails for every file with a node without points (which the COPC format allows): copying it as the examples do
throws. -/
theorem C90_empty_violated (hsize : data.length < 2 ^ 63) (hg : GoodHierarchy data ps) (ho : Opened data ps r) (ha : Asked L r q r1)
    (hall : Run.Ends (fun k => Reader.getAllNodes rord k) r1 (.ok all, r2)) {c : CopcConfig} {o : Writer.Overrides} {v0 : Writer}
    (hm : Writer.make OStream.fresh c o = .ok v0)
    (hin : ∀ n, NodeOf ps n → 0 ≤ n.entry.pointCount ∧ n.entry.offset + n.entry.byteSize.toNat ≤ data.length)
    (hempty : ∃ n, NodeOf ps n ∧ n.entry.pointCount = 0) :
    (copyNodes L ord all (r2, v0)).1 = .throw .zeroCount := by
  obtain ⟨hA, hnd, hd, hf⟩ := all_listed hg ho ha hall
  obtain ⟨n0, hn0, hz0⟩ := hempty
  obtain ⟨a, n, b, rfl, hz, hpre⟩ := first_empty all ⟨n0, (hA.2 n0).2 hn0, hz0⟩
  have hN : ∀ m ∈ a ++ n :: b, NodeOf ps m := fun m h => (hA.2 m).1 h
  obtain ⟨r3, v, t, g1, _, _, _, _, g6, g7, _⟩ := copy_run (L := L) (ord := ord) hsize hm a (fun m h => by
    have h1 := hN m (List.mem_append_left _ h)
    obtain ⟨h2, h3⟩ := hin m h1
    have := hpre m h
    exact (NodeOf.copyable hg h1 (by omega) h3).1) r2 v0 [] hd hf .start (by intro x hx; cases hx)
  unfold copyNodes at g1 ⊢
  have hn := hN n (by simp)
  have e1 := compressed_reads g6 g7 hsize (NodeOf.isValid hg hn) (hin n hn).2
  have a1 : ∀ bs q', Reader.getPointDataCompressed n r3 = (.ok bs, q') →
      Act.zoom Prod.fst (fun r s => (r, s.2)) (Reader.getPointDataCompressed n) ((r3, v) : Copier) = (.ok bs, (q', v)) := by
    intro bs q' h
    rw [Act.zoom_apply]; dsimp only; rw [h]
  have e2 : (copyNode L ord n (r3, v)).1 = .throw .zeroCount := by
    unfold copyNode
    rw [Act.bind_ok (a1 _ _ e1), hz]
    rfl
  rw [Mp.forEach_append, Act.bind_ok g1]
  rw [Act.forEach_cons, Act.bind_apply]
  generalize copyNode L ord n (r3, v) = x at e2
  obtain ⟨x1, x2⟩ := x
  dsimp only at e2
  subst e2
  rfl

end
end Copc
