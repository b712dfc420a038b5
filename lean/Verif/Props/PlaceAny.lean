import Verif.Props.ConformingLaz
import Verif.Props.MapFormat
import Verif.Spec.Place
/-! # C94: LAZ files of other programs, converted to COPC -/
namespace Copc
open Spec VoxelKey

section
variable {L : Lazperf} {data : Bytes} {c : LazConfig}

/-- What a LAZ reader gives for a file of another program are good arguments for the configuration of a Writer. -/
theorem laz_args (hc : Format.Las data) (hs : Format.SuitsLas data) (hr : Format.ReadAsLas data c) (hi : LazItemsFit c) :
    GoodArgs c.header.fmt c.wkt c.eb := by
  have hf : c.header.fmt = 6 ∨ c.header.fmt = 7 ∨ c.header.fmt = 8 := by
    have hfm := hr.header.format
    rcases hc.format with h | h | h <;> omega
  have hvlr : ∀ {r}, Format.found data Format.uSpec 4 = some r → r ∈ Format.vlrs data := by
    intro r hfd
    rcases List.mem_append.1 (List.mem_of_find?_eq_some hfd) with h' | h'
    · exact h'
    · exfalso
      have hp := List.find?_some hfd
      exact hs.ebs r h' (by simpa using hp)
  have hfew : Format.ebCount data ≤ 341 := by
    unfold Format.ebCount
    cases hfd : Format.found data Format.uSpec 4 with
    | none => simp
    | some r =>
      have := vlr_size (hvlr hfd)
      simp only [Option.map_some, Option.getD_some]
      omega
  refine ⟨hf, ?_, by rw [hr.ebLength]; exact hfew, ?_, ?_⟩
  · intro f h
    refine ⟨(hi.types f h).1, (hi.types f h).2, ?_⟩
    obtain ⟨i, hi', rfl⟩ := List.getElem_of_mem h
    have hpos : Format.ebCount data ≠ 0 := by rw [← hr.ebLength]; omega
    cases hfd : Format.found data Format.uSpec 4 with
    | none => unfold Format.ebCount at hpos; rw [hfd] at hpos; simp at hpos
    | some r =>
      have hb := hr.eb r hfd i _ (List.getElem?_eq_getElem hi')
      have hend := hc.vlrsEnd r (hvlr hfd)
      have hsz : i < r.size / 192 := by
        have := hr.ebLength
        unfold Format.ebCount at this
        rw [hfd] at this
        simp only [Option.map_some, Option.getD_some] at this
        omega
      have hpo := hc.pointsFrom.2
      have hlt : ∀ k p, p + k ≤ data.length → (Format.text data k p).length = k := by
        intro k p h
        unfold Format.text
        simp; omega
      have hholds : ∀ {k p : Nat} {s : Bytes}, p + k ≤ data.length → Format.Holds data k p s → s.length ≤ k := by
        intro k p s h1 h2
        have := congrArg List.length h2
        rw [hlt k p h1] at this
        simp at this
        omega
      obtain ⟨t1, t2⟩ := hi.texts _ h
      exact ⟨by rw [hb.reserved]; exact hlt _ _ (by omega), by rw [hb.unused]; exact hlt _ _ (by omega),
        ⟨t1, hholds (by omega) hb.name⟩, t2, hholds (by omega) hb.description⟩
  · rw [← hi.record]
    exact c.header.recLen.toNat_lt
  · rw [hr.wkt]
    cases hfd : Format.found data Format.uProj 2112 with
    | none => simp
    | some r =>
      have := hs.wktSize r hfd
      simp only [Option.map_some, Option.getD_some]
      unfold Format.text
      simp only [List.length_take]
      omega

/-- What the points are that `LazReader::GetPoints` gives. -/
theorem laz_as_read {hd : LasHeader} (hh : Format.HeaderIs data hd) (hf : hd.fmt = 6 ∨ hd.fmt = 7 ∨ hd.fmt = 8)
    (hl : lasBaseSize hd.fmt ≤ hd.recLen.toNat) {recs : List Bytes} (hrec : ∀ x ∈ recs, x.length = hd.recLen.toNat)
    (hmax : recs.length < 2 ^ 31) {pts : List Point} (hp : Reader.unpackWith hd recs.flatten = .ok pts) :
    ∀ p ∈ pts, Format.AsRead data p := by
  obtain ⟨c1, c2, c3⟩ := ebSize_consistent hf hl
  have hbl : baseSize hd.fmt + (hd.recLen.toNat - lasBaseSize hd.fmt) = hd.recLen.toNat := c3
  obtain ⟨pts', w1, w2⟩ := unpack_records hf hl hrec (by omega)
  obtain rfl := Res.ok.inj (hp.symm.trans w1)
  intro p hp
  obtain ⟨x, hx, hu⟩ := forall₂_mem_right w2 hp
  have hlt := hd.recLen.toNat_lt
  have hcol := unpack_colours hf hu
  have hfm := hh.format
  have hrl := hh.record
  obtain ⟨p', t1, t2, t3, _⟩ := unpack_record hf hd.scale hd.offset (eb := hd.recLen.toNat - lasBaseSize hd.fmt) (bs := x)
    (by rw [hbl]; exact hrec x hx)
  have := t1 []
  rw [List.append_nil, hu] at this
  injection this with this
  injection this with this
  subst this
  exact ⟨Reach.unpack (by omega) hu, by omega, by omega, hcol.1, hcol.2⟩

/-- A point that was read and written, with its format and a scale that gives the stored integers back. -/
theorem same_back {scale offset : Vec3 Dbl} {p s : Point} (ha : Format.AsRead data p)
    (hx : ∃ X Y Z, removeScale p.x scale.x offset.x = .ok X ∧ applyScale X scale.x offset.x = p.x ∧
      removeScale p.y scale.y offset.y = .ok Y ∧ applyScale Y scale.y offset.y = p.y ∧
      removeScale p.z scale.z offset.z = .ok Z ∧ applyScale Z scale.z offset.z = p.z)
    (hb : ReadBack scale offset p s) : Converted p.fmt p s := by
  obtain ⟨X, Y, Z, x1, x2, y1, y2, z1, z2⟩ := hx
  obtain ⟨⟨X', x3, x4⟩, ⟨Y', y3, y4⟩, ⟨Z', z3, z4⟩, b1, b2, b3, b4, b5, b6, b7, b8, b9, b10, b11, b12, b13, b14, b15⟩ := hb
  obtain rfl := Res.ok.inj (x1.symm.trans x3)
  obtain rfl := Res.ok.inj (y1.symm.trans y3)
  obtain rfl := Res.ok.inj (z1.symm.trans z3)
  exact ⟨x4.trans x2, y4.trans y2, z4.trans z2, b1, b2, b3, b4, b5, b6, b7, b8, fun _ _ => ⟨b9, b10, b11⟩, fun h6 hp6 => absurd hp6 h6,
    fun _ _ => b12, fun h8 hp8 => absurd h8 hp8, b13, b14, by rw [b15]; exact (reach_wf ha.reach).recLen⟩

end

theorem forall₂_imp_mem {α β : Type} {R S : α → β → Prop} {l : List α} {m : List β} (h : List.Forall₂ R l m) :
    (∀ a b, a ∈ l → R a b → S a b) → List.Forall₂ S l m := by
  induction h with
  | nil => intro _; exact .nil
  | cons h1 _ ih =>
    intro h
    exact .cons (h _ _ List.mem_cons_self h1) (ih fun a b ha => h a b (List.mem_cons_of_mem _ ha))

/-- Every point is under one of the keys. -/
theorem placed_count {place : Point → VoxelKey} {page : VoxelKey → VoxelKey} {keys : List VoxelKey} (hd : keys.Nodup) :
    ∀ {pts : List Point}, (∀ p ∈ pts, place p ∈ keys) → ((placed place page keys pts).map fun n => n.points.length).sum = pts.length := by
  have h0 : ∀ l : List NodePoints, ((l.filter fun n => n.points ≠ []).map fun n => n.points.length).sum =
      (l.map fun n => n.points.length).sum := by
    intro l
    induction l with
    | nil => rfl
    | cons a l ih =>
      rw [List.filter_cons]
      by_cases h : a.points = []
      · rw [if_neg (by simp [h]), ih, List.map_cons, List.sum_cons, h]; simp
      · rw [if_pos (by simp [h]), List.map_cons, List.sum_cons, ih, List.map_cons, List.sum_cons]
  intro pts hp
  unfold placed
  rw [h0, List.map_map]
  have h1 : ((fun n : NodePoints => n.points.length) ∘ fun k => (⟨k, page k, pts.filter fun p => place p = k⟩ : NodePoints)) =
      fun k => (pts.filter fun p => decide (place p = k)).length := rfl
  rw [h1]
  induction pts with
  | nil =>
    simp
  | cons p pts ih =>
    have e := ih (fun x hx => hp x (List.mem_cons_of_mem _ hx)) rfl
    have hk := hp p List.mem_cons_self
    rw [List.length_cons, ← e]
    clear ih e hp h1
    induction keys with
    | nil => cases hk
    | cons k keys ih =>
      rw [List.nodup_cons] at hd
      rw [List.map_cons, List.sum_cons, List.map_cons, List.sum_cons, List.filter_cons]
      by_cases hpk : place p = k
      · rw [if_pos (by simp [hpk]), List.length_cons]
        have : (keys.map fun k => ((p :: pts).filter fun p => decide (place p = k)).length) =
            keys.map fun k => (pts.filter fun p => decide (place p = k)).length := by
          refine List.map_congr_left fun j hj => ?_
          rw [List.filter_cons, if_neg]
          intro h
          have : place p = j := by simpa using h
          exact hd.1 (by rw [← hpk, this]; exact hj)
        rw [this]
        omega
      · rw [if_neg (by simp [hpk]), ih hd.2 (by
          rcases List.mem_cons.1 hk with h | h
          · exact absurd h hpk
          · exact h)]
        omega

/-- A program with good arguments and good points, as in C80, and the metadata of its file. -/
theorem program_stored (L : Lazperf) (ord : Order) {fmt : Int} {scale offset : Vec3 Dbl} {wkt : Bytes}
    {eb : List EbField} (ext : Bool) (ha : GoodArgs fmt wkt eb) (h255 : lasBaseSize fmt + (eb.map lasItemSize).sum ≤ 255) :
    ∃ c, CopcConfig.make fmt scale offset wkt eb ext = .ok c ∧ ∀ c', PublicEdit c c' → GoodEdits c' →
      c'.header.fmt = fmt ∧ c'.header.scale = scale ∧ c'.header.offset = offset ∧ c'.wkt = wkt ∧ c'.eb = eb ∧
      c'.header.recLen.toNat = lasBaseSize fmt + (eb.map lasItemSize).sum ∧
      ∀ ns, GoodProgram L c'.header ns → ∃ w0 h w w', Writer.make OStream.fresh c' {} = .ok w0 ∧
        History L ord w0 h w ∧ (∀ x ∈ h, x.2.isOk = true) ∧
        h.map (·.1) = ns.map (fun n => .addPoints n.key fmt c'.header.recLen.toNat n.points n.page) ∧
        Writer.close L ord w = (.ok (), w') ∧
        (w'.base.out.data.length < 2 ^ 63 →
          ∃ r, Reader.init ⟨w'.base.out.data, 0, false⟩ = .ok r ∧ SameMetadata c' r.cfg ∧
            r.cfg.header.pointCount.toNat = (ns.map (·.points.length)).sum ∧
            ∀ (q : List Query) (r1 : Reader), Asked L r q r1 →
              (∀ rord, ∃ all r2, Run.Ends (fun k => Reader.getAllNodes rord k) r1 (.ok all, r2) ∧
                (all.map fun n => (n.entry.key, n.pageKey, n.entry.pointCount)).Perm
                  (ns.map fun n => (n.key, n.page, ((n.points.length : Nat) : Int)))) ∧
              ∀ n ∈ ns, ∃ qs r2, Run.Ends (fun k => Reader.getPointsAt L k n.key) r1 (.ok qs, r2) ∧
                List.Forall₂ (ReadBack scale offset) n.points qs) := by
  obtain ⟨c, hc, _, hrest⟩ := C79_constructors (scale := scale) (offset := offset) ext ha
  refine ⟨c, hc, fun c' he hg => ?_⟩
  obtain ⟨w0, hm, hcfg, k1, k2, k3, kw, k5, hst, hbo⟩ := hrest c' he hg
  have hcons := hst.toConsistent
  have hlen := hcons.len
  rw [hcfg, k1, k5] at hlen
  rw [hcfg] at hcons
  refine ⟨k1, k2, k3, kw, k5, hlen, fun ns hp => ?_⟩
  have hb : lasBaseSize c'.header.fmt ≤ c'.header.recLen.toNat := by rw [k1]; omega
  obtain ⟨plan, hplan⟩ := forall₂_of_mem ns fun n hn => node_done hcons.fmt hb (hp.good n hn)
  have hrl : w0.cfg.header.recLen.toNat ≤ 255 := by rw [hcfg, hlen]; exact h255
  rw [← hcfg] at hp hplan
  obtain ⟨h, w, g1, gu, gc, g2⟩ := plan_runs (ord := ord) hm hst.toConsistent plan .start (by intro x hx; cases hx) rfl
    (program_plan (by rw [hcfg]; exact hb) hp hplan).good
  rw [List.nil_append] at g1 gu
  obtain ⟨w', g3, g4⟩ := plan_file hm hst hbo (program_plan (by rw [hcfg]; exact hb) hp hplan) g1 gu gc g2
  refine ⟨w0, h, w, w', hm, g1, ?_, ?_, g3, fun hsize => ?_⟩
  · intro x hx
    obtain ⟨a, _, _, off, he⟩ := forall₂_mem_right g2 hx
    rw [he]; rfl
  · rw [forall₂_map_eq (f := fun a : Addition => a.op) (g := fun x : Op × Res (Option Node) => x.1) (fun a x h => h.1) g2,
      forall₂_map_eq (f := fun n : NodePoints => Op.addPoints n.key w0.cfg.header.fmt w0.cfg.header.recLen.toNat n.points n.page)
        (g := fun a : Addition => a.op) (fun n a h => h.1) hplan, hcfg, k1]
  · obtain ⟨hw, r, hr, _⟩ := g4 hsize
    obtain ⟨s, e1, _, e3⟩ := C35_metadata_partial hm hw.history hw.unclosed (by rw [gc]; exact hst) g3 hsize hw.few
    obtain rfl := Res.ok.inj (hr.symm.trans e1)
    rw [gc, hcfg] at e3
    obtain ⟨f1, f2⟩ := program_file hrl hp hplan g2 hw hr
    rw [hcfg, k2, k3] at f2
    exact ⟨r, hr, e3, f1, f2⟩

/-- A program that converts a LAZ file of another program to COPC: a LazReader, its points; a configuration made from the point format,
scale, offset, WKT and extra bytes that the reader gives, edited (bounds, identifiers, info); a Writer; the points distributed over
keys by any function of a point (`placed`); `Close`. Every call returns; the new file has the metadata of the edited configuration and
the number of points of the LAZ file; its nodes are the keys with points, each with its page and number of points; the points of a key
are those that the LAZ file holds (`pts`: every attribute as at its position in the record) with this key as their place, in their
order and unchanged (`Converted` to the same format). What is asked of the LAZ file beyond C89: extra-byte descriptors that fit the
records, fewer than 2^31 points, a scale that gives the stored integers back (C13). -/
theorem C94_place_partial (L : Lazperf) (ord : Order) {data : Bytes} (hc : Format.Las data) (hs : Format.SuitsLas data)
    {recss : List (List Bytes)} (hk : Format.Chunks L data recss)
    (hkind : Format.Varying L data recss ∨ ∃ c, Format.Fixed data recss c)
    (hlen : baseSize ((Format.num data 1 104 : Int) - 128) ≤ Format.num data 2 105 ∧ Format.num data 2 105 ≤ 255)
    (hmax : recss.flatten.length < 2 ^ 31) (ext : Bool) :
    ∃ r pts, LazReader.init L ⟨data, 0, false⟩ = .ok r ∧ Format.ReadAsLas data r.base.las ∧ LazReader.getPoints L r = .ok pts ∧
      List.Forall₂ (Format.PointIs data) recss.flatten pts ∧
      (LazItemsFit r.base.las → GoodScale r.base.las.header.scale.x r.base.las.header.offset.x →
        GoodScale r.base.las.header.scale.y r.base.las.header.offset.y →
        GoodScale r.base.las.header.scale.z r.base.las.header.offset.z →
        ∃ c, CopcConfig.make r.base.las.header.fmt r.base.las.header.scale r.base.las.header.offset r.base.las.wkt r.base.las.eb ext =
            .ok c ∧
          ∀ c', PublicEdit c c' → GoodEdits c' →
          ∀ (place : Point → VoxelKey) (page : VoxelKey → VoxelKey) (keys : List VoxelKey),
            GoodPlaces L ((Format.num data 1 104 : Int) - 128) (Format.num data 2 105) place page keys pts →
            ∃ w0 h w w', Writer.make OStream.fresh c' {} = .ok w0 ∧ History L ord w0 h w ∧ (∀ x ∈ h, x.2.isOk = true) ∧
              h.map (·.1) = (placed place page keys pts).map (fun n => .addPoints n.key ((Format.num data 1 104 : Int) - 128)
                (Format.num data 2 105) n.points n.page) ∧
              Writer.close L ord w = (.ok (), w') ∧
              (w'.base.out.data.length < 2 ^ 63 → ∃ s, Reader.init ⟨w'.base.out.data, 0, false⟩ = .ok s ∧
                SameMetadata c' s.cfg ∧ s.cfg.wkt = r.base.las.wkt ∧ s.cfg.eb = r.base.las.eb ∧
                s.cfg.header.scale = r.base.las.header.scale ∧ s.cfg.header.offset = r.base.las.header.offset ∧
                s.cfg.header.pointCount.toNat = Format.num data 8 247 ∧
                ∀ (q : List Query) (s1 : Reader), Asked L s q s1 →
                  (∀ rord, ∃ all s2, Run.Ends (fun k => Reader.getAllNodes rord k) s1 (.ok all, s2) ∧
                    (all.map fun n => (n.entry.key, n.pageKey, n.entry.pointCount)).Perm
                      ((placed place page keys pts).map fun n => (n.key, n.page, ((n.points.length : Nat) : Int)))) ∧
                  ∀ key ∈ keys, (pts.filter fun p => place p = key) ≠ [] →
                    ∃ qs s2, Run.Ends (fun k => Reader.getPointsAt L k key) s1 (.ok qs, s2) ∧
                      List.Forall₂ (Converted ((Format.num data 1 104 : Int) - 128)) (pts.filter fun p => place p = key) qs)) := by
  obtain ⟨r, hr, hread, hdata, hpts⟩ := C89_read_partial hc hs hk hkind hlen
  obtain ⟨pts, hp1, hp2⟩ := hpts hmax
  refine ⟨r, pts, hr, hread, hp1, hp2, fun hi g1 g2 g3 => ?_⟩
  have hh := hread.header
  have ha := laz_args hc hs hread hi
  have hfm : (Format.num data 1 104 : Int) - 128 = r.base.las.header.fmt := by have := hh.format; omega
  have hrl := hh.record
  have hl : lasBaseSize r.base.las.header.fmt ≤ r.base.las.header.recLen.toNat := by
    have := hlen.1
    rw [hfm] at this
    rw [hrl]
    exact this
  have hpos : 0 < Format.num data 2 105 := by
    have : 0 < lasBaseSize r.base.las.header.fmt := by unfold lasBaseSize; split <;> [decide; split <;> decide]
    omega
  have hrec : ∀ x ∈ recss.flatten, x.length = r.base.las.header.recLen.toNat := by
    intro x hx
    obtain ⟨recs, hm, hx⟩ := List.mem_flatten.1 hx
    rw [hrl]
    exact hk.records recs hm x hx
  have hasread : ∀ p ∈ pts, Format.AsRead data p := by
    by_cases h0 : recss.flatten.flatten = []
    · have hnil : recss.flatten = [] := by
        rw [List.eq_nil_iff_forall_not_mem]
        intro x hx
        have h1 := hrec x hx
        have h2 : x = [] := List.flatten_eq_nil_iff.1 h0 x hx
        rw [h2] at h1
        simp only [List.length_nil] at h1
        omega
      rw [hnil] at hp2
      cases hp2
      intro p hp
      cases hp
    · refine laz_as_read hh ha.fmt hl hrec hmax ?_
      unfold LazReader.getPoints at hp1
      rw [hdata] at hp1
      simp only [Res.okBind] at hp1
      rw [if_neg h0] at hp1
      exact hp1
  obtain ⟨c, hcm, hrest⟩ := program_stored L ord (scale := r.base.las.header.scale) (offset := r.base.las.header.offset) ext ha
    (by rw [← hi.record, hrl]; exact hlen.2)
  refine ⟨c, hcm, fun c' he hg place page keys hgp => ?_⟩
  obtain ⟨k1, k2, k3, kw, k5, k6, hrun⟩ := hrest c' he hg
  rw [← hi.record, hrl] at k6
  have hexact : ∀ p ∈ pts, ∃ X Y Z, removeScale p.x r.base.las.header.scale.x r.base.las.header.offset.x = .ok X ∧
      applyScale X r.base.las.header.scale.x r.base.las.header.offset.x = p.x ∧
      removeScale p.y r.base.las.header.scale.y r.base.las.header.offset.y = .ok Y ∧
      applyScale Y r.base.las.header.scale.y r.base.las.header.offset.y = p.y ∧
      removeScale p.z r.base.las.header.scale.z r.base.las.header.offset.z = .ok Z ∧
      applyScale Z r.base.las.header.scale.z r.base.las.header.offset.z = p.z := by
    intro p hp
    obtain ⟨bs, _, hpi⟩ := forall₂_mem_right hp2 hp
    exact pointIs_exact hh g1 g2 g3 hpi
  have hmem : ∀ n ∈ placed place page keys pts, n.key ∈ keys ∧ n.page = page n.key ∧
      n.points = (pts.filter fun p => place p = n.key) ∧ n.points ≠ [] := by
    intro n hn
    unfold placed at hn
    obtain ⟨hn, hne⟩ := List.mem_filter.1 hn
    obtain ⟨k, hkm, rfl⟩ := List.mem_map.1 hn
    exact ⟨hkm, rfl, rfl, by simpa using hne⟩
  have hsub : ∀ {k p}, p ∈ (pts.filter fun p => decide (place p = k)) → p ∈ pts := fun h => (List.mem_filter.1 h).1
  have hsame : ∀ p ∈ pts, Reach p ∧ p.fmt = c'.header.fmt ∧ p.recLen = c'.header.recLen.toNat := by
    intro p hp
    have := hasread p hp
    exact ⟨this.reach, by rw [this.fmt, k1, hfm], by rw [this.recLen, k6]⟩
  have hgood : GoodProgram L c'.header (placed place page keys pts) := by
    refine ⟨fun n hn => ?_, ?_, ?_⟩
    · obtain ⟨m1, m2, m3, m4⟩ := hmem n hn
      obtain ⟨p1, p2, p3⟩ := hgp.pages _ m1
      refine ⟨(hgp.valid _ m1).1, by rw [m2]; exact p1, by rw [m2]; exact p2, by rw [m2]; exact p3, (hgp.valid _ m1).2, m4,
        fun p hp => hsame p (hsub (by rw [← m3]; exact hp)), fun p hp => ?_, ?_, ?_⟩
      · obtain ⟨X, Y, Z, x1, _, y1, _, z1, _⟩ := hexact p (hsub (by rw [← m3]; exact hp))
        rw [k2, k3]
        exact ⟨(removeScale_fits _ _ _).1 ⟨X, x1⟩, (removeScale_fits _ _ _).1 ⟨Y, y1⟩, (removeScale_fits _ _ _).1 ⟨Z, z1⟩⟩
      · rw [m3, k6]; exact hgp.raw _ m1
      · intro eb recs _ hpk hrs
        rw [k1, ← hfm]
        rw [k6] at hrs
        refine hgp.compressed _ m1 eb recs ?_ hrs
        have hpl := C18_pack_length _ (Format.num data 2 105) (fun p hp => by
          have := hsame p (hsub (by rw [← m3]; exact hp))
          exact ⟨this.1, by rw [this.2.2, k6]⟩) _ _ _ hpk
        rw [List.length_flatten, List.map_congr_left hrs, List.map_const', List.sum_replicate_nat] at hpl
        rw [← m3]
        exact Nat.eq_of_mul_eq_mul_right hpos hpl
    · unfold placed
      refine List.Nodup.sublist (List.Sublist.map _ List.filter_sublist) ?_
      rw [List.map_map]
      have : ((fun n : NodePoints => n.key) ∘ fun k => (⟨k, page k, pts.filter fun p => place p = k⟩ : NodePoints)) = id := rfl
      rw [this, List.map_id]
      exact hgp.distinct
    · unfold placed
      refine Nat.lt_of_le_of_lt (List.length_filter_le _ _) ?_
      rw [List.length_map]
      exact hgp.few
  obtain ⟨w0, h, w, w', t1, t2, t3, t4, t5, t6⟩ := hrun _ hgood
  refine ⟨w0, h, w, w', t1, t2, t3, ?_, t5, fun hsize => ?_⟩
  · rw [t4, hfm, k6]
  · obtain ⟨s, u1, u2, u3, u4⟩ := t6 hsize
    refine ⟨s, u1, u2, u2.wkt.trans kw, u2.eb.trans k5, u2.scale.trans k2, u2.offset.trans k3, ?_, fun q s1 hq => ⟨(u4 q s1 hq).1, ?_⟩⟩
    · rw [u3, placed_count hgp.distinct hgp.every, ← hp2.length_eq]
      exact hk.count.symm
    · intro key hkey hne
      obtain ⟨qs, s2, v1, v2⟩ := (u4 q s1 hq).2 ⟨key, page key, pts.filter fun p => place p = key⟩ (by
        unfold placed
        rw [List.mem_filter]
        exact ⟨List.mem_map.2 ⟨key, hkey, rfl⟩, by simpa using hne⟩)
      refine ⟨qs, s2, v1, ?_⟩
      dsimp only at v2
      refine forall₂_imp_mem v2 fun p s' hp hb => ?_
      have hpm := hsub hp
      have := same_back (hasread p hpm) (hexact p hpm) hb
      rw [(hasread p hpm).fmt] at this
      exact this

end Copc
