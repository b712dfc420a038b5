import Verif.Props.MapAny
/-! # C93: converting to another format, rescaling -/
namespace Copc
open Spec VoxelKey Point

/-- What a writer with another format, scale or offset holds can be stored. -/
theorem overridden_storable {c c' : CopcConfig} {o : Writer.Overrides} (hst : Storable c) (hov : Overridden c c' o)
    (ho : o.eb = none ∧ o.wkt = none) (hf : ∀ f, o.fmt = some f → f = 6 ∨ f = 7 ∨ f = 8)
    (hl : lasBaseSize c'.header.fmt + (c.eb.map lasItemSize).sum < 65536) : Storable c' := by
  have e1 : c'.eb = c.eb := by rw [hov.eb, ho.1]; rfl
  have e2 : c'.wkt = c.wkt := by rw [hov.wkt, ho.2]; rfl
  have e3 : c'.header.fmt = 6 ∨ c'.header.fmt = 7 ∨ c'.header.fmt = 8 := by
    rw [hov.fmt]
    cases h : o.fmt with
    | none => exact hst.fmt
    | some f => exact hf f h
  have e4 : c'.header.recLen.toNat = lasBaseSize c'.header.fmt + (c'.eb.map lasItemSize).sum := by
    rw [hov.recLen, e1, Nat.mod_eq_of_lt hl]
  refine ⟨⟨e3, e4, by rw [e1]; exact hst.items, hov.extNumber⟩, ⟨e3, by rw [hov.pointsByReturn]; exact hst.header.byReturn,
    by rw [hov.guid]; exact hst.header.guid, by rw [hov.systemIdentifier]; exact hst.header.sys,
    by rw [hov.generatingSoftware]; exact hst.header.gen⟩, hov.extFmt, ?_, by rw [e1]; exact hst.few,
    by rw [e1]; exact hst.descriptors, by rw [e2]; exact hst.wktLen⟩
  intro x hx
  rcases hov.extentsFrom x hx with rfl | h
  · exact default_good
  · exact hst.ordered x h

/-- A coordinate of a record of a file with a good scale is given back. -/
theorem sField_exact {bs : Bytes} {p : Nat} {scale offset : Dbl} (h : GoodScale scale offset) :
    removeScale (applyScale (sField bs p 4) scale offset) scale offset = .ok (sField bs p 4) := by
  refine C11_coordinate _ (signed_InI32 ?_) _ _ h
  have := unLe_lt (field bs p 4)
  have hl : (field bs p 4).length ≤ 4 := by unfold field; rw [List.length_take]; omega
  exact Nat.lt_of_lt_of_le this (Nat.pow_le_pow_right (by omega) hl)

section
variable {data : Bytes} {hd : LasHeader}

/-- The coordinates of a point that was read, in a file with the same scale. -/
theorem pointIs_exact (hh : Format.HeaderIs data hd) (g1 : GoodScale hd.scale.x hd.offset.x) (g2 : GoodScale hd.scale.y hd.offset.y)
    (g3 : GoodScale hd.scale.z hd.offset.z) {bs : Bytes} {p : Point} (h : Format.PointIs data bs p) : ∃ X Y Z,
    removeScale p.x hd.scale.x hd.offset.x = .ok X ∧ applyScale X hd.scale.x hd.offset.x = p.x ∧
    removeScale p.y hd.scale.y hd.offset.y = .ok Y ∧ applyScale Y hd.scale.y hd.offset.y = p.y ∧
    removeScale p.z hd.scale.z hd.offset.z = .ok Z ∧ applyScale Z hd.scale.z hd.offset.z = p.z := by
  obtain ⟨X, Y, Z, hl, _, h1, h2, h3⟩ := h
  have e1 := hh.scale
  have e2 := hh.offset
  rw [e1, e2] at g1 g2 g3 ⊢
  dsimp only at *
  have h1 := h1.trans (by rw [← hl.x])
  have h2 := h2.trans (by rw [← hl.y])
  have h3 := h3.trans (by rw [← hl.z])
  rw [h1, h2, h3]
  exact ⟨_, _, _, sField_exact g1, rfl, sField_exact g2, rfl, sField_exact g3, rfl⟩

end

theorem convert_ok {f : Int} (hf : f = 6 ∨ f = 7 ∨ f = 8) : ∀ ps : List Point, ∃ qs, Res.mapL (fun p : Point => p.toPointFormat f) ps =
    .ok qs ∧ List.Forall₂ (fun (p q : Point) => p.toPointFormat f = .ok q) ps qs
  | [] => ⟨[], rfl, .nil⟩
  | p :: ps => by
    obtain ⟨qs, h1, h2⟩ := convert_ok hf ps
    have h3 := toPointFormat_wf (p := p) (fmt := f)
    rw [if_pos hf] at h3
    exact ⟨_ :: qs, by rw [Res.mapL, h3, Res.okBind, h1, Res.okBind], .cons h3 h2⟩

theorem convertPoints_all {f : Int} (hf : f = 6 ∨ f = 7 ∨ f = 8) (ps : List Point) :
    List.Forall₂ (fun (p q : Point) => p.toPointFormat f = .ok q) ps (convertPoints f ps) := by
  obtain ⟨qs, h1, h2⟩ := convert_ok hf ps
  unfold convertPoints
  rw [h1]
  exact h2

/-- A converted point that was written and read. -/
theorem converted_back {data : Bytes} {f : Int} (hf : f = 6 ∨ f = 7 ∨ f = 8) {scale offset : Vec3 Dbl} {p q s : Point}
    (ha : Format.AsRead data p)
    (hx : ∃ X Y Z, removeScale p.x scale.x offset.x = .ok X ∧ applyScale X scale.x offset.x = p.x ∧
      removeScale p.y scale.y offset.y = .ok Y ∧ applyScale Y scale.y offset.y = p.y ∧
      removeScale p.z scale.z offset.z = .ok Z ∧ applyScale Z scale.z offset.z = p.z)
    (hc : p.toPointFormat f = .ok q) (hb : ReadBack scale offset q s) : Converted f p s := by
  have hw := reach_wf ha.reach
  rw [toPointFormat_wf, if_pos hf] at hc
  obtain rfl := Res.ok.inj hc
  obtain ⟨X, Y, Z, x1, x2, y1, y2, z1, z2⟩ := hx
  obtain ⟨⟨X', x3, x4⟩, ⟨Y', y3, y4⟩, ⟨Z', z3, z4⟩, b1, b2, b3, b4, b5, b6, b7, b8, b9, b10, b11, b12, b13, b14, b15⟩ := hb
  dsimp only at *
  obtain rfl := Res.ok.inj (x1.symm.trans x3)
  obtain rfl := Res.ok.inj (y1.symm.trans y3)
  obtain rfl := Res.ok.inj (z1.symm.trans z3)
  refine ⟨x4.trans x2, y4.trans y2, z4.trans z2, b1, b2, b3, b4, b5, b6, b7, b8, ?_, ?_, ?_, ?_, b13, b14, b15⟩
  · intro h6 hp6
    have e := hw.hasRgb
    rw [b9, b10, b11]
    unfold Point.getRed Point.getGreen Point.getBlue
    dsimp only
    rw [e, if_pos (by simp [h6]), if_pos (by simp [hp6]), if_pos (by simp [h6]), if_pos (by simp [hp6]),
      if_pos (by simp [h6]), if_pos (by simp [hp6])]
    exact ⟨rfl, rfl, rfl⟩
  · intro h6 hp6
    obtain ⟨c1, c2, c3⟩ := ha.noRgb hp6
    rw [b9, b10, b11]
    unfold Point.getRed Point.getGreen Point.getBlue
    dsimp only
    rw [if_pos (by simp [h6]), if_pos (by simp [h6]), if_pos (by simp [h6]), c1, c2, c3]
    exact ⟨rfl, rfl, rfl⟩
  · intro h8 hp8
    have e := hw.hasNir
    rw [b12]
    unfold Point.getNir
    dsimp only
    rw [e, if_pos (by simp [h8]), if_pos (by simp [hp8])]
  · intro h8 hp8
    have c1 := ha.noNir hp8
    rw [b12]
    unfold Point.getNir
    dsimp only
    rw [if_pos (by simp [h8]), c1]

section
variable {L : Lazperf} {ord : Order} {rord : ROrder} {data : Bytes} {ps : List FPage} {r r1 r2 : Reader} {q : List Query}
  {all : List Node}

theorem holds_count {n : Node} {recs : List Bytes} (h : Format.NodeHolds L data n recs) : n.entry.pointCount = (recs.length : Int) := by
  rcases h with ⟨h, _, rfl⟩ | ⟨_, _, _, _, h⟩
  · exact h
  · exact h

/-- The length of a record of the file in format `f`: that of the format and the bytes that the file has after those of its format. -/
def newLength (data : Bytes) (f : Int) : Nat := baseSize f + (Format.num data 2 105 - baseSize ((Format.num data 1 104 : Int) - 128))

/-- The writer of a program that converts or rescales. -/
theorem overridden_make (hc : Format.Conforms data) (hs : Format.Suits data) (hr : Format.ReadAs data r.cfg) (hitems : ItemsFit r.cfg)
    (hext : (Format.found data Format.uCopc 10000).isSome = true ∨ Format.ebCount data = 0) (hbounds : BoundsInOrder r.cfg.header)
    {o : Writer.Overrides} (ho : o.eb = none ∧ o.wkt = none) (hf : ∀ f, o.fmt = some f → f = 6 ∨ f = 7 ∨ f = 8)
    (h255 : newLength data (o.fmt.getD ((Format.num data 1 104 : Int) - 128)) ≤ 255) :
    ∃ v0, Writer.make OStream.fresh r.cfg o = .ok v0 ∧ Overridden r.cfg v0.cfg o ∧ Storable v0.cfg ∧ BoundsInOrder v0.cfg.header ∧
      v0.cfg.header.recLen.toNat = newLength data (o.fmt.getD ((Format.num data 1 104 : Int) - 128)) := by
  have hst := storable_read hc hs hr hitems hext
  obtain ⟨v0, hm, hov⟩ := C50_overrides hst.toConsistent hst.extentsFmt hst.ordered (by have := hst.few; omega)
    (fun x hx => (hitems.types x hx).1) o hf (by rw [ho.1]; intro l hl; cases hl) OStream.fresh
  have hh := hr.header
  have hfm : (Format.num data 1 104 : Int) - 128 = r.cfg.header.fmt := by have := hh.format; omega
  have hsum : (r.cfg.eb.map lasItemSize).sum = Format.num data 2 105 - baseSize ((Format.num data 1 104 : Int) - 128) := by
    have e1 := hitems.record
    have e2 : lasBaseSize r.cfg.header.fmt = baseSize r.cfg.header.fmt := rfl
    rw [hfm]
    rw [hh.record] at e1
    omega
  have e3 : v0.cfg.header.fmt = o.fmt.getD ((Format.num data 1 104 : Int) - 128) := by rw [hfm]; exact hov.fmt
  have e4 : v0.cfg.eb = r.cfg.eb := by rw [hov.eb, ho.1]; rfl
  have hl : lasBaseSize v0.cfg.header.fmt + (r.cfg.eb.map lasItemSize).sum =
      newLength data (o.fmt.getD ((Format.num data 1 104 : Int) - 128)) := by rw [e3, hsum]; rfl
  refine ⟨v0, hm, hov, overridden_storable hst hov ho hf (by omega),
    by unfold BoundsInOrder; rw [hov.max, hov.min]; exact hbounds, ?_⟩
  rw [hov.recLen, e4, hl, Nat.mod_eq_of_lt (by omega)]

/-- A program that converts a file of another program to format `f`: a Writer made from the configuration of the reader with the new
format; the points of every node, read by `GetPoints` and converted by `ToPointFormat`, are added under their key (unless there are
none), and the file is closed. Every call returns, and the new file has, under every key of the original, the points of the original
in the new format (`Converted`; `pts`: every attribute as at its position in the record of the original), and no other node. What is
asked of the original beyond C93_map_partial: its scale gives the stored integers back (C13), and in the new format a node has at most
2^31 - 1 bytes of points, before and after compression. -/
theorem C93_format_partial (hc : Format.Conforms data) (hs : Format.Suits data) (hg : GoodHierarchy data ps) (ho : Opened data ps r)
    (hr : Format.ReadAs data r.cfg) (ha : Asked L r q r1)
    (hall : Run.Ends (fun k => Reader.getAllNodes rord k) r1 (.ok all, r2)) (hitems : ItemsFit r.cfg)
    (hext : (Format.found data Format.uCopc 10000).isSome = true ∨ Format.ebCount data = 0) (hbounds : BoundsInOrder r.cfg.header)
    (hholds : ∀ n, NodeOf ps n → ∃ recs, Format.NodeHolds L data n recs)
    (hlen : baseSize ((Format.num data 1 104 : Int) - 128) ≤ Format.num data 2 105 ∧ Format.num data 2 105 ≤ 255)
    (g1 : GoodScale r.cfg.header.scale.x r.cfg.header.offset.x) (g2 : GoodScale r.cfg.header.scale.y r.cfg.header.offset.y)
    (g3 : GoodScale r.cfg.header.scale.z r.cfg.header.offset.z) (hfew : all.length < 2 ^ 25)
    {f : Int} (hf : f = 6 ∨ f = 7 ∨ f = 8) (h255 : newLength data f ≤ 255)
    (hroom : ∀ n, NodeOf ps n → n.entry.pointCount * newLength data f ≤ 2147483647 ∧
      ∀ (eb : Nat) (recs : List Bytes), (recs.length : Int) = n.entry.pointCount → (∀ x ∈ recs, x.length = newLength data f) →
        (L.compress f eb recs).length ≤ 2147483647) :
    ∃ (v0 : Writer) (pts : VoxelKey → List Point) (r3 : Reader) (v v' : Writer),
      Writer.make OStream.fresh r.cfg { fmt := some f } = .ok v0 ∧ Overridden r.cfg v0.cfg { fmt := some f } ∧
      (∀ n, NodeOf ps n → ∃ recs, Format.NodeHolds L data n recs ∧ List.Forall₂ (Format.PointIs data) recs (pts n.entry.key)) ∧
      mapNodes L ord (fun _ => convertPoints f) all (r2, v0) = (.ok (), (r3, v)) ∧ Writer.close L ord v = (.ok (), v') ∧
      (v'.base.out.data.length < 2 ^ 63 → ∃ s, Reader.init ⟨v'.base.out.data, 0, false⟩ = .ok s ∧ SameMetadata v0.cfg s.cfg ∧
        s.cfg.header.pointCount.toNat = (all.map fun n => (pts n.entry.key).length).sum ∧
        ∀ (q' : List Query) (s1 : Reader), Asked L s q' s1 →
          (∀ n, NodeOf ps n → ∃ made s2, Run.Ends (fun k => Reader.getPointsAt L k n.entry.key) s1 (.ok made, s2) ∧
            List.Forall₂ (Converted f) (pts n.entry.key) made) ∧
          ∀ key, (∀ n, NodeOf ps n → n.entry.key ≠ key) →
            ∃ s2, Run.Ends (fun k => Reader.findNode k key) s1 (.ok Node.empty, s2)) := by
  obtain ⟨v0, hm, hov, hst, hb, hrl⟩ := overridden_make (o := { fmt := some f }) hc hs hr hitems hext hbounds
    ⟨rfl, rfl⟩ (by
      intro f' hf'
      obtain rfl := Option.some.inj hf'
      exact hf) h255
  have hrl : v0.cfg.header.recLen.toNat = newLength data f := hrl
  have hh := hr.header
  have hfm : (Format.num data 1 104 : Int) - 128 = r.cfg.header.fmt := by have := hh.format; omega
  have d1 : v0.cfg.header.fmt = f := hov.fmt
  have d2 : v0.cfg.header.scale = r.cfg.header.scale := hov.scale
  have d3 : v0.cfg.header.offset = r.cfg.header.offset := hov.offset
  have hexact := fun {bs p} h => pointIs_exact (bs := bs) (p := p) hh g1 g2 g3 h
  obtain ⟨pts, r3, v, v', k1, k2, k3, k4⟩ := C93_map_partial (ord := ord) hc hg ho hr ha hall hholds hlen hfew hm hst hb
    (by omega) (fun _ => convertPoints f) (by
      intro n recs pts hn h1 h2 h3
      have hconv := convertPoints_all hf pts
      have hcnt := holds_count h1
      have hlp := h2.length_eq
      have hlc := hconv.length_eq
      obtain ⟨m1, m2⟩ := hroom n hn
      have hall2 : ∀ p' ∈ convertPoints f pts, Reach p' ∧ p'.fmt = v0.cfg.header.fmt ∧ p'.recLen = v0.cfg.header.recLen.toNat ∧
          CoordFits p'.x v0.cfg.header.scale.x v0.cfg.header.offset.x ∧
          CoordFits p'.y v0.cfg.header.scale.y v0.cfg.header.offset.y ∧
          CoordFits p'.z v0.cfg.header.scale.z v0.cfg.header.offset.z := by
        intro p' hp'
        obtain ⟨p, hp, hcv⟩ := forall₂_mem_right hconv hp'
        obtain ⟨bs, _, hpi⟩ := forall₂_mem_right h2 hp
        obtain ⟨X, Y, Z, x1, _, y1, _, z1, _⟩ := hexact hpi
        have hw := reach_wf (h3 p hp).reach
        have hpl := (h3 p hp).recLen
        have hpf := (h3 p hp).fmt
        refine ⟨Reach.toPointFormat (h3 p hp).reach hcv, ?_⟩
        rw [toPointFormat_wf, if_pos hf] at hcv
        obtain rfl := Res.ok.inj hcv
        dsimp only
        rw [d1, d2, d3, hrl]
        refine ⟨rfl, ?_, (removeScale_fits _ _ _).1 ⟨X, x1⟩, (removeScale_fits _ _ _).1 ⟨Y, y1⟩, (removeScale_fits _ _ _).1 ⟨Z, z1⟩⟩
        have := hw.recLen
        unfold newLength
        rw [← hpf, ← hpl]
        omega
      refine ⟨fun p hp => ⟨(hall2 p hp).1, (hall2 p hp).2.1, (hall2 p hp).2.2.1⟩, fun p hp => (hall2 p hp).2.2.2, ?_, ?_⟩
      · rw [hrl, ← hlc, ← hlp]
        rw [hcnt] at m1
        exact_mod_cast m1
      · intro eb rs _ hpk hrs
        rw [d1]
        rw [hrl] at hrs
        refine m2 eb rs ?_ hrs
        have hpl := C18_pack_length _ (newLength data f) (fun p hp => ⟨(hall2 p hp).1, by rw [← hrl]; exact (hall2 p hp).2.2.1⟩) _ _ _ hpk
        have hpos : 0 < newLength data f := by
          unfold newLength baseSize
          rcases hf with rfl | rfl | rfl <;> simp
        rw [List.length_flatten, List.map_congr_left hrs, List.map_const', List.sum_replicate_nat] at hpl
        have := Nat.eq_of_mul_eq_mul_right hpos hpl
        omega)
  refine ⟨v0, pts, r3, v, v', hm, hov, fun n hn => ?_, k2, k3, fun hsize => ?_⟩
  · obtain ⟨recs, h1, h2, _⟩ := k1 n hn
    exact ⟨recs, h1, h2⟩
  obtain ⟨s, s0, m1, m2, m3⟩ := k4 hsize
  refine ⟨s, s0, m1, ?_, fun q' s1 hq => ⟨fun n hn => ?_, (m3 q' s1 hq).2⟩⟩
  · rw [m2]
    congr 1
    refine List.map_congr_left fun n _ => ((convertPoints_all hf _).length_eq).symm
  · obtain ⟨⟨made, s2, u1, u2⟩, _⟩ := (m3 q' s1 hq).1 n hn
    obtain ⟨recs, h1, h2, h3⟩ := k1 n hn
    refine ⟨made, s2, u1, ?_⟩
    rw [d2, d3] at u2
    have hconv := convertPoints_all hf (pts n.entry.key)
    clear hall m1 m2 m3 k1 k4
    revert made recs
    generalize pts n.entry.key = a at *
    intro made _ u2 recs _ h2
    clear hroom
    have hforall : ∀ {xs qs ys : List Point} {recs : List Bytes}, List.Forall₂ (Format.PointIs data) recs xs →
        (∀ p ∈ xs, Format.AsRead data p) → List.Forall₂ (fun (p q : Point) => p.toPointFormat f = .ok q) xs qs →
        List.Forall₂ (ReadBack r.cfg.header.scale r.cfg.header.offset) qs ys → List.Forall₂ (Converted f) xs ys := by
      intro xs qs ys recs c1 c2 c3 c4
      induction c3 generalizing ys recs with
      | nil => cases c4; exact .nil
      | cons a1 _ ih =>
        cases c4 with
        | cons a2 c4 =>
          cases c1 with
          | cons a3 c1 =>
            exact .cons (converted_back hf (c2 _ (by simp)) (hexact a3) a1 a2) (ih c1 (fun p hp => c2 p (by simp [hp])) c4)
    exact hforall h2 h3 hconv u2

/-- A program that stores a file of another program with another scale and offset: every call returns, and the new file has, under
every key of the original, the points of the original with coordinates as the new scale stores them (`ReadBack`), and no other node.
What is asked of the original beyond C93_map_partial: the coordinates of its points fit the new scale, and a node has at most 2^31 - 1
bytes of points, before and after compression. -/
theorem C93_rescale_partial (hc : Format.Conforms data) (hs : Format.Suits data) (hg : GoodHierarchy data ps) (ho : Opened data ps r)
    (hr : Format.ReadAs data r.cfg) (ha : Asked L r q r1)
    (hall : Run.Ends (fun k => Reader.getAllNodes rord k) r1 (.ok all, r2)) (hitems : ItemsFit r.cfg)
    (hext : (Format.found data Format.uCopc 10000).isSome = true ∨ Format.ebCount data = 0) (hbounds : BoundsInOrder r.cfg.header)
    (hholds : ∀ n, NodeOf ps n → ∃ recs, Format.NodeHolds L data n recs)
    (hlen : baseSize ((Format.num data 1 104 : Int) - 128) ≤ Format.num data 2 105 ∧ Format.num data 2 105 ≤ 255)
    (hfew : all.length < 2 ^ 25) (scale offset : Vec3 Dbl)
    (hfits : ∀ n recs pts, NodeOf ps n → Format.NodeHolds L data n recs → List.Forall₂ (Format.PointIs data) recs pts →
      ∀ p ∈ pts, CoordFits p.x scale.x offset.x ∧ CoordFits p.y scale.y offset.y ∧ CoordFits p.z scale.z offset.z)
    (hroom : ∀ n, NodeOf ps n → n.entry.pointCount * (Format.num data 2 105 : Nat) ≤ 2147483647 ∧
      ∀ (eb : Nat) (recs : List Bytes), (recs.length : Int) = n.entry.pointCount → (∀ x ∈ recs, x.length = Format.num data 2 105) →
        (L.compress ((Format.num data 1 104 : Int) - 128) eb recs).length ≤ 2147483647) :
    ∃ (v0 : Writer) (pts : VoxelKey → List Point) (r3 : Reader) (v v' : Writer),
      Writer.make OStream.fresh r.cfg { scale := some scale, offset := some offset } = .ok v0 ∧
      Overridden r.cfg v0.cfg { scale := some scale, offset := some offset } ∧
      (∀ n, NodeOf ps n → ∃ recs, Format.NodeHolds L data n recs ∧ List.Forall₂ (Format.PointIs data) recs (pts n.entry.key)) ∧
      mapNodes L ord (fun _ a => a) all (r2, v0) = (.ok (), (r3, v)) ∧ Writer.close L ord v = (.ok (), v') ∧
      (v'.base.out.data.length < 2 ^ 63 → ∃ s, Reader.init ⟨v'.base.out.data, 0, false⟩ = .ok s ∧ SameMetadata v0.cfg s.cfg ∧
        s.cfg.header.pointCount.toNat = (all.map fun n => (pts n.entry.key).length).sum ∧
        ∀ (q' : List Query) (s1 : Reader), Asked L s q' s1 →
          (∀ n, NodeOf ps n → ∃ made s2, Run.Ends (fun k => Reader.getPointsAt L k n.entry.key) s1 (.ok made, s2) ∧
            List.Forall₂ (ReadBack scale offset) (pts n.entry.key) made) ∧
          ∀ key, (∀ n, NodeOf ps n → n.entry.key ≠ key) →
            ∃ s2, Run.Ends (fun k => Reader.findNode k key) s1 (.ok Node.empty, s2)) := by
  have hlast : newLength data ((Format.num data 1 104 : Int) - 128) = Format.num data 2 105 := by unfold newLength; omega
  obtain ⟨v0, hm, hov, hst, hb, hrl⟩ := overridden_make (o := { scale := some scale, offset := some offset }) hc hs hr hitems hext
    hbounds ⟨rfl, rfl⟩ (by intro f' hf'; cases hf') (by
      show newLength data ((Format.num data 1 104 : Int) - 128) ≤ 255
      omega)
  have hrl : v0.cfg.header.recLen.toNat = newLength data ((Format.num data 1 104 : Int) - 128) := hrl
  rw [hlast] at hrl
  have hh := hr.header
  have d1 : v0.cfg.header.fmt = (Format.num data 1 104 : Int) - 128 := by
    have h1 : v0.cfg.header.fmt = r.cfg.header.fmt := hov.fmt
    have := hh.format
    omega
  have d2 : v0.cfg.header.scale = scale := hov.scale
  have d3 : v0.cfg.header.offset = offset := hov.offset
  obtain ⟨pts, r3, v, v', k1, k2, k3, k4⟩ := C93_map_partial (ord := ord) hc hg ho hr ha hall hholds hlen hfew hm hst hb
    (by omega) (fun _ a => a) (by
      intro n recs pts hn h1 h2 h3
      have hcnt := holds_count h1
      have hlp := h2.length_eq
      obtain ⟨m1, m2⟩ := hroom n hn
      refine ⟨fun p hp => ⟨(h3 p hp).reach, by rw [d1]; exact (h3 p hp).fmt, by rw [hrl]; exact (h3 p hp).recLen⟩,
        fun p hp => by rw [d2, d3]; exact hfits n recs pts hn h1 h2 p hp, ?_, ?_⟩
      · rw [hrl, ← hlp]
        rw [hcnt] at m1
        exact_mod_cast m1
      · intro eb rs _ hpk hrs
        rw [d1]
        rw [hrl] at hrs
        refine m2 eb rs ?_ hrs
        have hpl := C18_pack_length _ (Format.num data 2 105) (fun p hp => ⟨(h3 p hp).reach, (h3 p hp).recLen⟩) _ _ _ hpk
        have hpos : 0 < Format.num data 2 105 := by
          have : 30 ≤ baseSize ((Format.num data 1 104 : Int) - 128) := by
            unfold baseSize
            split
            · omega
            · split <;> omega
          omega
        rw [List.length_flatten, List.map_congr_left hrs, List.map_const', List.sum_replicate_nat] at hpl
        have := Nat.eq_of_mul_eq_mul_right hpos hpl
        omega)
  refine ⟨v0, pts, r3, v, v', hm, hov, fun n hn => ?_, k2, k3, fun hsize => ?_⟩
  · obtain ⟨recs, h1, h2, _⟩ := k1 n hn
    exact ⟨recs, h1, h2⟩
  obtain ⟨s, s0, m1, m2, m3⟩ := k4 hsize
  refine ⟨s, s0, m1, m2, fun q' s1 hq => ⟨fun n hn => ?_, (m3 q' s1 hq).2⟩⟩
  obtain ⟨⟨made, s2, u1, u2⟩, _⟩ := (m3 q' s1 hq).1 n hn
  rw [d2, d3] at u2
  exact ⟨made, s2, u1, u2⟩

end
end Copc
