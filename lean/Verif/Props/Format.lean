import Verif.Lemmas.Format
import Verif.Props.RoundTrip
import Verif.Props.ReaderEnds
import Verif.Props.WriterTree
import Verif.Props.WriterCounts
import Verif.Props.WriterHead
/-! # C82, C83: a written file, read by its format alone -/
namespace Copc
open Spec VoxelKey

section
variable {L : Lazperf} {ord : Order} {w0 w : Writer} {h : List (Op × Res (Option Node))} {data : Bytes}

/-- The entries of a page of a good file, by position. -/
theorem page_entries {ps : List FPage} (g : GoodHierarchy data ps) {p : FPage} (hp : p ∈ ps) :
    ∃ (subs : List FPage) (es : List Entry), (∀ q, q ∈ subs ↔ q ∈ ps ∧ IsParentPage (ps.map (·.key)) q.key p.key) ∧
      es.Perm (p.nodes ++ subs.map FPage.entry) ∧ p.size = 32 * es.length ∧
      ∀ (i : Nat) (hi : i < es.length), Format.entryAt data (p.offset + 32 * i) = es[i].raw := by
  obtain ⟨subs, _, hs, es, hes, hsz, hsl⟩ := g.stored p hp
  refine ⟨subs, es, hs, hes, hsz, fun i hi => ?_⟩
  apply format_entry
  · have : slice (slice data p.offset p.size) (32 * i) 32 = es[i].pack := by rw [hsl]; exact slice_pack es i hi
    rwa [slice_add (by omega)] at this
  · have hm : es[i] ∈ p.nodes ++ subs.map FPage.entry := hes.mem_iff.1 (List.getElem_mem hi)
    rcases List.mem_append.1 hm with hm | hm
    · exact (g.entries p hp _ hm).1
    · obtain ⟨q, hq, he⟩ := List.mem_map.1 hm
      rw [← he]
      obtain ⟨r1, r2, r3⟩ := g.pageRange q ((hs q).1 hq).1
      refine ⟨r1, ?_, ?_, ?_⟩
      · show q.offset < 2 ^ 64; omega
      · show InI32 (q.size : Int); unfold InI32; omega
      · show InI32 (-1); unfold InI32; omega

theorem format_pages {ps : List FPage} (g : GoodHierarchy data ps) {q : FPage} (hq : q ∈ ps) (hk : q.key = VoxelKey.root)
    (ho : Format.num data 8 469 = q.offset) (hs : Format.num data 8 477 = q.size) (o s : Nat) :
    Format.Page data o s ↔ ∃ p ∈ ps, p.offset = o ∧ p.size = s := by
  constructor
  · intro h
    induction h with
    | root => exact ⟨q, hq, ho.symm, hs.symm⟩
    | @sub o s i h1 h2 h3 ih =>
      obtain ⟨p, hp, rfl, rfl⟩ := ih
      obtain ⟨subs, es, e1, e2, e3, e4⟩ := page_entries g hp
      have hi : i < es.length := by omega
      rw [e4 i hi] at h3 ⊢
      have hm := e2.mem_iff.1 (List.getElem_mem hi)
      rcases List.mem_append.1 hm with hm | hm
      · exact absurd h3 (g.entries p hp _ hm).2.2.2.1
      · obtain ⟨r, hr, he⟩ := List.mem_map.1 hm
        rw [← he]
        exact ⟨r, ((e1 r).1 hr).1, rfl, by show r.size = (r.size : Int).toNat; omega⟩
  · rintro ⟨p, hp, rfl, rfl⟩
    have hin : ∀ k ∈ ps.map (·.key), InOctree k := by
      intro k hk
      obtain ⟨p, hp, rfl⟩ := List.mem_map.1 hk
      exact g.inTree p hp
    have hr := reached_of_tree g.root hin p.key.d.toNat p.key (List.mem_map_of_mem hp) (le_refl _)
    have huniq : ∀ a ∈ ps, ∀ b ∈ ps, a.key = b.key → a = b := fun a ha b hb => List.inj_on_of_nodup_map g.distinct ha hb
    generalize hkey : p.key = k at hr
    induction hr generalizing p with
    | root =>
      have := huniq p hp q hq (hkey.trans hk.symm)
      subst this
      rw [← ho, ← hs]
      exact .root
    | @sub pk k h1 h2 h3 ih =>
      obtain ⟨pp, hpp, hpk⟩ := List.mem_map.1 h3.1
      have hpage := ih pp hpp hpk
      obtain ⟨subs, es, e1, e2, e3, e4⟩ := page_entries g hpp
      have hsub : p ∈ subs := (e1 p).2 ⟨hp, by rw [hkey, hpk]; exact h3⟩
      have hmem : p.entry ∈ es := e2.mem_iff.2 (List.mem_append_right _ (List.mem_map_of_mem hsub))
      obtain ⟨i, hi, he⟩ := List.getElem_of_mem hmem
      have e := e4 i hi
      rw [he] at e
      have := Format.Page.sub (i := i) hpage (by omega) (by rw [e]; rfl)
      rw [e] at this
      exact this

theorem format_nodes {ps : List FPage} (g : GoodHierarchy data ps) {q : FPage} (hq : q ∈ ps) (hk : q.key = VoxelKey.root)
    (ho : Format.num data 8 469 = q.offset) (hs : Format.num data 8 477 = q.size) (e : Format.HEntry) :
    (∃ p, Format.NodeAt data p e) ↔ ∃ m, NodeOf ps m ∧ e = m.entry.raw := by
  constructor
  · rintro ⟨p, o, s, i, h1, h2, rfl, h3, h4⟩
    obtain ⟨p, hp, rfl, rfl⟩ := (format_pages g hq hk ho hs o s).1 h1
    obtain ⟨subs, es, e1, e2, e3, e4⟩ := page_entries g hp
    have hi : i < es.length := by omega
    rw [e4 i hi] at h3
    have hm := e2.mem_iff.1 (List.getElem_mem hi)
    rcases List.mem_append.1 hm with hm | hm
    · exact ⟨⟨es[i], p.key⟩, ⟨p, hp, List.mem_map.2 ⟨_, hm, rfl⟩⟩, h3.symm⟩
    · obtain ⟨r, hr, he⟩ := List.mem_map.1 hm
      rw [← he] at h3
      rw [← h3] at h4
      exact absurd rfl h4
  · rintro ⟨m, ⟨p, hp, hm⟩, rfl⟩
    obtain ⟨en, hen, rfl⟩ := List.mem_map.1 hm
    obtain ⟨subs, es, e1, e2, e3, e4⟩ := page_entries g hp
    have hmem : en ∈ es := e2.mem_iff.2 (List.mem_append_left _ hen)
    obtain ⟨i, hi, he⟩ := List.getElem_of_mem hmem
    have e := e4 i hi
    rw [he] at e
    exact ⟨p.offset + 32 * i, p.offset, p.size, i, (format_pages g hq hk ho hs _ _).2 ⟨p, hp, rfl, rfl⟩, by omega, rfl, e,
      (g.entries p hp en hen).2.2.2.1⟩

theorem format_once {ps : List FPage} (g : GoodHierarchy data ps) {q : FPage} (hq : q ∈ ps) (hk : q.key = VoxelKey.root)
    (ho : Format.num data 8 469 = q.offset) (hs : Format.num data 8 477 = q.size) {p p' : Nat} {e e' : Format.HEntry}
    (hp : Format.NodeAt data p e) (hp' : Format.NodeAt data p' e')
    (hkey : e.d = e'.d ∧ e.x = e'.x ∧ e.y = e'.y ∧ e.z = e'.z) : p = p' := by
  obtain ⟨o, s, i, h1, h2, rfl, h3, h4⟩ := hp
  obtain ⟨o', s', i', h1', h2', rfl, h3', h4'⟩ := hp'
  obtain ⟨p, hp, rfl, rfl⟩ := (format_pages g hq hk ho hs o s).1 h1
  obtain ⟨p', hp', rfl, rfl⟩ := (format_pages g hq hk ho hs o' s').1 h1'
  obtain ⟨subs, es, e1, e2, e3, e4⟩ := page_entries g hp
  obtain ⟨subs', es', e1', e2', e3', e4'⟩ := page_entries g hp'
  have hi : i < es.length := by omega
  have hi' : i' < es'.length := by omega
  rw [e4 i hi] at h3
  rw [e4' i' hi'] at h3'
  subst h3 h3'
  have hk2 : es[i].key = es'[i'].key := by
    obtain ⟨a1, a2, a3, a4⟩ := hkey
    cases hx : es[i].key
    cases hy : es'[i'].key
    rw [Entry.raw, Entry.raw, hx, hy] at a1 a2 a3 a4
    simp only at a1 a2 a3 a4
    subst a1 a2 a3 a4
    rfl
  have hn : es[i] ∈ p.nodes := by
    rcases List.mem_append.1 (e2.mem_iff.1 (List.getElem_mem hi)) with hm | hm
    · exact hm
    · obtain ⟨r, _, he⟩ := List.mem_map.1 hm
      exact absurd (show es[i].pointCount = -1 by rw [← he]; rfl) h4
  have hn' : es'[i'] ∈ p'.nodes := by
    rcases List.mem_append.1 (e2'.mem_iff.1 (List.getElem_mem hi')) with hm | hm
    · exact hm
    · obtain ⟨r, _, he⟩ := List.mem_map.1 hm
      exact absurd (show es'[i'].pointCount = -1 by rw [← he]; rfl) h4'
  have hnd := List.nodup_flatMap.1 g.nodesDistinct
  have hpp : p = p' := by
    obtain ⟨a, ha, rfl⟩ := List.getElem_of_mem hp
    obtain ⟨b, hb, rfl⟩ := List.getElem_of_mem hp'
    have hno := List.pairwise_iff_getElem.1 hnd.2
    rcases Nat.lt_trichotomy a b with hlt | rfl | hlt
    · exact absurd (List.mem_map.2 ⟨_, hn', hk2.symm⟩) (hno a b ha hb hlt (List.mem_map_of_mem hn))
    · rfl
    · exact absurd (List.mem_map.2 ⟨_, hn, hk2⟩) (hno b a hb ha hlt (List.mem_map_of_mem hn'))
  subst hpp
  have hpw : es.Pairwise fun a b => a.pointCount ≠ -1 → b.pointCount ≠ -1 → a.key ≠ b.key := by
    refine (e2.pairwise_iff fun {a b} hab h1 h2 => (hab h2 h1).symm).2 (List.pairwise_append.2 ⟨?_, ?_, ?_⟩)
    · exact (List.pairwise_map.1 (hnd.1 p hp)).imp fun hab _ _ => hab
    · refine List.pairwise_iff_getElem.2 fun a b ha hb _ h1 _ => absurd ?_ h1
      rw [List.getElem_map]
      rfl
    · intro a _ b hb _ h2
      obtain ⟨r, _, rfl⟩ := List.mem_map.1 hb
      exact absurd rfl h2
  have hi2 : i' < es.length := by omega
  have hraw : es[i'].raw = es'[i'].raw := (e4 i' hi2).symm.trans (e4' i' hi')
  have hent : es[i'] = es'[i'] := by
    cases hx : es[i'] with
    | mk k1 o1 s1 c1 =>
      cases hy : es'[i'] with
      | mk k2 o2 s2 c2 =>
        rw [hx, hy] at hraw
        obtain ⟨d1, x1, y1, z1⟩ := k1
        obtain ⟨d2, x2, y2, z2⟩ := k2
        simp only [Entry.raw, Format.HEntry.mk.injEq] at hraw
        obtain ⟨rfl, rfl, rfl, rfl, rfl, rfl, rfl⟩ := hraw
        rfl
  rw [← hent] at hk2
  have h5 : es[i'].pointCount ≠ -1 := by rw [hent]; exact h4'
  have hno := List.pairwise_iff_getElem.1 hpw
  rcases Nat.lt_trichotomy i i' with hlt | rfl | hlt
  · exact absurd hk2 (hno i i' hi hi2 hlt h4 h5)
  · rfl
  · exact absurd hk2.symm (hno i' i hi2 hi hlt h5 h4)

theorem holds_strncpy {k : Nat} {t : Bytes} (hf : Fits t k) {p : Nat} (he : LasHeader.strncpy k t = Format.text data k p) :
    Format.Holds data k p t := by
  unfold Format.Holds
  rw [← he, LasHeader.strncpy, cstr_of_noNul hf.2, padTo, List.take_of_length_le (Nat.le_of_lt hf.1)]

/-- The header and the info VLR of a file that a writer wrote, by positions: what the configuration had at `Close`, the
place of the root page and the range of GPS times. -/
theorem Written.raw (hw : Written L ord w0 w h data) :
    Format.HeaderSays data w.cfg.header ∧ Format.InfoSays data w.cfg.info ∧
    (∃ g, w.cfg.extents.getGpsTime = .ok g ∧ Format.dbl data 485 = g.minimum ∧ Format.dbl data 493 = g.maximum) ∧
    ∃ w', Writer.close L ord w = (.ok (), w') ∧ w'.base.out.data = data ∧
      Format.num data 8 469 = w'.cfg.info.rootHierOffset.toNat ∧ Format.num data 8 477 = w'.cfg.info.rootHierSize.toNat := by
  obtain ⟨c, o, hm⟩ := hw.made
  obtain ⟨w', hc, rfl⟩ := hw.closed
  obtain ⟨otpd, h1, h2⟩ := bInv_of_make hm
  obtain ⟨log, hi⟩ := wInv_history h1 h2 hw.history hw.unclosed
  obtain ⟨hier, eb, h14, gps, hco⟩ := close_ok hi.offset hi.base hc
  have h15 := hw.storable.header.byReturn
  obtain ⟨hd, h375⟩ := hco.headerDecoded h15
  obtain ⟨hf, hdata, _, _, _, _, hcfg, _⟩ := hco.closed
  have hl : 375 ≤ w'.base.out.data.length := by
    rw [hdata, fileBytes, headArea, headBlock]
    simp only [List.length_append]
    omega
  obtain ⟨a1, a2, a3, a4, a5, a6, a7, a8, a9, a10, a11, a12, a13, a14, a15, a16⟩ := header_raw hl hd
  obtain ⟨b1, b2, b3, b4, b5, b6, b7, b8, b9, b10, b11, b12, b13, b14⟩ := header_raw2 hd
  have hh := hco.header
  unfold LasHeader.toLazPerf at hh
  split at hh
  · cases hh
  · obtain rfl := Res.ok.inj hh
    simp only at a1 a2 a3 a4 a5 a6 a7 a8 a9 a10 a11 a12 a13 a14 a15 a16 b1 b2 b3 b4 b5 b6 b7 b8 b9 b10 b11 b12 b13 b14
    obtain ⟨i1, i2, i3, i4, i5⟩ := info_slices (data := w'.base.out.data) (A := Header14.encode _)
      (i := (closedCfg L ord otpd log hier w).info) (g := gps) (rest := _)
      (by rw [hdata, fileBytes, headArea, headBlock, copcVlrs]; simp only [List.append_assoc]; rfl) h375
    refine ⟨⟨a1.symm, a2.symm, a3.symm, holds_strncpy hw.storable.header.guid a4, ⟨a5.symm, a6.symm⟩,
      holds_strncpy hw.storable.header.sys a7, holds_strncpy hw.storable.header.gen a8, ⟨a9.symm, a10.symm⟩, a11.symm, ?_,
      a15.symm, b1.symm, b2.symm, ?_, ?_, b9.symm, ?_⟩, ?_, ⟨gps, hco.gps_ok, i4, i5⟩, w', hc, rfl, ?_, ?_⟩
    · rw [← a14]
      rcases hw.storable.fmt with hf | hf | hf <;> rw [hf] <;> decide
    · rw [← b3, ← b5, ← b7]
    · rw [← b4, ← b6, ← b8]
    · intro i hi
      have e := congrArg (fun l => l.getD i 0) b14
      simp only [List.getD_eq_getElem?_getD, List.getElem?_map] at e ⊢
      rw [List.getElem?_eq_getElem (by rw [h15]; exact hi), List.getElem?_range hi] at e
      rw [List.getElem?_eq_getElem (by rw [h15]; exact hi)]
      exact e.symm
    · have e : ∀ pl (c : CopcConfig), (setRoot pl c).info.centerX = c.info.centerX ∧
          (setRoot pl c).info.centerY = c.info.centerY ∧ (setRoot pl c).info.centerZ = c.info.centerZ ∧
          (setRoot pl c).info.halfsize = c.info.halfsize ∧ (setRoot pl c).info.spacing = c.info.spacing := by
        intro pl c
        unfold setRoot
        split <;> exact ⟨rfl, rfl, rfl, rfl, rfl⟩
      obtain ⟨e1, e2, e3, e4, e5⟩ := e (closeLayout L ord otpd log hier w).2 w.cfg
      unfold closedCfg at i1
      exact ⟨i1.user, i1.id, i1.length, by rw [i1.center, e1, e2, e3], i1.halfsize.trans e4, i1.spacing.trans e5, i1.reserved⟩
    · rw [hcfg]; exact i2
    · rw [hcfg]; exact i3

/-- The header and the info VLR are where the formats have them and say what the program set (the configuration `w.cfg` at
`Close`), with the range of GPS times. -/
theorem C82_header (hw : Written L ord w0 w h data) :
    Format.HeaderSays data w.cfg.header ∧ Format.InfoSays data w.cfg.info ∧
    ∃ g, w.cfg.extents.getGpsTime = .ok g ∧ Format.dbl data 485 = g.minimum ∧ Format.dbl data 493 = g.maximum :=
  ⟨hw.raw.1, hw.raw.2.1, hw.raw.2.2.1⟩

theorem Written.hierarchy (hw : Written L ord w0 w h data) : ∃ ps, GoodHierarchy data ps ∧
    (∀ m, NodeOf ps m ↔ ∃ n ∈ addedNodes h, m = reported h n) ∧
    ∃ q ∈ ps, q.key = VoxelKey.root ∧ Format.num data 8 469 = q.offset ∧ Format.num data 8 477 = q.size := by
  obtain ⟨_, _, _, w', hc, rfl, e1, e2⟩ := hw.raw
  obtain ⟨c, o, hm⟩ := hw.made
  obtain ⟨ps, g1, _, g3, _, _, q, q1, q2, q3, q4⟩ :=
    closed_good hm hw.history hw.unclosed hw.distinct hw.once hw.counted hc hw.size
  exact ⟨ps, g1, g3, q, q1, q2, e1.trans q3, e2.trans q4⟩

/-- Who follows the format from the root page that the info VLR gives finds exactly the nodes that were added, each in one
place. -/
theorem C82_nodes (hw : Written L ord w0 w h data) :
    (∀ e, (∃ p, Format.NodeAt data p e) ↔ ∃ n ∈ addedNodes h, e = n.entry.raw) ∧
    ∀ p p' e e', Format.NodeAt data p e → Format.NodeAt data p' e' → e.d = e'.d ∧ e.x = e'.x ∧ e.y = e'.y ∧ e.z = e'.z →
      p = p' := by
  obtain ⟨ps, g, hn, q, hq, hk, ho, hs⟩ := hw.hierarchy
  refine ⟨fun e => (format_nodes g hq hk ho hs e).trans ⟨?_, ?_⟩, fun p p' e e' h1 h2 h3 => format_once g hq hk ho hs h1 h2 h3⟩
  · rintro ⟨m, hm, rfl⟩
    obtain ⟨n, hn, rfl⟩ := (hn m).1 hm
    exact ⟨n, hn, rfl⟩
  · rintro ⟨n, hn', rfl⟩
    exact ⟨reported h n, (hn _).2 ⟨n, hn', rfl⟩, rfl⟩

theorem Written.fields (hw : Written L ord w0 w h data) (hl : NoneTooLarge h) :
    Format.num data 4 96 = w0.base.out.data.length - 8 ∧
    Format.num data 8 247 = u64 ((addedNodes h).map (·.entry.pointCount)).sum ∧
    Format.num data 4 107 = (if 4294967295 < Format.num data 8 247 then 0 else Format.num data 8 247) ∧
    TableOk L data (w0.base.out.data.length - 8) (addedNodes h) ∧ ∀ i < 5, Format.num data 4 (111 + 4 * i) = 0 := by
  obtain ⟨c, o, hm⟩ := hw.made
  obtain ⟨w', hc, rfl⟩ := hw.closed
  obtain ⟨otpd, h1, h2⟩ := bInv_of_make hm
  obtain ⟨log, hi⟩ := wInv_history h1 h2 hw.history hw.unclosed
  obtain ⟨hier, eb, h14, gps, hco⟩ := close_ok hi.offset hi.base hc
  have h15 := hw.storable.header.byReturn
  obtain ⟨hd, h375⟩ := hco.headerDecoded h15
  obtain ⟨hf, hdata, _, _, _, _, hcfg, _⟩ := hco.closed
  have hlen : 375 ≤ w'.base.out.data.length := by
    rw [hdata, fileBytes, headArea, headBlock]
    simp only [List.length_append]
    omega
  have a := header_raw hlen hd
  have b := header_raw2 hd
  have h15' : w0.cfg.header.pointsByReturn.length = 15 := by rw [← hi.edit.returns]; exact h15
  obtain ⟨c1, c2, c3⟩ := C31_closed hm h15' hw.history hw.unclosed hl hc hw.size
  have d := C26_area hm h15' (by rw [← hi.edit.eb]; exact hw.storable.few) (by
    have e := hw.storable.extents
    have f := hw.storable.few
    unfold baseDims at e
    rw [← hi.edit.extLen]
    split at e
    · omega
    · split at e <;> omega) hw.history hw.unclosed hc
  dsimp only at d
  rw [hd] at c1 d
  have hcnt : h14.pointCount.toNat = if 4294967295 < h14.pointCount14.toNat then 0 else h14.pointCount14.toNat := by
    have hh := hco.header
    unfold LasHeader.toLazPerf at hh
    split at hh
    · cases hh
    · obtain rfl := Res.ok.inj hh
      simp only
      generalize UInt64.ofNat w.base.pointCount = v
      by_cases hv : v.toNat > 4294967295
      · rw [if_pos hv, if_pos hv]; rfl
      · rw [if_neg hv, if_neg hv, UInt32.toNat_ofNat_of_lt' (by rw [UInt32.size]; omega)]
  refine ⟨a.2.2.2.2.2.2.2.2.2.2.2.1.symm.trans d.1, b.2.2.2.2.2.2.2.2.2.2.2.1.symm.trans c1, ?_, c3, ?_⟩
  · rw [← b.2.2.2.2.2.2.2.2.2.2.2.1, ← hcnt]
    exact a.2.2.2.2.2.2.2.2.2.2.2.2.2.2.2.symm
  · intro i hi5
    have e := b.2.2.2.2.2.2.2.2.2.2.2.2.1
    have hz : h14.pointsByReturn = List.replicate 5 0 := by
      have hh := hco.header
      unfold LasHeader.toLazPerf at hh
      split at hh
      · cases hh
      · obtain rfl := Res.ok.inj hh
        rfl
    rw [hz] at e
    have e' := congrArg (fun l => l.getD i 0) e
    simp only [List.getD_eq_getElem?_getD, List.getElem?_map, List.getElem?_range hi5, List.getElem?_replicate, if_pos hi5] at e'
    exact e'.symm

/-- The number of points, the place of the chunk table and of the chunks, by positions: the header has the number of
points; the 8 bytes at the offset to point data that the header gives are the offset of the chunk table; the chunk of
every added node lies between the two and holds what the call was to store. -/
theorem C82_points (hw : Written L ord w0 w h data) (hl : NoneTooLarge h)
    (hsum : ((addedNodes h).map (·.entry.pointCount)).sum < 2 ^ 64) :
    (Format.num data 8 247 : Int) = ((addedNodes h).map (·.entry.pointCount)).sum ∧
    ∀ op n, (op, Res.ok (some n)) ∈ h → op.target = some (n.entry.key, n.pageKey) ∧
      Format.num data 4 96 + 8 ≤ n.entry.offset ∧
      n.entry.offset + n.entry.byteSize.toNat ≤ Format.num data 8 (Format.num data 4 96) ∧
      op.Stores L w0.cfg.header (Format.text data n.entry.byteSize.toNat n.entry.offset) n.entry.pointCount := by
  obtain ⟨f1, f2, _, f4, _⟩ := hw.fields hl
  refine ⟨?_, ?_⟩
  · have hnn : ∀ l : List Node, (∀ n ∈ l, 0 < n.entry.pointCount) → 0 ≤ (l.map (·.entry.pointCount)).sum := by
      intro l
      induction l with
      | nil => intro _; simp
      | cons a l ih =>
        intro hl
        have h1 := ih fun n hn => hl n (by simp [hn])
        have h2 := hl a (by simp)
        rw [List.map_cons, List.sum_cons]
        omega
    have h0 := hnn (addedNodes h) fun n hn => (hw.counted n hn).2.1
    rw [f2]
    generalize ((addedNodes h).map (·.entry.pointCount)).sum = z at *
    unfold u64
    omega
  · intro op n hn
    obtain ⟨hm, _, ht, blob, s1, s2, _, s4⟩ := hw.node hn
    obtain ⟨c, o, hmk⟩ := hw.made
    obtain ⟨w', hc, hdat⟩ := hw.closed
    obtain ⟨otpd, _, h2⟩ := bInv_of_make hmk
    have h8 : 8 ≤ w0.base.out.data.length := by rw [h2.out.data, List.length_append, List.length_replicate]; omega
    have hsz : n.entry.byteSize.toNat = blob.length := by rw [s2]; omega
    obtain ⟨i, hi, he⟩ := List.getElem_of_mem hm
    have hpl := f4.places i n (by rw [List.getElem?_eq_getElem hi, he])
    obtain ⟨tab, t1, t2, _⟩ := f4.table
    have hsplit : ((addedNodes h).map (·.entry.byteSize.toNat)).sum =
        (((addedNodes h).take i).map (·.entry.byteSize.toNat)).sum + (n.entry.byteSize.toNat +
          (((addedNodes h).drop (i + 1)).map (·.entry.byteSize.toNat)).sum) := by
      rw [← he]
      conv_lhs => rw [← List.take_append_drop i (addedNodes h), List.drop_eq_getElem_cons hi]
      rw [List.map_append, List.sum_append, List.map_cons, List.sum_cons]
    refine ⟨ht, ?_, ?_, ?_⟩
    · rw [f1]; omega
    · rw [f1]
      show _ ≤ getN 8 (data.drop _)
      rw [t1]; omega
    · rw [hsz]
      show op.Stores L w0.cfg.header (slice data n.entry.offset blob.length) n.entry.pointCount
      rw [s4]; exact s1

/-- The records of the file. -/
theorem Written.recorded (hw : Written L ord w0 w h data) : ∃ otpd log hier eb gps w', ∃ h14,
    Writer.close L ord w = (.ok (), w') ∧ w'.base.out.data = data ∧ BInv (otpd + 8) w0.base [] ∧
    WInv L w0 otpd h w log ∧ CloseOk L ord otpd log w w' hier eb h14 gps ∧
    RecFile data h14 (copcRecs L w'.cfg eb gps) (evRecs L ord otpd log hier w) ∧
    Format.vlrs data = (placedRecs 375 (copcRecs L w'.cfg eb gps)).map (fun x => x.2.raw x.1) ∧
    (∀ x ∈ placedRecs 375 (copcRecs L w'.cfg eb gps),
      Format.text data x.2.payload.length (x.1 + x.2.hsize) = x.2.payload) ∧
    Format.evlrs data =
      (placedRecs h14.evlrOffset.toNat (evRecs L ord otpd log hier w)).map (fun x => x.2.raw x.1) ∧
    (∀ x ∈ placedRecs h14.evlrOffset.toNat (evRecs L ord otpd log hier w),
      Format.text data x.2.payload.length (x.1 + x.2.hsize) = x.2.payload) := by
  obtain ⟨c, o, hm⟩ := hw.made
  obtain ⟨w', hc, rfl⟩ := hw.closed
  obtain ⟨otpd, h1, h2⟩ := bInv_of_make hm
  obtain ⟨log, hi⟩ := wInv_history h1 h2 hw.history hw.unclosed
  obtain ⟨hier, eb, h14, gps, hco⟩ := close_ok hi.offset hi.base hc
  have h15 := hw.storable.header.byReturn
  have hflag : w.cfg.header.copcFlag = true := by
    rw [hi.edit.copcFlag]
    obtain ⟨_, _, h3, _⟩ := make_ok hm
    exact initConfig_flag h3
  have hx : w.cfg.extents.extents.length ≤ 4095 := by
    have e := hw.storable.extents
    have f := hw.storable.few
    unfold baseDims at e
    split at e
    · omega
    · split at e <;> omega
  have hrf := hco.recFile (pageInv_history (pageInv_make hm) hw.history) h15 hw.storable.few hx hflag hw.size hw.few
  refine ⟨otpd, log, hier, eb, gps, w', h14, hc, rfl, h2, hi, hco, hrf, ?_⟩
  obtain ⟨hd, h375⟩ := hco.headerDecoded h15
  obtain ⟨rest, hh⟩ := hrf.head
  obtain ⟨pre, rest', ht, hp⟩ := hrf.tail
  have hl : 375 ≤ w'.base.out.data.length := by
    rw [hh]
    simp only [List.length_append]
    omega
  have a := header_raw hl hd
  have b := header_raw2 hd
  have d1 : w'.base.out.data.drop 375 = (copcRecs L w'.cfg eb gps).flatMap VRec.bytes ++ rest := by
    conv_lhs => rw [hh]
    rw [List.drop_left' h375]
  have d2 : w'.base.out.data.drop h14.evlrOffset.toNat = (evRecs L ord otpd log hier w).flatMap VRec.bytes ++ rest' := by
    conv_lhs => rw [ht]
    rw [List.drop_left' hp]
  obtain ⟨r1, r2⟩ := records_recs (b := false) (head := 54) (len := 2) rfl rfl _ d1 hrf.vfit
  obtain ⟨r3, r4⟩ := records_recs (b := true) (head := 60) (len := 8) rfl rfl _ d2 hrf.efit
  refine ⟨?_, r2, ?_, r4⟩
  · unfold Format.vlrs
    rw [← a.2.2.2.2.2.2.2.2.2.2.1, ← a.2.2.2.2.2.2.2.2.2.2.2.2.1, hrf.vcount, hrf.size375]
    exact r1
  · unfold Format.evlrs
    rw [← b.2.2.2.2.2.2.2.2.2.2.1, ← b.2.2.2.2.2.2.2.2.2.1, hrf.ecount]
    exact r3

/-- The hierarchy pages are the payloads of the extended VLRs with user id "copc" and record id 1000 that the header
announces; the WKT string, unless it is empty, is the payload of the one with user id "LASF_Projection" and record id 2112;
there are no others. -/
theorem C82_evlrs (hw : Written L ord w0 w h data) :
    (∀ o s, Format.Page data o s ↔ ⟨copcUser, 1000, o, s⟩ ∈ Format.evlrs data) ∧
    (w.cfg.wkt = [] ∨ ∃ o, ⟨projectionUser, 2112, o, w.cfg.wkt.length⟩ ∈ Format.evlrs data ∧
      Format.text data w.cfg.wkt.length o = w.cfg.wkt) ∧
    ∀ r ∈ Format.evlrs data, (r.user = copcUser ∧ r.id = 1000) ∨
      (r.user = projectionUser ∧ r.id = 2112 ∧ Format.text data r.size r.offset = w.cfg.wkt) := by
  obtain ⟨otpd, log, hier, eb, gps, w', h14, hc, rfl, b2, hi, hco, hrf, _, _, hev, hpay⟩ := hw.recorded
  obtain ⟨c, o, hm⟩ := hw.made
  obtain ⟨g1, g2, _, _, _, q, q1, q2, q3, q4⟩ :=
    closed_good_at hm hw.history hw.unclosed hw.distinct hw.once hw.counted hc hw.size b2 hi hco
  obtain ⟨_, _, _, w'', hc', _, e1, e2⟩ := hw.raw
  obtain rfl : w' = w'' := congrArg Prod.snd (hc.symm.trans hc')
  have hpages := format_pages g1 q1 q2 (e1.trans q3) (e2.trans q4)
  have heo : h14.evlrOffset.toNat = otpd + (bodyBytes L otpd log).length := by
    obtain ⟨hfit, hdata, _⟩ := hco.closed
    have hsz := hw.size
    have hlen : otpd + (bodyBytes L otpd log).length ≤ w'.base.out.data.length := by
      rw [hdata, fileBytes, List.length_append, length_headArea hfit, List.length_append]; omega
    have hh := hco.header
    unfold LasHeader.toLazPerf at hh
    split at hh
    · cases hh
    · obtain rfl := Res.ok.inj hh
      simp only
      rw [preHeader_eq]
      simp only
      exact UInt64.toNat_ofNat_of_lt' (by rw [UInt64.size]; omega)
  have hp := pageInv_history (pageInv_make hm) hw.history
  obtain ⟨_, _, hnd, hmem, _⟩ := hco.tree hp
  rw [heo] at hev hpay
  unfold evRecs at hev hpay
  rw [placedRecs_append] at hev hpay
  rw [List.map_append] at hev
  rw [placedRecs_pages _ _ _ _ _ _ hnd] at hev
  have hwk : ∀ x ∈ placedRecs (otpd + (bodyBytes L otpd log).length + vsize (pageRecs ord w.pages hier
      (otpd + (bodyBytes L otpd log).length) [] (Writer.visit ord hier (Writer.levels w.pages) VoxelKey.root)))
      (wktRecs w.cfg.wkt), x.2 = ⟨true, idProj, 2112, [], w.cfg.wkt⟩ := by
    intro x hx
    unfold wktRecs at hx
    split at hx
    · cases hx
    · rw [placedRecs, placedRecs, List.mem_singleton] at hx
      rw [hx]
  have hlay : (layoutPages ord w.pages hier (otpd + (bodyBytes L otpd log).length) []
      (Writer.visit ord hier (Writer.levels w.pages) VoxelKey.root)).2 = (closeLayout L ord otpd log hier w).2 := rfl
  rw [hlay] at hev
  refine ⟨fun o s => (hpages o s).trans ?_, ?_, ?_⟩
  · rw [hev, List.mem_append]
    constructor
    · rintro ⟨p, hpm, rfl, rfl⟩
      obtain ⟨x, hx, rfl⟩ := List.mem_map.1 hpm
      refine .inl (List.mem_map.2 ⟨x.1, (hmem x.1).2 ⟨List.mem_map_of_mem hx, ?_⟩, rfl⟩)
      exact ((inOctree_iff_below x.1).1 (g1.inTree _ hpm)).2
    · rintro (hl | hl)
      · obtain ⟨k, hk, he⟩ := List.mem_map.1 hl
        obtain ⟨x, hx, rfl⟩ := List.mem_map.1 ((hmem k).1 hk).1
        injection he with _ _ h3 h4
        exact ⟨filePage (closeLayout L ord otpd log hier w).2 x, List.mem_map_of_mem hx, h3, h4⟩
      · obtain ⟨x, hx, he⟩ := List.mem_map.1 hl
        rw [hwk x hx] at he
        injection he with h3
        exact absurd (show idProj = copcUser from h3) (by decide)
  · by_cases hwkt : w.cfg.wkt = []
    · exact .inl hwkt
    · right
      generalize otpd + (bodyBytes L otpd log).length + vsize _ = P at *
      have hx : (P, (⟨true, idProj, 2112, [], w.cfg.wkt⟩ : VRec)) ∈ placedRecs P (wktRecs w.cfg.wkt) := by
        unfold wktRecs
        rw [if_neg hwkt, placedRecs]
        exact List.mem_cons_self
      refine ⟨P + 60, ?_, hpay _ (List.mem_append_right _ hx)⟩
      rw [hev]
      exact List.mem_append_right _ (List.mem_map.2 ⟨_, hx, rfl⟩)
  · intro r hr
    rw [hev, List.mem_append] at hr
    rcases hr with hr | hr
    · obtain ⟨k, _, rfl⟩ := List.mem_map.1 hr
      exact .inl ⟨rfl, rfl⟩
    · obtain ⟨x, hx, rfl⟩ := List.mem_map.1 hr
      have hp := hpay x (List.mem_append_right _ hx)
      right
      refine ⟨?_, ?_, hp.trans ?_⟩
      · unfold VRec.raw; rw [hwk x hx]; rfl
      · unfold VRec.raw; rw [hwk x hx]; rfl
      · rw [hwk x hx]

/-- The extents, the optional statistics and the extra-byte descriptors are payloads of VLRs that the header announces (which
VLRs there are is `C20_copc_records`): 16 bytes for each extent (minimum and maximum, mean and variance), 192 for each
descriptor, in order. -/
theorem C82_vlrs (hw : Written L ord w0 w h data) :
    (∃ o, ⟨copcUser, 10000, o, 16 * w.cfg.extents.extents.length⟩ ∈ Format.vlrs data ∧
      ∀ i x, w.cfg.extents.extents[i]? = some x →
        Format.dbl data (o + 16 * i) = x.minimum ∧ Format.dbl data (o + 16 * i + 8) = x.maximum) ∧
    (w.cfg.extents.extStats = true → ∃ o, ⟨rockUser, 10001, o, 16 * w.cfg.extents.extents.length⟩ ∈ Format.vlrs data ∧
      ∀ i x, w.cfg.extents.extents[i]? = some x →
        Format.dbl data (o + 16 * i) = x.mean ∧ Format.dbl data (o + 16 * i + 8) = x.var) ∧
    (lasBaseSize w.cfg.header.fmt < w.cfg.header.recLen.toNat →
      ∃ o, ⟨specUser, 4, o, 192 * w.cfg.eb.length⟩ ∈ Format.vlrs data ∧
      ∀ i f, w.cfg.eb[i]? = some f → Format.num data 1 (o + 192 * i + 2) = f.dataType.toNat ∧
        Format.num data 1 (o + 192 * i + 3) = f.options.toNat ∧ Format.Holds data 32 (o + 192 * i + 4) f.name ∧
        Format.Holds data 32 (o + 192 * i + 160) f.description) := by
  obtain ⟨otpd, log, hier, eb, gps, w', h14, hc, rfl, b2, hi, hco, hrf, hv, hpay, _, _⟩ := hw.recorded
  obtain ⟨_, _, _, _, _, _, hcfg, _⟩ := hco.closed
  have e1 : w'.cfg.extents = w.cfg.extents ∧ w'.cfg.eb = w.cfg.eb := by
    rw [hcfg]; unfold closedCfg setRoot
    split <;> exact ⟨rfl, rfl⟩
  have key : ∀ v ∈ copcRecs L w'.cfg eb gps, ∃ o, v.raw o ∈ Format.vlrs w'.base.out.data ∧
      Format.text w'.base.out.data v.payload.length (o + v.hsize) = v.payload := by
    intro v hv'
    have : ∀ (l : List VRec) (p : Nat), v ∈ l → ∃ q, (q, v) ∈ placedRecs p l := by
      intro l
      induction l with
      | nil => intro p hp; cases hp
      | cons a l ih =>
        intro p hp
        rw [placedRecs]
        rcases List.mem_cons.1 hp with rfl | hp
        · exact ⟨p, List.mem_cons_self⟩
        · obtain ⟨q, hq⟩ := ih (p + a.bytes.length) hp
          exact ⟨q, List.mem_cons_of_mem _ hq⟩
    obtain ⟨q, hq⟩ := this _ 375 hv'
    exact ⟨q, hv ▸ List.mem_map.2 ⟨_, hq, rfl⟩, hpay _ hq⟩
  refine ⟨?_, ?_, ?_⟩
  · obtain ⟨o, k1, k2⟩ := key ⟨false, idCopc, 10000, BaseW.descExtents, Extents.putItems w'.cfg.extents.toVlr⟩
      (by unfold copcRecs; simp)
    rw [e1.1] at k1 k2
    refine ⟨o + 54, ?_, ?_⟩
    · have hl : (Extents.putItems w.cfg.extents.toVlr).length = 16 * w.cfg.extents.extents.length := by
        rw [length_putItems, Extents.toVlr, List.length_map]
      unfold VRec.raw at k1
      dsimp only at k1
      rw [hl] at k1
      exact k1
    · intro i x hx
      exact dbls_item (l := w.cfg.extents.toVlr) k2 (x := (x.minimum, x.maximum))
        (by rw [Extents.toVlr, List.getElem?_map, hx]; rfl)
  · intro hst
    obtain ⟨o, k1, k2⟩ := key ⟨false, idRock, 10001, BaseW.descStats, Extents.putItems w'.cfg.extents.toVlrExtended⟩
      (by unfold copcRecs statRecs; rw [e1.1, if_pos hst]; simp)
    rw [e1.1] at k1 k2
    refine ⟨o + 54, ?_, ?_⟩
    · have hl : (Extents.putItems w.cfg.extents.toVlrExtended).length = 16 * w.cfg.extents.extents.length := by
        rw [length_putItems, Extents.toVlrExtended, List.length_map]
      unfold VRec.raw at k1
      dsimp only at k1
      rw [hl] at k1
      exact k1
    · intro i x hx
      exact dbls_item (l := w.cfg.extents.toVlrExtended) k2 (x := (x.mean, x.var))
        (by rw [Extents.toVlrExtended, List.getElem?_map, hx]; rfl)
  · intro hlt
    have heb : eb = w.cfg.header.recLen.toNat - lasBaseSize w.cfg.header.fmt :=
      Res.ok.inj (hco.eb_ok.symm.trans (ebSize_consistent hw.storable.fmt (by omega)).1)
    obtain ⟨o, k1, k2⟩ := key ⟨false, idSpec, 4, [], putEb w'.cfg.eb⟩
      (by unfold copcRecs lazRecs; rw [if_pos (by omega)]; simp)
    rw [e1.2] at k1 k2
    refine ⟨o + 54, ?_, ?_⟩
    · unfold VRec.raw at k1
      dsimp only at k1
      rw [length_putEb] at k1
      exact k1
    · intro i f hf
      obtain ⟨g1, g2, g3, g4⟩ := eb_item (l := w.cfg.eb) k2 hf
      have hok := hw.storable.descriptors f (List.mem_of_getElem? hf)
      refine ⟨g1, g2, ?_, ?_⟩
      · unfold Format.Holds
        refine g3.trans ?_
        rw [padTo, List.take_of_length_le hok.name.2]
      · unfold Format.Holds
        refine g4.trans ?_
        rw [padTo, List.take_of_length_le hok.description.2]

/-- LAS 1.4 R15 has the legacy number of points and the legacy numbers of points by return 0 for point formats 6 and above. -/
def Format.LegacyZero (data : Bytes) : Prop := Format.num data 4 107 = 0 ∧ ∀ i < 5, Format.num data 4 (111 + 4 * i) = 0

/-- What is in the legacy fields: the numbers by return are 0, but the number of points is the one in the 64-bit field unless
it does not fit. -/
theorem C83_legacy_partial (hw : Written L ord w0 w h data) (hl : NoneTooLarge h) :
    Format.num data 4 107 = (if 4294967295 < Format.num data 8 247 then 0 else Format.num data 8 247) ∧
    ∀ i < 5, Format.num data 4 (111 + 4 * i) = 0 := by
  exact ⟨(hw.fields hl).2.2.1, (hw.fields hl).2.2.2.2⟩

theorem sample_notLarge : NoneTooLarge Sample.hist := by
  intro x hx
  have hm : x.2 ∈ Sample.hist.map (·.2) := List.mem_map_of_mem hx
  rw [Sample.outcomes] at hm
  intro he
  rw [he] at hm
  simp at hm

theorem sample_sum : ((addedNodes Sample.hist).map (·.entry.pointCount)).sum < 2 ^ 64 ∧
    0 < ((addedNodes Sample.hist).map (·.entry.pointCount)).sum ∧
    ((addedNodes Sample.hist).map (·.entry.pointCount)).sum < 4294967295 ∧ (addedNodes Sample.hist).length = 3 := by
  rw [sample_added]; decide

/-- A file with points that the writer wrote does not have the legacy number of points 0. -/
theorem C83_legacy_violated : ∃ (L : Lazperf) (ord : Order) (w0 w : Writer) (h : List (Op × Res (Option Node))) (data : Bytes),
    Written L ord w0 w h data ∧ NoneTooLarge h ∧ ¬Format.LegacyZero data := by
  refine ⟨_, _, _, _, _, _, sample_written, sample_notLarge, fun hz => ?_⟩
  have a := (C82_points sample_written sample_notLarge sample_sum.1).1
  have b := (C83_legacy_partial sample_written sample_notLarge).1
  have c := sample_sum
  rw [hz.1] at b
  split at b <;> omega

/-! ### A case -/

example : Written Sample.L Sample.ord Sample.w0 Sample.w Sample.hist (Writer.close Sample.L Sample.ord Sample.w).2.base.out.data ∧
    NoneTooLarge Sample.hist ∧ ((addedNodes Sample.hist).map (·.entry.pointCount)).sum < 2 ^ 64 ∧
    (addedNodes Sample.hist).length = 3 ∧
    lasBaseSize Sample.w.cfg.header.fmt < Sample.w.cfg.header.recLen.toNat ∧ Sample.w.cfg.wkt ≠ [] :=
  ⟨sample_written, sample_notLarge, sample_sum.1, sample_sum.2.2.2, by decide +kernel, by decide +kernel⟩

end
end Copc
