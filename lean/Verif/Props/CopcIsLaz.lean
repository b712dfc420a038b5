import Verif.Spec.CopcIsLaz
import Verif.Props.Format
import Verif.Props.Closes
import Verif.Props.LazReader
/-!
# C95: a COPC file is a LAZ file
-/
namespace Copc
open Spec

theorem addedCalls_append (a b : List (Op × Res (Option Node))) : addedCalls (a ++ b) = addedCalls a ++ addedCalls b := by
  unfold addedCalls
  rw [List.filterMap_append]

/-- The chunks written are what the additions stored. -/
theorem Logged.calls {L : Lazperf} {hd : LasHeader} {n0 : Nat} {h log} (hl : Logged L hd n0 h log) (hn : NoneTooLarge h) :
    List.Forall₂ (fun op x => (∃ c, op.Stores L hd x.2 c ∧ x.1 = u64 c) ∧ x.2.length % 2 ^ 64 ≤ 2147483647) (addedCalls h) log := by
  induction hl with
  | nil => exact .nil
  | @skip h log op r _ hr ih =>
    have := ih fun x hx => hn x (by simp [hx])
    rw [addedCalls_append]
    have he : addedCalls [(op, r)] = [] := by
      cases r with
      | ok o =>
        cases o with
        | none => rfl
        | some n => exact absurd rfl (hr n)
      | throw e => rfl
      | ub => rfl
    rw [he, List.append_nil]
    exact this
  | large _ _ _ _ => exact absurd rfl (hn _ (List.mem_append_right _ List.mem_cons_self))
  | @node h log op blob c key page _ hst _ _ _ _ hb ih =>
    have := ih fun x hx => hn x (by simp [hx])
    rw [addedCalls_append]
    refine List.rel_append this (.cons ⟨⟨c, hst, rfl⟩, by dsimp only; omega⟩ .nil)

/-- The chunks are the compressed records given. -/
theorem adds_log {L : Lazperf} {hd : LasHeader} {eb : Nat} (he : hd.ebSize = .ok eb) (hpos : 0 < hd.recLen.toNat) :
    ∀ {ops : List Op} {log : List (Nat × Bytes)} {recss : List (List Bytes)},
    List.Forall₂ (fun op x => (∃ c, op.Stores L hd x.2 c ∧ x.1 = u64 c) ∧ x.2.length % 2 ^ 64 ≤ 2147483647) ops log →
    List.Forall₂ (Op.Gives L hd) ops recss →
    log = recss.map fun recs => (recs.length, L.compress hd.fmt eb recs) := by
  intro ops log recss h1
  induction h1 generalizing recss with
  | nil => intro h2; cases h2; rfl
  | @cons op x ops log hs _ ih =>
    intro h2
    cases h2 with
    | @cons _ recs _ recss hg h2 =>
      rw [List.map_cons, ← ih h2]
      congr 1
      obtain ⟨n, blob⟩ := x
      obtain ⟨⟨c, hs, rfl⟩, _⟩ := hs
      obtain ⟨_, g2, g3, g4⟩ := hg
      have hu : u64 (recs.length : Int) = recs.length := by unfold u64; omega
      cases op with
      | add k bs p =>
        obtain ⟨eb', recs', t1, t2, t3, rfl, rfl⟩ := hs
        obtain rfl := Res.ok.inj (t1.symm.trans he)
        have g4' : recs.flatten = bs := g4
        obtain rfl := flatten_inj hpos t3 g3 (t2.trans g4'.symm)
        rw [hu]
      | addPoints k f l ps p =>
        obtain ⟨bs, eb', recs', t0, t1, t2, t3, rfl, rfl⟩ := hs
        obtain rfl := Res.ok.inj (t1.symm.trans he)
        have g4' : packPoints ps hd.scale hd.offset = .ok recs.flatten := g4
        obtain rfl := Res.ok.inj (t0.symm.trans g4')
        obtain rfl := flatten_inj hpos t3 g3 t2
        rw [hu]
      | addCompressed k bs c' p =>
        obtain ⟨g5, eb', g6, g7⟩ := g4
        obtain ⟨rfl, rfl⟩ := hs
        obtain rfl := Res.ok.inj (g6.symm.trans he)
        dsimp only at g7
        rw [g7, g5, hu]
      | move k p => exact hs.elim
      | close => exact hs.elim

theorem adds_each {L : Lazperf} {hd : LasHeader} {ops : List Op} {recss : List (List Bytes)}
    (hg : List.Forall₂ (Op.Gives L hd) ops recss) :
    ∀ recs ∈ recss, recs ≠ [] ∧ recs.length < 2 ^ 31 ∧ ∀ r ∈ recs, r.length = hd.recLen.toNat := by
  intro recs hr
  induction hg with
  | nil => cases hr
  | cons hg _ ih =>
    rcases List.mem_cons.1 hr with rfl | hr
    · exact ⟨hg.1, hg.2.1, hg.2.2.1⟩
    · exact ih hr

/-- What lazperf finds in the chunk table of a file. -/
theorem chunkTable_at {L : Lazperf} {otpd : Nat} {log : List (Nat × Bytes)} {h14 : Header14} {data rest : Bytes}
    (ho : h14.pointOffset.toNat = otpd) (hdr : data.drop otpd = bodyBytes L otpd log ++ rest) (hsz : data.length < 2 ^ 63)
    (hl : log.length < 2 ^ 32) (hc : ∀ x ∈ log, x.1 < 2 ^ 32 ∧ x.2.length % 2 ^ 64 < 2 ^ 32) :
    LazReader.chunkTable L 4294967295 h14 data = .ok (log.map (·.1)) ∧
      data.drop (otpd + 8) = chunkData log ++ (tableBytes L log ++ rest) := by
  have hb := length_bodyBytes L otpd log
  have h1 : (data.drop otpd).length = (bodyBytes L otpd log).length + rest.length := by
    rw [hdr, List.length_append]
  have hlen : (data.drop otpd).length = data.length - otpd := List.length_drop
  have hahead : data.drop (otpd + 8) = chunkData log ++ (tableBytes L log ++ rest) := by
    rw [← List.drop_drop, hdr, bodyBytes]
    simp only [List.append_assoc]
    rw [List.drop_left' (length_leN 8 _)]
  have h2 : getN 8 (data.drop otpd) = otpd + 8 + (chunkData log).length := by
    rw [hdr, bodyBytes]
    simp only [List.append_assoc]
    rw [getN_leN, Nat.mod_eq_of_lt (by omega)]
  have h3 : data.drop (otpd + 8 + (chunkData log).length) = tableBytes L log ++ rest := by
    rw [← List.drop_drop, hahead, List.drop_left' rfl]
  have h4 : 8 ≤ (tableBytes L log).length := by
    unfold tableBytes; simp only [List.length_append, length_leN]; omega
  have h5 : tableBytes L log ++ rest = leN 4 0 ++ (leN 4 log.length ++ (L.table (sizes log) ++ rest)) := by
    unfold tableBytes; simp only [List.append_assoc]
  have h6 : getN 4 (tableBytes L log ++ rest) = 0 := by rw [h5, getN_leN]
  have h7 : (tableBytes L log ++ rest).drop 4 = leN 4 log.length ++ (L.table (sizes log) ++ rest) := by
    rw [h5, List.drop_left' (length_leN 4 _)]
  have h8 : (tableBytes L log ++ rest).drop 8 = L.table (sizes log) ++ rest := by
    rw [show (8 : Nat) = 4 + 4 from rfl, ← List.drop_drop, h7, List.drop_left' (length_leN 4 _)]
  have h9 : getN 4 (leN 4 log.length ++ (L.table (sizes log) ++ rest)) = (sizes log).length := by
    rw [getN_leN, Nat.mod_eq_of_lt (by omega)]; simp [sizes]
  have h10 : L.readTable (sizes log).length (L.table (sizes log) ++ rest) = sizes log := by
    refine L.table_lossless _ _ ?_
    intro x hx
    unfold sizes at hx
    obtain ⟨y, hy, rfl⟩ := List.mem_map.1 hx
    exact hc y hy
  refine ⟨?_, hahead⟩
  unfold LazReader.chunkTable
  simp only [ho]
  rw [if_neg (by rw [h1]; omega), h2, h3, if_neg (by rw [List.length_append]; omega), if_neg (by rw [h6]; simp), if_pos trivial, h7, h8, h9, h10]
  simp [sizes]

/-- The LASzip VLR of a COPC file. -/
theorem chunkSize_copc {data : Bytes} {h14 : Header14} {L : Lazperf} {c : CopcConfig} {eb : Nat} {gps : Extent} {es : List VRec}
    (hrf : RecFile data h14 (copcRecs L c eb gps) es) :
    LazReader.chunkSize (RecFile.table h14 (copcRecs L c eb gps) es) data = .ok 4294967295 := by
  obtain ⟨l, hl, he⟩ : ∃ l : List VRec, (∀ w ∈ l, ¬w.Is idLaz 22204) ∧
      copcRecs L c eb gps = l ++ ⟨false, idLaz, 22204, BaseW.descLaz, L.lazVlr c.header.fmt eb⟩ :: [] := by
    refine ⟨⟨false, idCopc, 1, BaseW.descInfo, c.info.encode gps⟩ ::
      ⟨false, idCopc, 10000, BaseW.descExtents, Extents.putItems c.extents.toVlr⟩ ::
      (statRecs c ++ (if eb > 0 then [⟨false, idSpec, 4, [], putEb c.eb⟩] else [])), ?_, ?_⟩
    · intro w hw
      have hne : ∀ u, u ≠ idLaz → w.user = u → ¬w.Is idLaz 22204 := fun u h1 h2 h3 => h1 (h2.symm.trans h3.1)
      unfold statRecs at hw
      simp only [List.mem_cons, List.mem_append] at hw
      rcases hw with rfl | rfl | hw | hw
      · exact hne idCopc (by decide) rfl
      · exact hne idCopc (by decide) rfl
      · split at hw
        · obtain rfl := List.mem_singleton.1 hw
          exact hne idRock (by decide) rfl
        · cases hw
      · split at hw
        · obtain rfl := List.mem_singleton.1 hw
          exact hne idSpec (by decide) rfl
        · cases hw
    · unfold copcRecs lazRecs
      simp only [List.cons_append, List.append_assoc]
  rw [he] at hrf ⊢
  obtain ⟨pre, rest, hd, hp⟩ := hrf.split_vlr
  unfold LazReader.chunkSize
  rw [hrf.fetch_vlr hl ⟨rfl, rfl⟩]
  simp only
  rw [if_neg (by omega), hd, ← hp, ← List.drop_drop, List.drop_left' rfl, List.drop_append_of_le_length (by rw [L.lazVlr_length]; omega)]
  have h16 : 4 ≤ ((L.lazVlr c.header.fmt eb).drop 12).length := by rw [List.length_drop, L.lazVlr_length]; omega
  have : getN 4 ((L.lazVlr c.header.fmt eb).drop 12 ++ rest) = getN 4 ((L.lazVlr c.header.fmt eb).drop 12) := by
    unfold getN
    rw [List.take_append_of_le_length h16]
  rw [this, L.lazVlr_varying]

/-- The base of a reader opened on a closed COPC file. -/
theorem CloseOk.base {L : Lazperf} {ord : Order} {otpd : Nat} {log : List (Nat × Bytes)} {w w' : Writer}
    {hier : List (VoxelKey × VoxelKey)} {eb : Nat} {h14 : Header14} {gps : Extent}
    (h : CloseOk L ord otpd log w w' hier eb h14 gps) (hs : Storable w.cfg) (hflag : w.cfg.header.copcFlag = true)
    (hrf : RecFile w'.base.out.data h14 (copcRecs L w'.cfg eb gps) (evRecs L ord otpd log hier w)) :
    ∃ q, BaseReader.init ⟨w'.base.out.data, 0, false⟩ = .ok ⟨⟨w'.base.out.data, q, false⟩, stripFormat h14,
      RecFile.table h14 (copcRecs L w'.cfg eb gps) (evRecs L ord otpd log hier w),
      ⟨w.cfg.header.restored h14, w.cfg.wkt, w.cfg.eb⟩⟩ := by
  obtain ⟨_, _, _, _, _, _, hcfg, _, _⟩ := h.closed
  obtain ⟨hc1, hc2⟩ := closedCfg_facts L ord otpd log hier w
  rw [← hcfg] at hc1 hc2
  have hsum := sum_pos hs.items
  have hebs : eb = (w.cfg.eb.map lasItemSize).sum := by
    have := h.eb_ok
    rw [hs.eb.1] at this
    exact (Res.ok.inj this).symm
  obtain ⟨hpl, hpf⟩ := pageRecs_facts ord w.pages hier
    (Writer.visit ord hier (Writer.levels w.pages) VoxelKey.root) (otpd + (bodyBytes L otpd log).length) []
  have huser : ∀ v ∈ evRecs L ord otpd log hier w, (v.user = idCopc ∧ v.id = 1000) ∨
      (w.cfg.wkt ≠ [] ∧ v = ⟨true, idProj, 2112, [], w.cfg.wkt⟩) := by
    intro v hv
    rw [evRecs] at hv
    rcases List.mem_append.1 hv with hv | hv
    · exact .inl ⟨(hpf v hv).2.1, (hpf v hv).2.2.1⟩
    · unfold wktRecs at hv
      split at hv
      · cases hv
      · exact .inr ⟨by assumption, List.mem_singleton.1 hv⟩
  have hwkt : WktIn w'.cfg.wkt (evRecs L ord otpd log hier w) := by
    rw [hc1]
    refine ⟨?_, ?_⟩
    · intro v hv hc
      rcases huser v hv with ⟨h1, _⟩ | ⟨_, rfl⟩
      · exact absurd (h1.symm.trans hc.1) (by decide)
      · rfl
    · intro hall
      by_contra hne
      refine hall ⟨true, idProj, 2112, [], w.cfg.wkt⟩ ?_ ⟨rfl, rfl⟩
      rw [evRecs, wktRecs, if_neg hne]
      simp
  have hes : ∀ v ∈ evRecs L ord otpd log hier w, ¬v.Is idSpec 4 := by
    intro v hv
    rcases huser v hv with ⟨h1, _⟩ | ⟨_, rfl⟩
    · exact fun hc => absurd (h1.symm.trans hc.1) (by decide)
    · exact fun hc => absurd (show idProj = idSpec from hc.1) (by decide)
  obtain ⟨r14, hr1, hr2, hr3⟩ := C19_roundtrip_partial w.cfg.header hs.header (UInt32.ofNat otpd) (UInt64.ofNat w.base.pointCount)
      (UInt64.ofNat (preHeader L ord otpd log hier w).base.evlrOffset)
      (UInt32.ofNat (preHeader L ord otpd log hier w).base.evlrCount) (eb ≠ 0)
      w.cfg.extents.extStats (fun _ => hflag)
  have hr14 : r14 = h14 := by
    have := h.header
    rw [hr1] at this
    exact Res.ok.inj this
  subst hr14
  have hhd : LasHeader.fromLazPerf (stripFormat r14) = .ok (w.cfg.header.restored r14) := by
    have := hr3 []
    rw [Header14.decode_encode hrf.sized] at this
    rw [this]
    unfold LasHeader.toLazPerf at hr1
    rw [hflag] at hr1
    simp only [Bool.not_true, Bool.and_false, Bool.false_eq_true, if_false] at hr1
    obtain rfl := Res.ok.inj hr1
    rfl
  obtain ⟨q1, r1⟩ := hrf.readHeaders 0
  obtain ⟨q2, r2⟩ := readWkt_good hrf hwkt (by rw [hc1]; exact hs.wktLen) q1
  obtain ⟨q3, r3⟩ := readEb_good hrf hes (by
    rw [hebs, hc1]
    constructor
    · intro hgt hc
      rw [hc] at hgt
      simp at hgt
    · intro hne
      have := List.length_pos_iff.2 hne
      omega) (by rw [hc1]; exact hs.descriptors) q2
  rw [hc1] at r2 r3
  refine ⟨q3, ?_⟩
  unfold BaseReader.init
  rw [if_neg (by simp), hrf.readHeader]
  simp only [Res.bind]
  rw [hhd]
  simp only [r1, r2, r3]

section
variable {L : Lazperf} {ord : Order} {w0 w : Writer} {h : List (Op × Res (Option Node))} {data : Bytes}

theorem Written.shape (hw : Written L ord w0 w h data) :
    (w0.cfg.header.fmt = 6 ∨ w0.cfg.header.fmt = 7 ∨ w0.cfg.header.fmt = 8) ∧
      lasBaseSize w0.cfg.header.fmt ≤ w0.cfg.header.recLen.toNat := by
  obtain ⟨_, _, _, _, _, _, _, _, _, _, hi, _⟩ := hw.recorded
  rw [← hi.edit.fmt, ← hi.edit.recLen]
  exact ⟨hw.storable.fmt, by have := hw.storable.len; omega⟩

/-- A COPC file, opened as a LAZ file: the reader opens it and has the LAS metadata of the writer's configuration; the header
has the number of points; the first `GetPointData` gives all records given to the additions, in order of the additions. No
addition failed for the size of its chunk; records of at most 255 bytes (see C47). -/
theorem C95_records (hw : Written L ord w0 w h data) (hl : NoneTooLarge h) (hs : w0.cfg.header.recLen.toNat ≤ 255)
    {recss : List (List Bytes)} (hg : List.Forall₂ (Op.Gives L w0.cfg.header) (addedCalls h) recss)
    (hn : recss.flatten.length < 2 ^ 64) :
    ∃ r, LazReader.init L ⟨data, 0, false⟩ = .ok r ∧ SameLazMetadata w.cfg.toLazConfig r.base.las ∧
      r.base.las.header.pointCount.toNat = recss.flatten.length ∧
      LazReader.getPointData L r = .ok recss.flatten.flatten := by
  obtain ⟨hf, hlen⟩ := hw.shape
  obtain ⟨e1, e2, e3⟩ := ebSize_consistent hf hlen
  have hpos := hw.recLen_pos
  have hsm : w0.base.out.data.length - 8 < 2 ^ 32 := by
    rw [← (hw.fields hl).1]
    exact num_lt data 4 96
  obtain ⟨otpd, log, hier, eb, gps, w', h14, hc, rfl, h2, hi, hco, hrf, _⟩ := hw.recorded
  have hflag : w.cfg.header.copcFlag = true := by
    rw [hi.edit.copcFlag]
    obtain ⟨c, o, hm⟩ := hw.made
    obtain ⟨_, _, h3, _⟩ := make_ok hm
    exact initConfig_flag h3
  have hebs : eb = w0.cfg.header.recLen.toNat - lasBaseSize w0.cfg.header.fmt := by
    have := hco.eb_ok
    unfold LasHeader.ebSize at this e1
    rw [hi.edit.fmt, hi.edit.recLen, e1] at this
    exact (Res.ok.inj this).symm
  subst hebs
  have hcalls := hi.logged.calls hl
  have hlog := adds_log e1 hpos hcalls hg
  have hgr := adds_each hg
  have hsum : (log.map (·.1)).sum = recss.flatten.length := by
    rw [hlog, List.map_map, List.length_flatten]; rfl
  obtain ⟨q, hq⟩ := hco.base hw.storable hflag hrf
  obtain ⟨hfit, hdata, _⟩ := hco.closed
  have hsize := hw.size
  have harea := length_headArea (L := L) (c := closedCfg L ord otpd log hier w) (gps := gps) hfit
  have hdr : w'.base.out.data.drop otpd = bodyBytes L otpd log ++
      ((closeLayout L ord otpd log hier w).1 ++ wktBytes w.cfg.wkt) := by
    rw [hdata, fileBytes, List.drop_left' harea]
  have hle : otpd + (bodyBytes L otpd log).length ≤ w'.base.out.data.length := by
    rw [hdata, fileBytes, List.length_append, harea, List.length_append]; omega
  have hb := length_bodyBytes L otpd log
  have hfew := hco.few
  have hfields : h14.pointCount14 = UInt64.ofNat w.base.pointCount ∧ h14.pointOffset = UInt32.ofNat otpd := by
    have := hco.header
    unfold LasHeader.toLazPerf at this
    split at this
    · cases this
    · obtain rfl := Res.ok.inj this
      exact ⟨rfl, rfl⟩
  have hsmall : otpd < 2 ^ 32 := by
    have h0 : w0.base.out.data.length - 8 = otpd := by rw [h2.out.data]; simp [chunkData]
    omega
  have hpo : h14.pointOffset.toNat = otpd := by
    rw [hfields.2, UInt32.toNat_ofNat', Nat.mod_eq_of_lt hsmall]
  have hpc : h14.pointCount14.toNat = recss.flatten.length := by
    rw [hfields.1, hi.base.count, hsum, Nat.mod_eq_of_lt hn, UInt64.toNat_ofNat', Nat.mod_eq_of_lt hn]
  obtain ⟨htab, hahead⟩ := chunkTable_at (L := L) (log := log) (h14 := stripFormat h14) hpo hdr hsize (by omega) (by
    intro x hx
    refine ⟨?_, ?_⟩
    · rw [hlog] at hx
      obtain ⟨recs, hr, rfl⟩ := List.mem_map.1 hx
      have := (hgr recs hr).2.1
      simp only
      omega
    · obtain ⟨_, _, _, hz⟩ := forall₂_mem_right hcalls hx
      omega)
  refine ⟨_, by
    unfold LazReader.init
    rw [hq]
    simp only [Res.bind]
    rw [chunkSize_copc hrf]
    simp only
    rw [htab], ⟨rfl, rfl, rfl, rfl, rfl, rfl, rfl, rfl, rfl, rfl, rfl, rfl, rfl, rfl, rfl, rfl⟩, hpc, ?_⟩
  have hfm : w.cfg.header.fmt = w0.cfg.header.fmt := hi.edit.fmt
  have hrl : w.cfg.header.recLen = w0.cfg.header.recLen := hi.edit.recLen
  unfold LazReader.getPointData
  simp only
  have he' : (w.cfg.header.restored h14).ebSize = .ok (w0.cfg.header.recLen.toNat - lasBaseSize w0.cfg.header.fmt) := by
    rw [← e1]; unfold LasHeader.ebSize; rw [← hfm, ← hrl]; rfl
  have hfm' : (w.cfg.header.restored h14).fmt = w0.cfg.header.fmt := hfm
  have hpo' : (w.cfg.header.restored h14).pointOffset.toNat = otpd := hpo
  have hpc' : (w.cfg.header.restored h14).pointCount.toNat = recss.flatten.length := hpc
  rw [he', Res.okBind, hfm', e2, Res.okBind, hpo', hpc', if_neg (by rw [e3]; omega), RecFile.seekg_good (by omega)]
  simp only [Bool.false_eq_true, if_false]
  rw [hahead]
  have hcd : chunkData log = (recss.map (L.compress w0.cfg.header.fmt
    (w0.cfg.header.recLen.toNat - lasBaseSize w0.cfg.header.fmt))).flatten := by
    unfold chunkData; rw [hlog, List.map_map]; rfl
  have hcounts : log.map (·.1) = recss.map (·.length) := by rw [hlog, List.map_map]; rfl
  rw [hcd, hcounts, readRecords_chunks hf _ recss fun recs hr => ⟨(hgr recs hr).1, by rw [e3]; exact (hgr recs hr).2.2⟩,
    Res.okBind, take_all]
  intro x hx
  obtain ⟨recs, hr, hx⟩ := List.mem_flatten.1 hx
  exact (hgr recs hr).2.2 x hx

theorem adds_points {hd : LasHeader} (hpos : 0 < hd.recLen.toNat) :
    ∀ {ops : List Op} {log : List (Nat × Bytes)},
    List.Forall₂ (fun op x => (∃ c, op.Stores L hd x.2 c ∧ x.1 = u64 c) ∧ x.2.length % 2 ^ 64 ≤ 2147483647) ops log →
    (∀ op ∈ ops, (∃ k f l ps p, op = .addPoints k f l ps p) ∧ op.points ≠ []) →
    (∀ p ∈ ops.flatMap Op.points, Reach p ∧ p.recLen = hd.recLen.toNat) → (ops.flatMap Op.points).length < 2 ^ 31 →
    ∃ recss, List.Forall₂ (Op.Gives L hd) ops recss ∧
      packPoints (ops.flatMap Op.points) hd.scale hd.offset = .ok recss.flatten.flatten ∧
      recss.flatten.length = (ops.flatMap Op.points).length := by
  intro ops log h1
  induction h1 with
  | nil => intro _ _ _; exact ⟨[], .nil, rfl, rfl⟩
  | @cons op x ops log hs _ ih =>
    intro h2 h3 h4
    rw [List.flatMap_cons, List.length_append] at h4
    obtain ⟨recss, i1, i2, i3⟩ := ih (fun o ho => h2 o (by simp [ho])) (fun p hp => h3 p (by
      rw [List.flatMap_cons]; exact List.mem_append_right _ hp)) (by omega)
    obtain ⟨⟨k, f, l, ps, pg, rfl⟩, hne⟩ := h2 op (by simp)
    obtain ⟨n, blob⟩ := x
    obtain ⟨⟨c, ⟨bs, eb, recs, t0, t1, rfl, t3, rfl, rfl⟩, _⟩, _⟩ := hs
    have hlen := C18_pack_length ps _ (fun p hp => h3 p (by
      rw [List.flatMap_cons]; exact List.mem_append_left _ hp)) _ _ _ t0
    have hlen2 : recs.flatten.length = recs.length * hd.recLen.toNat := by
      rw [List.length_flatten, List.map_congr_left t3, List.map_const', List.sum_replicate_nat]
    have hcount : recs.length = ps.length := Nat.eq_of_mul_eq_mul_right hpos (hlen2.symm.trans hlen)
    have hps : (Op.addPoints k f l ps pg).points.length = ps.length := rfl
    have hpp : 0 < ps.length := List.length_pos_iff.2 hne
    refine ⟨recs :: recss, .cons ⟨?_, by omega, t3, t0⟩ i1, ?_, ?_⟩
    · intro e
      rw [e] at hcount
      simp at hcount
      omega
    · rw [List.flatMap_cons, List.flatten_cons, List.flatten_append]
      exact packPoints_append t0 i2
    · rw [List.flatten_cons, List.length_append, i3, List.flatMap_cons, List.length_append, hcount, hps]

/-- ... and when all additions were given points, the first `GetPoints` returns as many points as were given, in order of the
additions, each what the original becomes when stored (`ReadBack`). -/
theorem C95_points (hw : Written L ord w0 w h data) (hl : NoneTooLarge h) (hs : w0.cfg.header.recLen.toNat ≤ 255)
    (honly : ∀ op ∈ addedCalls h, ∃ k f l ps p, op = .addPoints k f l ps p)
    (hp : ∀ p ∈ (addedCalls h).flatMap Op.points, Reach p ∧ p.fmt = w0.cfg.header.fmt ∧ p.recLen = w0.cfg.header.recLen.toNat)
    (hn : ((addedCalls h).flatMap Op.points).length < 2 ^ 31) :
    ∃ r qs, LazReader.init L ⟨data, 0, false⟩ = .ok r ∧ LazReader.getPoints L r = .ok qs ∧
      r.base.las.header.pointCount.toNat = ((addedCalls h).flatMap Op.points).length ∧
      List.Forall₂ (ReadBack w0.cfg.header.scale w0.cfg.header.offset) ((addedCalls h).flatMap Op.points) qs := by
  obtain ⟨hf, hlen⟩ := hw.shape
  obtain ⟨e1, e2, e3⟩ := ebSize_consistent hf hlen
  have hpos := hw.recLen_pos
  obtain ⟨_, log, _, _, _, _, _, _, _, _, hi, _⟩ := hw.recorded
  have hcalls := hi.logged.calls hl
  obtain ⟨recss, g1, g2, g3⟩ := adds_points hpos hcalls (fun op ho => ⟨honly op ho, by
    obtain ⟨k, f, l, ps, pg, rfl⟩ := honly op ho
    intro e
    have e' : ps = [] := e
    subst e'
    obtain ⟨⟨op', r⟩, hx, he⟩ := List.mem_filterMap.1 ho
    obtain ⟨n, rfl, rfl⟩ : ∃ n, r = .ok (some n) ∧ op' = .addPoints k f l [] pg := by
      cases r with
      | ok o =>
        cases o with
        | none => cases he
        | some n => exact ⟨n, rfl, Option.some.inj he⟩
      | throw e => cases he
      | ub => cases he
    obtain ⟨hm, _, _, blob, s1, _⟩ := hw.node hx
    obtain ⟨bs, eb, recs, t0, _, t2, t3, _, t5⟩ := s1
    have hc := (hw.counted n hm).2.1
    have hnil : bs = [] := (Res.ok.inj t0).symm
    rw [hnil] at t2
    cases recs with
    | nil => rw [t5] at hc; simp at hc
    | cons a recs =>
      have ha := t3 a List.mem_cons_self
      have : a = [] := List.flatten_eq_nil_iff.1 t2 a List.mem_cons_self
      rw [this] at ha
      simp only [List.length_nil] at ha
      omega⟩) (fun p hp' => ⟨(hp p hp').1, (hp p hp').2.2⟩) hn
  obtain ⟨r, r1, r2, r3, r4⟩ := C95_records hw hl hs g1 (by omega)
  have hbl : baseSize w0.cfg.header.fmt + (w0.cfg.header.recLen.toNat - lasBaseSize w0.cfg.header.fmt) =
      w0.cfg.header.recLen.toNat := e3
  obtain ⟨qs, hq, hall⟩ := C18_roundtrip _ w0.cfg.header.fmt
    (w0.cfg.header.recLen.toNat - lasBaseSize w0.cfg.header.fmt) (by rw [hbl]; have := w0.cfg.header.recLen.toNat_lt; omega)
    hf (fun p hp' => ⟨(hp p hp').1, (hp p hp').2.1, (hp p hp').2.2.trans hbl.symm⟩) (by omega) _ _ _ g2
  have hrf : r.base.las.header.fmt = w.cfg.header.fmt := r2.fmt
  have hrl : r.base.las.header.recLen = w.cfg.header.recLen := r2.recLen
  have hsc : r.base.las.header.scale = w.cfg.header.scale := r2.scale
  have hof : r.base.las.header.offset = w.cfg.header.offset := r2.offset
  have heb : r.base.las.header.ebSize = .ok (w0.cfg.header.recLen.toNat - lasBaseSize w0.cfg.header.fmt) := by
    rw [← e1]
    unfold LasHeader.ebSize
    rw [hrf, hrl, hi.edit.fmt, hi.edit.recLen]
  have hfm : r.base.las.header.fmt = w0.cfg.header.fmt := hrf.trans hi.edit.fmt
  refine ⟨r, qs, r1, ?_, by rw [r3, g3], hall⟩
  unfold LazReader.getPoints
  simp only
  rw [r4, Res.okBind]
  by_cases h0 : recss.flatten.flatten = []
  · rw [if_pos h0, heb, Res.okBind, hfm]
    rw [h0] at hq
    have hl := C18_pack_length _ _ (fun p hp' => ⟨(hp p hp').1, (hp p hp').2.2⟩) _ _ _ g2
    rw [h0] at hl
    have hz : ((addedCalls h).flatMap Op.points).length = 0 := by
      rcases Nat.mul_eq_zero.1 (show _ * _ = 0 from hl.symm) with h | h
      · exact h
      · omega
    have hz2 := hall.length_eq
    have : qs = [] := List.length_eq_zero_iff.1 (by omega)
    subst this
    unfold Coll.make
    rw [if_neg (by rcases hf with e | e | e <;> rw [e] <;> omega), e2]
    rfl
  · rw [if_neg h0]
    unfold Reader.unpackWith
    rw [heb, Res.okBind, hfm, hsc, hof, hi.edit.scale, hi.edit.offset]
    exact hq

end
end Copc
