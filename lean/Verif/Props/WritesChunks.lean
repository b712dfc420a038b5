import Verif.Props.WritesConform
import Verif.Props.CopcIsLaz
/-!
# The points of a COPC file follow LAZ

`Format.Chunks` and `Format.Varying` (`Verif/Props/ConformingLaz.lean`, for LAZ files of any program) hold for the files that
`Writer` wrote.
-/
namespace Copc
open Spec

theorem find_append {α : Type} {p : α → Bool} {r : α} : ∀ {a b : List α}, (∀ x ∈ a, p x = false) → p r = true →
    (a ++ r :: b).find? p = some r
  | [], b, _, hr => by rw [List.nil_append, List.find?_cons_of_pos hr]
  | x :: a, b, ha, hr => by
    rw [List.cons_append, List.find?_cons_of_neg (by rw [ha x (by simp)]; simp), find_append (fun y hy => ha y (by simp [hy])) hr]

theorem placedRecs_end (v : VRec) : ∀ (l : List VRec) (p : Nat), ∃ q, placedRecs p (l ++ [v]) = placedRecs p l ++ [(q, v)]
  | [], p => ⟨p, rfl⟩
  | a :: l, p => by
    obtain ⟨q, hq⟩ := placedRecs_end v l (p + a.bytes.length)
    exact ⟨q, by rw [List.cons_append, placedRecs, placedRecs, hq, List.cons_append]⟩

theorem placedRecs_snd : ∀ (l : List VRec) (p : Nat), ∀ x ∈ placedRecs p l, x.2 ∈ l
  | [], _, x, hx => by cases hx
  | a :: l, p, x, hx => by
    rw [placedRecs] at hx
    rcases List.mem_cons.1 hx with rfl | hx
    · simp
    · exact List.mem_cons_of_mem _ (placedRecs_snd l _ x hx)

/-- The LASzip VLR of a COPC file. -/
theorem copc_laszip {L : Lazperf} {c : CopcConfig} {eb : Nat} {gps : Extent} {data : Bytes}
    (hv : Format.vlrs data = (placedRecs 375 (copcRecs L c eb gps)).map (fun x => x.2.raw x.1))
    (hp : ∀ x ∈ placedRecs 375 (copcRecs L c eb gps),
      Format.text data x.2.payload.length (x.1 + x.2.hsize) = x.2.payload) :
    ∃ r ∈ Format.vlrs data, Format.found data laszipUser 22204 = some r ∧ Format.num data 4 (r.offset + 12) = 4294967295 := by
  obtain ⟨l, hl, he⟩ : ∃ l : List VRec, (∀ v ∈ l, v.user ≠ laszipUser) ∧
      copcRecs L c eb gps = l ++ [⟨false, idLaz, 22204, BaseW.descLaz, L.lazVlr c.header.fmt eb⟩] := by
    refine ⟨⟨false, idCopc, 1, BaseW.descInfo, c.info.encode gps⟩ ::
      ⟨false, idCopc, 10000, BaseW.descExtents, Extents.putItems c.extents.toVlr⟩ ::
      (statRecs c ++ (if eb > 0 then [⟨false, idSpec, 4, [], putEb c.eb⟩] else [])), ?_, ?_⟩
    · intro v hm
      simp only [List.mem_cons, List.mem_append] at hm
      rcases hm with rfl | rfl | hm | hm
      · show idCopc ≠ laszipUser; decide
      · show idCopc ≠ laszipUser; decide
      · unfold statRecs at hm
        split at hm
        · obtain rfl := List.mem_singleton.1 hm; show idRock ≠ laszipUser; decide
        · cases hm
      · split at hm
        · obtain rfl := List.mem_singleton.1 hm; show idSpec ≠ laszipUser; decide
        · cases hm
    · unfold copcRecs lazRecs
      simp only [List.cons_append, List.append_assoc]
  obtain ⟨q, hq⟩ := placedRecs_end ⟨false, idLaz, 22204, BaseW.descLaz, L.lazVlr c.header.fmt eb⟩ l 375
  rw [he, hq] at hv hp
  rw [List.map_append, List.map_cons, List.map_nil] at hv
  refine ⟨_, by rw [hv]; exact List.mem_append_right _ List.mem_cons_self, ?_, ?_⟩
  · unfold Format.found
    rw [hv, List.append_assoc, List.cons_append]
    refine find_append ?_ ?_
    · intro x hx
      obtain ⟨y, hy, rfl⟩ := List.mem_map.1 hx
      have := hl _ (placedRecs_snd _ _ y hy)
      rw [Bool.and_eq_false_iff]
      exact .inl (decide_eq_false this)
    · rw [Bool.and_eq_true]
      exact ⟨decide_eq_true rfl, decide_eq_true rfl⟩
  · have h1 := hp _ (List.mem_append_right _ List.mem_cons_self)
    have hlen := L.lazVlr_length c.header.fmt eb
    exact (num_inside (j := 12) (k := 4) h1 (by dsimp only; omega)).trans (L.lazVlr_varying _ _)

/-- The points of a file that `Writer` wrote are laid out as LAZ has them, whatever the octree is: chunks of varying sizes with
the records that the additions gave, in order. -/
theorem C100_copcChunks {L : Lazperf} {ord : Order} {w0 w : Writer} {h : List (Op × Res (Option Node))} {data : Bytes}
    (hw : Written L ord w0 w h data) (hl : NoneTooLarge h) {recss : List (List Bytes)}
    (hg : List.Forall₂ (Op.Gives L w0.cfg.header) (addedCalls h) recss) (hn : recss.flatten.length < 2 ^ 64) :
    Format.Chunks L data recss ∧ Format.Varying L data recss := by
  obtain ⟨hf, hlen⟩ := hw.shape
  obtain ⟨e1, e2, e3⟩ := ebSize_consistent hf hlen
  have hpos := hw.recLen_pos
  have a := hw.raw.1
  have hpo := hw.pointOffset
  obtain ⟨otpd, log, hier, eb, gps, w', h14, hc, rfl, h2, hi, hco, hrf, hv, hpay, _⟩ := hw.recorded
  have h0 : w0.base.out.data.length - 8 = otpd := by rw [h2.out.data]; simp [chunkData]
  rw [h0] at hpo
  have hebs : eb = w0.cfg.header.recLen.toNat - lasBaseSize w0.cfg.header.fmt := by
    have := hco.eb_ok
    unfold LasHeader.ebSize at this e1
    rw [hi.edit.fmt, hi.edit.recLen, e1] at this
    exact (Res.ok.inj this).symm
  have hcalls := hi.logged.calls hl
  have hlog := adds_log e1 hpos hcalls hg
  rw [← hebs] at hlog
  have hgr := adds_each hg
  have hfm : w.cfg.header.fmt = w0.cfg.header.fmt := hi.edit.fmt
  have hrl : w.cfg.header.recLen = w0.cfg.header.recLen := hi.edit.recLen
  have hchunk : Format.chunk L w'.base.out.data = L.compress w0.cfg.header.fmt eb := by
    unfold Format.chunk
    have e : (Format.num w'.base.out.data 1 104 : Int) - 128 = w0.cfg.header.fmt := by have := a.format; rw [hfm] at this; omega
    rw [e, a.record, hrl, hebs]
    rfl
  have hu : log = recss.map fun recs => (recs.length, Format.chunk L w'.base.out.data recs) := by rw [hlog, hchunk]
  have hcd : chunkData log = (recss.map (Format.chunk L w'.base.out.data)).flatten := by
    rw [hu]; unfold chunkData; rw [List.map_map]; rfl
  have hnum : log.length = recss.length := by rw [hlog, List.length_map]
  have hsum : (log.map (·.1)).sum = recss.flatten.length := by
    rw [hu, List.map_map, List.length_flatten]; rfl
  obtain ⟨hfit, hdata, _⟩ := hco.closed
  have hsize := hw.size
  have harea := length_headArea (L := L) (c := closedCfg L ord otpd log hier w) (gps := gps) hfit
  have hdr : w'.base.out.data.drop otpd = bodyBytes L otpd log ++
      ((closeLayout L ord otpd log hier w).1 ++ wktBytes w.cfg.wkt) := by
    rw [hdata, fileBytes, List.drop_left' harea]
  have hle : otpd + (bodyBytes L otpd log).length ≤ w'.base.out.data.length := by
    rw [hdata, fileBytes, List.length_append, harea, List.length_append]; omega
  generalize (closeLayout L ord otpd log hier w).1 ++ wktBytes w.cfg.wkt = T at hdr
  have hb := length_bodyBytes L otpd log
  have htl : 8 ≤ (tableBytes L log).length := by
    unfold tableBytes; simp only [List.length_append, length_leN]; omega
  have hfew := hco.few
  have hahead : w'.base.out.data.drop (otpd + 8) = chunkData log ++ (tableBytes L log ++ T) := by
    rw [← List.drop_drop, hdr, bodyBytes]
    simp only [List.append_assoc]
    rw [List.drop_left' (length_leN 8 _)]
  have htab : Format.num w'.base.out.data 8 otpd = otpd + 8 + (chunkData log).length := by
    unfold Format.num
    rw [hdr, bodyBytes]
    simp only [List.append_assoc]
    rw [getN_leN, Nat.mod_eq_of_lt (by omega)]
  have h3 : w'.base.out.data.drop (otpd + 8 + (chunkData log).length) =
      leN 4 0 ++ (leN 4 log.length ++ (L.table (sizes log) ++ T)) := by
    rw [← List.drop_drop, hahead, List.drop_left' rfl]
    unfold tableBytes; simp only [List.append_assoc]
  have hsmall : ∀ recs ∈ recss, (Format.chunk L w'.base.out.data recs).length < 2 ^ 32 := by
    intro recs hr
    have hm : (recs.length, Format.chunk L w'.base.out.data recs) ∈ log := by
      rw [hu]; exact List.mem_map.2 ⟨recs, hr, rfl⟩
    obtain ⟨_, _, _, hz⟩ := forall₂_mem_right hcalls hm
    dsimp only at hz
    have h2 : (Format.chunk L w'.base.out.data recs).length ≤ (chunkData log).length := by
      rw [hcd, List.length_flatten]
      exact List.le_sum_of_mem (List.mem_map.2 ⟨_, List.mem_map.2 ⟨recs, hr, rfl⟩, rfl⟩)
    omega
  constructor
  · refine ⟨?_, ?_, ?_, ?_, ?_, fun recs hr => (hgr recs hr).1, ?_, ?_⟩
    · rw [hpo, ← hcd]
      unfold Format.text
      rw [hahead, List.take_left' rfl]
    · rw [hpo, ← hcd]; omega
    · rw [hpo, htab]; omega
    · rw [hpo, htab]
      unfold Format.num
      rw [h3, getN_leN]
    · rw [hpo, htab]
      unfold Format.num
      rw [← List.drop_drop, h3, List.drop_left' (length_leN 4 _), getN_leN, Nat.mod_eq_of_lt (by omega), hnum]
    · intro recs hr x hx
      rw [a.record, hrl]
      exact (hgr recs hr).2.2 x hx
    · obtain ⟨hd, _⟩ := hco.headerDecoded hw.storable.header.byReturn
      have b := header_raw2 hd
      have hpc : h14.pointCount14 = UInt64.ofNat w.base.pointCount := by
        have := hco.header
        unfold LasHeader.toLazPerf at this
        split at this
        · cases this
        · obtain rfl := Res.ok.inj this
          rfl
      rw [← b.2.2.2.2.2.2.2.2.2.2.2.1, hpc, hi.base.count, hsum, Nat.mod_eq_of_lt hn, UInt64.toNat_ofNat', Nat.mod_eq_of_lt hn]
  · refine ⟨copc_laszip hv hpay, ⟨T, ?_⟩, fun recs hr => ⟨by have := (hgr recs hr).2.1; omega, hsmall recs hr⟩⟩
    rw [hpo, htab, show otpd + 8 + (chunkData log).length + 8 = otpd + 8 + (chunkData log).length + 4 + 4 by omega,
      ← List.drop_drop, ← List.drop_drop, h3, List.drop_left' (length_leN 4 _), List.drop_left' (length_leN 4 _)]
    congr 2
    conv_lhs => rw [hu]
    unfold sizes
    rw [List.map_map]
    apply List.map_congr_left
    intro recs hr
    have := hsmall recs hr
    simp only [Function.comp, Prod.mk.injEq, true_and]
    omega

end Copc
