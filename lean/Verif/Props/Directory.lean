import Verif.Lemmas.Directory
import Verif.Props.LazReader
/-!
# C20: the records a file announces are the records it has
-/
namespace Copc
open Spec

theorem ebSize_pos {h : LasHeader} {eb : Nat} (he : h.ebSize = .ok eb) (hf : h.fmt = 6 ∨ h.fmt = 7 ∨ h.fmt = 8) :
    eb > 0 ↔ h.recLen.toNat ≠ lasBaseSize h.fmt := by
  have hl := h.recLen.toNat_lt
  unfold LasHeader.ebSize ebByteSize at he
  rcases hf with hf | hf | hf <;> rw [hf] at he ⊢ <;> simp [pointBaseByteSize, lasBaseSize] at he ⊢ <;> omega

/-- A closed COPC file: the VLRs announced by the header are the COPC info, the extents, the extended stats
if they were asked for, the extra bytes if the record length leaves room for some, and the LAZ VLR; the extended
VLRs announced are the hierarchy pages and, unless it is empty, the WKT string, and they end at the end of the
file. (Where the VLRs end: `C26_area`.) -/
theorem C20_copc_records {L : Lazperf} {ord : Order} {c : CopcConfig} {o : Writer.Overrides} {w0 w w' : Writer}
    {h : List (Op × Res (Option Node))} (hm : Writer.make OStream.fresh c o = .ok w0)
    (hr : w0.cfg.header.pointsByReturn.length = 15) (hl : w0.cfg.eb.length ≤ 341)
    (hx : w0.cfg.extents.extents.length ≤ 4095)
    (hh : History L ord w0 h w) (hu : Unclosed h) (hc : Writer.close L ord w = (.ok (), w'))
    (hlen : w'.base.out.data.length < 2 ^ 63) (hfew : w.pages.length + 1 < 2 ^ 31) :
    let data := w'.base.out.data
    let hd := Header14.decode data
    vlrIds data hd.vlrCount.toNat 375 =
      [(copcUser, 1), (copcUser, 10000)] ++
      (if w0.cfg.extents.extStats then [(rockUser, 10001)] else []) ++
      (if w0.cfg.header.recLen.toNat = lasBaseSize w0.cfg.header.fmt then [] else [(specUser, 4)]) ++
      [(laszipUser, 22204)] ∧
    evlrIds data hd.evlrCount.toNat hd.evlrOffset.toNat =
      List.replicate w.pages.length (copcUser, 1000) ++
      (if w0.cfg.wkt = [] then [] else [(projectionUser, 2112)]) ∧
    evlrEnd data hd.evlrCount.toNat hd.evlrOffset.toNat = data.length := by
  obtain ⟨otpd, h1, h2⟩ := bInv_of_make hm
  obtain ⟨log, hi⟩ := wInv_history h1 h2 hh hu
  obtain ⟨hier, eb, h14, gps, hco⟩ := close_ok hi.offset hi.base hc
  have hflag : w.cfg.header.copcFlag = true := by
    rw [hi.edit.copcFlag]
    obtain ⟨_, _, h3, _⟩ := make_ok hm
    exact initConfig_flag h3
  have hp := pageInv_history (pageInv_make hm) hh
  have hrf := hco.recFile hp (by rw [hi.edit.returns]; exact hr) (by rw [hi.edit.eb]; exact hl)
    (by rw [hi.edit.extLen]; exact hx) hflag hlen hfew
  obtain ⟨d0, d1, d2, d3, d4⟩ := hrf.directory
  simp only
  rw [d0, d1, d3, d4]
  obtain ⟨hfit, hdata, _, _, _, _, hcfg, _, _⟩ := hco.closed
  obtain ⟨hc1, hc2⟩ := closedCfg_facts L ord otpd log hier w
  rw [← hcfg] at hc1 hc2
  have hx2 : w'.cfg.extents.extStats = w0.cfg.extents.extStats := by rw [hc2, hi.edit.extStats]
  have hebp := ebSize_pos hco.eb_ok (fmt_of_offset hi.offset)
  rw [hi.edit.recLen, hi.edit.fmt] at hebp
  have hpf := pageRecs_facts ord w.pages hier (Writer.visit ord hier (Writer.levels w.pages) VoxelKey.root)
    (otpd + (bodyBytes L otpd log).length) []
  have hwk : (wktRecs w.cfg.wkt).map (fun v => (v.user, v.id.toNat)) =
      if w0.cfg.wkt = [] then [] else [(projectionUser, 2112)] := by
    rw [hi.edit.wkt]; unfold wktRecs; split <;> rfl
  refine ⟨?_, ?_, ?_⟩
  · have hst : (statRecs w'.cfg).map (fun v => (v.user, v.id.toNat)) =
        if w0.cfg.extents.extStats then [(rockUser, 10001)] else [] := by
      unfold statRecs; rw [hx2]; split <;> rfl
    have hlz : (lazRecs L w'.cfg.toLazConfig eb).map (fun v => (v.user, v.id.toNat)) =
        (if w0.cfg.header.recLen.toNat = lasBaseSize w0.cfg.header.fmt then [] else [(specUser, 4)]) ++
          [(laszipUser, 22204)] := by
      unfold lazRecs
      by_cases he : eb > 0
      · rw [if_pos he, if_neg (hebp.1 he)]; rfl
      · rw [if_neg he, if_pos (by by_contra hne; exact he (hebp.2 hne))]; rfl
    unfold copcRecs
    rw [List.map_cons, List.map_cons, List.map_append, hst, hlz, List.append_assoc, List.append_assoc]
    rfl
  · unfold evRecs
    rw [List.map_append, hwk]
    congr 1
    rw [← hco.visit_length hp, ← hpf.1, List.eq_replicate_iff]
    refine ⟨by simp, fun b hb => ?_⟩
    obtain ⟨v, hv, rfl⟩ := List.mem_map.1 hb
    obtain ⟨_, a, b, _⟩ := hpf.2 v hv
    rw [a, b]; rfl
  · have hev : (evRecs L ord otpd log hier w).flatMap VRec.bytes =
        (closeLayout L ord otpd log hier w).1 ++ wktBytes w.cfg.wkt := by
      rw [evRecs, List.flatMap_append, pageRecs_bytes, wktRecs_bytes]; rfl
    obtain ⟨pre, rest, ht, hpl⟩ := hrf.tail
    have hd : w'.base.out.data = (headArea L (closedCfg L ord otpd log hier w) eb gps h14 otpd ++ bodyBytes L otpd log) ++
        ((evRecs L ord otpd log hier w).flatMap VRec.bytes) := by
      rw [hev, hdata, fileBytes]; simp only [List.append_assoc]
    have hh14 : h14.evlrOffset = UInt64.ofNat (preHeader L ord otpd log hier w).base.evlrOffset := by
      have hh := hco.header
      unfold LasHeader.toLazPerf at hh
      rw [hflag] at hh
      simp only [Bool.not_true, Bool.and_false, Bool.false_eq_true, if_false] at hh
      obtain rfl := Res.ok.inj hh
      rfl
    have hsum : otpd + (bodyBytes L otpd log).length ≤ w'.base.out.data.length := by
      rw [hdata, fileBytes, List.length_append, length_headArea hfit, List.length_append]; omega
    have heo : h14.evlrOffset.toNat = otpd + (bodyBytes L otpd log).length := by
      rw [hh14, preHeader_eq]
      simp only
      exact UInt64.toNat_ofNat_of_lt' (by rw [UInt64.size]; omega)
    rw [heo, hd, List.length_append, List.length_append, length_headArea hfit]
    rfl

/-- A closed LAZ file: the VLRs announced are the extra bytes, if the record length leaves room for some, and the
LAZ VLR; the only extended VLR is the WKT string, and there is none if it is empty; the extended VLRs end at the
end of the file. -/
theorem C20_laz_records {L : Lazperf} {c : LazConfig} {w0 w w' : LazWriter} {h : List (LazOp × Res Unit)}
    (hm : LazWriter.make OStream.fresh c = .ok w0) (hf : c.header.fmt = 6 ∨ c.header.fmt = 7 ∨ c.header.fmt = 8)
    (hr : c.header.pointsByReturn.length = 15)
    (hl : c.eb.length ≤ 341) (hh : LazHistory L w0 h w) (hu : LazUnclosed h)
    (hc : LazWriter.close L w = (.ok (), w')) (hs : w'.base.out.data.length < 2 ^ 63) :
    let data := w'.base.out.data
    let hd := Header14.decode data
    vlrIds data hd.vlrCount.toNat 375 =
      (if c.header.recLen.toNat = lasBaseSize c.header.fmt then [] else [(specUser, 4)]) ++ [(laszipUser, 22204)] ∧
    evlrIds data hd.evlrCount.toNat hd.evlrOffset.toNat = (if c.wkt = [] then [] else [(projectionUser, 2112)]) ∧
    evlrEnd data hd.evlrCount.toNat hd.evlrOffset.toNat = data.length := by
  obtain ⟨otpd, h1, h2, hcfg⟩ := lazMake_ok hm
  obtain ⟨log, hi⟩ := lInv_history h1 h2 hh hu
  obtain ⟨eb, h14, hfew, heb, hh14, hfit, hd, _⟩ := lazClose_ok hi.offset hi.base (lazClose_base hc)
  have e1 : w.cfg.eb = c.eb := by rw [hi.edit.eb, hcfg]; rfl
  have e2 : w.cfg.header.fmt = c.header.fmt := by rw [hi.edit.fmt, hcfg]; rfl
  have e3 : w.cfg.header.recLen = c.header.recLen := by rw [hi.edit.recLen, hcfg]; rfl
  have e4 : w.cfg.wkt = c.wkt := by rw [hi.edit.wkt, hcfg]; rfl
  have e5 : w.cfg.header.pointsByReturn.length = 15 := by rw [hi.edit.returns, hcfg]; exact hr
  have hflag : w.cfg.header.copcFlag = false := by rw [hi.edit.copcFlag, hcfg]; rfl
  have hdone : LazDone L w.cfg eb h14 otpd (ulog log) w.base.pointCount w'.base.out.data :=
    ⟨heb, hh14, hfit, hd, hflag, lazOtpd_small (by rw [e1]; exact hl) hi.offset, hs⟩
  have hrf := hdone.recFile e5 (by rw [e1]; exact hl)
  obtain ⟨d0, d1, d2, d3, d4⟩ := hrf.directory
  have hebp := ebSize_pos heb (by rw [e2]; exact hf)
  rw [e2, e3] at hebp
  simp only
  rw [d0, d1, d3, d4]
  refine ⟨?_, ?_, ?_⟩
  · unfold lazRecs
    by_cases he : eb > 0
    · rw [if_pos he, if_neg (hebp.1 he)]; rfl
    · rw [if_neg he, if_pos (by by_contra hne; exact he (hebp.2 hne))]; rfl
  · rw [e4]; unfold wktRecs; split <;> rfl
  · obtain ⟨_, _, f3, _, _⟩ := lazHeader_facts hflag hdone.header
    have htot := hdone.total
    have heo : h14.evlrOffset.toNat = otpd + (bodyBytes L otpd (ulog log)).length := by
      rw [f3, UInt64.toNat_ofNat', Nat.mod_eq_of_lt (by omega)]
    rw [heo, htot]
    unfold vsize
    rw [wktRecs_bytes]

/-- The samples meet the hypotheses: a COPC file with extra bytes, a WKT string, extended stats and two pages,
and a LAZ file with extra bytes and a WKT string. -/
example : Writer.make OStream.fresh Sample.cfg {} = .ok Sample.w0 ∧
    Sample.w0.cfg.header.pointsByReturn.length = 15 ∧ Sample.w0.cfg.eb.length = 1 ∧
    Sample.w0.cfg.extents.extents.length ≤ 4095 ∧ History Sample.L Sample.ord Sample.w0 Sample.hist Sample.w ∧
    Unclosed Sample.hist ∧ (Writer.close Sample.L Sample.ord Sample.w).1 = .ok () ∧
    Sample.w0.cfg.extents.extStats = true ∧ Sample.w.pages.length = 2 :=
  ⟨Sample.made, by decide +kernel, by decide +kernel, by decide +kernel, Sample.history, Sample.unclosed, Sample.closes,
    by decide +kernel, by decide +kernel⟩

example : LazWriter.make OStream.fresh LazSample.cfg = .ok LazSample.w0 ∧ LazSample.cfg.header.fmt = 6 ∧
    LazSample.cfg.header.pointsByReturn.length = 15 ∧ LazSample.cfg.eb.length ≤ 341 ∧
    LazHistory LazSample.L LazSample.w0 LazSample.hist LazSample.w ∧ LazUnclosed LazSample.hist ∧
    LazWriter.close LazSample.L LazSample.w = (.ok (), LazSample.closed) ∧
    LazSample.closed.base.out.data.length < 2 ^ 63 :=
  ⟨LazSample.made, by decide +kernel, LazSample.returns, LazSample.few, LazSample.history, LazSample.unclosed,
    LazSample.close_eq, LazSample.small⟩

end Copc
