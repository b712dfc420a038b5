import Verif.Lemmas.WriterHead
import Verif.Props.WriterTree
import Verif.Props.Config
/-! # C26: the reserved header area -/
namespace Copc
open Spec

theorem closed_vlrCount {h : LasHeader} {po : UInt32} {pc eo : UInt64} {ec : UInt32} {eb : Nat} {xs : Bool}
    {h14 : Header14} (hc : h.copcFlag = true) (hh : h.toLazPerf po pc eo ec (eb ≠ 0) xs = .ok h14) :
    h14.vlrCount.toNat = (if eb ≠ 0 then 1 else 0) + 1 + 2 + (if xs then 1 else 0) ∧ h14.pointOffset = po := by
  unfold LasHeader.toLazPerf at hh
  rw [hc] at hh
  simp only [Bool.not_true, Bool.and_false, Bool.false_eq_true, if_false] at hh
  obtain rfl := Res.ok.inj hh
  refine ⟨?_, rfl⟩
  simp only [if_true]
  by_cases he : eb ≠ 0
  · cases xs <;> simp [he]
  · cases xs <;> simp [he]

theorem otpd_small {c : CopcConfig} {otpd eb : Nat} (hf : c.header.fmt = 6 ∨ c.header.fmt = 7 ∨ c.header.fmt = 8)
    (he : c.header.ebSize = .ok eb) (hl : c.eb.length ≤ 341) (ho : Writer.offsetToPointData c = .ok otpd) :
    otpd < 2 ^ 32 := by
  have hi : lazItems c.header.fmt eb ≤ 3 := by unfold lazItems; split <;> split <;> omega
  have hd := (baseDims_ge c.header.fmt).2
  rw [offset_eq hf he] at ho
  injection ho with ho
  rw [Nat.mod_eq_of_lt (show c.eb.length < 65536 by omega)] at ho
  split at ho <;> split at ho <;> omega

theorem fmt_of_offset {c : CopcConfig} {otpd : Nat} (ho : Writer.offsetToPointData c = .ok otpd) :
    c.header.fmt = 6 ∨ c.header.fmt = 7 ∨ c.header.fmt = 8 := by
  refine Decidable.byContradiction fun hn => ?_
  unfold Writer.offsetToPointData at ho
  cases h1 : BaseW.offsetToPointData c.toLazConfig with
  | throw e => rw [h1] at ho; cases ho
  | ub => rw [h1] at ho; cases ho
  | ok b =>
    rw [h1, Res.okBind] at ho
    unfold Extents.byteSize Extents.make at ho
    rw [if_pos (by omega)] at ho
    cases ho

theorem make2_eq (a b : Dbl) : Extent.make2 a b =
    if Flt.lt' b a then .throw .extentOrder else .ok ⟨a, b, Flt.zero, Extent.one⟩ := by
  unfold Extent.make2 Extent.make
  have h : Flt.lt' Extent.one (Flt.zero : Dbl) = false := by decide +kernel
  rw [h]
  simp only [Bool.false_eq_true, if_false]

theorem boundsExtents_cases (h : LasHeader) : Writer.boundsExtents h ≠ .ub ∧
    ∀ e, Writer.boundsExtents h = .throw e → e = .extentOrder ∧
      (Flt.lt' h.max.x h.min.x = true ∨ Flt.lt' h.max.y h.min.y = true ∨ Flt.lt' h.max.z h.min.z = true) := by
  unfold Writer.boundsExtents
  simp only [make2_eq]
  cases h1 : Flt.lt' h.max.x h.min.x
  · cases h2 : Flt.lt' h.max.y h.min.y
    · cases h3 : Flt.lt' h.max.z h.min.z
      · simp [Res.bind]
      · simp [Res.bind]
    · simp [Res.bind]
  · simp [Res.bind]

/-- The file after `Close`: the offset to point data is the size reserved at construction, the VLRs
announced by the header follow each other from byte 375 and end before it, and what is left in between
is zero. The chunk table pointer and the chunks come after it (`C31_closed`, `C27_closed`). At most 341
items and 4095 extents: more do not fit the 16-bit length of a VLR. -/
theorem C26_area {L : Lazperf} {ord : Order} {c : CopcConfig} {o : Writer.Overrides} {w0 w w' : Writer}
    {h : List (Op × Res (Option Node))} (hm : Writer.make OStream.fresh c o = .ok w0)
    (hr : w0.cfg.header.pointsByReturn.length = 15) (hl : w0.cfg.eb.length ≤ 341)
    (hx : w0.cfg.extents.extents.length ≤ 4095)
    (hh : History L ord w0 h w) (hu : Unclosed h) (hc : Writer.close L ord w = (.ok (), w')) :
    let data := w'.base.out.data
    let hd := Header14.decode data
    let fin := vlrEnd data hd.vlrCount.toNat 375
    hd.pointOffset.toNat = w0.base.out.data.length - 8 ∧
    fin ≤ hd.pointOffset.toNat ∧
    slice data fin (hd.pointOffset.toNat - fin) = List.replicate (hd.pointOffset.toNat - fin) 0 ∧
    (Consistent w0.cfg → fin = hd.pointOffset.toNat) := by
  obtain ⟨otpd, h1, h2⟩ := bInv_of_make hm
  obtain ⟨log, hi⟩ := wInv_history h1 h2 hh hu
  obtain ⟨hier, eb, h14, gps, hco⟩ := close_ok hi.offset hi.base hc
  have hd' := hco.headerDecoded (by rw [hi.edit.returns]; exact hr)
  have h0 : w0.base.out.data.length - 8 = otpd := by rw [h2.out.data]; simp [chunkData]
  obtain ⟨hf, hd, _⟩ := hco.closed
  have hflag : w.cfg.header.copcFlag = true := by
    rw [hi.edit.copcFlag]
    obtain ⟨_, _, h3, _⟩ := make_ok hm
    exact initConfig_flag h3
  obtain ⟨hv, hpo⟩ := closed_vlrCount hflag hco.header
  have hs := otpd_small (fmt_of_offset hi.offset) hco.eb_ok (by rw [hi.edit.eb]; exact hl) hi.offset
  simp only
  rw [hd'.1, h0, hpo, UInt32.toNat_ofNat', Nat.mod_eq_of_lt hs, hv]
  obtain ⟨hcf, hce⟩ := setRoot_header (closeLayout L ord otpd log hier w).2 w.cfg
  have hcfg : closedCfg L ord otpd log hier w = setRoot (closeLayout L ord otpd log hier w).2 w.cfg := rfl
  rw [← hcfg] at hcf hce
  have hdrop : w'.base.out.data.drop 375 = copcVlrs L (closedCfg L ord otpd log hier w) eb gps ++
      (List.replicate (otpd - (headBlock L (closedCfg L ord otpd log hier w) eb gps h14).length) 0 ++
        (bodyBytes L otpd log ++ ((closeLayout L ord otpd log hier w).1 ++ wktBytes w.cfg.wkt))) := by
    rw [hd]
    simp only [fileBytes, headArea, headBlock, List.append_assoc]
    rw [List.drop_left' hd'.2]
  have hfin := vlrEnd_copc (c := closedCfg L ord otpd log hier w) (by rw [hcf, hi.edit.eb]; exact hl)
    (by rw [hce, hi.edit.extLen]; exact hx) hdrop
  rw [hce] at hfin
  have hblock : (headBlock L (closedCfg L ord otpd log hier w) eb gps h14).length =
      375 + (copcVlrs L (closedCfg L ord otpd log hier w) eb gps).length := by
    rw [headBlock, List.length_append, hd'.2]
  rw [hfin]
  refine ⟨rfl, by omega, ?_, ?_⟩
  · rw [← hblock]
    refine slice_at (a := headBlock L (closedCfg L ord otpd log hier w) eb gps h14)
      (c := bodyBytes L otpd log ++ ((closeLayout L ord otpd log hier w).1 ++ wktBytes w.cfg.wkt)) ?_ rfl (by simp)
    rw [hd]
    simp only [fileBytes, headArea, List.append_assoc]
  · intro hcons
    have hw : Consistent w.cfg := hcons.edit hi.edit
    have hclosed : Consistent (closedCfg L ord otpd log hier w) := by
      refine ⟨?_, ?_, ?_, ?_⟩
      · rw [hcf]; exact hw.fmt
      · rw [hcf]; exact hw.len
      · rw [hcf]; exact hw.items
      · rw [hce, hcf]; exact hw.extents
    have hebe : eb = ((closedCfg L ord otpd log hier w).eb.map lasItemSize).sum := by
      have := hco.eb_ok
      rw [hw.eb.1] at this
      rw [hcf]
      exact (Res.ok.inj this).symm
    rw [hebe]
    refine hclosed.exact ?_ L gps
    rw [← hi.offset]
    exact offsetToPointData_congr (by rw [hcf]) (by rw [hcf]) (by rw [hcf]) (by rw [hce])

theorem pageSize_le {pages : List (VoxelKey × WPage)} {hier : List (VoxelKey × VoxelKey)}
    (h : Writer.computePageHierarchy pages = .ok hier) (hroot : VoxelKey.root ∈ AList.keys pages) (k : VoxelKey) :
    ∃ p ∈ pages, pageSize pages hier k ≤ (p.2.length + pages.length) * 32 := by
  have h1 : (Writer.subPages hier k).length ≤ pages.length := by
    unfold Writer.subPages
    rw [List.length_map]
    refine (List.length_filter_le _ _).trans ?_
    unfold Writer.computePageHierarchy at h
    rw [Res.mapL_length h]
    refine (List.length_filter_le _ _).trans ?_
    unfold AList.keys
    rw [List.length_map]
  unfold pageSize
  cases hg : AList.get k pages with
  | none =>
    obtain ⟨p, hp, _⟩ := List.mem_map.1 hroot
    refine ⟨p, hp, ?_⟩
    simp only [Option.getD_none, List.length_nil]
    omega
  | some ns =>
    refine ⟨_, AList.mem_of_get hg, ?_⟩
    simp only [Option.getD_some]
    omega

/-- With a consistent configuration `Close` never fails for lack of room: the only exceptions are those
of the chunk count, the page tree, the page size and the order of the header bounds. -/
theorem C26_outcome {L : Lazperf} {ord : Order} {c : CopcConfig} {o : Writer.Overrides} {w0 w : Writer}
    {h : List (Op × Res (Option Node))} (hm : Writer.make OStream.fresh c o = .ok w0)
    (hcons : Consistent w0.cfg) (hr : w0.cfg.header.pointsByReturn.length = 15)
    (hh : History L ord w0 h w) (hu : Unclosed h) :
    (Writer.close L ord w).1 = .ok () ∨
    (4294967295 < w.base.chunks.length ∧ (Writer.close L ord w).1 = .throw .tooManyChunks) ∨
    ((∃ k ∈ AList.keys w.pages, ¬ InOctree k) ∧ (Writer.close L ord w).1 = .throw .noParentPage) ∨
    ((∃ p ∈ w.pages, 67108863 < p.2.length + w.pages.length) ∧ (Writer.close L ord w).1 = .throw .pageTooLarge) ∨
    ((Flt.lt' w.cfg.header.max.x w.cfg.header.min.x = true ∨
      Flt.lt' w.cfg.header.max.y w.cfg.header.min.y = true ∨
      Flt.lt' w.cfg.header.max.z w.cfg.header.min.z = true) ∧
      (Writer.close L ord w).1 = .throw .extentOrder) := by
  obtain ⟨otpd, h1, h2⟩ := bInv_of_make hm
  obtain ⟨log, hi⟩ := wInv_history h1 h2 hh hu
  have hp := pageInv_history (pageInv_make hm) hh
  by_cases hl : log.length ≤ 4294967295
  case neg =>
    refine Or.inr (Or.inl ?_)
    have hl' : w.base.chunks.length > 4294967295 := by
      rw [hi.base.chunks, length_chunkEnds]; omega
    refine ⟨hl', ?_⟩
    have := writeChunkTable_too_many L (otpd := otpd) hl'
    unfold Writer.close
    rw [Act.bind_ok (Act.gets_apply _ _), hi.base.isOpen]
    simp only [Bool.true_eq_false, if_false]
    rw [Act.bind_ok (Act.gets_apply _ _), hi.offset, Act.bind_ok (Act.lift_apply _ _), Act.bind_apply]
    unfold Writer.onBase
    rw [Act.zoom_apply]
    generalize BaseW.writeChunkTable L otpd w.base = p at this
    obtain ⟨r, b⟩ := p
    obtain rfl : r = .throw .tooManyChunks := this
    rfl
  obtain ⟨p1, p2, p3⟩ := close_pages (L := L) (ord := ord) hi.offset hi.base hl
  by_cases hoct : ∃ k ∈ AList.keys w.pages, ¬ InOctree k
  · obtain ⟨k, hk, hn⟩ := hoct
    exact Or.inr (Or.inr (Or.inl ⟨⟨k, hk, hn⟩, p1 _ (hierarchy_throws hp hk hn)⟩))
  have hall : ∀ k ∈ AList.keys w.pages, InOctree k := fun k hk =>
    Decidable.byContradiction fun h3 => hoct ⟨k, hk, h3⟩
  obtain ⟨hier, hhier⟩ := (hierarchy_iff hp).2 hall
  by_cases hsz : ∃ k ∈ Writer.visit ord hier (Writer.levels w.pages) VoxelKey.root,
      pageSize w.pages hier k > 2147483647
  · refine Or.inr (Or.inr (Or.inr (Or.inl ⟨?_, p3 hier hhier hsz⟩)))
    obtain ⟨k, _, hk⟩ := hsz
    obtain ⟨p, h1, h2⟩ := pageSize_le hhier hp.root k
    exact ⟨p, h1, by omega⟩
  have hsz' : ∀ k ∈ Writer.visit ord hier (Writer.levels w.pages) VoxelKey.root,
      pageSize w.pages hier k ≤ 2147483647 := fun k hk => by
    refine Decidable.byContradiction fun h3 => hsz ⟨k, hk, by omega⟩
  have hw : Consistent w.cfg := hcons.edit hi.edit
  rw [close_eq L ord hi.offset hi.base hl hhier hsz']
  generalize hpre : preHeader L ord otpd log hier w = s
  obtain ⟨hcf, hce⟩ : s.cfg.toLazConfig = w.cfg.toLazConfig ∧ s.cfg.extents = w.cfg.extents := by
    rw [← hpre, preHeader_eq]
    exact setRoot_header _ _
  have hs : Consistent s.cfg := by
    refine ⟨?_, ?_, ?_, ?_⟩
    · rw [hcf]; exact hw.fmt
    · rw [hcf]; exact hw.len
    · rw [hcf]; exact hw.items
    · rw [hce, hcf]; exact hw.extents
  have hflag : s.cfg.header.copcFlag = true := by
    have e : s.cfg.header = w.cfg.header := by rw [hcf]
    rw [e, hi.edit.copcFlag]
    obtain ⟨_, _, h3, _⟩ := make_ok hm
    exact initConfig_flag h3
  have hot : Writer.offsetToPointData s.cfg = .ok otpd := by
    rw [← hi.offset]
    exact offsetToPointData_congr (by rw [hcf]) (by rw [hcf]) (by rw [hcf]) (by rw [hce])
  obtain ⟨gps, hgps⟩ : ∃ gps, s.cfg.extents.getGpsTime = .ok gps := by
    unfold Extents.getGpsTime Extents.at'
    have hlen := hs.extents
    have hge := (baseDims_ge s.cfg.header.fmt).1
    have hlt : 13 < s.cfg.extents.extents.length := by omega
    rw [List.getElem?_eq_getElem hlt]
    exact ⟨_, rfl⟩
  obtain ⟨h14, hh14⟩ : ∃ h14, s.cfg.header.toLazPerf (UInt32.ofNat otpd) (UInt64.ofNat s.base.pointCount)
      (UInt64.ofNat s.base.evlrOffset) (UInt32.ofNat s.base.evlrCount)
      ((s.cfg.eb.map lasItemSize).sum ≠ 0) s.cfg.extents.extStats = .ok h14 := by
    unfold LasHeader.toLazPerf
    rw [hflag]
    simp only [Bool.not_true, Bool.and_false, Bool.false_eq_true, if_false]
    exact ⟨_, rfl⟩
  have hseek : s.base.out.seekp 0 = midStream [] s.base.out.data := by
    rw [← hpre]
    have : (preHeader L ord otpd log hier w).base.out =
        endStream (preHeader L ord otpd log hier w).base.out.data := rfl
    rw [this, endStream_seek0]; rfl
  have hhead : s.cfg.header = w.cfg.header := by rw [hcf]
  cases hb : Writer.boundsExtents s.cfg.header with
  | ok u =>
    left
    have hlen : (headBlock L s.cfg (s.cfg.eb.map lasItemSize).sum gps h14).length = otpd := by
      have hsz14 : h14.encode.length = 375 := Header14.length_encode (toLazPerf_sized
        (by rw [hhead, hi.edit.returns]; exact hr) hh14)
      rw [headBlock, List.length_append, hsz14]
      exact hs.exact hot L gps
    have := writeHeader_eq L s _ hseek hot hs.eb.1 hh14 hgps hb
    rw [hlen, if_neg (by omega)] at this
    rw [Act.bind_ok this]
    rfl
  | ub =>
    exact absurd hb (boundsExtents_cases _).1
  | throw e =>
    obtain ⟨rfl, hlt⟩ := (boundsExtents_cases _).2 e hb
    rw [hhead] at hlt
    refine Or.inr (Or.inr (Or.inr (Or.inr ⟨hlt, ?_⟩)))
    have e1 : (Writer.writeHeader L s).1 = .throw .extentOrder := by
      unfold Writer.writeHeader
      rw [Act.bind_ok (Act.gets_apply _ _), hot, Act.bind_ok (Act.lift_apply _ _)]
      have e2 : ∃ b, Writer.onBase (BaseW.writeLasHeader s.cfg.header otpd s.cfg.extents.extStats) s =
          (.ok (), b) := by
        unfold Writer.onBase
        rw [Act.zoom_apply]
        unfold BaseW.writeLasHeader
        simp only [Act.bind_apply, Act.lift_apply, hs.eb.1, Act.gets_apply, id, hh14, BaseW.emit, BaseW.onOut,
          Act.modify_apply]
        exact ⟨_, rfl⟩
      obtain ⟨b, e2⟩ := e2
      rw [Act.bind_ok e2, hgps, Act.bind_ok (Act.lift_apply _ _), Act.bind_ok (emit_base _ _), hb,
        Act.bind_throw (Act.lift_apply _ _)]
    generalize hx : Writer.writeHeader L s = q at e1
    obtain ⟨r, s'⟩ := q
    obtain rfl : r = .throw .extentOrder := e1
    rw [Act.bind_throw hx]

/-- A configuration made for a format and described items is consistent. -/
theorem C26_made (fmt : Int) (hf : fmt = 6 ∨ fmt = 7 ∨ fmt = 8) (scale offset : Vec3 Dbl)
    (wkt : Bytes) (l : List EbField) (ext : Bool) (ht : ∀ f ∈ l, f.dataType ≤ 30)
    (hp : ∀ f ∈ l, 0 < lasItemSize f) (hs : lasBaseSize fmt + (l.map lasItemSize).sum < 65536) :
    ∃ c, CopcConfig.make fmt scale offset wkt l ext = .ok c ∧ Consistent c := by
  obtain ⟨c, hc, h1, _, h3, _, _, h6, _, _, h9⟩ := C25_copc_config fmt hf scale offset wkt l ext ht
  have hl := sum_pos hp
  refine ⟨c, hc, by rw [h3]; exact hf, ?_, by rw [h1]; exact hp, ?_⟩
  · rw [h3, h1, h6, Nat.mod_eq_of_lt hs]
  · rw [h3, h1, h9, Nat.mod_eq_of_lt (by omega), baseDims]

/-- A configuration whose record length leaves room for extra bytes but that has no descriptions of them
(as a `Reader` gives for a file without an extra-bytes VLR) reserves too little: `Close` never returns. -/
theorem C26_undescribed_violated {L : Lazperf} {ord : Order} {c : CopcConfig} {o : Writer.Overrides}
    {w0 w : Writer} {h : List (Op × Res (Option Node))} (hm : Writer.make OStream.fresh c o = .ok w0)
    (hr : w0.cfg.header.pointsByReturn.length = 15)
    (hfree : lasBaseSize w0.cfg.header.fmt < w0.cfg.header.recLen.toNat) (heb : w0.cfg.eb = [])
    (hx : w0.cfg.extents.extents.length = baseDims w0.cfg.header.fmt)
    (hh : History L ord w0 h w) (hu : Unclosed h) : (Writer.close L ord w).1 ≠ .ok () := by
  intro hok
  obtain ⟨otpd, h1, h2⟩ := bInv_of_make hm
  obtain ⟨log, hi⟩ := wInv_history h1 h2 hh hu
  have hc : Writer.close L ord w = (.ok (), (Writer.close L ord w).2) := by rw [← hok]
  obtain ⟨hier, eb, h14, gps, hco⟩ := close_ok hi.offset hi.base hc
  have hd' := hco.headerDecoded (by rw [hi.edit.returns]; exact hr)
  have hf := hco.closed.1
  obtain ⟨hcf, hce⟩ := setRoot_header (closeLayout L ord otpd log hier w).2 w.cfg
  have hcfg : closedCfg L ord otpd log hier w = setRoot (closeLayout L ord otpd log hier w).2 w.cfg := rfl
  rw [← hcfg] at hcf hce
  have hfm := fmt_of_offset hi.offset
  have heb2 : eb > 0 := by
    have := hco.eb_ok
    unfold LasHeader.ebSize ebByteSize at this
    rw [hi.edit.fmt] at hfm
    rw [hi.edit.fmt, hi.edit.recLen] at this
    have hb : pointBaseByteSize w0.cfg.header.fmt = .ok (lasBaseSize w0.cfg.header.fmt) := by
      rcases hfm with e | e | e <;> rw [e] <;> rfl
    have hlt := w0.cfg.header.recLen.toNat_lt
    rw [hb, Res.okBind] at this
    have := Res.ok.inj this
    generalize lasBaseSize w0.cfg.header.fmt = b at *
    generalize w0.cfg.header.recLen.toNat = r at *
    omega
  have ho := hi.offset
  have hebw : w.cfg.eb = [] := by rw [hi.edit.eb, heb]
  have hxw : w.cfg.extents.extents.length = baseDims w.cfg.header.fmt := by
    rw [hi.edit.extLen, hi.edit.fmt, hx]
  rw [offset_eq hfm hco.eb_ok, hebw] at ho
  have ho := Res.ok.inj ho
  rw [headBlock, List.length_append, hd'.2, length_copcVlrs, length_lazVlrs, hcf, hce, hebw, hxw,
    if_pos heb2] at hf
  simp only [List.length_nil, Nat.mul_zero, Nat.zero_mod, Nat.add_zero, gt_iff_lt, Nat.lt_irrefl, if_false] at ho hf
  split at hf <;> rename_i hs <;> simp only [hs, if_true, if_false, Bool.false_eq_true] at ho <;> omega

/-- The configuration of `Sample` is consistent and its file has no padding. -/
example : Consistent Sample.w0.cfg := by
  refine ⟨?_, ?_, ?_, ?_⟩ <;> decide +kernel

example : vlrEnd (Writer.close Sample.L Sample.ord Sample.w).2.base.out.data 5 375 = 1523 := by decide +kernel

/-- The same configuration without its descriptions. -/
def undescribed : CopcConfig := { Sample.cfg with
  eb := []
  extents := ⟨6, true, List.replicate 14 Extent.default⟩ }

def undescribedW : Writer := Sample.getOk (Writer.make OStream.fresh undescribed {})

/-- `Close` then throws after overwriting the chunk table pointer and the data of the first node (which
held bytes 7). -/
example : (Writer.make OStream.fresh undescribed {}).isOk = true ∧
    (Sample.run Sample.L Sample.ord (Sample.ops.take 1) undescribedW []).1.map (·.2) =
      [.ok (some ⟨⟨VoxelKey.root, 1253, 62, 2⟩, VoxelKey.root⟩)] ∧
    (Writer.close Sample.L Sample.ord
      (Sample.run Sample.L Sample.ord (Sample.ops.take 1) undescribedW []).2).1 = .throw .headerTooBig ∧
    slice (Writer.close Sample.L Sample.ord
      (Sample.run Sample.L Sample.ord (Sample.ops.take 1) undescribedW []).2).2.base.out.data 1253 62 ≠
      List.replicate 62 7 := by decide +kernel

end Copc
