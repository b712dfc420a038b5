import Verif.Props.SameFile
import Verif.Props.UsedStream
import Verif.Props.RoundTripMeta
/-! # C99: running a program again with the configuration of a Reader gives the same file -/
namespace Copc
open Spec OStream

/-! ### The calls do not depend on the rest of the configuration -/

/-- What the additions use of a configuration. -/
structure CoreEq (a b : CopcConfig) : Prop where
  fmt : a.header.fmt = b.header.fmt
  recLen : a.header.recLen = b.header.recLen
  scale : a.header.scale = b.header.scale
  offset : a.header.offset = b.header.offset

def Writer.withCfg (c : CopcConfig) (w : Writer) : Writer := { w with cfg := c }

section
variable {c : CopcConfig} {α : Type}

theorem mirror_cfg {f : CopcConfig → Act Writer α} (h1 : ∀ a, CoreEq a c → f a = f c)
    (h2 : Mirror (fun w : Writer => CoreEq w.cfg c) (Writer.withCfg c) (f c)) :
    Mirror (fun w : Writer => CoreEq w.cfg c) (Writer.withCfg c) (Act.gets (·.cfg) >>= f) := by
  intro w hw
  rw [Act.bind_ok (Act.gets_apply _ _), Act.bind_ok (Act.gets_apply _ _), h1 w.cfg hw]
  exact h2 w hw

theorem withCfg_onBase (x : Act BaseW α) :
    Mirror (fun w : Writer => CoreEq w.cfg c) (Writer.withCfg c) (Writer.onBase x) := fun _ hw => ⟨rfl, hw⟩

theorem withCfg_ensure (page : VoxelKey) :
    Mirror (fun w : Writer => CoreEq w.cfg c) (Writer.withCfg c) (Writer.ensurePage page) :=
  mirror_modify fun w hw => by
    show (if w.pageExists page = true then _ else _) = Writer.withCfg c (if w.pageExists page = true then _ else _) ∧ _
    split
    · exact ⟨rfl, hw⟩
    · exact ⟨rfl, hw⟩

theorem chunk_core {a : CopcConfig} (h : CoreEq a c) (L : Lazperf) (bs : Bytes) (n : Int) (b : Bool) :
    BaseW.writeChunk L a.header bs n b = BaseW.writeChunk L c.header bs n b := by
  have e : a.header.ebSize = c.header.ebSize := by unfold LasHeader.ebSize; rw [h.fmt, h.recLen]
  unfold BaseW.writeChunk BaseW.compressBytes
  rw [e, h.fmt]

theorem withCfg_doAdd (L : Lazperf) (key : VoxelKey) (bs : Bytes) (count : Int) (compressed : Bool) (page : VoxelKey) :
    Mirror (fun w : Writer => CoreEq w.cfg c) (Writer.withCfg c) (Writer.doAddNode L key bs count compressed page) := by
  unfold Writer.doAddNode
  refine mirror_bind (mirror_throwIf _) fun _ => mirror_bind (mirror_throwIf _) fun _ => mirror_cfg (fun a ha => ?_) ?_
  · rw [chunk_core ha]
  refine mirror_bind (withCfg_onBase _) fun r => mirror_bind (mirror_modify fun _ h => ⟨rfl, h⟩) fun _ => ?_
  exact mirror_bind (withCfg_ensure _) fun _ => mirror_bind (mirror_modify fun _ h => ⟨rfl, h⟩) fun _ => mirror_pure _

theorem withCfg_add (L : Lazperf) (key : VoxelKey) (bs : Bytes) (page : VoxelKey) :
    Mirror (fun w : Writer => CoreEq w.cfg c) (Writer.withCfg c) (Writer.addNode L key bs page) := by
  unfold Writer.addNode
  refine mirror_cfg (fun a ha => by rw [ha.recLen]) (mirror_bind (mirror_throwIf _) fun _ => mirror_ite mirror_undef ?_)
  exact mirror_bind (mirror_throwIf _) fun _ => withCfg_doAdd _ _ _ _ _ _

theorem withCfg_op (L : Lazperf) (ord : Order) {op : Op} (hc : op ≠ .close) :
    Mirror (fun w : Writer => CoreEq w.cfg c) (Writer.withCfg c) (op.run L ord) := by
  cases op with
  | add k bs p => exact mirror_bind (withCfg_add _ _ _ _) fun _ => mirror_pure _
  | addPoints k fmt len ps p =>
    refine mirror_bind ?_ fun _ => mirror_pure _
    unfold Writer.addNodePoints
    refine mirror_cfg (fun a ha => by rw [ha.fmt, ha.recLen, ha.scale, ha.offset]) ?_
    refine mirror_bind (mirror_throwIf _) fun _ => mirror_bind (mirror_throwIf _) fun _ => ?_
    exact mirror_bind (mirror_lift _) fun _ => withCfg_add _ _ _ _
  | addCompressed k bs n p =>
    refine mirror_bind ?_ fun _ => mirror_pure _
    unfold Writer.addNodeCompressed
    exact mirror_bind (mirror_throwIf _) fun _ => withCfg_doAdd _ _ _ _ _ _
  | move k p =>
    refine mirror_bind ?_ fun _ => mirror_pure _
    have leave : ∀ o k, Mirror (fun w : Writer => CoreEq w.cfg c) (Writer.withCfg c) (Writer.leavePage o k) := by
      intro o k w hw
      unfold Writer.leavePage
      show (match AList.get o w.pages with | none => _ | some ns => _) = _ ∧ _
      cases AList.get o w.pages with
      | none => exact ⟨rfl, hw⟩
      | some ns =>
        dsimp only
        split
        · exact ⟨rfl, hw⟩
        · exact ⟨rfl, hw⟩
    unfold Writer.changeNodePage
    refine mirror_bind (mirror_throwIf _) fun _ => mirror_bind (mirror_throwIf _) fun _ => ?_
    intro w hw
    rw [Act.bind_ok (Act.gets_apply _ _), Act.bind_ok (Act.gets_apply _ _)]
    have hmain : Mirror (fun w : Writer => CoreEq w.cfg c) (Writer.withCfg c) (match AList.get k w.nodes with
        | none => Act.raise .unknownNode
        | some n => do
          Act.throwIf (k.childOf p = false) .notChild
          if n.pageKey = p then pure ()
          else do
            Writer.ensurePage p
            Writer.addToPage p k n
            Writer.leavePage n.pageKey k : Act Writer Unit) := by
      cases AList.get k w.nodes with
      | none => exact mirror_raise _
      | some n =>
        refine mirror_bind (mirror_throwIf _) fun _ => mirror_ite (mirror_pure _) ?_
        exact mirror_bind (withCfg_ensure _) fun _ => mirror_bind (mirror_modify fun _ h => ⟨rfl, h⟩) fun _ => leave _ _
    exact hmain w hw
  | close => exact absurd rfl hc
end

/-- The same calls, edits left out, with another configuration of the same format, record length, scale and offset. -/
theorem history_withCfg {L : Lazperf} {ord : Order} {w0 w : Writer} {h : List (Op × Res (Option Node))} {c : CopcConfig}
    (hh : History L ord w0 h w) (hu : Unclosed h) (hc : CoreEq w0.cfg c) :
    History L ord (w0.withCfg c) h (w.withCfg c) ∧ CoreEq w.cfg c := by
  induction hh with
  | start => exact ⟨.start, hc⟩
  | @call h w op hh hn ih =>
    obtain ⟨i1, i2⟩ := ih fun x hx => hu x (List.mem_append_left _ hx)
    have hcl : op ≠ .close := hu _ (List.mem_append_right _ (List.mem_singleton.2 rfl))
    obtain ⟨m1, m2⟩ := withCfg_op (c := c) L ord hcl w i2
    have := History.call op i1 (by rw [m1]; exact hn)
    rw [m1] at this
    exact ⟨this, m2⟩
  | @edit h w c' hh he ih =>
    obtain ⟨i1, i2⟩ := ih hu
    exact ⟨i1, he.fmt.trans i2.fmt, he.recLen.trans i2.recLen, he.scale.trans i2.scale, he.offset.trans i2.offset⟩

end Copc
namespace Copc
open Spec OStream

/-! ### Closing with the configuration of a reader -/

section
variable {L : Lazperf} {ord : Order} {otpd eb : Nat} {log : List (Nat × Bytes)} {w w' : Writer}
  {hier : List (VoxelKey × VoxelKey)} {h14 : Header14} {gps : Extent}

/-- The configuration of a writer made with that of a reader of the closed file. -/
def again (w : Writer) (info : CopcInfo) (h14 : Header14) : CopcConfig :=
  { header := (w.cfg.header.restored h14).withCopc true
    wkt := w.cfg.wkt
    eb := w.cfg.eb
    info := info
    extents := w.cfg.extents.restored }

theorem restored_stats (e : Extents) : e.restored.extStats = e.extStats := by
  unfold Extents.restored; split <;> rfl

theorem restored_vlr (e : Extents) : e.restored.toVlr = e.toVlr := by
  unfold Extents.restored
  split
  · rfl
  · unfold Extents.toVlr
    rw [List.map_map]
    rfl

theorem restored_gps {e : Extents} {gps : Extent} (h : e.getGpsTime = .ok gps) :
    ∃ g, e.restored.getGpsTime = .ok g ∧ g.minimum = gps.minimum ∧ g.maximum = gps.maximum := by
  unfold Extents.restored
  split
  · exact ⟨gps, h, rfl, rfl⟩
  · unfold Extents.getGpsTime Extents.at' at *
    dsimp only
    rw [List.getElem?_map]
    cases hx : e.extents[13]? with
    | none => rw [hx] at h; cases h
    | some x =>
      rw [hx] at h
      obtain rfl := Res.ok.inj h
      exact ⟨_, rfl, rfl, rfl⟩

theorem setRoot_again (pl : List (VoxelKey × (Nat × Nat))) (c : CopcConfig) (d : CopcConfig)
    (hd : d.info = (setRoot pl c).info) : setRoot pl d = { d with info := (setRoot pl c).info } := by
  unfold setRoot at *
  split
  · rename_i o s e
    rw [e] at hd
    dsimp only at hd ⊢
    rw [hd]
  · rename_i e
    rw [e] at hd
    dsimp only at hd ⊢
    rw [← hd]

theorem toLazPerf_again {h : LasHeader} (hf : h.copcFlag = true) (r : Header14) (a : UInt32) (b e : UInt64) (n : UInt32) (x y : Bool) :
    ((h.restored r).withCopc true).toLazPerf a b e n x y = h.toLazPerf a b e n x y := by
  have hor : h.globalEncoding ||| 16 ||| 16 = h.globalEncoding ||| 16 := by
    rw [UInt16.or_assoc]; rfl
  unfold LasHeader.toLazPerf LasHeader.restored LasHeader.withCopc
  simp only [hor, hf]

theorem head_again {g : Extent} (info : CopcInfo) (h1 : g.minimum = gps.minimum)
    (h2 : g.maximum = gps.maximum) (r : Header14) :
    headBlock L (again w info r) eb g h14 = headBlock L { w.cfg with info := info } eb gps h14 := by
  have hi : info.encode g = info.encode gps := by unfold CopcInfo.encode; rw [h1, h2]
  unfold headBlock copcVlrs again
  dsimp only
  rw [hi, restored_vlr, restored_stats]
  congr 3
  by_cases hs : w.cfg.extents.extStats = true
  · have : w.cfg.extents.restored = w.cfg.extents := by unfold Extents.restored; rw [if_pos hs]
    rw [this]
    rfl
  · rw [if_neg hs, if_neg hs]
    rfl

theorem close_rerun (h : CloseOk L ord otpd log w w' hier eb h14 gps) (ho : Writer.offsetToPointData w.cfg = .ok otpd)
    (hi : BInv (otpd + 8) w.base log) (hf : w.cfg.header.copcFlag = true) :
    ∃ v', Writer.close L ord (w.withCfg (again w w'.cfg.info h14)) = (.ok (), v') ∧ v'.base.out.data = w'.base.out.data := by
  obtain ⟨hfit, hdata, _, _, _, _, hc', _⟩ := h.closed
  have hroot : closedCfg L ord otpd log hier w = { w.cfg with info := w'.cfg.info } := by
    rw [hc']
    unfold closedCfg setRoot
    split <;> rfl
  have hinfo : w'.cfg.info = (setRoot (closeLayout L ord otpd log hier w).2 w.cfg).info := by rw [hc']; rfl
  obtain ⟨v, hv⟩ : ∃ v, v = w.withCfg (again w w'.cfg.info h14) := ⟨_, rfl⟩
  rw [← hv]
  have vb : v.base = w.base := by rw [hv]; rfl
  have vp : v.pages = w.pages := by rw [hv]; rfl
  have vc : v.cfg = again w w'.cfg.info h14 := by rw [hv]; rfl
  have hlay : closeLayout L ord otpd log hier v = closeLayout L ord otpd log hier w := by unfold closeLayout; rw [vp]
  have hcfg : closedCfg L ord otpd log hier v = again w w'.cfg.info h14 := by
    unfold closedCfg
    rw [hlay, vc, setRoot_again _ w.cfg _ (by rw [← hinfo]; rfl), ← hinfo]
    rfl
  have ho' : Writer.offsetToPointData v.cfg = .ok otpd := by
    rw [vc, offsetToPointData_congr (c := w.cfg) (c' := again w w'.cfg.info h14) rfl rfl rfl (restored_stats w.cfg.extents)]
    exact ho
  have hcl := close_eq L ord ho' (by rw [vb]; exact hi) h.few (by rw [vp]; exact h.hier_ok) (by rw [vp]; exact h.small)
  have he := h.header
  rw [preHeader_eq] at he
  rw [preHeader_eq] at hcl
  have hd : ∀ d : Bytes, (endStream d).seekp 0 = midStream [] d := fun d => endStream_seek0 d
  obtain ⟨g, g1, g2, g3⟩ := restored_gps h.gps_ok
  have hwk : v.cfg.wkt = w.cfg.wkt := by rw [vc]; rfl
  rw [vb, vp, hlay, hwk, hcfg] at hcl
  have hH := writeHeader_eq L { v with
      base := { w.base with
        out := endStream (List.replicate otpd 0 ++ bodyBytes L otpd log ++
          (closeLayout L ord otpd log hier w).1 ++ wktBytes w.cfg.wkt)
        chunks := sizes log
        evlrOffset := otpd + (bodyBytes L otpd log).length
        evlrCount := if w.cfg.wkt = [] then w.pages.length % 2 ^ 32
          else (w.pages.length % 2 ^ 32 + 1) % 2 ^ 32 }
      cfg := again w w'.cfg.info h14
      pages := w.pages } _ (hd _) (otpd := otpd) (eb := eb) (h14 := h14) (gps := g)
    (by rw [← vc]; exact ho')
    h.eb_ok
    (by
      show (again w w'.cfg.info h14).header.toLazPerf _ _ _ _ _ (again w w'.cfg.info h14).extents.extStats = _
      unfold again
      dsimp only
      rw [toLazPerf_again hf, restored_stats]
      exact he)
    g1
    h.bounds
  dsimp only at hH hcl
  rw [head_again w'.cfg.info g2 g3, ← hroot] at hH
  rw [if_neg (show ¬ (headBlock L (closedCfg L ord otpd log hier w) eb gps h14).length > otpd by omega)] at hH
  rw [Act.bind_ok hH] at hcl
  refine ⟨_, hcl, ?_⟩
  show (midStream _ _).data = _
  rw [midStream_data, hdata, fileBytes]
  unfold headArea
  generalize headBlock L (closedCfg L ord otpd log hier w) eb gps h14 = H at *
  have : List.replicate otpd (0 : UInt8) = List.replicate H.length 0 ++ List.replicate (otpd - H.length) 0 := by
    rw [List.replicate_append_replicate]; congr 1; omega
  rw [this]
  simp only [List.append_assoc]
  rw [List.drop_left' (by simp)]

end
end Copc
namespace Copc
open Spec OStream

/-- A file is opened, a Writer is made with the configuration of the Reader, and the calls of the first program are made again,
without its edits of the configuration: the Writer is made, the calls have the same outcomes, `Close` returns and the file is the
first one, byte by byte. -/
theorem C99_again {L : Lazperf} {ord : Order} {w0 w : Writer} {h : List (Op × Res (Option Node))} {data : Bytes} {r : Reader}
    (hw : Written L ord w0 w h data) (hr : Reader.init ⟨data, 0, false⟩ = .ok r) :
    ∃ v0 v v', Writer.make OStream.fresh r.cfg {} = .ok v0 ∧ History L ord v0 h v ∧ v.cfg = v0.cfg ∧
      Writer.close L ord v = (.ok (), v') ∧ v'.base.out.data = data := by
  obtain ⟨c, o, hm⟩ := hw.made
  obtain ⟨w', hc, rfl⟩ := hw.closed
  obtain ⟨otpd, g1, g2⟩ := bInv_of_make hm
  obtain ⟨log, hi⟩ := wInv_history g1 g2 hw.history hw.unclosed
  obtain ⟨hier, eb, h14, gps, hco⟩ := close_ok hi.offset hi.base hc
  obtain ⟨otpd', m1, m2, m3⟩ := make_ok hm
  obtain rfl := Res.ok.inj (g1.symm.trans m1)
  have hflag : w.cfg.header.copcFlag = true := by
    rw [hi.edit.copcFlag]; exact initConfig_flag m2
  obtain ⟨q, vlrs, hinit⟩ := hco.init (pageInv_history (pageInv_make hm) hw.history) hw.storable hflag hw.size hw.few
  obtain rfl := Res.ok.inj (hinit.symm.trans hr)
  have hcore : CoreEq w0.cfg (again w w'.cfg.info h14) := ⟨hi.edit.fmt.symm, hi.edit.recLen.symm, hi.edit.scale.symm, hi.edit.offset.symm⟩
  have hot : Writer.offsetToPointData (again w w'.cfg.info h14) = .ok otpd := by
    rw [offsetToPointData_congr (c := w.cfg) (c' := again w w'.cfg.info h14) rfl rfl rfl (restored_stats w.cfg.extents)]
    exact hi.offset
  obtain ⟨v', k1, k2⟩ := close_rerun hco hi.offset hi.base hflag
  refine ⟨w0.withCfg (again w w'.cfg.info h14), w.withCfg (again w w'.cfg.info h14), v', ?_,
    (history_withCfg hw.history hw.unclosed hcore).1, rfl, k1, k2⟩
  unfold Writer.make
  have hcopy : Writer.initConfig ⟨⟨w.cfg.header.restored h14, w.cfg.wkt, w.cfg.eb⟩, w'.cfg.info, w.cfg.extents.restored⟩ {} =
      .ok (again w w'.cfg.info h14) := by
    show CopcConfig.copy _ = _
    unfold CopcConfig.copy CopcConfig.ofParts
    dsimp only
    rw [restored_copy hw.storable.ordered]
    rfl
  dsimp only at hcopy ⊢
  rw [hcopy, Res.okBind, hot, Res.okBind]
  rw [m3]
  rfl

end Copc
