import Verif.Props.LazReader
import Verif.Props.PointArray
/-! # C98: rewriting a LAZ file gives the same file -/
namespace Copc
open Spec

/-- The header written depends on the header of the configuration only by what a reader restores. -/
theorem lazHeader14_restored {c c' : LazConfig} {h14 : Header14} (hf : c.header.copcFlag = false) (hw : c'.wkt = c.wkt)
    (hh : c'.header = (c.header.restored h14).withCopc false) (otpd eb count e : Nat) :
    lazHeader14 c' otpd eb count e = lazHeader14 c otpd eb count e := by
  have hor : c.header.globalEncoding ||| 16 ||| 16 = c.header.globalEncoding ||| 16 := by
    rw [UInt16.or_assoc]; rfl
  have hf' : c'.header.copcFlag = false := by rw [hh]; rfl
  unfold lazHeader14 LasHeader.toLazPerf
  simp only [Bool.false_and, Bool.false_eq_true, if_false, hw, hf, hf']
  rw [hh]
  unfold LasHeader.restored LasHeader.withCopc
  simp only [hor]

theorem packPoints_split {a b : List Point} {sc of : Vec3 Dbl} {d : Bytes} (h : packPoints (a ++ b) sc of = .ok d) :
    ∃ x y, packPoints a sc of = .ok x ∧ packPoints b sc of = .ok y ∧ d = x ++ y := by
  have key : ∀ (f : Point → Res Bytes) (a b : List Point) (l : List Bytes), Res.mapL f (a ++ b) = .ok l →
      ∃ la lb, Res.mapL f a = .ok la ∧ Res.mapL f b = .ok lb ∧ l = la ++ lb := by
    intro f a
    induction a with
    | nil => intro b l h; exact ⟨[], l, rfl, h, rfl⟩
    | cons p a ih =>
      intro b l h
      rw [List.cons_append, Res.mapL] at h
      obtain ⟨v, hv, h⟩ := Res.bind_ok_iff.1 h
      obtain ⟨l', hl, h⟩ := Res.bind_ok_iff.1 h
      obtain rfl := Res.ok.inj h
      obtain ⟨la, lb, h1, h2, rfl⟩ := ih b l' hl
      refine ⟨v :: la, lb, ?_, h2, rfl⟩
      rw [Res.mapL, hv, Res.okBind, h1, Res.okBind]
  unfold packPoints at *
  obtain ⟨l, h1, h2⟩ := Res.bind_ok_iff.1 h
  obtain rfl := Res.ok.inj h2
  obtain ⟨la, lb, h3, h4, rfl⟩ := key _ a b l h1
  exact ⟨la.flatten, lb.flatten, by rw [h3]; rfl, by rw [h4]; rfl, List.flatten_append⟩

/-- Points that pack to the records of some chunks, written in groups of the sizes of the chunks, give these chunks. -/
theorem gives_groups {L : Lazperf} {hd : LasHeader} {fmt : Int} {len : Nat} :
    ∀ {qss : List (List Point)} {recss : List (List Bytes)}, (∀ recs ∈ recss, recs ≠ [] ∧ recs.length < 2 ^ 32 ∧
      ∀ x ∈ recs, x.length = hd.recLen.toNat) → (∀ p ∈ qss.flatten, Reach p ∧ p.recLen = hd.recLen.toNat) →
    qss.map (·.length) = recss.map (·.length) → packPoints qss.flatten hd.scale hd.offset = .ok recss.flatten.flatten →
    List.Forall₂ (LazOp.Gives L hd) (qss.map (LazOp.points fmt len)) recss := by
  intro qss
  induction qss with
  | nil =>
    intro recss _ _ hl _
    rw [List.map_nil] at hl
    rw [List.map_eq_nil_iff.1 hl.symm]
    exact .nil
  | cons qs qss ih =>
    intro recss hr hp hl hk
    cases recss with
    | nil => cases hl
    | cons recs recss =>
      rw [List.map_cons, List.map_cons, List.cons.injEq] at hl
      rw [List.flatten_cons] at hk
      obtain ⟨x, y, h1, h2, h3⟩ := packPoints_split hk
      rw [List.flatten_cons, List.flatten_append] at h3
      obtain ⟨g1, g2, g3⟩ := hr recs (by simp)
      have hx := C18_pack_length qs _ (fun p hp' => hp p (by rw [List.flatten_cons]; exact List.mem_append_left _ hp')) _ _ _ h1
      have hx2 : recs.flatten.length = recs.length * hd.recLen.toNat := by
        rw [List.length_flatten, List.map_congr_left g3, List.map_const', List.sum_replicate_nat]
      obtain ⟨rfl, rfl⟩ := List.append_inj h3 (by rw [hx, hx2, hl.1])
      rw [List.map_cons]
      exact .cons ⟨g1, g2, g3, h1⟩ (ih (fun c hc => hr c (by simp [hc]))
        (fun p hp' => hp p (by rw [List.flatten_cons]; exact List.mem_append_right _ hp')) hl.2 h2)

section
variable {L : Lazperf} {w0 w v0 v : LazWriter} {h h' : List (LazOp × Res Unit)} {data data' : Bytes} {r : LazReader}

theorem LazWritten.doneAt (hw : LazWritten L w0 w h data) : ∃ otpd eb h14 log,
    BaseW.offsetToPointData w.cfg = .ok otpd ∧
    LazDone L w.cfg eb h14 otpd (ulog log) w.base.pointCount data ∧
    List.Forall₂ (fun op x => op.Stores L w0.cfg.header x) (chunkCalls h) log ∧
    w.base.pointCount = ((ulog log).map (·.1)).sum % 2 ^ 64 ∧ LazEdit w0.cfg w.cfg := by
  obtain ⟨c, hm⟩ := hw.made
  obtain ⟨w', hc, rfl⟩ := hw.closed
  obtain ⟨otpd, h1, h2, hcfg⟩ := lazMake_ok hm
  obtain ⟨log, hi⟩ := lInv_history h1 h2 hw.history hw.unclosed
  obtain ⟨hch, hsz⟩ := hi.logged.chunks hw.noneTooLarge
  obtain ⟨eb, h14, hfew, heb, hh14, hfit, hd, _⟩ := lazClose_ok hi.offset hi.base (lazClose_base hc)
  have hflag : w.cfg.header.copcFlag = false := by rw [hi.edit.copcFlag, hcfg]; rfl
  exact ⟨otpd, eb, h14, log, hi.offset, ⟨heb, hh14, hfit, hd, hflag, lazOtpd_small hw.storable.few hi.offset, hw.size⟩,
    hch, hi.base.count, hi.edit⟩

/-- What a reader of the file has for a configuration. -/
theorem LazWritten.restores (hw : LazWritten L w0 w h data) (hr : LazReader.init L ⟨data, 0, false⟩ = .ok r)
    {eb : Nat} {h14 : Header14} {otpd count : Nat} {log : List (Nat × Bytes)}
    (hd : LazDone L w.cfg eb h14 otpd log count data) : r.base.las = ⟨w.cfg.header.restored h14, w.cfg.wkt, w.cfg.eb⟩ := by
  obtain ⟨q, hq⟩ := hd.opens hw.storable
  unfold LazReader.init at hr
  rw [hq, Res.okBind] at hr
  dsimp only at hr
  obtain ⟨n, _, hr⟩ := Res.bind_ok_iff.1 hr
  obtain ⟨t, _, hr⟩ := Res.bind_ok_iff.1 hr
  obtain rfl := Res.ok.inj hr
  rfl

/-- A LAZ file is opened, a `LazWriter` is made with the configuration of its reader, and the same records are written, chunk by
chunk, packed or compressed: the new file is the old one, byte by byte. -/
theorem C98_records (hw : LazWritten L w0 w h data) {recss : List (List Bytes)}
    (hg : List.Forall₂ (LazOp.Gives L w0.cfg.header) (chunkCalls h) recss)
    (hr : LazReader.init L ⟨data, 0, false⟩ = .ok r) (hm : LazWriter.make OStream.fresh r.base.las = .ok v0)
    (hv : LazWritten L v0 v h' data') (hcfg : v.cfg = v0.cfg)
    (hg' : List.Forall₂ (LazOp.Gives L v0.cfg.header) (chunkCalls h') recss) : data' = data := by
  obtain ⟨otpd, eb, h14, log, ho, hd, hch, hcount, hedit⟩ := hw.doneAt
  obtain ⟨otpd', eb', h14', log', ho', hd', hch', hcount', _⟩ := hv.doneAt
  have hlas := hw.restores hr hd
  obtain ⟨_, _, _, hc0⟩ := lazMake_ok hm
  have hc : v.cfg = ⟨(w.cfg.header.restored h14).withCopc false, w.cfg.wkt, w.cfg.eb⟩ := by rw [hcfg, hc0, hlas]; rfl
  have heq : v.cfg.header.ebSize = w.cfg.header.ebSize := by rw [hc]; rfl
  have hebs : eb' = eb := by
    have := hd'.eb_ok
    rw [heq, hd.eb_ok] at this
    exact (Res.ok.inj this).symm
  subst hebs
  have hot : otpd' = otpd := by
    have : BaseW.offsetToPointData v.cfg = BaseW.offsetToPointData w.cfg := by rw [hc]; rfl
    rw [ho', ho] at this
    exact Res.ok.inj this
  subst hot
  -- the chunks
  obtain ⟨hf, hlen⟩ := hw.shape
  obtain ⟨e1, e2, e3⟩ := ebSize_consistent hf hlen
  have hpos : 0 < w0.cfg.header.recLen.toNat := by
    have : 0 < lasBaseSize w0.cfg.header.fmt := by rcases hf with e | e | e <;> rw [e] <;> decide
    omega
  have q1 : v0.cfg.header.fmt = w0.cfg.header.fmt := by rw [← hcfg, hc]; exact hedit.fmt
  have q2 : v0.cfg.header.recLen = w0.cfg.header.recLen := by rw [← hcfg, hc]; exact hedit.recLen
  have q3 : v0.cfg.header.ebSize = w0.cfg.header.ebSize := by unfold LasHeader.ebSize; rw [q1, q2]
  have hlog := gives_log e1 hpos hch hg
  have hlog' := gives_log (q3.trans e1) (by rw [q2]; exact hpos) hch' hg'
  rw [q1, ← hlog] at hlog'
  subst hlog'
  have hct : v.base.pointCount = w.base.pointCount := by rw [hcount', hcount]
  have hh : h14' = h14 := by
    have := hd'.header
    rw [lazHeader14_restored hd.flag (by rw [hc]) (by rw [hc]), hct, hd.header] at this
    exact (Res.ok.inj this).symm
  subst hh
  have h1 : lazVlrs L v.cfg eb' = lazVlrs L w.cfg eb' := by rw [hc]; rfl
  have h2 : v.cfg.wkt = w.cfg.wkt := by rw [hc]
  rw [hd'.data_eq, hd.data_eq]
  unfold lazFile lazHead
  rw [h1, h2]

/-- The configuration of a reader is storable again. -/
theorem LazStorable.again {c : LazConfig} (h : LazStorable c) (h14 : Header14) :
    LazStorable (LazConfig.forWriter ⟨c.header.restored h14, c.wkt, c.eb⟩) :=
  ⟨⟨h.fmt, h.len, h.items⟩, ⟨h.header.fmt, h.header.byReturn, h.header.guid, h.header.sys, h.header.gen⟩, h.few, h.descriptors,
    h.wktLen⟩

/-- With points: the points that `GetPoints` gives are written in groups of the sizes of the chunks. The scale and the offset are
such that stored coordinates come back exactly (`GoodScale`, see C11). -/
theorem C98_points (hw : LazWritten L w0 w h data) (hs : w0.cfg.header.recLen.toNat ≤ 255) {recss : List (List Bytes)}
    (hg : List.Forall₂ (LazOp.Gives L w0.cfg.header) (chunkCalls h) recss) (hn : recss.flatten.length < 2 ^ 31)
    (gx : GoodScale w0.cfg.header.scale.x w0.cfg.header.offset.x) (gy : GoodScale w0.cfg.header.scale.y w0.cfg.header.offset.y)
    (gz : GoodScale w0.cfg.header.scale.z w0.cfg.header.offset.z)
    (hr : LazReader.init L ⟨data, 0, false⟩ = .ok r) {qs : List Point} (hq : LazReader.getPoints L r = .ok qs)
    (hm : LazWriter.make OStream.fresh r.base.las = .ok v0) (hv : LazWritten L v0 v h' data') (hcfg : v.cfg = v0.cfg)
    {qss : List (List Point)} (hqs : qss.flatten = qs) (hlen : qss.map (·.length) = r.chunks) {fmt : Int} {len : Nat}
    (hcalls : chunkCalls h' = qss.map (LazOp.points fmt len)) : data' = data := by
  obtain ⟨r', h1, h2, h3, h4, h5⟩ := hw.reader hs hg (by omega)
  obtain rfl := Res.ok.inj (h1.symm.trans hr)
  obtain ⟨hf, hl⟩ := hw.shape
  obtain ⟨e1, e2, e3⟩ := ebSize_consistent hf hl
  obtain ⟨_, _, _, _, _, hd, _, _, hedit⟩ := hw.doneAt
  obtain ⟨_, _, _, hc0⟩ := lazMake_ok hm
  have q1 : r'.base.las.header.fmt = w0.cfg.header.fmt := h2.fmt.trans hedit.fmt
  have q2 : r'.base.las.header.recLen = w0.cfg.header.recLen := h2.recLen.trans hedit.recLen
  have q3 : r'.base.las.header.scale = w0.cfg.header.scale := h2.scale.trans hedit.scale
  have q4 : r'.base.las.header.offset = w0.cfg.header.offset := h2.offset.trans hedit.offset
  have hbl : baseSize w0.cfg.header.fmt + (w0.cfg.header.recLen.toNat - lasBaseSize w0.cfg.header.fmt) =
      w0.cfg.header.recLen.toNat := e3
  have hpos : 0 < w0.cfg.header.recLen.toNat := by
    have : 0 < lasBaseSize w0.cfg.header.fmt := by rcases hf with e | e | e <;> rw [e] <;> decide
    omega
  have hgr := gives_each hg
  have hrl : recss.flatten.flatten.length = recss.flatten.length * w0.cfg.header.recLen.toNat := by
    rw [List.length_flatten, List.map_congr_left (g := fun _ => w0.cfg.header.recLen.toNat), List.map_const',
      List.sum_replicate_nat]
    intro x hx
    obtain ⟨recs, hr, hx⟩ := List.mem_flatten.1 hx
    exact (hgr recs hr).2.2 x hx
  obtain ⟨_, hu⟩ := C18_unpack recss.flatten.flatten w0.cfg.header.fmt hf
    (w0.cfg.header.recLen.toNat - lasBaseSize w0.cfg.header.fmt) w0.cfg.header.scale w0.cfg.header.offset
    (by rw [hbl]; exact w0.cfg.header.recLen.toNat_lt) (by rw [hbl, hrl, Nat.mul_div_cancel _ hpos]; omega)
  obtain ⟨ps, u1, u2, u3, u4⟩ := hu (by rw [hbl, hrl, Nat.mul_mod_left])
  have hpq : ps = qs := by
    unfold LazReader.getPoints at hq
    dsimp only at hq
    rw [h4, Res.okBind] at hq
    split at hq
    · rename_i h0
      obtain ⟨_, _, hq⟩ := Res.bind_ok_iff.1 hq
      obtain ⟨_, _, hq⟩ := Res.bind_ok_iff.1 hq
      rw [h0, List.length_nil, hbl] at u2
      rcases Nat.mul_eq_zero.1 u2 with h | h
      · rw [List.length_eq_zero_iff.1 h]; exact Res.ok.inj hq
      · omega
    · unfold Reader.unpackWith at hq
      have heb : r'.base.las.header.ebSize = w0.cfg.header.ebSize := by unfold LasHeader.ebSize; rw [q1, q2]
      rw [heb, e1, Res.okBind, q1, q3, q4, u1] at hq
      exact Res.ok.inj hq
  subst hpq
  have hvh : v0.cfg.header.scale = w0.cfg.header.scale ∧ v0.cfg.header.offset = w0.cfg.header.offset ∧
      v0.cfg.header.recLen = w0.cfg.header.recLen := by
    rw [hc0]; exact ⟨q3, q4, q2⟩
  have heb16 : w0.cfg.header.recLen.toNat - lasBaseSize w0.cfg.header.fmt < 65536 := by
    have := w0.cfg.header.recLen.toNat_lt; omega
  refine C98_records hw hg hr hm hv hcfg ?_
  rw [hcalls]
  refine gives_groups (by rw [hvh.2.2]; exact hgr) ?_ (hlen.trans h5) (by rw [hqs, hvh.1, hvh.2.1]; exact u4 gx gy gz)
  intro p hp
  rw [hqs] at hp
  obtain ⟨i, hi, rfl⟩ := List.mem_iff_getElem.1 hp
  obtain ⟨_, g2, g3⟩ := u3 i hi
  exact ⟨.unpack heb16 g3, by rw [hvh.2.2, ← hbl]; exact g2⟩

end
end Copc
