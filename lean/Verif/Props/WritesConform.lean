import Verif.Props.Format
import Verif.Props.FormatLaz
import Verif.Props.Conforming
import Verif.Props.ConformingLaz
/-!
# What the writers write follows the formats

`Format.Conforms` and `Format.Las` (`Verif/Spec/Conforming.lean`) say by positions that a file of any program follows LAS 1.4
and COPC 1.0; the theorems about such files hold for the files that the library wrote.
-/
namespace Copc
open Spec

theorem wktBit_set (g : UInt16) : (g ||| 16).toNat / 16 % 2 = 1 := by
  have h : (g ||| 16).toNat.testBit 4 = true := by
    rw [UInt16.toNat_or, Nat.testBit_or]
    have : Nat.testBit (UInt16.toNat 16) 4 = true := by decide
    rw [this, Bool.or_true]
  rw [Nat.testBit_eq_decide_div_mod_eq] at h
  have := of_decide_eq_true h
  simpa using this

theorem zero_of_holds {data s : Bytes} {k p : Nat} (h : Format.Holds data k p s) (hf : Fits s k) : 0 ∈ Format.text data k p := by
  unfold Format.Holds at h
  rw [h, List.mem_append]
  right
  rw [List.mem_replicate]
  exact ⟨by have := hf.1; omega, rfl⟩

theorem user_holds {data rest : Bytes} {p : Nat} {v : VRec} (h : data.drop p = v.bytes ++ rest) (hv : v.Fit) :
    Format.Holds data 16 (p + 2) v.user := by
  have key : ∃ a t : Bytes, data.drop p = a ++ (padTo 16 v.user ++ t) ∧ a.length = 2 := by
    rw [h]
    unfold VRec.bytes VRec.hbytes
    split
    · refine ⟨putU16 0, putU16 v.id ++ (putU64 (UInt64.ofNat v.payload.length) ++ (padTo 32 v.desc ++ (v.payload ++ rest))), ?_, by simp⟩
      unfold VlrHeader.encodeE VRec.header; simp only [List.append_assoc]
    · refine ⟨putU16 0, putU16 v.id ++ (putU16 (UInt16.ofNat (UInt64.ofNat v.payload.length).toNat) ++
        (padTo 32 v.desc ++ (v.payload ++ rest))), ?_, by simp⟩
      unfold VlrHeader.encode VRec.header; simp only [List.append_assoc]
  obtain ⟨a, t, e, ha⟩ := key
  have e2 : data.drop (p + 2) = padTo 16 v.user ++ t := by
    rw [← List.drop_drop, e, List.drop_left' ha]
  have hs := hv.short
  have hp : padTo 16 v.user = v.user ++ List.replicate (16 - v.user.length) 0 := by
    rw [padTo, List.take_of_length_le hs]
  unfold Format.Holds Format.text
  rw [e2, List.take_left' (by rw [hp, List.length_append, List.length_replicate]; omega), hp]

theorem placed_drop {data rest : Bytes} : ∀ (vs : List VRec) (p : Nat), data.drop p = vs.flatMap VRec.bytes ++ rest →
    ∀ x ∈ placedRecs p vs, x.2 ∈ vs ∧ (∃ r, data.drop x.1 = x.2.bytes ++ r) ∧ x.1 + x.2.hsize + x.2.payload.length ≤ p + vsize vs
  | [], _, _ => by intro x hx; cases hx
  | v :: vs, p, h => by
    intro x hx
    rw [List.flatMap_cons, List.append_assoc] at h
    have hz : vsize (v :: vs) = v.bytes.length + vsize vs := by
      unfold vsize; rw [List.flatMap_cons, List.length_append]
    rw [placedRecs] at hx
    rcases List.mem_cons.1 hx with rfl | hx
    · refine ⟨by simp, ⟨_, h⟩, ?_⟩
      have := VRec.length_bytes v
      dsimp only
      omega
    · obtain ⟨a, b, c⟩ := placed_drop vs (p + v.bytes.length) (by rw [← List.drop_drop, h, List.drop_left]) x hx
      exact ⟨by simp [a], b, by omega⟩

/-- What holds of the records of a written file. -/
theorem RecFile.follow {data : Bytes} {h14 : Header14} {vs es : List VRec} (h : RecFile data h14 vs es)
    (hv : Format.vlrs data = (placedRecs 375 vs).map (fun x => x.2.raw x.1))
    (he : Format.evlrs data = (placedRecs h14.evlrOffset.toNat es).map (fun x => x.2.raw x.1)) :
    (∀ r ∈ Format.vlrs data, r.offset + r.size ≤ 375 + vsize vs ∧ Format.Holds data 16 (r.offset - 52) r.user ∧
      ∃ v ∈ vs, r.user = v.user ∧ r.id = v.id.toNat ∧ r.size = v.payload.length) ∧
    ∀ r ∈ Format.evlrs data, r.offset + r.size ≤ data.length ∧ Format.Holds data 16 (r.offset - 58) r.user ∧
      ∃ v ∈ es, r.user = v.user ∧ r.id = v.id.toNat ∧ r.size = v.payload.length := by
  obtain ⟨rest, hh⟩ := h.head
  obtain ⟨pre, rest', ht, hp⟩ := h.tail
  have h375 := Header14.length_encode h.sized
  have hoe := h.offset_le
  have d1 : data.drop 375 = vs.flatMap VRec.bytes ++ rest := by
    conv_lhs => rw [hh]
    rw [List.drop_left' h375]
  have d2 : data.drop h14.evlrOffset.toNat = es.flatMap VRec.bytes ++ rest' := by
    conv_lhs => rw [ht]
    rw [List.drop_left' hp]
  constructor
  · intro r hr
    rw [hv] at hr
    obtain ⟨x, hx, rfl⟩ := List.mem_map.1 hr
    obtain ⟨a, ⟨t, b⟩, c⟩ := placed_drop vs _ d1 x hx
    obtain ⟨f1, f2⟩ := h.vfit _ a
    have hs : x.2.hsize = 54 := by rw [VRec.hsize, f1]; rfl
    refine ⟨c, ?_, _, a, rfl, rfl, rfl⟩
    have := user_holds b f2
    unfold VRec.raw
    dsimp only
    rw [hs, show x.1 + 54 - 52 = x.1 + 2 by omega]
    exact this
  · intro r hr
    rw [he] at hr
    obtain ⟨x, hx, rfl⟩ := List.mem_map.1 hr
    obtain ⟨a, ⟨t, b⟩, c⟩ := placed_drop es _ d2 x hx
    obtain ⟨f1, f2⟩ := h.efit _ a
    have hs : x.2.hsize = 60 := by rw [VRec.hsize, f1]; rfl
    refine ⟨by unfold VRec.raw; dsimp only; omega, ?_, _, a, rfl, rfl, rfl⟩
    have := user_holds b f2
    unfold VRec.raw
    dsimp only
    rw [hs, show x.1 + 60 - 58 = x.1 + 2 by omega]
    exact this

section
variable {L : Lazperf} {ord : Order} {w0 w : Writer} {h : List (Op × Res (Option Node))} {data : Bytes}

theorem found_mem {data u : Bytes} {id : Nat} {r : Format.Record} (h : Format.found data u id = some r) :
    (r ∈ Format.vlrs data ∨ r ∈ Format.evlrs data) ∧ r.user = u ∧ r.id = id := by
  unfold Format.found at h
  have a := List.mem_of_find?_eq_some h
  have b := List.find?_some h
  simp only [Bool.and_eq_true, decide_eq_true_eq] at b
  exact ⟨List.mem_append.1 a, b⟩

/-- Where the point data starts. -/
theorem Written.pointOffset (hw : Written L ord w0 w h data) : Format.num data 4 96 = w0.base.out.data.length - 8 := by
  obtain ⟨c, o, hm⟩ := hw.made
  obtain ⟨w', hc, rfl⟩ := hw.closed
  obtain ⟨otpd, h1, h2⟩ := bInv_of_make hm
  obtain ⟨log, hi⟩ := wInv_history h1 h2 hw.history hw.unclosed
  obtain ⟨hier, eb, h14, gps, hco⟩ := close_ok hi.offset hi.base hc
  have h15 := hw.storable.header.byReturn
  obtain ⟨hd, h375⟩ := hco.headerDecoded h15
  obtain ⟨hf, hdata, _, _, _, _, hcfg, _⟩ := hco.closed
  have hlen : 375 ≤ w'.base.out.data.length := by
    rw [hdata, fileBytes, headArea, headBlock]
    simp only [List.length_append]
    omega
  have a := header_raw hlen hd
  have h15' : w0.cfg.header.pointsByReturn.length = 15 := by rw [← hi.edit.returns]; exact h15
  have d := C26_area hm h15' (by rw [← hi.edit.eb]; exact hw.storable.few) (by
    have e := hw.storable.extents
    have f := hw.storable.few
    unfold baseDims at e
    rw [← hi.edit.extLen]
    split at e
    · omega
    · split at e <;> omega) hw.history hw.unclosed hc
  dsimp only at d
  rw [hd] at d
  exact a.2.2.2.2.2.2.2.2.2.2.2.1.symm.trans d.1

/-- The records of a file that `Writer` wrote, with what they are. -/
theorem Written.followed (hw : Written L ord w0 w h data) : ∃ eb gps, 375 ≤ data.length ∧
    eb = w.cfg.header.recLen.toNat - lasBaseSize w.cfg.header.fmt ∧
    Format.num data 4 96 ≤ Format.num data 8 235 ∧ Format.num data 4 243 < 2 ^ 31 ∧
    (∃ cfg : CopcConfig, cfg.extents = w.cfg.extents ∧ cfg.eb = w.cfg.eb ∧
      (∀ r ∈ Format.vlrs data, r.offset + r.size ≤ Format.num data 4 96 ∧ Format.Holds data 16 (r.offset - 52) r.user ∧
        ∃ v ∈ copcRecs L cfg eb gps, r.user = v.user ∧ r.id = v.id.toNat ∧ r.size = v.payload.length ∧
          Format.text data r.size r.offset = v.payload) ∧
      (Format.vlrs data).head? = some ⟨Format.uCopc, 1, 429, 160⟩ ∧
      (0 < eb → ∃ r, Format.found data Format.uSpec 4 = some r)) ∧
    (∀ r ∈ Format.evlrs data, r.offset + r.size ≤ data.length ∧ Format.Holds data 16 (r.offset - 58) r.user) := by
  have hpo := hw.pointOffset
  obtain ⟨otpd, log, hier, eb, gps, w', h14, hc, rfl, b2, hi, hco, hrf, hv, hpay, he, _⟩ := hw.recorded
  obtain ⟨hf, hdata, _, _, _, _, hcfg, _⟩ := hco.closed
  have e1 : w'.cfg.extents = w.cfg.extents ∧ w'.cfg.eb = w.cfg.eb := by
    rw [hcfg]; unfold closedCfg setRoot
    split <;> exact ⟨rfl, rfl⟩
  have h0 : w0.base.out.data.length - 8 = otpd := by rw [b2.out.data]; simp [chunkData]
  rw [h0] at hpo
  have h375 := Header14.length_encode hrf.sized
  have hvs : vsize (copcRecs L w'.cfg eb gps) + 375 ≤ otpd := by
    rw [headBlock, List.length_append, h375, ← copcRecs_bytes, ← hcfg] at hf
    unfold vsize; omega
  have hl : 375 ≤ w'.base.out.data.length := by
    have := hrf.vlrEnd_le
    omega
  obtain ⟨hd, _⟩ := hco.headerDecoded hw.storable.header.byReturn
  have b := header_raw2 hd
  have heo : h14.evlrOffset.toNat = otpd + (bodyBytes L otpd log).length := by
    obtain ⟨hfit, hdata, _⟩ := hco.closed
    have hsz := hw.size
    have hlen : otpd + (bodyBytes L otpd log).length ≤ w'.base.out.data.length := by
      rw [hdata, fileBytes, List.length_append, length_headArea hfit, List.length_append]; omega
    have hh := hco.header
    unfold LasHeader.toLazPerf at hh
    split at hh
    · cases hh
    · obtain rfl := Res.ok.inj hh
      simp only
      rw [preHeader_eq]
      simp only
      exact UInt64.toNat_ofNat_of_lt' (by rw [UInt64.size]; omega)
  have hb : lasBaseSize w.cfg.header.fmt ≤ w.cfg.header.recLen.toNat := by rw [hw.storable.len]; omega
  have heb : eb = w.cfg.header.recLen.toNat - lasBaseSize w.cfg.header.fmt :=
    Res.ok.inj (hco.eb_ok.symm.trans (ebSize_consistent hw.storable.fmt hb).1)
  obtain ⟨f1, f2⟩ := hrf.follow hv he
  refine ⟨eb, gps, hl, heb, ?_, ?_, ⟨w'.cfg, e1.1, e1.2, ?_, ?_, ?_⟩, fun r hr => ⟨(f2 r hr).1, (f2 r hr).2.1⟩⟩
  · rw [hpo, ← b.2.2.2.2.2.2.2.2.2.1, heo]; omega
  · rw [← b.2.2.2.2.2.2.2.2.2.2.1, hrf.ecount]; exact hrf.few
  · intro r hr
    obtain ⟨a1, a2, _⟩ := f1 r hr
    refine ⟨by omega, a2, ?_⟩
    have hr' := hr
    rw [hv] at hr'
    obtain ⟨x, hx, rfl⟩ := List.mem_map.1 hr'
    obtain ⟨rest, hh⟩ := hrf.head
    have d1 : w'.base.out.data.drop 375 = (copcRecs L w'.cfg eb gps).flatMap VRec.bytes ++ rest := by
      conv_lhs => rw [hh]
      rw [List.drop_left' h375]
    exact ⟨x.2, (placed_drop _ _ d1 x hx).1, rfl, rfl, rfl, hpay x hx⟩
  · rw [hv]
    unfold copcRecs
    rw [placedRecs, List.map_cons, List.head?_cons]
    unfold VRec.raw
    dsimp only
    rw [length_info]
    rfl
  · intro h0
    have key : ∃ v ∈ copcRecs L w'.cfg eb gps, v.user = Format.uSpec ∧ v.id.toNat = 4 :=
      ⟨⟨false, idSpec, 4, [], putEb w'.cfg.eb⟩, by unfold copcRecs lazRecs; rw [if_pos h0]; simp, rfl, rfl⟩
    obtain ⟨v, hv', k1, k2⟩ := key
    have : ∀ (l : List VRec) (p : Nat), v ∈ l → ∃ q, (q, v) ∈ placedRecs p l := by
      intro l
      induction l with
      | nil => intro p hp; cases hp
      | cons a l ih =>
        intro p hp
        rw [placedRecs]
        rcases List.mem_cons.1 hp with rfl | hp
        · exact ⟨p, List.mem_cons_self⟩
        · obtain ⟨q, hq⟩ := ih (p + a.bytes.length) hp
          exact ⟨q, List.mem_cons_of_mem _ hq⟩
    obtain ⟨q, hq⟩ := this _ 375 hv'
    have hm : v.raw q ∈ Format.vlrs w'.base.out.data := hv ▸ List.mem_map.2 ⟨_, hq, rfl⟩
    cases hfd : Format.found w'.base.out.data Format.uSpec 4 with
    | some r => exact ⟨r, rfl⟩
    | none =>
      unfold Format.found at hfd
      have := List.find?_eq_none.1 hfd (v.raw q) (List.mem_append_left _ hm)
      simp only [Bool.and_eq_true, decide_eq_true_eq] at this
      exact absurd ⟨k1, k2⟩ this

theorem mem_copcRecs {L : Lazperf} {c : CopcConfig} {eb : Nat} {gps : Extent} {v : VRec} (h : v ∈ copcRecs L c eb gps) :
    (v.user = Format.uCopc ∧ v.id.toNat = 1) ∨
    (v.user = Format.uCopc ∧ v.id.toNat = 10000 ∧ v.payload = Extents.putItems c.extents.toVlr) ∨
    (v.user = Format.uRock ∧ v.id.toNat = 10001 ∧ v.payload = Extents.putItems c.extents.toVlrExtended) ∨
    (v.user = Format.uSpec ∧ v.id.toNat = 4 ∧ v.payload = putEb c.eb ∧ 0 < eb) ∨
    (v.user = laszipUser ∧ v.id.toNat = 22204) := by
  unfold copcRecs statRecs lazRecs at h
  simp only [List.mem_cons, List.mem_append] at h
  rcases h with rfl | rfl | h | h | h | h
  · exact .inl ⟨rfl, rfl⟩
  · exact .inr (.inl ⟨rfl, rfl, rfl⟩)
  · split at h
    · obtain rfl := List.mem_singleton.1 h
      exact .inr (.inr (.inl ⟨rfl, rfl, rfl⟩))
    · cases h
  · split at h
    · obtain rfl := List.mem_singleton.1 h
      exact .inr (.inr (.inr (.inl ⟨rfl, rfl, rfl, by assumption⟩)))
    · cases h
  · subst h
    exact .inr (.inr (.inr (.inr ⟨rfl, rfl⟩)))
  · cases h

/-- A file that `Writer` wrote follows LAS 1.4 and COPC 1.0, and `Reader` opens such files (C88): what is proved of files of
any program that follow the formats is true of it. -/
theorem C100_copc (hw : Written L ord w0 w h data) : Format.Conforms data ∧ Format.Suits data := by
  obtain ⟨eb, gps, hl, heb, hpe, hfew, ⟨cfg, x1, x2, hv, hhead, hspec⟩, hev⟩ := hw.followed
  obtain ⟨a, _, _, _⟩ := hw.raw
  obtain ⟨_, _, e3⟩ := C82_evlrs hw
  obtain ⟨e1, _, _⟩ := C82_evlrs hw
  have hst := hw.storable
  have hfmt : Format.num data 1 104 = 134 ∨ Format.num data 1 104 = 135 ∨ Format.num data 1 104 = 136 := by
    have := a.format
    rcases hst.fmt with hf | hf | hf <;> rw [hf] at this <;> omega
  have hdims : Format.dims data = baseDims w.cfg.header.fmt := by
    have := a.format
    unfold Format.dims baseDims
    rcases hst.fmt with hf | hf | hf <;> rw [hf] at this ⊢
    · rw [if_pos (by omega), if_pos rfl]
    · rw [if_neg (by omega), if_pos (by omega)]; rfl
    · rw [if_neg (by omega), if_neg (by omega)]; rfl
  have hin : ∀ {u : Bytes} {id : Nat} {r : Format.Record}, Format.found data u id = some r →
      ¬(u = Format.uCopc ∧ id = 1000) → ¬(u = Format.uProj ∧ id = 2112) →
      ∃ v ∈ copcRecs L cfg eb gps, v.user = u ∧ v.id.toNat = id ∧ r.size = v.payload.length ∧
        Format.text data r.size r.offset = v.payload := by
    intro u id r hr n1 n2
    obtain ⟨hm, rfl, rfl⟩ := found_mem hr
    rcases hm with hm | hm
    · obtain ⟨_, _, v, k1, k2, k3, k4, k5⟩ := hv r hm
      exact ⟨v, k1, k2.symm, k3.symm, k4, k5⟩
    · rcases e3 r hm with k | k
      · exact absurd k n1
      · exact absurd ⟨k.1, k.2.1⟩ n2
  have hcount : Format.ebCount data = w.cfg.eb.length := by
    unfold Format.ebCount
    cases hr : Format.found data Format.uSpec 4 with
    | some r =>
      obtain ⟨v, k1, k2, k3, k4, _⟩ := hin hr (by decide) (by decide)
      rcases mem_copcRecs k1 with g | g | g | g | g
      · rw [g.1] at k2; exact absurd k2 (by decide)
      · rw [g.1] at k2; exact absurd k2 (by decide)
      · rw [g.1] at k2; exact absurd k2 (by decide)
      · rw [Option.map_some, Option.getD_some, k4, g.2.2.1, length_putEb, x2]; omega
      · rw [g.1] at k2; exact absurd k2 (by decide)
    | none =>
      have h0 : ¬0 < eb := fun h0 => by
        obtain ⟨r, hr'⟩ := hspec h0
        rw [hr] at hr'; cases hr'
      have hs := hst.len
      have hz : (w.cfg.eb.map lasItemSize).sum = 0 := by omega
      rw [Option.map_none, Option.getD_none]
      cases hc : w.cfg.eb with
      | nil => rfl
      | cons f l =>
        have := hst.items f (by rw [hc]; simp)
        rw [hc, List.map_cons, List.sum_cons] at hz
        omega
  have hlen := hst.extents
  constructor
  · refine ⟨hw.size, hl, a.signature, a.version, ?_, a.size, hfmt, fun r hr => (hv r hr).1, hpe, fun r hr => (hev r hr).1,
      fun r hr => (hv r hr).2.1, fun r hr => (hev r hr).2, hhead, ?_, ?_, ?_⟩
    · rw [a.encoding]; exact wktBit_set _
    · exact ⟨_, (e1 _ _).1 .root, rfl, rfl⟩
    · intro r hr
      obtain ⟨v, k1, k2, k3, k4, k5⟩ := hin hr (by decide) (by decide)
      have hp : v.payload = Extents.putItems w.cfg.extents.toVlr := by
        rcases mem_copcRecs k1 with g | g | g | g | g
        · rw [g.2] at k3; exact absurd k3 (by decide)
        · rw [g.2.2, x1]
        · rw [g.1] at k2; exact absurd k2 (by decide)
        · rw [g.1] at k2; exact absurd k2 (by decide)
        · rw [g.1] at k2; exact absurd k2 (by decide)
      have hz : r.size = 16 * w.cfg.extents.extents.length := by
        rw [k4, hp, length_putItems, Extents.toVlr, List.length_map]
      refine ⟨by rw [hz, hdims, hcount, hlen], fun i hi => ?_⟩
      have hil : i < w.cfg.extents.extents.length := by omega
      rw [k4, hp] at k5
      obtain ⟨d1, d2⟩ := dbls_item (l := w.cfg.extents.toVlr) k5 (i := i)
        (x := (w.cfg.extents.extents[i].minimum, w.cfg.extents.extents[i].maximum))
        (by rw [Extents.toVlr, List.getElem?_map, List.getElem?_eq_getElem hil]; rfl)
      rw [d1, d2]
      exact (ordered_iff _).1 (hst.ordered _ (List.getElem_mem hil)).1
    · intro r hr
      obtain ⟨v, k1, k2, k3, k4, k5⟩ := hin hr (by decide) (by decide)
      have hp : v.payload = Extents.putItems w.cfg.extents.toVlrExtended := by
        rcases mem_copcRecs k1 with g | g | g | g | g
        · rw [g.1] at k2; exact absurd k2 (by decide)
        · rw [g.1] at k2; exact absurd k2 (by decide)
        · rw [g.2.2, x1]
        · rw [g.1] at k2; exact absurd k2 (by decide)
        · rw [g.1] at k2; exact absurd k2 (by decide)
      have hz : r.size = 16 * w.cfg.extents.extents.length := by
        rw [k4, hp, length_putItems, Extents.toVlrExtended, List.length_map]
      refine ⟨by rw [hz, hdims, hcount, hlen], fun i hi => ?_⟩
      have hil : i < w.cfg.extents.extents.length := by omega
      rw [k4, hp] at k5
      obtain ⟨d1, d2⟩ := dbls_item (l := w.cfg.extents.toVlrExtended) k5 (i := i)
        (x := (w.cfg.extents.extents[i].mean, w.cfg.extents.extents[i].var))
        (by rw [Extents.toVlrExtended, List.getElem?_map, List.getElem?_eq_getElem hil]; rfl)
      rw [d2]
      exact (varOk_iff _).1 (hst.ordered _ (List.getElem_mem hil)).2
  · refine ⟨zero_of_holds a.guid hst.header.guid, zero_of_holds a.system hst.header.sys,
      zero_of_holds a.software hst.header.gen, ?_, ?_, ?_, hfew⟩
    · intro r hr ⟨u, i⟩
      obtain ⟨_, _, v, k1, k2, _⟩ := hv r hr
      rw [u] at k2
      rcases mem_copcRecs k1 with g | g | g | g | g <;> rw [g.1] at k2 <;> exact absurd k2 (by decide)
    · intro r hr
      rcases e3 r hr with k | k <;> rw [k.1] <;> exact ⟨fun x => absurd x.1 (by decide), fun x => by
        first
        | exact absurd x.1 (by decide)
        | (rw [k.2] at x; exact absurd x.2 (by decide)), fun x => absurd x.1 (by decide)⟩
    · intro r hr
      obtain ⟨hm, u, i⟩ := found_mem hr
      rcases hm with hm | hm
      · obtain ⟨_, _, v, k1, k2, _⟩ := hv r hm
        rw [u] at k2
        rcases mem_copcRecs k1 with g | g | g | g | g <;> rw [g.1] at k2 <;> exact absurd k2 (by decide)
      · rcases e3 r hm with k | k
        · rw [k.1] at u; exact absurd u (by decide)
        · have hle := (hev r hm).1
          have ht := congrArg List.length k.2.2
          unfold Format.text at ht
          rw [List.length_take, List.length_drop] at ht
          have := hst.wktLen
          omega

/-- So `Reader` opens it, and what a program gets from the configuration is what the file has, by positions. -/
theorem C100_open (hw : Written L ord w0 w h data) :
    ∃ r, Reader.init ⟨data, 0, false⟩ = .ok r ∧ r.h.str.fail = false ∧ Format.ReadAs data r.cfg :=
  C88_open_partial (C100_copc hw).1 (C100_copc hw).2

end

/-- A file that `LazWriter` wrote follows LAS 1.4, and the readers open such files (C94). -/
theorem C100_laz {L : Lazperf} {w0 w : LazWriter} {h : List (LazOp × Res Unit)} {data : Bytes}
    (hw : LazWritten L w0 w h data) : Format.Las data ∧ Format.SuitsLas data := by
  have a := C84_header hw
  have hst := hw.storable
  obtain ⟨otpd, eb, h14, log, hd, _⟩ := hw.done
  have hrf := hd.recFile hst.header.byReturn hst.few
  obtain ⟨rest, hh⟩ := hrf.head
  obtain ⟨pre, rest', ht, hp⟩ := hrf.tail
  have h375 := Header14.length_encode hrf.sized
  have hl : 375 ≤ data.length := by rw [hh, List.length_append]; omega
  have hdec : Header14.decode data = h14 := by rw [hh]; exact Header14.decode_encode hrf.sized _
  have a1 := header_raw hl hdec
  have b := header_raw2 hdec
  have d1 : data.drop 375 = (lazRecs L w.cfg eb).flatMap VRec.bytes ++ rest := by
    conv_lhs => rw [hh]
    rw [List.drop_left' h375]
  have d2 : data.drop h14.evlrOffset.toNat = (wktRecs w.cfg.wkt).flatMap VRec.bytes ++ rest' := by
    conv_lhs => rw [ht]
    rw [List.drop_left' hp]
  obtain ⟨r1, _⟩ := records_recs (b := false) (head := 54) (len := 2) rfl rfl _ d1 hrf.vfit
  obtain ⟨r3, _⟩ := records_recs (b := true) (head := 60) (len := 8) rfl rfl _ d2 hrf.efit
  have hv : Format.vlrs data = (placedRecs 375 (lazRecs L w.cfg eb)).map (fun x => x.2.raw x.1) := by
    unfold Format.vlrs
    rw [← a1.2.2.2.2.2.2.2.2.2.2.1, ← a1.2.2.2.2.2.2.2.2.2.2.2.2.1, hrf.vcount, hrf.size375]
    exact r1
  have he : Format.evlrs data = (placedRecs h14.evlrOffset.toNat (wktRecs w.cfg.wkt)).map (fun x => x.2.raw x.1) := by
    unfold Format.evlrs
    rw [← b.2.2.2.2.2.2.2.2.2.2.1, ← b.2.2.2.2.2.2.2.2.2.1, hrf.ecount]
    exact r3
  obtain ⟨f1, f2⟩ := hrf.follow hv he
  have hh14 := hd.header
  unfold lazHeader14 at hh14
  obtain ⟨_, p1, _, p3, _⟩ := header_says hh14 hst.header hst.fmt hl hdec
  have htot := hd.total
  have hsize := hd.size
  have hpo : Format.num data 4 96 = otpd := by rw [p1, UInt32.toNat_ofNat', Nat.mod_eq_of_lt hd.small]
  have heo : Format.num data 8 235 = otpd + (bodyBytes L otpd (ulog log)).length := by
    rw [p3, UInt64.toNat_ofNat', Nat.mod_eq_of_lt (by omega)]
  have hvs : vsize (lazRecs L w.cfg eb) + 375 ≤ otpd := by
    have := hd.fit
    rw [lazHead, List.length_append, h375, ← lazRecs_bytes] at this
    unfold vsize; omega
  have hrecs : ∀ v ∈ lazRecs L w.cfg eb, v.user = Format.uSpec ∨ v.user = laszipUser := by
    intro v hm
    unfold lazRecs at hm
    rcases List.mem_append.1 hm with hm | hm
    · split at hm
      · obtain rfl := List.mem_singleton.1 hm; exact .inl rfl
      · cases hm
    · obtain rfl := List.mem_singleton.1 hm; exact .inr rfl
  have hwkt : ∀ v ∈ wktRecs w.cfg.wkt, v.user = Format.uProj ∧ v.payload = w.cfg.wkt := by
    intro v hm
    unfold wktRecs at hm
    split at hm
    · cases hm
    · obtain rfl := List.mem_singleton.1 hm; exact ⟨rfl, rfl⟩
  have hnp : ∀ r ∈ Format.vlrs data, ¬(r.user = Format.uProj ∧ r.id = 2112) := by
    intro r hr ⟨u, _⟩
    obtain ⟨_, _, v, k1, k2, _⟩ := f1 r hr
    rw [u] at k2
    rcases hrecs v k1 with g | g <;> rw [g] at k2 <;> exact absurd k2 (by decide)
  constructor
  · refine ⟨hsize, hl, a.signature, a.version, ?_, a.size, ?_, fun r hr => ?_, ?_, ?_, fun r hr => (f2 r hr).1,
      fun r hr => (f1 r hr).2.1, fun r hr => (f2 r hr).2.1⟩
    · rw [a.encoding]; exact wktBit_set _
    · have := a.format
      rcases hst.fmt with hf | hf | hf <;> rw [hf] at this <;> omega
    · have := (f1 r hr).1; omega
    · rw [hpo]; omega
    · rw [hpo, heo]; exact ⟨by omega, fun _ => by omega⟩
  · refine ⟨zero_of_holds a.guid hst.header.guid, zero_of_holds a.system hst.header.sys,
      zero_of_holds a.software hst.header.gen, hnp, ?_, ?_, ?_⟩
    · intro r hr ⟨u, _⟩
      obtain ⟨_, _, v, k1, k2, _⟩ := f2 r hr
      rw [u, (hwkt v k1).1] at k2
      exact absurd k2 (by decide)
    · intro r hr
      obtain ⟨hm, u, i⟩ := found_mem hr
      rcases hm with hm | hm
      · exact absurd ⟨u, i⟩ (hnp r hm)
      · obtain ⟨_, _, v, k1, _, _, k4⟩ := f2 r hm
        rw [k4, (hwkt v k1).2]
        exact hst.wktLen
    · rw [← b.2.2.2.2.2.2.2.2.2.2.1, hrf.ecount]; exact hrf.few

/-- The records of a file that `LazWriter` wrote. -/
theorem LazDone.vlrs {L : Lazperf} {c : LazConfig} {eb : Nat} {h14 : Header14} {otpd : Nat} {log : List (Nat × Bytes)}
    {count : Nat} {data : Bytes} (hd : LazDone L c eb h14 otpd log count data) (hst : LazStorable c) :
    ∃ r ∈ Format.vlrs data, Format.found data laszipUser 22204 = some r ∧ Format.num data 4 (r.offset + 12) = 4294967295 := by
  have hrf := hd.recFile hst.header.byReturn hst.few
  obtain ⟨rest, hh⟩ := hrf.head
  have h375 := Header14.length_encode hrf.sized
  have hl : 375 ≤ data.length := by rw [hh, List.length_append]; omega
  have hdec : Header14.decode data = h14 := by rw [hh]; exact Header14.decode_encode hrf.sized _
  have a1 := header_raw hl hdec
  have d1 : data.drop 375 = (lazRecs L c eb).flatMap VRec.bytes ++ rest := by
    conv_lhs => rw [hh]
    rw [List.drop_left' h375]
  obtain ⟨r1, r2⟩ := records_recs (b := false) (head := 54) (len := 2) rfl rfl _ d1 hrf.vfit
  have hv : Format.vlrs data = (placedRecs 375 (lazRecs L c eb)).map (fun x => x.2.raw x.1) := by
    unfold Format.vlrs
    rw [← a1.2.2.2.2.2.2.2.2.2.2.1, ← a1.2.2.2.2.2.2.2.2.2.2.2.2.1, hrf.vcount, hrf.size375]
    exact r1
  have hnum : ∀ q, (q, (⟨false, idLaz, 22204, BaseW.descLaz, L.lazVlr c.header.fmt eb⟩ : VRec)) ∈ placedRecs 375 (lazRecs L c eb) →
      Format.num data 4 (q + 54 + 12) = 4294967295 := by
    intro q hq
    have := r2 _ hq
    have hlen := L.lazVlr_length c.header.fmt eb
    exact (num_inside (j := 12) (k := 4) this (by dsimp only; omega)).trans (L.lazVlr_varying _ _)
  by_cases he : eb > 0
  · have hp : placedRecs 375 (lazRecs L c eb) = [(375, ⟨false, idSpec, 4, [], putEb c.eb⟩),
        (375 + (VRec.mk false idSpec 4 [] (putEb c.eb)).bytes.length, ⟨false, idLaz, 22204, BaseW.descLaz, L.lazVlr c.header.fmt eb⟩)] := by
      unfold lazRecs; rw [if_pos he]; rfl
    refine ⟨(VRec.mk false idLaz 22204 BaseW.descLaz (L.lazVlr c.header.fmt eb)).raw
      (375 + (VRec.mk false idSpec 4 [] (putEb c.eb)).bytes.length), ?_, ?_, hnum _ (by rw [hp]; simp)⟩
    · rw [hv, hp]; simp
    · unfold Format.found
      rw [hv, hp, List.map_cons, List.cons_append, List.find?_cons_of_neg (by
        simp only [Bool.and_eq_true, decide_eq_true_eq]
        exact fun x => absurd x.1 (show idSpec ≠ laszipUser by decide)), List.map_cons, List.cons_append,
        List.find?_cons_of_pos (by
          simp only [Bool.and_eq_true, decide_eq_true_eq]
          exact ⟨rfl, rfl⟩)]
  · have hp : placedRecs 375 (lazRecs L c eb) = [(375, ⟨false, idLaz, 22204, BaseW.descLaz, L.lazVlr c.header.fmt eb⟩)] := by
      unfold lazRecs; rw [if_neg he]; rfl
    refine ⟨(VRec.mk false idLaz 22204 BaseW.descLaz (L.lazVlr c.header.fmt eb)).raw 375, ?_, ?_, hnum _ (by rw [hp]; simp)⟩
    · rw [hv, hp]; simp
    · unfold Format.found
      rw [hv, hp, List.map_cons, List.cons_append,
        List.find?_cons_of_pos (by
          simp only [Bool.and_eq_true, decide_eq_true_eq]
          exact ⟨rfl, rfl⟩)]

/-- The points of a file that `LazWriter` wrote are laid out as the format has them: chunks of varying sizes with the records
that the calls gave. So what is proved of LAZ files of any program (C89) is true of it. -/
theorem C100_chunks {L : Lazperf} {w0 w : LazWriter} {h : List (LazOp × Res Unit)} {data : Bytes}
    (hw : LazWritten L w0 w h data) {recss : List (List Bytes)}
    (hg : List.Forall₂ (LazOp.Gives L w0.cfg.header) (chunkCalls h) recss) (hn : recss.flatten.length < 2 ^ 64) :
    Format.Chunks L data recss ∧ Format.Varying L data recss := by
  obtain ⟨hf, hlen⟩ := hw.shape
  obtain ⟨e1, e2, e3⟩ := ebSize_consistent hf hlen
  have hpos : 0 < w0.cfg.header.recLen.toNat := by
    have : 0 < lasBaseSize w0.cfg.header.fmt := by rcases hf with e | e | e <;> rw [e] <;> decide
    omega
  have a := C84_header hw
  obtain ⟨otpd, eb, h14, log, hd, hch, hsz, hfew, hcount, hedit⟩ := hw.done
  have hebs : eb = w0.cfg.header.recLen.toNat - lasBaseSize w0.cfg.header.fmt := by
    have := hd.eb_ok
    rw [hedit.ebSize, e1] at this
    exact (Res.ok.inj this).symm
  have hlog := gives_log e1 hpos hch hg
  rw [← hebs] at hlog
  have hgr := gives_each hg
  have hfm : w.cfg.header.fmt = w0.cfg.header.fmt := hedit.fmt
  have hrl : w.cfg.header.recLen = w0.cfg.header.recLen := hedit.recLen
  have hchunk : Format.chunk L data = L.compress w0.cfg.header.fmt eb := by
    unfold Format.chunk
    have e : (Format.num data 1 104 : Int) - 128 = w0.cfg.header.fmt := by have := a.format; rw [hfm] at this; omega
    rw [e, a.record, hrl, hebs]
    rfl
  have hu : ulog log = recss.map fun recs => (recs.length, Format.chunk L data recs) := by
    rw [hlog, hchunk]
    unfold ulog
    rw [List.map_map]
    apply List.map_congr_left
    intro recs hr
    have := (hgr recs hr).2.1
    simp only [Function.comp, u64, Prod.mk.injEq, and_true]
    omega
  have hcd : chunkData (ulog log) = (recss.map (Format.chunk L data)).flatten := by
    rw [hu]; unfold chunkData; rw [List.map_map]; rfl
  have hnum : log.length = recss.length := by rw [hlog, List.length_map]
  have hsum : ((ulog log).map (·.1)).sum = recss.flatten.length := by
    rw [hu, List.map_map, List.length_flatten]; rfl
  rw [hsum, Nat.mod_eq_of_lt hn] at hcount
  have hrf := hd.recFile hw.storable.header.byReturn hw.storable.few
  obtain ⟨rest, hh⟩ := hrf.head
  have h375 := Header14.length_encode hrf.sized
  have hl : 375 ≤ data.length := by rw [hh, List.length_append]; omega
  have hdec : Header14.decode data = h14 := by rw [hh]; exact Header14.decode_encode hrf.sized _
  have hh14 := hd.header
  unfold lazHeader14 at hh14
  obtain ⟨_, p1, p2, _⟩ := header_says hh14 hw.storable.header hw.storable.fmt hl hdec
  have hpo : Format.num data 4 96 = otpd := by rw [p1, UInt32.toNat_ofNat', Nat.mod_eq_of_lt hd.small]
  have htot := hd.total
  have hb := length_bodyBytes L otpd (ulog log)
  have hsize := hd.size
  have htl : 8 ≤ (tableBytes L (ulog log)).length := by
    unfold tableBytes; simp only [List.length_append, length_leN]; omega
  have htab : Format.num data 8 otpd = otpd + 8 + (chunkData (ulog log)).length := by
    unfold Format.num
    rw [hd.body, bodyBytes]
    simp only [List.append_assoc]
    rw [getN_leN, Nat.mod_eq_of_lt (by omega)]
  have h3 : data.drop (otpd + 8 + (chunkData (ulog log)).length) =
      leN 4 0 ++ (leN 4 log.length ++ (L.table (sizes (ulog log)) ++ wktBytes w.cfg.wkt)) := by
    rw [← List.drop_drop, hd.ahead, List.drop_left' rfl]
    unfold tableBytes; simp only [List.append_assoc, length_ulog]
  have hsmall : ∀ recs ∈ recss, (Format.chunk L data recs).length < 2 ^ 32 := by
    intro recs hr
    have hm : (recs.length, Format.chunk L data recs) ∈ ulog log := by
      rw [hu]; exact List.mem_map.2 ⟨recs, hr, rfl⟩
    obtain ⟨y, hy, e⟩ := List.mem_map.1 hm
    have h1 := hsz y hy
    have e2 : y.2 = Format.chunk L data recs := congrArg Prod.snd e
    have h2 : (Format.chunk L data recs).length ≤ (chunkData (ulog log)).length := by
      rw [hcd, List.length_flatten]
      exact List.le_sum_of_mem (List.mem_map.2 ⟨_, List.mem_map.2 ⟨recs, hr, rfl⟩, rfl⟩)
    rw [e2] at h1
    omega
  constructor
  · refine ⟨?_, ?_, ?_, ?_, ?_, fun recs hr => (hgr recs hr).1, ?_, ?_⟩
    · rw [hpo, ← hcd]
      unfold Format.text
      rw [hd.ahead, List.take_left' rfl]
    · rw [hpo, ← hcd]; omega
    · rw [hpo, htab]; omega
    · rw [hpo, htab]
      unfold Format.num
      rw [h3, getN_leN]
    · rw [hpo, htab]
      unfold Format.num
      rw [← List.drop_drop, h3, List.drop_left' (length_leN 4 _), getN_leN, Nat.mod_eq_of_lt (by omega), hnum]
    · intro recs hr x hx
      rw [a.record, hrl]
      exact (hgr recs hr).2.2 x hx
    · rw [p2, UInt64.toNat_ofNat', hcount, Nat.mod_eq_of_lt hn]
  · refine ⟨hd.vlrs hw.storable, ⟨wktBytes w.cfg.wkt, ?_⟩, fun recs hr => ⟨(hgr recs hr).2.1, hsmall recs hr⟩⟩
    rw [hpo, htab, show otpd + 8 + (chunkData (ulog log)).length + 8 = otpd + 8 + (chunkData (ulog log)).length + 4 + 4 by omega,
      ← List.drop_drop, ← List.drop_drop, h3, List.drop_left' (length_leN 4 _), List.drop_left' (length_leN 4 _)]
    congr 2
    rw [hu]
    unfold sizes
    rw [List.map_map]
    apply List.map_congr_left
    intro recs hr
    have := hsmall recs hr
    simp only [Function.comp, Prod.mk.injEq, true_and]
    omega

/-- A file with extra bytes, statistics and three nodes. -/
example : ∃ data, Written Sample.L Sample.ord Sample.w0 Sample.w Sample.hist data ∧ (addedNodes Sample.hist).length = 3 :=
  ⟨_, sample_written, sample_sum.2.2.2⟩

/-- A LAZ file with extra bytes, a WKT string and three chunks. -/
example : ∃ data, LazWritten LazSample.L LazSample.w0 LazSample.w LazSample.hist data ∧
    LazSample.w.cfg.wkt ≠ [] ∧ (chunkCalls LazSample.hist).length = 3 ∧
    ∃ recss, List.Forall₂ (LazOp.Gives LazSample.L LazSample.w0.cfg.header) (chunkCalls LazSample.hist) recss :=
  ⟨_, lazSample_written, by decide +kernel, by rw [lazSample_calls]; rfl, _, by
    rw [lazSample_calls]
    exact .cons lazSample_points1 (.cons lazSample_compressed (.cons lazSample_points2 .nil))⟩

end Copc
