import Verif.Lemmas.RecFile
import Verif.Spec.Metadata
import Verif.Props.WriterCounts
import Verif.Props.WriterHead
import Verif.Props.Extents
/-! # A closed file read back -/
namespace Copc
open Spec

/-! ### Payloads -/

theorem info_decode (i : CopcInfo) (g : Extent) : CopcInfo.decode (i.encode g) = i := by
  unfold CopcInfo.decode CopcInfo.encode
  simp only [getD_put, getU64_put]

theorem ebField_decode {f : EbField} (h : EbOk f) (rest : Bytes) : EbField.decode (f.encode ++ rest) = (f, rest) := by
  unfold EbField.decode EbField.encode
  rw [padTo_of_length h.reserved, padTo_of_length h.unused]
  simp only [List.append_assoc, getRaw_append h.reserved, getRaw_append h.unused, getU8_put, getRaw_padTo, getV_put,
    trimNul_padTo h.name.1 h.name.2, trimNul_padTo h.description.1 h.description.2]

theorem getEb_putEb {l : List EbField} (h : ∀ f ∈ l, EbOk f) : getEb (putEb l).length (putEb l) = l := by
  unfold getEb
  rw [List.take_length, length_putEb, Nat.mul_div_cancel_left _ (by omega)]
  have := getMany_flatMap (p := EbField.decode) (f := EbField.encode) l (fun a ha rest => ebField_decode (h a ha) rest) []
  rw [List.append_nil] at this
  rw [putEb, this]

/-! ### The records of a closed file -/

/-- The extra-byte and LAZ VLRs. -/
def lazRecs (L : Lazperf) (c : LazConfig) (eb : Nat) : List VRec :=
  (if eb > 0 then [⟨false, idSpec, 4, [], putEb c.eb⟩] else []) ++
    [⟨false, idLaz, 22204, BaseW.descLaz, L.lazVlr c.header.fmt eb⟩]

def statRecs (c : CopcConfig) : List VRec :=
  if c.extents.extStats then
    [⟨false, idRock, 10001, BaseW.descStats, Extents.putItems c.extents.toVlrExtended⟩] else []

/-- The VLRs of a COPC file. -/
def copcRecs (L : Lazperf) (c : CopcConfig) (eb : Nat) (gps : Extent) : List VRec :=
  ⟨false, idCopc, 1, BaseW.descInfo, c.info.encode gps⟩ ::
  ⟨false, idCopc, 10000, BaseW.descExtents, Extents.putItems c.extents.toVlr⟩ ::
  (statRecs c ++ lazRecs L c.toLazConfig eb)

theorem copcRecs_bytes (L : Lazperf) (c : CopcConfig) (eb : Nat) (gps : Extent) :
    (copcRecs L c eb gps).flatMap VRec.bytes = copcVlrs L c eb gps := by
  unfold copcRecs copcVlrs lazRecs lazVlrs statRecs
  have key : ∀ u i d p, (VRec.mk false u i d p).bytes = BaseW.vlrBytes u i d p := fun _ _ _ _ => rfl
  simp only [List.flatMap_cons, List.flatMap_append, key]
  congr 3
  · split <;> simp [key]
  · congr 1
    · split <;> simp [key]
    · simp

/-- The extended VLRs of the pages written from position `pos`. -/
def pageRecs (ord : Order) (pages : List (VoxelKey × WPage)) (hier : List (VoxelKey × VoxelKey)) :
    Nat → List (VoxelKey × (Nat × Nat)) → List VoxelKey → List VRec
  | _, _, [] => []
  | pos, placed, k :: ks =>
    let size := pageSize pages hier k
    let placed' := AList.put k (pos + (Writer.pageHeader k size).length, size) placed
    ⟨true, idCopc, 1000, Writer.keyString k, pageBody ord pages hier placed' k⟩ ::
      pageRecs ord pages hier
        (pos + (Writer.pageHeader k size ++ pageBody ord pages hier placed' k).length) placed' ks

theorem pageRecs_bytes (ord : Order) (pages : List (VoxelKey × WPage)) (hier : List (VoxelKey × VoxelKey)) :
    ∀ (ks : List VoxelKey) (pos : Nat) (placed : List (VoxelKey × (Nat × Nat))),
    (pageRecs ord pages hier pos placed ks).flatMap VRec.bytes = (layoutPages ord pages hier pos placed ks).1
  | [], _, _ => rfl
  | k :: ks, pos, placed => by
    rw [pageRecs, layoutPages]
    simp only [List.flatMap_cons]
    rw [pageRecs_bytes ord pages hier ks]
    congr 1
    unfold VRec.bytes VRec.hbytes VRec.header
    simp only [if_true, length_pageBody]
    rfl

theorem pageRecs_facts (ord : Order) (pages : List (VoxelKey × WPage)) (hier : List (VoxelKey × VoxelKey)) :
    ∀ (ks : List VoxelKey) (pos : Nat) (placed : List (VoxelKey × (Nat × Nat))),
    (pageRecs ord pages hier pos placed ks).length = ks.length ∧
    ∀ v ∈ pageRecs ord pages hier pos placed ks, v.evlr = true ∧ v.user = idCopc ∧ v.id = 1000 ∧
      ∃ k ∈ ks, v.payload.length = pageSize pages hier k
  | [], _, _ => by simp [pageRecs]
  | k :: ks, pos, placed => by
    rw [pageRecs]
    obtain ⟨h1, h2⟩ := pageRecs_facts ord pages hier ks
      (pos + (Writer.pageHeader k (pageSize pages hier k) ++ pageBody ord pages hier
        (AList.put k (pos + (Writer.pageHeader k (pageSize pages hier k)).length, pageSize pages hier k) placed) k).length)
      (AList.put k (pos + (Writer.pageHeader k (pageSize pages hier k)).length, pageSize pages hier k) placed)
    refine ⟨by simp only [List.length_cons, h1], ?_⟩
    intro v hv
    rcases List.mem_cons.1 hv with rfl | hv
    · exact ⟨rfl, rfl, rfl, k, by simp, length_pageBody ..⟩
    · obtain ⟨a, b, c, q, hq, hl⟩ := h2 v hv
      exact ⟨a, b, c, q, by simp [hq], hl⟩

def wktRecs (wkt : Bytes) : List VRec := if wkt = [] then [] else [⟨true, idProj, 2112, [], wkt⟩]

theorem wktRecs_bytes (wkt : Bytes) : (wktRecs wkt).flatMap VRec.bytes = wktBytes wkt := by
  unfold wktRecs wktBytes
  split
  · rfl
  · simp [VRec.bytes, VRec.hbytes, VRec.header, BaseW.wktEvlr]

theorem copcRecs_fit {L : Lazperf} {c : CopcConfig} {eb : Nat} {gps : Extent} (he : c.eb.length ≤ 341)
    (hx : c.extents.extents.length ≤ 4095) : ∀ v ∈ copcRecs L c eb gps, v.evlr = false ∧ v.Fit := by
  have hi : lazItems c.header.fmt eb ≤ 3 := by unfold lazItems; split <;> split <;> omega
  have key : ∀ (u : Bytes) (i : UInt16) (d p : Bytes), NoNul u → u.length ≤ 16 → p.length < 65536 →
      (VRec.mk false u i d p).evlr = false ∧ (VRec.mk false u i d p).Fit :=
    fun u i d p h1 h2 h3 => ⟨rfl, h1, h2, h3⟩
  intro v hv
  unfold copcRecs statRecs lazRecs at hv
  simp only [List.mem_cons, List.mem_append] at hv
  rcases hv with rfl | rfl | hv | hv | hv | hv
  · exact key _ _ _ _ (by decide) (by decide) (by rw [length_info]; omega)
  · exact key _ _ _ _ (by decide) (by decide) (by
      rw [length_putItems]; simp only [Extents.toVlr, List.length_map]; omega)
  · split at hv
    · obtain rfl := List.mem_singleton.1 hv
      exact key _ _ _ _ (by decide) (by decide) (by
        rw [length_putItems]; simp only [Extents.toVlrExtended, List.length_map]; omega)
    · cases hv
  · split at hv
    · obtain rfl := List.mem_singleton.1 hv
      exact key _ _ _ _ (by decide) (by decide) (by rw [length_putEb]; show 192 * c.eb.length < _; omega)
    · cases hv
  · subst hv
    exact key _ _ _ _ (by decide) (by decide) (by rw [L.lazVlr_length]; omega)
  · cases hv

theorem copcRecs_length (L : Lazperf) (c : CopcConfig) (eb : Nat) (gps : Extent) :
    (copcRecs L c eb gps).length = (if eb ≠ 0 then 1 else 0) + 1 + 2 + (if c.extents.extStats then 1 else 0) := by
  unfold copcRecs statRecs lazRecs
  by_cases h1 : eb > 0
  · have h2 : eb ≠ 0 := by omega
    cases c.extents.extStats <;> simp [h1, h2]
  · have h2 : ¬ eb ≠ 0 := by omega
    cases c.extents.extStats <;> simp [h1, h2]

/-- The extended VLRs of a closed file. -/
def evRecs (L : Lazperf) (ord : Order) (otpd : Nat) (log : List (Nat × Bytes))
    (hier : List (VoxelKey × VoxelKey)) (w : Writer) : List VRec :=
  pageRecs ord w.pages hier (otpd + (bodyBytes L otpd log).length) []
    (Writer.visit ord hier (Writer.levels w.pages) VoxelKey.root) ++ wktRecs w.cfg.wkt

theorem CloseOk.visit_length {L : Lazperf} {ord : Order} {otpd : Nat} {log : List (Nat × Bytes)} {w w' : Writer}
    {hier : List (VoxelKey × VoxelKey)} {eb : Nat} {h14 : Header14} {gps : Extent}
    (h : CloseOk L ord otpd log w w' hier eb h14 gps) (hp : PageInv w) :
    (Writer.visit ord hier (Writer.levels w.pages) VoxelKey.root).length = w.pages.length := by
  obtain ⟨_, hv, hnd, hmem, _⟩ := h.tree hp
  have : (Writer.visit ord hier (Writer.levels w.pages) VoxelKey.root).Perm (AList.keys w.pages) := by
    refine (List.perm_ext_iff_of_nodup hnd hp.nodup).2 fun m => ?_
    rw [hmem]
    exact ⟨fun x => x.1, fun x => ⟨x, ((inOctree_iff_below m).1 ((hierarchy_iff hp).1 ⟨hier, h.hier_ok⟩ m x)).2⟩⟩
  rw [this.length_eq]
  simp [AList.keys]

theorem closedCfg_facts (L : Lazperf) (ord : Order) (otpd : Nat) (log : List (Nat × Bytes))
    (hier : List (VoxelKey × VoxelKey)) (w : Writer) :
    (closedCfg L ord otpd log hier w).toLazConfig = w.cfg.toLazConfig ∧
    (closedCfg L ord otpd log hier w).extents = w.cfg.extents := setRoot_header _ _

theorem CloseOk.recFile {L : Lazperf} {ord : Order} {otpd : Nat} {log : List (Nat × Bytes)} {w w' : Writer}
    {hier : List (VoxelKey × VoxelKey)} {eb : Nat} {h14 : Header14} {gps : Extent}
    (h : CloseOk L ord otpd log w w' hier eb h14 gps) (hp : PageInv w) (hr : w.cfg.header.pointsByReturn.length = 15)
    (he : w.cfg.eb.length ≤ 341) (hx : w.cfg.extents.extents.length ≤ 4095)
    (hflag : w.cfg.header.copcFlag = true) (hlen : w'.base.out.data.length < 2 ^ 63)
    (hfew : w.pages.length + 1 < 2 ^ 31) :
    RecFile w'.base.out.data h14 (copcRecs L w'.cfg eb gps) (evRecs L ord otpd log hier w) := by
  obtain ⟨hfit, hdata, _, _, _, _, hcfg, _, _⟩ := h.closed
  obtain ⟨hc1, hc2⟩ := closedCfg_facts L ord otpd log hier w
  have hs := toLazPerf_sized hr h.header
  have hev : (evRecs L ord otpd log hier w).flatMap VRec.bytes =
      (closeLayout L ord otpd log hier w).1 ++ wktBytes w.cfg.wkt := by
    rw [evRecs, List.flatMap_append, pageRecs_bytes, wktRecs_bytes]; rfl
  have hvl := h.visit_length hp
  obtain ⟨hpl, hpf⟩ := pageRecs_facts ord w.pages hier
    (Writer.visit ord hier (Writer.levels w.pages) VoxelKey.root) (otpd + (bodyBytes L otpd log).length) []
  have hvs : vsize (copcRecs L w'.cfg eb gps) + 375 = (headBlock L (closedCfg L ord otpd log hier w) eb gps h14).length := by
    rw [headBlock, List.length_append, Header14.length_encode hs, ← copcRecs_bytes, hcfg]
    unfold vsize; omega
  have hhead : h14.headerSize = 375 ∧ h14.evlrOffset = UInt64.ofNat (preHeader L ord otpd log hier w).base.evlrOffset ∧
      h14.evlrCount = UInt32.ofNat (preHeader L ord otpd log hier w).base.evlrCount := by
    have hh := h.header
    unfold LasHeader.toLazPerf at hh
    rw [hflag] at hh
    simp only [Bool.not_true, Bool.and_false, Bool.false_eq_true, if_false] at hh
    obtain rfl := Res.ok.inj hh
    exact ⟨rfl, rfl, rfl⟩
  have hsum : otpd + (bodyBytes L otpd log).length ≤ w'.base.out.data.length := by
    rw [hdata, fileBytes, List.length_append, length_headArea hfit, List.length_append]; omega
  have heo : h14.evlrOffset.toNat = otpd + (bodyBytes L otpd log).length := by
    rw [hhead.2.1, preHeader_eq]
    simp only
    exact UInt64.toNat_ofNat_of_lt' (by rw [UInt64.size]; omega)
  have hwl : (wktRecs w.cfg.wkt).length = if w.cfg.wkt = [] then 0 else 1 := by
    unfold wktRecs; split <;> rfl
  have hel : (evRecs L ord otpd log hier w).length = w.pages.length + if w.cfg.wkt = [] then 0 else 1 := by
    rw [evRecs, List.length_append, hpl, hvl, hwl]
  have hec : h14.evlrCount.toNat = (evRecs L ord otpd log hier w).length := by
    rw [hhead.2.2, preHeader_eq, hel]
    simp only
    split
    · rw [Nat.mod_eq_of_lt (by omega), UInt32.toNat_ofNat_of_lt' (by rw [UInt32.size]; omega)]; rfl
    · rw [Nat.mod_eq_of_lt (show w.pages.length < 2 ^ 32 by omega), Nat.mod_eq_of_lt (by omega),
        UInt32.toNat_ofNat_of_lt' (by rw [UInt32.size]; omega)]
  refine ⟨hs, hhead.1, ?_, ?_, ?_, ?_, hec, ?_, ?_, ?_, hlen⟩
  · refine ⟨List.replicate (otpd - (headBlock L (closedCfg L ord otpd log hier w) eb gps h14).length) 0 ++
      (bodyBytes L otpd log ++ ((closeLayout L ord otpd log hier w).1 ++ wktBytes w.cfg.wkt)), ?_⟩
    rw [hdata, fileBytes, headArea, headBlock, copcRecs_bytes, hcfg]
    simp only [List.append_assoc]
  · refine ⟨headArea L (closedCfg L ord otpd log hier w) eb gps h14 otpd ++ bodyBytes L otpd log, [], ?_, ?_⟩
    · rw [hdata, hev, fileBytes, List.append_nil]
      simp only [List.append_assoc]
    · rw [List.length_append, length_headArea hfit, heo]
  · rw [heo]; omega
  · rw [(closed_vlrCount hflag h.header).1, copcRecs_length, hcfg, hc2]
  · rw [hel]; split <;> omega
  · rw [hcfg]
    exact copcRecs_fit (by rw [hc1]; exact he) (by rw [hc2]; exact hx)
  · intro v hv
    rw [evRecs] at hv
    rcases List.mem_append.1 hv with hv | hv
    · obtain ⟨h1, h2, _, k, hk, h3⟩ := hpf v hv
      have := h.small k hk
      refine ⟨h1, ?_, ?_, ?_⟩
      · rw [h2]; decide
      · rw [h2]; decide
      · rw [h1, if_pos rfl]; omega
    · unfold wktRecs at hv
      split at hv
      · cases hv
      · obtain rfl := List.mem_singleton.1 hv
        refine ⟨rfl, by show NoNul idProj; decide, by show idProj.length ≤ 16; decide, ?_⟩
        show w.cfg.wkt.length < 2 ^ 63
        have : w.cfg.wkt.length ≤ w'.base.out.data.length := by
          rw [hdata, fileBytes]
          simp only [List.length_append, wktBytes, if_neg ‹¬ w.cfg.wkt = []›, BaseW.wktEvlr]
          omega
        omega

end Copc
