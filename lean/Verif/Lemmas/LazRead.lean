import Verif.Model.LazReader
import Verif.Spec.LazReader
import Verif.Lemmas.ClosedOpen
import Verif.Props.LazWriter
/-! # Opening and reading a LAZ file -/
namespace Copc
open Spec

section
variable {data : Bytes} {h14 : Header14} {L : Lazperf} {c : LazConfig} {eb : Nat} {vs es : List VRec}

theorem lazRecs_wkt : ∀ w ∈ lazRecs L c eb, ¬w.Is idProj 2112 := by
  intro w hw
  have hne : ∀ u, u ≠ idProj → w.user = u → ¬w.Is idProj 2112 := fun u h1 h2 h3 => h1 (h2.symm.trans h3.1)
  unfold lazRecs at hw
  simp only [List.mem_append] at hw
  rcases hw with hw | hw
  · split at hw
    · obtain rfl := List.mem_singleton.1 hw
      exact hne idSpec (by decide) rfl
    · cases hw
  · obtain rfl := List.mem_singleton.1 hw
    exact hne idLaz (by decide) rfl

theorem lazRecs_bytes (L : Lazperf) (c : LazConfig) (eb : Nat) : (lazRecs L c eb).flatMap VRec.bytes = lazVlrs L c eb := by
  unfold lazRecs lazVlrs
  have key : ∀ u i d p, (VRec.mk false u i d p).bytes = BaseW.vlrBytes u i d p := fun _ _ _ _ => rfl
  rw [List.flatMap_append]
  congr 1
  · split <;> simp [key]
  · simp [key]

theorem lazRecs_fit (he : c.eb.length ≤ 341) : ∀ v ∈ lazRecs L c eb, v.evlr = false ∧ v.Fit := by
  have hi : lazItems c.header.fmt eb ≤ 3 := by unfold lazItems; split <;> split <;> omega
  have key : ∀ (u : Bytes) (i : UInt16) (d p : Bytes), NoNul u → u.length ≤ 16 → p.length < 65536 →
      (VRec.mk false u i d p).evlr = false ∧ (VRec.mk false u i d p).Fit :=
    fun u i d p h1 h2 h3 => ⟨rfl, h1, h2, h3⟩
  intro v hv
  unfold lazRecs at hv
  simp only [List.mem_append] at hv
  rcases hv with hv | hv
  · split at hv
    · obtain rfl := List.mem_singleton.1 hv
      exact key _ _ _ _ (by decide) (by decide) (by rw [length_putEb]; omega)
    · cases hv
  · obtain rfl := List.mem_singleton.1 hv
    exact key _ _ _ _ (by decide) (by decide) (by rw [L.lazVlr_length]; omega)

theorem lazRecs_length (L : Lazperf) (c : LazConfig) (eb : Nat) :
    (lazRecs L c eb).length = (if eb ≠ 0 then 1 else 0) + 1 := by
  unfold lazRecs
  by_cases h1 : eb > 0
  · have h2 : eb ≠ 0 := by omega
    simp [h1, h2]
  · have h2 : ¬ eb ≠ 0 := by omega
    simp [h1, h2]

theorem readWkt_rec (h : RecFile data h14 vs es) (hv : ∀ w ∈ vs, ¬w.Is idProj 2112) {wkt : Bytes}
    (hw : WktIn wkt es) (hl : wkt.length < 2 ^ 31) (p : Nat) :
    ∃ q, BaseReader.readWkt (RecFile.table h14 vs es) ⟨data, p, false⟩ = (.ok wkt, ⟨data, q, false⟩) := by
  by_cases hx : ∃ v ∈ es, v.Is idProj 2112
  · obtain ⟨l1, v, l2, hes, hv', hl1⟩ := find_split (fun v : VRec => v.Is idProj 2112) es hx
    subst hes
    have hpay : v.payload = wkt := hw.1 v (by simp) hv'
    obtain ⟨pre, rest, hd, hpre⟩ := h.split_evlr
    have hap := h.apart
    unfold BaseReader.readWkt
    rw [h.fetch_evlr hv hl1 hv']
    simp only
    rw [h.length_evlr (by rw [hpay]; exact hl), if_pos (by omega), BaseReader.readPayload, if_neg (by omega), Int.toNat_natCast,
      readFilled_at hd h.len hpre.symm p rfl, hpay]
    exact ⟨_, rfl⟩
  · simp only [not_exists, not_and] at hx
    unfold BaseReader.readWkt
    rw [h.fetch_none hv hx]
    simp only [ne_eq, not_true_eq_false, if_false]
    exact ⟨p, by rw [hw.2 hx]⟩

theorem readEb_laz (h : RecFile data h14 (lazRecs L c eb) es) (hes : ∀ v ∈ es, ¬v.Is idSpec 4)
    (heb : eb > 0 ↔ c.eb ≠ []) (hok : ∀ f ∈ c.eb, EbOk f) (p : Nat) :
    ∃ q, BaseReader.readEb (RecFile.table h14 (lazRecs L c eb) es) ⟨data, p, false⟩ =
      (.ok c.eb, ⟨data, q, false⟩) := by
  have hlaz : ¬(VRec.mk false idLaz 22204 BaseW.descLaz (L.lazVlr c.header.fmt eb)).Is idSpec 4 := by
    intro hc
    exact absurd (show idLaz = idSpec from hc.1) (by decide)
  by_cases he : eb > 0
  · have hrec : lazRecs L c eb = [] ++
        ⟨false, idSpec, 4, [], putEb c.eb⟩ :: [⟨false, idLaz, 22204, BaseW.descLaz, L.lazVlr c.header.fmt eb⟩] := by
      unfold lazRecs
      rw [if_pos he]
      rfl
    rw [hrec] at h ⊢
    obtain ⟨pre, rest, hd, hpre⟩ := h.split_vlr
    unfold BaseReader.readEb
    rw [h.fetch_vlr (by simp) ⟨rfl, rfl⟩]
    simp only
    rw [h.length_vlr, if_pos (by omega), BaseReader.readPayload, if_neg (by omega), Int.toNat_natCast,
      readFilled_at hd h.len hpre.symm p rfl]
    simp only [Res.bind, getEb_putEb hok]
    exact ⟨_, rfl⟩
  · have hnil : c.eb = [] := by
      by_contra hc
      exact he (heb.2 hc)
    have : ∀ w ∈ lazRecs L c eb, ¬w.Is idSpec 4 := by
      intro w hw
      unfold lazRecs at hw
      rw [if_neg he, List.nil_append] at hw
      rw [List.mem_singleton.1 hw]; exact hlaz
    unfold BaseReader.readEb
    rw [h.fetch_none this hes]
    simp only [ne_eq, not_true_eq_false, if_false]
    exact ⟨p, by rw [hnil]⟩

end

theorem wktRecs_in (wkt : Bytes) : WktIn wkt (wktRecs wkt) := by
  unfold wktRecs
  refine ⟨?_, ?_⟩
  · intro v hv _
    split at hv
    · cases hv
    · rw [List.mem_singleton.1 hv]
  · intro hall
    by_contra hne
    rw [if_neg hne] at hall
    exact hall _ (List.mem_singleton.2 rfl) ⟨rfl, rfl⟩

/-- What is known of a LAZ writer that was closed. -/
structure LazDone (L : Lazperf) (c : LazConfig) (eb : Nat) (h14 : Header14) (otpd : Nat) (log : List (Nat × Bytes))
    (count : Nat) (data : Bytes) : Prop where
  eb_ok : c.header.ebSize = .ok eb
  header : lazHeader14 c otpd eb count (otpd + (bodyBytes L otpd log).length) = .ok h14
  fit : (lazHead L c eb h14).length ≤ otpd
  data_eq : data = lazFile L c eb h14 otpd log
  flag : c.header.copcFlag = false
  small : otpd < 2 ^ 32
  size : data.length < 2 ^ 63

namespace LazDone
variable {L : Lazperf} {c : LazConfig} {eb : Nat} {h14 : Header14} {otpd : Nat} {log : List (Nat × Bytes)}
  {count : Nat} {data : Bytes}

theorem area (h : LazDone L c eb h14 otpd log count data) :
    (lazHead L c eb h14 ++ List.replicate (otpd - (lazHead L c eb h14).length) 0).length = otpd := by
  have := h.fit
  rw [List.length_append, List.length_replicate]; omega

theorem total (h : LazDone L c eb h14 otpd log count data) :
    data.length = otpd + (bodyBytes L otpd log).length + (wktBytes c.wkt).length := by
  rw [h.data_eq, lazFile, List.length_append, h.area, List.length_append]; omega

theorem recFile (h : LazDone L c eb h14 otpd log count data) (hr : c.header.pointsByReturn.length = 15)
    (he : c.eb.length ≤ 341) : RecFile data h14 (lazRecs L c eb) (wktRecs c.wkt) := by
  have hs := toLazPerf_sized hr h.header
  obtain ⟨f1, f2, f3, f4, f5⟩ := lazHeader_facts h.flag h.header
  have htot := h.total
  have hsize := h.size
  have hfit := h.fit
  have harea := h.area
  have hblock : (lazHead L c eb h14).length = 375 + vsize (lazRecs L c eb) := by
    rw [lazHead, List.length_append, Header14.length_encode hs]; unfold vsize; rw [lazRecs_bytes]
  have heo : h14.evlrOffset.toNat = otpd + (bodyBytes L otpd log).length := by
    rw [f3, UInt64.toNat_ofNat', Nat.mod_eq_of_lt (by omega)]
  have hwl : (wktRecs c.wkt).length = if c.wkt = [] then 0 else 1 := by
    unfold wktRecs; split <;> rfl
  have h375 : h14.headerSize = 375 := by
    have hh := h.header
    unfold lazHeader14 LasHeader.toLazPerf at hh
    rw [h.flag] at hh
    simp only [Bool.false_and, Bool.false_eq_true, if_false] at hh
    obtain rfl := Res.ok.inj hh
    rfl
  refine ⟨hs, h375, ?_, ?_, ?_, ?_, ?_, ?_, lazRecs_fit he, ?_, hsize⟩
  · refine ⟨List.replicate (otpd - (lazHead L c eb h14).length) 0 ++
      (bodyBytes L otpd log ++ wktBytes c.wkt), ?_⟩
    rw [h.data_eq, lazFile, lazHead, lazRecs_bytes]
    simp only [List.append_assoc]
  · refine ⟨lazHead L c eb h14 ++ List.replicate (otpd - (lazHead L c eb h14).length) 0 ++ bodyBytes L otpd log, [], ?_, ?_⟩
    · rw [h.data_eq, wktRecs_bytes, lazFile, List.append_nil]
      simp only [List.append_assoc]
    · rw [List.length_append, harea, heo]
  · rw [heo]; omega
  · rw [f5, lazRecs_length]
  · rw [f4, hwl]; split <;> rfl
  · rw [hwl]; split <;> omega
  · intro v hv
    unfold wktRecs at hv
    split at hv
    · cases hv
    · rename_i hne
      obtain rfl := List.mem_singleton.1 hv
      refine ⟨rfl, by show NoNul idProj; decide, by show idProj.length ≤ 16; decide, ?_⟩
      show c.wkt.length < 2 ^ 63
      have : (wktBytes c.wkt).length = vsize (wktRecs c.wkt) := by unfold vsize; rw [wktRecs_bytes]
      have e : vsize (wktRecs c.wkt) = 60 + c.wkt.length := by
        unfold wktRecs
        rw [if_neg hne, vsize_cons, vsize_nil]
        rfl
      omega

theorem opens (h : LazDone L c eb h14 otpd log count data) (hs : LazStorable c) :
    ∃ q, BaseReader.init ⟨data, 0, false⟩ = .ok ⟨⟨data, q, false⟩, stripFormat h14,
      RecFile.table h14 (lazRecs L c eb) (wktRecs c.wkt), ⟨c.header.restored h14, c.wkt, c.eb⟩⟩ := by
  have hrf := h.recFile hs.header.byReturn hs.few
  have hebs : eb = (c.eb.map lasItemSize).sum := by
    have := h.eb_ok
    rw [(lazConsistent_eb hs.toLazConsistent).1] at this
    exact (Res.ok.inj this).symm
  have hsum := sum_pos hs.items
  obtain ⟨q1, r1⟩ := hrf.readHeaders 0
  obtain ⟨q2, r2⟩ := readWkt_rec hrf lazRecs_wkt (wktRecs_in _) hs.wktLen q1
  obtain ⟨q3, r3⟩ := readEb_laz hrf (by
    intro v hv hc
    unfold wktRecs at hv
    split at hv
    · cases hv
    · rw [List.mem_singleton.1 hv] at hc
      exact absurd (show idProj = idSpec from hc.1) (by decide)) (by
    rw [hebs]
    constructor
    · intro hgt hc
      rw [hc] at hgt
      simp at hgt
    · intro hne
      have := List.length_pos_iff.2 hne
      omega) hs.descriptors q2
  obtain ⟨r14, hr1, hr2, hr3⟩ := C19_roundtrip_partial c.header hs.header (UInt32.ofNat otpd) (UInt64.ofNat count)
      (UInt64.ofNat (otpd + (bodyBytes L otpd log).length))
      (UInt32.ofNat (if c.wkt = [] then 0 else 1)) (eb ≠ 0) false (by simp)
  have hr14 : r14 = h14 := by
    have := h.header
    unfold lazHeader14 at this
    rw [hr1] at this
    exact Res.ok.inj this
  subst hr14
  obtain ⟨f1, f2, f3, f4, _⟩ := lazHeader_facts h.flag h.header
  have hhd : LasHeader.fromLazPerf (stripFormat r14) = .ok (c.header.restored r14) := by
    have := hr3 []
    rw [Header14.decode_encode hrf.sized] at this
    rw [this]
    unfold LasHeader.restored
    rw [f1, f2, f3, f4]
  refine ⟨q3, ?_⟩
  unfold BaseReader.init
  rw [if_neg (by simp), hrf.readHeader]
  simp only [Res.bind]
  rw [hhd]
  simp only [r1, r2, r3]


theorem body (h : LazDone L c eb h14 otpd log count data) :
    data.drop otpd = bodyBytes L otpd log ++ wktBytes c.wkt := by
  rw [h.data_eq, lazFile, List.drop_left' h.area]

theorem pointOffset (h : LazDone L c eb h14 otpd log count data) : h14.pointOffset.toNat = otpd := by
  obtain ⟨f1, _⟩ := lazHeader_facts h.flag h.header
  rw [f1, UInt32.toNat_ofNat', Nat.mod_eq_of_lt h.small]

theorem ahead (h : LazDone L c eb h14 otpd log count data) :
    data.drop (otpd + 8) = chunkData log ++ (tableBytes L log ++ wktBytes c.wkt) := by
  rw [← List.drop_drop, h.body, bodyBytes]
  simp only [List.append_assoc]
  rw [List.drop_left' (length_leN 8 _)]

theorem chunkTable (h : LazDone L c eb h14 otpd log count data) (hl : log.length < 2 ^ 32)
    (hc : ∀ x ∈ log, x.1 < 2 ^ 32 ∧ x.2.length % 2 ^ 64 < 2 ^ 32) :
    LazReader.chunkTable L 4294967295 (stripFormat h14) data = .ok (log.map (·.1)) := by
  have ho : (stripFormat h14).pointOffset.toNat = otpd := h.pointOffset
  have htot := h.total
  have hb := length_bodyBytes L otpd log
  have hsz := h.size
  have h1 : (data.drop otpd).length = (bodyBytes L otpd log).length + (wktBytes c.wkt).length := by
    rw [h.body, List.length_append]
  have h2 : getN 8 (data.drop otpd) = otpd + 8 + (chunkData log).length := by
    rw [h.body, bodyBytes]
    simp only [List.append_assoc]
    rw [getN_leN, Nat.mod_eq_of_lt (by omega)]
  have h3 : data.drop (otpd + 8 + (chunkData log).length) = tableBytes L log ++ wktBytes c.wkt := by
    rw [← List.drop_drop, h.ahead, List.drop_left' rfl]
  have h4 : 8 ≤ (tableBytes L log).length := by
    unfold tableBytes; simp only [List.length_append, length_leN]; omega
  have h5 : tableBytes L log ++ wktBytes c.wkt = leN 4 0 ++ (leN 4 log.length ++ (L.table (sizes log) ++ wktBytes c.wkt)) := by
    unfold tableBytes; simp only [List.append_assoc]
  have h6 : getN 4 (tableBytes L log ++ wktBytes c.wkt) = 0 := by rw [h5, getN_leN]
  have h7 : (tableBytes L log ++ wktBytes c.wkt).drop 4 = leN 4 log.length ++ (L.table (sizes log) ++ wktBytes c.wkt) := by
    rw [h5, List.drop_left' (length_leN 4 _)]
  have h8 : (tableBytes L log ++ wktBytes c.wkt).drop 8 = L.table (sizes log) ++ wktBytes c.wkt := by
    rw [show (8 : Nat) = 4 + 4 from rfl, ← List.drop_drop, h7, List.drop_left' (length_leN 4 _)]
  have h9 : getN 4 (leN 4 log.length ++ (L.table (sizes log) ++ wktBytes c.wkt)) = (sizes log).length := by
    rw [getN_leN, Nat.mod_eq_of_lt (by omega)]; simp [sizes]
  have h10 : L.readTable (sizes log).length (L.table (sizes log) ++ wktBytes c.wkt) = sizes log := by
    refine L.table_lossless _ _ ?_
    intro x hx
    unfold sizes at hx
    obtain ⟨y, hy, rfl⟩ := List.mem_map.1 hx
    exact hc y hy
  unfold LazReader.chunkTable
  simp only [ho]
  rw [if_neg (by rw [h1]; omega), h2, h3, if_neg (by rw [List.length_append]; omega), if_neg (by rw [h6]; simp), if_pos trivial, h7, h8, h9, h10]
  simp [sizes]

theorem chunkSize (h : LazDone L c eb h14 otpd log count data) (hs : LazStorable c) :
    LazReader.chunkSize (RecFile.table h14 (lazRecs L c eb) (wktRecs c.wkt)) data = .ok 4294967295 := by
  have hrf := h.recFile hs.header.byReturn hs.few
  have key : ∀ l : List VRec, (∀ w ∈ l, ¬w.Is idLaz 22204) →
      lazRecs L c eb = l ++ ⟨false, idLaz, 22204, BaseW.descLaz, L.lazVlr c.header.fmt eb⟩ :: [] →
      LazReader.chunkSize (RecFile.table h14 (lazRecs L c eb) (wktRecs c.wkt)) data = .ok 4294967295 := by
    intro l hl he
    rw [he] at hrf ⊢
    obtain ⟨pre, rest, hd, hp⟩ := hrf.split_vlr
    unfold LazReader.chunkSize
    rw [hrf.fetch_vlr hl ⟨rfl, rfl⟩]
    simp only
    rw [if_neg (by omega), hd, ← hp, ← List.drop_drop, List.drop_left' rfl, List.drop_append_of_le_length (by rw [L.lazVlr_length]; omega)]
    have h16 : 4 ≤ ((L.lazVlr c.header.fmt eb).drop 12).length := by rw [List.length_drop, L.lazVlr_length]; omega
    have : getN 4 ((L.lazVlr c.header.fmt eb).drop 12 ++ rest) = getN 4 ((L.lazVlr c.header.fmt eb).drop 12) := by
      unfold getN
      rw [List.take_append_of_le_length h16]
    rw [this, L.lazVlr_varying]
  by_cases he : eb > 0
  · refine key [⟨false, idSpec, 4, [], putEb c.eb⟩] ?_ ?_
    · intro w hw hc
      rw [List.mem_singleton.1 hw] at hc
      exact absurd (show idSpec = idLaz from hc.1) (by decide)
    · unfold lazRecs
      rw [if_pos he]
  · refine key [] (by simp) ?_
    unfold lazRecs
    rw [if_neg he]

end LazDone

/-- The numbers of points that a chunk table gives fit the chunks: only the last chunk may have fewer than the table says. -/
inductive CountsFit : List Nat → List (List Bytes) → Prop
  | nil (cs : List Nat) : CountsFit cs []
  | last {c : Nat} {recs : List Bytes} (cs : List Nat) : recs ≠ [] → recs.length ≤ c → CountsFit (c :: cs) [recs]
  | cons {recs : List Bytes} {cs : List Nat} {l : List (List Bytes)} : recs ≠ [] → CountsFit cs l →
      CountsFit (recs.length :: cs) (recs :: l)

theorem countsFit_map : ∀ {recss : List (List Bytes)}, (∀ recs ∈ recss, recs ≠ []) → CountsFit (recss.map (·.length)) recss
  | [], _ => .nil _
  | recs :: _, h => .cons (h recs (by simp)) (countsFit_map fun x hx => h x (by simp [hx]))

theorem countsFit_replicate {c : Nat} : ∀ {recss : List (List Bytes)}, (∀ recs ∈ recss, recs ≠ [] ∧ recs.length ≤ c) →
    (∀ recs ∈ recss.dropLast, recs.length = c) → CountsFit (List.replicate recss.length c) recss
  | [], _, _ => .nil _
  | [recs], h, _ => .last _ (h recs (by simp)).1 (h recs (by simp)).2
  | recs :: r2 :: l, h, hd => by
    have := hd recs (by simp)
    subst this
    refine CountsFit.cons (h recs (by simp)).1 (countsFit_replicate (fun x hx => h x (by simp [hx])) fun x hx => hd x ?_)
    rw [List.dropLast_cons_of_ne_nil (by simp)]
    exact List.mem_cons_of_mem _ hx

theorem readRecords_fit {L : Lazperf} {fmt : Int} {eb : Nat} (hf : fmt = 6 ∨ fmt = 7 ∨ fmt = 8) (rest : Bytes)
    {cs : List Nat} {recss : List (List Bytes)} (hc : CountsFit cs recss)
    (h : ∀ recs ∈ recss, ∀ r ∈ recs, r.length = lazBase fmt + eb) :
      LazReader.readRecords L fmt eb cs recss.flatten.length
        ((recss.map (L.compress fmt eb)).flatten ++ rest) = .ok recss.flatten := by
  have step : ∀ (c : Nat) (cs : List Nat) (recs : List Bytes) (l : List (List Bytes)), recs ≠ [] →
      (∀ r ∈ recs, r.length = lazBase fmt + eb) → min c (recs :: l).flatten.length = recs.length →
      LazReader.readRecords L fmt eb cs l.flatten.length ((l.map (L.compress fmt eb)).flatten ++ rest) = .ok l.flatten →
      LazReader.readRecords L fmt eb (c :: cs) (recs :: l).flatten.length
        (((recs :: l).map (L.compress fmt eb)).flatten ++ rest) = .ok (recs :: l).flatten := by
    intro c cs recs l h1 h2 hmin ih
    obtain ⟨m, hm⟩ : ∃ m, recs.length = m + 1 := ⟨recs.length - 1, by have := List.length_pos_iff.2 h1; omega⟩
    have hn : (recs :: l).flatten.length = (m + l.flatten.length) + 1 := by
      rw [List.flatten_cons, List.length_append, hm]; omega
    rw [hn] at hmin ⊢
    rw [List.map_cons, LazReader.readRecords]
    have hk : (if c = 0 then m + l.flatten.length + 1 else min c (m + l.flatten.length + 1)) = recs.length := by
      rw [if_neg (by intro h0; rw [h0] at hmin; omega), hmin]
    simp only [hk]
    rw [List.flatten_cons, List.append_assoc, L.lossless fmt eb recs _ hf h2]
    simp only
    rw [L.consumes fmt eb recs _ hf h2 h1, List.drop_left' rfl,
      show m + l.flatten.length + 1 - recs.length = l.flatten.length by omega, ih]
    rfl
  induction hc with
  | nil cs => unfold LazReader.readRecords; cases cs <;> rfl
  | @last c recs cs h1 h2 =>
    refine step c cs recs [] h1 (h recs (by simp)) ?_ ?_
    · rw [List.flatten_cons, List.length_append]
      simp only [List.flatten_nil, List.length_nil, Nat.add_zero]
      omega
    · unfold LazReader.readRecords; cases cs <;> rfl
  | @cons recs cs l h1 _ ih =>
    refine step _ cs recs l h1 (h recs (by simp)) ?_ (ih fun x hx => h x (by simp [hx]))
    rw [List.flatten_cons, List.length_append]
    omega

theorem readRecords_chunks {L : Lazperf} {fmt : Int} {eb : Nat} (hf : fmt = 6 ∨ fmt = 7 ∨ fmt = 8) (rest : Bytes)
    (recss : List (List Bytes)) (h : ∀ recs ∈ recss, recs ≠ [] ∧ ∀ r ∈ recs, r.length = lazBase fmt + eb) :
      LazReader.readRecords L fmt eb (recss.map (·.length)) recss.flatten.length
        ((recss.map (L.compress fmt eb)).flatten ++ rest) = .ok recss.flatten :=
  readRecords_fit hf rest (countsFit_map fun recs hr => (h recs hr).1) fun recs hr => (h recs hr).2

end Copc
