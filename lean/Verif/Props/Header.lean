import Verif.Spec.Header
import Verif.Lemmas.Header
import Verif.Lemmas.FltOrder
/-! # C19, C20 (counts), C21: the LAS header -/
namespace Copc
open Spec

theorem strip_fmt {fmt : Int} (h : fmt = 6 ∨ fmt = 7 ∨ fmt = 8) :
    (UInt8.ofNat (fmt % 256).toNat ||| 0x80) &&& 0x3F = UInt8.ofNat fmt.toNat := by
  rcases h with rfl | rfl | rfl <;> decide

theorem wkt_bit (g : UInt16) : (g ||| 0x10) &&& 0x10 ≠ 0 := by
  intro h
  have := congrArg UInt16.toNat h
  simp only [UInt16.toNat_and, UInt16.toNat_or] at this
  have h4 : (g.toNat ||| 16) &&& 16 = 16 := by
    apply Nat.eq_of_testBit_eq
    intro i
    have e : (16 : Nat) = 2 ^ 4 := rfl
    rw [Nat.testBit_and, Nat.testBit_or, e, Nat.testBit_two_pow]
    by_cases hi : 4 = i <;> simp [hi]
  change (g.toNat ||| 16) &&& 16 = 0 at this
  omega

theorem toLazPerf_sized {h : LasHeader} (hr : h.pointsByReturn.length = 15) {po : UInt32} {pc eo : UInt64}
    {ec : UInt32} {eb xs : Bool} {r : Header14} (e : h.toLazPerf po pc eo ec eb xs = .ok r) :
    r.Sized := by
  unfold LasHeader.toLazPerf at e
  split at e
  · simp at e
  · obtain rfl := Res.ok.inj e
    refine ⟨rfl, length_strncpy _ _, length_strncpy _ _, length_strncpy _ _, rfl, hr⟩

/-- **C19** A header written to its 375 bytes and read back from the file is the same header, with the
WKT bit set and the counts and offsets it was written with. The flag `xs` (extended stats) is only
accepted with the COPC flag. -/
theorem C19_roundtrip_partial (h : LasHeader) (g : GoodHeader h) (po : UInt32) (pc eo : UInt64) (ec : UInt32)
    (eb xs : Bool) (hx : xs = true → h.copcFlag = true) :
    ∃ r, h.toLazPerf po pc eo ec eb xs = .ok r ∧ r.encode.length = 375 ∧ ∀ rest : Bytes,
      LasHeader.fromLazPerf (stripFormat (Header14.decode (r.encode ++ rest))) = .ok { h with
        globalEncoding := h.globalEncoding ||| 16
        pointCount := pc
        pointOffset := po
        evlrOffset := eo
        evlrCount := ec
        vlrCount := r.vlrCount
        copcFlag := true } := by
  have hc : (xs && !h.copcFlag) = false := by
    cases xs
    · rfl
    · simp [hx rfl]
  have e : ∃ r, h.toLazPerf po pc eo ec eb xs = .ok r := by
    unfold LasHeader.toLazPerf; rw [hc]; exact ⟨_, rfl⟩
  obtain ⟨r, e⟩ := e
  have hs := toLazPerf_sized g.byReturn e
  refine ⟨r, e, Header14.length_encode hs, fun rest => ?_⟩
  rw [Header14.decode_encode hs]
  unfold LasHeader.toLazPerf at e
  rw [hc] at e
  obtain rfl := Res.ok.inj e
  have hg := ofCharArray_strncpy g.guid.2 g.guid.1
  have hsy := ofCharArray_strncpy g.sys.2 g.sys.1
  have hge := ofCharArray_strncpy g.gen.2 g.gen.1
  have hf := strip_fmt g.fmt
  have hv : ¬ (UInt8.ofNat h.fmt.toNat < 6 ∨ UInt8.ofNat h.fmt.toNat > 8) ∧
      ((UInt8.ofNat h.fmt.toNat).toNat : Int) = h.fmt := by
    rcases g.fmt with e | e | e <;> rw [e] <;> decide
  simp only [LasHeader.fromLazPerf, stripFormat, if_neg (wkt_bit h.globalEncoding), hg, hsy, hge, hf]
  simp only [Res.bind, ne_eq, not_true_eq_false, or_self, if_false, if_neg hv.1, hv.2]

/-- **C19** A GUID, system identifier or generating software that fills its field completely is
accepted by the setter but reading it back runs past the end of the field. -/
theorem C19_full_field_violated (h : LasHeader) (s : Bytes) (hs : s.length = 16) (hn : NoNul s)
    (po : UInt32) (pc eo : UInt64) (ec : UInt32) (eb : Bool) (hr : h.pointsByReturn.length = 15) :
    ∃ h' r, h.setGuid s = .ok h' ∧ h'.toLazPerf po pc eo ec eb false = .ok r ∧
      LasHeader.fromLazPerf (stripFormat (Header14.decode r.encode)) = .ub := by
  refine ⟨{ h with guid := s }, _, by simp [LasHeader.setGuid, hs], rfl, ?_⟩
  have hsz : Header14.Sized _ := toLazPerf_sized (h := { h with guid := s }) hr
    (po := po) (pc := pc) (eo := eo) (ec := ec) (eb := eb) (xs := false) rfl
  have hd := Header14.decode_encode hsz []
  rw [List.append_nil] at hd
  rw [hd]
  have h0 : LasHeader.ofCharArray (LasHeader.strncpy 16 s) = .ub := by
    have e : LasHeader.strncpy 16 s = s := by
      rw [LasHeader.strncpy, cstr_of_noNul hn, padTo_of_length hs]
    have hm : (0 : UInt8) ∉ s := fun h0 => hn 0 h0 rfl
    rw [e, LasHeader.ofCharArray, if_neg hm]
  simp only [LasHeader.fromLazPerf, stripFormat, if_neg (wkt_bit h.globalEncoding), h0]
  rfl

/-- **C19** The setters accept exactly the strings that fit their fields, and change nothing else. -/
theorem C19_setters (h : LasHeader) (s : Bytes) :
    h.setGuid s = (if s.length ≤ 16 then .ok { h with guid := s } else .throw .headerCheck) ∧
    h.setSystemIdentifier s =
      (if s.length ≤ 32 then .ok { h with systemIdentifier := s } else .throw .headerCheck) ∧
    h.setGeneratingSoftware s =
      (if s.length ≤ 32 then .ok { h with generatingSoftware := s } else .throw .headerCheck) := by
  refine ⟨?_, ?_, ?_⟩
  · unfold LasHeader.setGuid; split <;> split <;> first | rfl | omega
  · unfold LasHeader.setSystemIdentifier; split <;> split <;> first | rfl | omega
  · unfold LasHeader.setGeneratingSoftware; split <;> split <;> first | rfl | omega

/-- A header with non-default content meets the hypotheses of `C19_roundtrip_partial`. -/
def sampleHeader : LasHeader :=
  { LasHeader.make 7 40 defaultScale Vec3.zero true with
    fileSourceId := 17
    globalEncoding := 1
    guid := [65, 66, 67]
    systemIdentifier := List.replicate 31 90
    max := ⟨dbl 0x4059000000000000, dbl 0x4059000000000000, dbl 0x4059000000000000⟩ }

theorem sampleHeader_good : GoodHeader sampleHeader :=
  ⟨by decide, by decide, ⟨by decide, by decide⟩, ⟨by decide, by decide⟩, ⟨by decide, by decide⟩⟩

example : ∃ r, sampleHeader.toLazPerf 1000 5 6 7 true true = .ok r := by
  obtain ⟨r, h, _⟩ := C19_roundtrip_partial sampleHeader sampleHeader_good 1000 5 6 7 true true (fun _ => by decide)
  exact ⟨r, h⟩

/-- **C20** The legacy 32-bit point count is the point count when it fits and zero otherwise; the
64-bit count is always exact; the legacy per-return counts are zero and the 64-bit ones exact. -/
theorem C20_legacy_counts (h : LasHeader) (po : UInt32) (pc eo : UInt64) (ec : UInt32) (eb xs : Bool)
    (r : Header14) (e : h.toLazPerf po pc eo ec eb xs = .ok r) :
    r.pointCount14 = pc ∧ (pc.toNat < 2 ^ 32 → r.pointCount.toNat = pc.toNat) ∧
    (2 ^ 32 ≤ pc.toNat → r.pointCount = 0) ∧ r.pointsByReturn14 = h.pointsByReturn ∧
    (∀ v ∈ r.pointsByReturn, v = 0) := by
  unfold LasHeader.toLazPerf at e
  split at e
  · simp at e
  · obtain rfl := Res.ok.inj e
    refine ⟨rfl, ?_, ?_, rfl, fun v hv => List.eq_of_mem_replicate hv⟩
    · intro hp
      simp only
      rw [if_neg (by omega)]
      rw [UInt32.toNat_ofNat', Nat.mod_eq_of_lt hp]
    · intro hp
      simp only
      rw [if_pos (by omega)]

/-- **C20** Extended stats on a header without the COPC flag are rejected, and nothing else is. -/
theorem C20_ext_stats_rejected (h : LasHeader) (po : UInt32) (pc eo : UInt64) (ec : UInt32)
    (eb xs : Bool) : (h.toLazPerf po pc eo ec eb xs).isOk = false ↔ xs = true ∧ h.copcFlag = false := by
  unfold LasHeader.toLazPerf
  cases xs <;> cases h.copcFlag <;> simp [Res.isOk]

/-! ### Bounds -/

theorem updAxis_low {mn mx v : Dbl} (h1 : mn.isNaN = false) (h3 : v.isNaN = false) (l : List Dbl)
    (h : IsLow mn l) : IsLow (LasHeader.updAxis mn mx v).1 (l ++ [v]) := by
  unfold LasHeader.updAxis
  have ee : ∀ {a b : Dbl}, a.isNaN = false → b.isNaN = false → Flt.lt' a b = true → ext a ≤ ext b := by
    intro a b ha hb hab
    exact (Flt.ext_le_iff Flt.infMag_dbl_pos ha hb).2 (by simp [Flt.lt'] at hab; omega)
  cases hl : Flt.lt' v mn
  · simp only [Bool.false_eq_true, if_false]
    refine ⟨by simp [h.1], fun w hw => ?_⟩
    rcases List.mem_append.1 hw with hw | hw
    · exact h.2 w hw
    · obtain rfl : w = v := by simpa using hw
      exact (Flt.le'_iff_ext.1 (Flt.le'_of_not_lt' h1 h3 hl)).2.2
  · simp only [if_true]
    refine ⟨by simp, fun w hw => ?_⟩
    rcases List.mem_append.1 hw with hw | hw
    · exact (ee h3 h1 hl).trans (h.2 w hw)
    · obtain rfl : w = v := by simpa using hw
      exact le_refl _

theorem updAxis_high {mn mx v : Dbl} (h1 : mx.isNaN = false) (h3 : v.isNaN = false) (l : List Dbl)
    (h : IsHigh mx l) : IsHigh (LasHeader.updAxis mn mx v).2 (l ++ [v]) := by
  unfold LasHeader.updAxis
  have ee : ∀ {a b : Dbl}, a.isNaN = false → b.isNaN = false → Flt.lt' a b = true → ext a ≤ ext b := by
    intro a b ha hb hab
    exact (Flt.ext_le_iff Flt.infMag_dbl_pos ha hb).2 (by simp [Flt.lt'] at hab; omega)
  cases hl : Flt.lt' mx v
  · simp only [Bool.false_eq_true, if_false]
    refine ⟨by simp [h.1], fun w hw => ?_⟩
    rcases List.mem_append.1 hw with hw | hw
    · exact h.2 w hw
    · obtain rfl : w = v := by simpa using hw
      exact (Flt.le'_iff_ext.1 (Flt.le'_of_not_lt' h3 h1 hl)).2.2
  · simp only [if_true]
    refine ⟨by simp, fun w hw => ?_⟩
    rcases List.mem_append.1 hw with hw | hw
    · exact (h.2 w hw).trans (ee h1 h3 hl)
    · obtain rfl : w = v := by simpa using hw
      exact le_refl _

theorem updAxis_notNaN {mn mx v : Dbl} (h1 : mn.isNaN = false) (h2 : mx.isNaN = false)
    (h3 : v.isNaN = false) :
    (LasHeader.updAxis mn mx v).1.isNaN = false ∧ (LasHeader.updAxis mn mx v).2.isNaN = false := by
  unfold LasHeader.updAxis
  constructor <;> simp only <;> split <;> assumption

/-- Header bounds and point coordinates without NaN. -/
def Spec.VecOk (v : Vec3 Dbl) : Prop := v.x.isNaN = false ∧ v.y.isNaN = false ∧ v.z.isNaN = false

/-- **C21** After updating the bounds with any points, each bound is the least (greatest) of the
previous bound and the coordinates of the points: the bounds contain all of them and are the smallest
that do. Nothing but the bounds changes. -/
theorem C21_exact (h : LasHeader) (hmn : VecOk h.min) (hmx : VecOk h.max) (ps : List Point)
    (hp : ∀ p ∈ ps, VecOk ⟨p.x, p.y, p.z⟩) (h' : LasHeader)
    (e : h' = ps.foldl LasHeader.checkAndUpdateBounds h) :
    IsLow h'.min.x (h.min.x :: ps.map (·.x)) ∧ IsHigh h'.max.x (h.max.x :: ps.map (·.x)) ∧
    IsLow h'.min.y (h.min.y :: ps.map (·.y)) ∧ IsHigh h'.max.y (h.max.y :: ps.map (·.y)) ∧
    IsLow h'.min.z (h.min.z :: ps.map (·.z)) ∧ IsHigh h'.max.z (h.max.z :: ps.map (·.z)) ∧
    h' = { h with min := h'.min, max := h'.max } := by
  suffices H : VecOk h'.min ∧ VecOk h'.max ∧
    IsLow h'.min.x (h.min.x :: ps.map (·.x)) ∧ IsHigh h'.max.x (h.max.x :: ps.map (·.x)) ∧
    IsLow h'.min.y (h.min.y :: ps.map (·.y)) ∧ IsHigh h'.max.y (h.max.y :: ps.map (·.y)) ∧
    IsLow h'.min.z (h.min.z :: ps.map (·.z)) ∧ IsHigh h'.max.z (h.max.z :: ps.map (·.z)) ∧
    h' = { h with min := h'.min, max := h'.max } from H.2.2
  subst e
  induction ps using List.reverseRecOn with
  | nil => refine ⟨hmn, hmx, ?_, ?_, ?_, ?_, ?_, ?_, rfl⟩ <;> simp [IsLow, IsHigh]
  | append_singleton ps p ih =>
    obtain ⟨a1, a2, b1, b2, b3, b4, b5, b6, b7⟩ := ih (fun q hq => hp q (by simp [hq]))
    obtain ⟨c1, c2, c3⟩ := hp p (by simp)
    rw [List.foldl_append, List.foldl_cons, List.foldl_nil]
    generalize ps.foldl LasHeader.checkAndUpdateBounds h = g at a1 a2 b1 b2 b3 b4 b5 b6 b7 ⊢
    simp only [LasHeader.checkAndUpdateBounds, List.map_append, List.map_cons, List.map_nil]
    refine ⟨⟨(updAxis_notNaN a1.1 a2.1 c1).1, (updAxis_notNaN a1.2.1 a2.2.1 c2).1,
        (updAxis_notNaN a1.2.2 a2.2.2 c3).1⟩,
      ⟨(updAxis_notNaN a1.1 a2.1 c1).2, (updAxis_notNaN a1.2.1 a2.2.1 c2).2,
        (updAxis_notNaN a1.2.2 a2.2.2 c3).2⟩, ?_, ?_, ?_, ?_, ?_, ?_, ?_⟩
    · exact updAxis_low a1.1 c1 _ b1
    · exact updAxis_high a2.1 c1 _ b2
    · exact updAxis_low a1.2.1 c2 _ b3
    · exact updAxis_high a2.2.1 c2 _ b4
    · exact updAxis_low a1.2.2 c3 _ b5
    · exact updAxis_high a2.2.2 c3 _ b6
    · rw [b7]

theorem low_unique {a b : Dbl} {l m : List Dbl} (h1 : IsLow a l) (h2 : IsLow b m)
    (h : ∀ v, v ∈ l ↔ v ∈ m) : ext a = ext b :=
  le_antisymm (h1.2 b ((h b).2 h2.1)) (h2.2 a ((h a).1 h1.1))

theorem high_unique {a b : Dbl} {l m : List Dbl} (h1 : IsHigh a l) (h2 : IsHigh b m)
    (h : ∀ v, v ∈ l ↔ v ∈ m) : ext a = ext b :=
  le_antisymm (h2.2 a ((h a).1 h1.1)) (h1.2 b ((h b).2 h2.1))

/-- **C21** The values of the bounds do not depend on the order or repetition of the points. -/
theorem C21_order (h : LasHeader) (hmn : VecOk h.min) (hmx : VecOk h.max) (ps qs : List Point)
    (hp : ∀ p ∈ ps, VecOk ⟨p.x, p.y, p.z⟩) (hpq : ∀ p, p ∈ ps ↔ p ∈ qs) (h1 h2 : LasHeader)
    (e1 : h1 = ps.foldl LasHeader.checkAndUpdateBounds h)
    (e2 : h2 = qs.foldl LasHeader.checkAndUpdateBounds h) :
    ext h1.min.x = ext h2.min.x ∧ ext h1.min.y = ext h2.min.y ∧ ext h1.min.z = ext h2.min.z ∧
    ext h1.max.x = ext h2.max.x ∧ ext h1.max.y = ext h2.max.y ∧ ext h1.max.z = ext h2.max.z := by
  obtain ⟨a1, a2, a3, a4, a5, a6, _⟩ := C21_exact h hmn hmx ps hp h1 e1
  obtain ⟨b1, b2, b3, b4, b5, b6, _⟩ :=
    C21_exact h hmn hmx qs (fun p hq => hp p ((hpq p).2 hq)) h2 e2
  have hm : ∀ (f : Point → Dbl) (a v : Dbl), v ∈ a :: ps.map f ↔ v ∈ a :: qs.map f := by
    intro f a v
    simp only [List.mem_cons, List.mem_map, hpq]
  exact ⟨low_unique a1 b1 (hm _ _), low_unique a3 b3 (hm _ _), low_unique a5 b5 (hm _ _),
    high_unique a2 b2 (hm _ _), high_unique a4 b4 (hm _ _), high_unique a6 b6 (hm _ _)⟩

/-- **C21** A NaN coordinate leaves the bounds of its axis alone. -/
theorem C21_nan_ignored (h : LasHeader) (p : Point) :
    (p.x.isNaN = true → (h.checkAndUpdateBounds p).min.x = h.min.x ∧
      (h.checkAndUpdateBounds p).max.x = h.max.x) ∧
    (p.y.isNaN = true → (h.checkAndUpdateBounds p).min.y = h.min.y ∧
      (h.checkAndUpdateBounds p).max.y = h.max.y) ∧
    (p.z.isNaN = true → (h.checkAndUpdateBounds p).min.z = h.min.z ∧
      (h.checkAndUpdateBounds p).max.z = h.max.z) := by
  refine ⟨?_, ?_, ?_⟩ <;> intro hn <;>
    simp [LasHeader.checkAndUpdateBounds, LasHeader.updAxis, Flt.lt', hn]

/-- The hypotheses of `C21_exact` hold for the default header and a point at (1, -2, 0). -/
example : VecOk LasHeader.default.min ∧ VecOk LasHeader.default.max ∧
    VecOk ⟨dbl 0x3FF0000000000000, dbl 0xC000000000000000, dbl 0⟩ := by
  unfold VecOk; decide +kernel

end Copc
