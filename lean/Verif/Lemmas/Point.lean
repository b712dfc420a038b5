import Verif.Spec.Point
import Verif.Lemmas.Scale
/-! # Lemmas about points -/
namespace Copc
open Spec

/-- Consistency of the derived members of a point. -/
structure Point.WF (p : Point) : Prop where
  fmt : p.fmt = 6 ∨ p.fmt = 7 ∨ p.fmt = 8
  hasRgb : p.hasRgb = decide (p.fmt ≠ 6)
  hasNir : p.hasNir = decide (p.fmt = 8)
  recLen : p.recLen = baseSize p.fmt + p.extra.length
  extra : p.extra.length < 65536

theorem baseSize_ok {fmt : Int} (h : fmt = 6 ∨ fmt = 7 ∨ fmt = 8) :
    pointBaseByteSize fmt = .ok (baseSize fmt) := by
  rcases h with rfl | rfl | rfl <;> rfl

theorem hasRgb_ok {fmt : Int} (h : fmt = 6 ∨ fmt = 7 ∨ fmt = 8) :
    formatHasRgb fmt = .ok (decide (fmt ≠ 6)) := by
  rcases h with rfl | rfl | rfl <;> rfl

theorem hasNir_ok {fmt : Int} (h : fmt = 6 ∨ fmt = 7 ∨ fmt = 8) :
    formatHasNir fmt = .ok (decide (fmt = 8)) := by
  rcases h with rfl | rfl | rfl <;> rfl

theorem fmt_of_range {fmt : Int} (h : ¬ (fmt < 6 ∨ fmt > 8)) : fmt = 6 ∨ fmt = 7 ∨ fmt = 8 := by
  omega

theorem baseSize_le (fmt : Int) : 30 ≤ baseSize fmt ∧ baseSize fmt ≤ 38 := by
  unfold baseSize; split <;> [simp; split] <;> simp

@[simp] theorem Res.bind_eq {α β} (x : Res α) (f : α → Res β) : x.bind f = (x >>= f) := rfl

namespace Point

/-- The point `make` builds. -/
def fresh (fmt : Int) (eb : Nat) : Point :=
  { x := Flt.zero, y := Flt.zero, z := Flt.zero, intensity := 0, returns := 0, flags := 0,
    classification := 0, scanAngle := 0, userData := 0, pointSourceId := 0,
    gpsTime := Flt.zero, red := 0, green := 0, blue := 0, nir := 0, hasRgb := decide (fmt ≠ 6),
    hasNir := decide (fmt = 8), extra := List.replicate eb 0, recLen := baseSize fmt + eb,
    fmt := fmt }

theorem make_eq (fmt : Int) (eb : Nat) : make fmt eb =
    if fmt = 6 ∨ fmt = 7 ∨ fmt = 8 then .ok (fresh fmt eb) else .throw .badFormat := by
  unfold make
  by_cases h : fmt < 6 ∨ fmt > 8
  · rw [if_pos h, if_neg (by omega)]
  · have h' := fmt_of_range h
    rw [if_neg h, if_pos h', baseSize_ok h', hasRgb_ok h', hasNir_ok h']
    simp [fresh]

theorem make_ok {fmt : Int} {eb : Nat} {p : Point} (h : make fmt eb = .ok p) :
    (fmt = 6 ∨ fmt = 7 ∨ fmt = 8) ∧ p = fresh fmt eb := by
  rw [make_eq] at h
  split at h
  · simp at h; exact ⟨by assumption, h.symm⟩
  · simp at h

theorem fresh_wf {fmt : Int} {eb : Nat} (h : fmt = 6 ∨ fmt = 7 ∨ fmt = 8) (he : eb < 65536) :
    (fresh fmt eb).WF := ⟨h, rfl, rfl, by simp [fresh], by simp [fresh]; exact he⟩

theorem ebByteSize_wf {p : Point} (h : p.WF) : p.ebByteSize = .ok p.extra.length := by
  unfold ebByteSize
  rw [baseSize_ok h.fmt]
  have := baseSize_le p.fmt
  have h1 := h.recLen
  have h2 := h.extra
  simp [h1]
  omega

/-- What the copy constructor gives. -/
theorem copy_wf {o : Point} (h : o.WF) : copy o = .ok { o with
    red := if o.fmt = 6 then 0 else o.red, green := if o.fmt = 6 then 0 else o.green,
    blue := if o.fmt = 6 then 0 else o.blue, nir := if o.fmt = 8 then o.nir else 0 } := by
  have h1 := h.hasRgb
  have h2 := h.hasNir
  have h3 := h.recLen
  unfold copy
  rw [ebByteSize_wf h]
  simp only [Res.bind_eq, Res.bind_ok, make_eq]
  rw [if_pos h.fmt]
  simp only [Res.bind_ok, fresh]
  obtain ⟨x, y, z, i, r, f, c, sa, ud, ps, g, rd, gr, bl, nr, hr, hn, ex, rl, fm⟩ := o
  simp only at h1 h2 h3 ⊢
  have hf := h.fmt
  clear h
  simp only at hf
  rcases hf with rfl | rfl | rfl <;> simp at h1 h2 <;> subst h1 h2 h3 <;> simp

theorem toPointFormat_wf {p : Point} {fmt : Int} :
    p.toPointFormat fmt = if fmt = 6 ∨ fmt = 7 ∨ fmt = 8 then
      .ok { p with hasRgb := decide (fmt ≠ 6), hasNir := decide (fmt = 8),
                   recLen := baseSize fmt + p.extra.length, fmt := fmt }
      else .throw .badFormat := by
  unfold toPointFormat
  by_cases h : fmt < 6 ∨ fmt > 8
  · rw [if_pos h, if_neg (by omega)]
  · have h' := fmt_of_range h
    rw [if_neg h, if_pos h', baseSize_ok h', hasRgb_ok h', hasNir_ok h']
    simp

/-! ### Encoding -/

theorem rd_append (k n : Nat) (rest : Bytes) : rd k (leN k n ++ rest) = .ok (n % 256 ^ k, rest) := by
  unfold rd
  rw [if_neg (by simp)]
  have : (leN k n ++ rest).take k = leN k n := by
    rw [List.take_append_of_le_length (by simp), List.take_of_length_le (by simp)]
  rw [this, unLe_leN, List.drop_append_of_le_length (by simp), List.drop_of_length_le (by simp)]
  simp

theorem rd_leI (k : Nat) (v : Int) (rest : Bytes) :
    rd k (leI k v ++ rest) = .ok ((v % 256 ^ k).toNat % 256 ^ k, rest) := rd_append _ _ _

theorem signed_leI {v : Int} (h : InI32 v) : signed 4 ((v % 256 ^ 4).toNat % 256 ^ 4) = v := by
  have h2 : (v % 256 ^ 4).toNat % 256 ^ 4 = (v % 256 ^ 4).toNat := by
    apply Nat.mod_eq_of_lt
    have := Int.emod_lt_of_pos v (show (0 : Int) < 256 ^ 4 by decide)
    have := Int.emod_nonneg v (show (256 ^ 4 : Int) ≠ 0 by decide)
    omega
  rw [h2]
  unfold InI32 at h
  exact signed_emod (by decide) (by norm_num; omega) (by norm_num; omega)

theorem u16_rt (v : UInt16) : UInt16.ofNat (v.toNat % 256 ^ 2) = v := by
  have h := v.toNat_lt
  rw [Nat.mod_eq_of_lt (by simpa using h)]
  exact UInt16.ofNat_toNat

theorem u8_rt (v : UInt8) : UInt8.ofNat (v.toNat % 256 ^ 1) = v := by
  have h := v.toNat_lt
  rw [Nat.mod_eq_of_lt (by simpa using h)]
  exact UInt8.ofNat_toNat

theorem dbl_rt (v : Dbl) : (Flt.ofBits (v.toBits % 256 ^ 8) : Dbl) = v := by
  have h : v.toBits < 256 ^ 8 := Flt.toBits_lt v
  rw [Nat.mod_eq_of_lt h, Flt.ofBits_toBits]

theorem i16_rt (v : Int16) : (UInt16.ofNat (v.toUInt16.toNat % 256 ^ 2)).toInt16 = v := by
  rw [u16_rt]; simp

/-- Decoding the record written for integers `X Y Z` gives the point back, with the coordinates
scaled from those integers and attributes the format does not store reset. -/
theorem unpack_recordBytes {p : Point} (h : p.WF) {X Y Z : Int} (hX : InI32 X) (hY : InI32 Y)
    (hZ : InI32 Z) (scale offset : Vec3 Dbl) (rest : Bytes) :
    unpack p.fmt scale offset p.extra.length (recordBytes X Y Z p ++ rest) = .ok ({ p with
      x := applyScale X scale.x offset.x
      y := applyScale Y scale.y offset.y
      z := applyScale Z scale.z offset.z
      red := if p.fmt = 6 then 0 else p.red
      green := if p.fmt = 6 then 0 else p.green
      blue := if p.fmt = 6 then 0 else p.blue
      nir := if p.fmt = 8 then p.nir else 0 }, rest) := by
  unfold unpack recordBytes
  rw [make_eq, if_pos h.fmt]
  simp only [List.append_assoc, Res.bind_eq, Res.bind_ok, rd_append, rd_leI]
  simp only [signed_leI hX, signed_leI hY, signed_leI hZ, u16_rt, u8_rt, dbl_rt, i16_rt]
  have h1 := h.hasRgb
  have h2 := h.hasNir
  have h3 := h.recLen
  have hlen : ¬ (p.extra ++ rest).length < p.extra.length := by simp
  have ht : (p.extra ++ rest).take p.extra.length = p.extra := by simp
  have hd : (p.extra ++ rest).drop p.extra.length = rest := by simp
  obtain ⟨x, y, z, i, r, f, c, sa, ud, ps, g, rd', gr, bl, nr, hr, hn, ex, rl, fm⟩ := p
  have hf := h.fmt
  clear h
  simp only at *
  rcases hf with rfl | rfl | rfl <;> simp at h1 h2 <;> subst h1 h2 h3 <;>
    simp [fresh, rd_append, u16_rt]

theorem length_recordBytes {p : Point} (h : p.WF) (X Y Z : Int) :
    (recordBytes X Y Z p).length = p.recLen := by
  have h1 := h.hasRgb
  have h2 := h.hasNir
  have h3 := h.recLen
  have hf := h.fmt
  clear h
  unfold recordBytes
  simp only [List.length_append, length_leN, length_leI]
  rw [h1, h2, h3]
  generalize p.extra.length = E
  generalize p.fmt = F at *
  rcases hf with rfl | rfl | rfl <;> simp [baseSize] <;> omega

theorem pack_ok {p : Point} {scale offset : Vec3 Dbl} {bs : Bytes} (h : p.pack scale offset = .ok bs) :
    ∃ X Y Z, removeScale p.x scale.x offset.x = .ok X ∧ removeScale p.y scale.y offset.y = .ok Y ∧
      removeScale p.z scale.z offset.z = .ok Z ∧ bs = recordBytes X Y Z p := by
  unfold pack at h
  simp only [Res.bind_eq] at h
  obtain ⟨X, hX, h⟩ := Res.bind_eq_ok.1 h
  obtain ⟨Y, hY, h⟩ := Res.bind_eq_ok.1 h
  obtain ⟨Z, hZ, h⟩ := Res.bind_eq_ok.1 h
  simp at h
  exact ⟨X, Y, Z, hX, hY, hZ, h.symm⟩

/-! ### Every record is the encoding of a point -/

theorem rd_ok {k : Nat} {bs : Bytes} {n : Nat} {rest : Bytes} (h : rd k bs = .ok (n, rest)) :
    bs = leN k n ++ rest ∧ n < 256 ^ k := by
  unfold rd at h
  split at h
  · simp at h
  · simp at h
    obtain ⟨rfl, rfl⟩ := h
    have hl : (bs.take k).length = k := by simp; omega
    constructor
    · have := leN_unLe (bs.take k)
      rw [hl] at this
      rw [this, List.take_append_drop]
    · have := unLe_lt (bs.take k); rwa [hl] at this

theorem rd_total {k : Nat} {bs : Bytes} (h : k ≤ bs.length) :
    ∃ n rest, rd k bs = .ok (n, rest) ∧ rest.length = bs.length - k := by
  unfold rd
  rw [if_neg (by omega)]
  exact ⟨_, _, rfl, by simp⟩

theorem leI_signed {n : Nat} (h : n < 256 ^ 4) : leI 4 (signed 4 n) = leN 4 n := by
  unfold leI; rw [emod_signed h]

theorem signed_InI32 {n : Nat} (h : n < 256 ^ 4) : InI32 (signed 4 n) := by
  have := signed_range h
  unfold InI32
  norm_num at this
  omega

theorem leN_u16 {n : Nat} (h : n < 256 ^ 2) : leN 2 (UInt16.ofNat n).toNat = leN 2 n := by
  rw [UInt16.toNat_ofNat_of_lt' (by simpa using h)]

theorem leN_u8 {n : Nat} (h : n < 256 ^ 1) : leN 1 (UInt8.ofNat n).toNat = leN 1 n := by
  rw [UInt8.toNat_ofNat_of_lt' (by simpa using h)]

theorem leN_i16 {n : Nat} (h : n < 256 ^ 2) :
    leN 2 (UInt16.ofNat n).toInt16.toUInt16.toNat = leN 2 n := by
  simp only [UInt16.toUInt16_toInt16]
  exact leN_u16 h

theorem leN_dbl {n : Nat} (h : n < 256 ^ 8) : leN 8 (Flt.ofBits n : Dbl).toBits = leN 8 n := by
  rw [Flt.toBits_ofBits h]

/-- Decoding succeeds on enough bytes, and the bytes consumed are those of the decoded point with
the integers read. -/
theorem unpack_ok {fmt : Int} (hf : fmt = 6 ∨ fmt = 7 ∨ fmt = 8) (scale offset : Vec3 Dbl) (eb : Nat)
    (bs : Bytes) (hl : baseSize fmt + eb ≤ bs.length) : ∃ (p : Point) (X Y Z : Int) (rest : Bytes),
    unpack fmt scale offset eb bs = .ok (p, rest) ∧ bs = recordBytes X Y Z p ++ rest ∧
    InI32 X ∧ InI32 Y ∧ InI32 Z ∧ p.x = applyScale X scale.x offset.x ∧
    p.y = applyScale Y scale.y offset.y ∧ p.z = applyScale Z scale.z offset.z ∧
    p.fmt = fmt ∧ p.recLen = baseSize fmt + eb ∧ p.extra.length = eb ∧
    p.hasRgb = decide (fmt ≠ 6) ∧ p.hasNir = decide (fmt = 8) := by
  have hb := baseSize_le fmt
  obtain ⟨n1, r1, e1, l1⟩ := rd_total (k := 4) (bs := bs) (by omega)
  obtain ⟨n2, r2, e2, l2⟩ := rd_total (k := 4) (bs := r1) (by omega)
  obtain ⟨n3, r3, e3, l3⟩ := rd_total (k := 4) (bs := r2) (by omega)
  obtain ⟨n4, r4, e4, l4⟩ := rd_total (k := 2) (bs := r3) (by omega)
  obtain ⟨n5, r5, e5, l5⟩ := rd_total (k := 1) (bs := r4) (by omega)
  obtain ⟨n6, r6, e6, l6⟩ := rd_total (k := 1) (bs := r5) (by omega)
  obtain ⟨n7, r7, e7, l7⟩ := rd_total (k := 1) (bs := r6) (by omega)
  obtain ⟨n8, r8, e8, l8⟩ := rd_total (k := 1) (bs := r7) (by omega)
  obtain ⟨n9, r9, e9, l9⟩ := rd_total (k := 2) (bs := r8) (by omega)
  obtain ⟨n10, r10, e10, l10⟩ := rd_total (k := 2) (bs := r9) (by omega)
  obtain ⟨n11, r11, e11, l11⟩ := rd_total (k := 8) (bs := r10) (by omega)
  have c1 := rd_ok e1; have c2 := rd_ok e2; have c3 := rd_ok e3; have c4 := rd_ok e4
  have c5 := rd_ok e5; have c6 := rd_ok e6; have c7 := rd_ok e7; have c8 := rd_ok e8
  have c9 := rd_ok e9; have c10 := rd_ok e10; have c11 := rd_ok e11
  have l11' : r11.length = bs.length - 30 := by omega
  unfold unpack
  rw [make_eq, if_pos hf]
  simp only [Res.bind_eq, Res.bind_ok, e1, e2, e3, e4, e5, e6, e7, e8, e9, e10, e11]
  have pre : ∀ tail : Bytes, r11 = tail → bs = leI 4 (signed 4 n1) ++ (leI 4 (signed 4 n2) ++
      (leI 4 (signed 4 n3) ++ (leN 2 (UInt16.ofNat n4).toNat ++ (leN 1 (UInt8.ofNat n5).toNat ++
      (leN 1 (UInt8.ofNat n6).toNat ++ (leN 1 (UInt8.ofNat n7).toNat ++
      (leN 1 (UInt8.ofNat n8).toNat ++ (leN 2 (UInt16.ofNat n9).toInt16.toUInt16.toNat ++
      (leN 2 (UInt16.ofNat n10).toNat ++ (leN 8 (Flt.ofBits n11 : Dbl).toBits ++ tail)))))))))) := by
    intro tail ht
    rw [leI_signed c1.2, leI_signed c2.2, leI_signed c3.2, leN_u16 c4.2, leN_u8 c5.2, leN_u8 c6.2,
      leN_u8 c7.2, leN_u8 c8.2, leN_i16 c9.2, leN_u16 c10.2, leN_dbl c11.2, ← ht, ← c11.1, ← c10.1,
      ← c9.1, ← c8.1, ← c7.1, ← c6.1, ← c5.1, ← c4.1, ← c3.1, ← c2.1, ← c1.1]
  rcases hf with rfl | rfl | rfl
  · simp only [fresh, baseSize] at *
    simp only [ne_eq, not_true_eq_false, decide_false, Bool.false_eq_true, if_false, Res.bind_ok,
      show (decide ((6 : Int) = 8)) = false from rfl]
    rw [if_neg (by simp at hl; omega)]
    refine ⟨_, signed 4 n1, signed 4 n2, signed 4 n3, _, rfl, ?_, signed_InI32 c1.2,
      signed_InI32 c2.2, signed_InI32 c3.2, by dsimp only, by dsimp only, by dsimp only,
      by dsimp only, by simp, ?_, by simp, by simp⟩
    · unfold recordBytes
      simp only [Bool.false_eq_true, if_false, List.nil_append, List.append_assoc]
      apply pre
      simp
    · simp at hl ⊢; omega
  · simp only [fresh, baseSize] at *
    norm_num at hl
    obtain ⟨m1, s1, f1, g1⟩ := rd_total (k := 2) (bs := r11) (by omega)
    obtain ⟨m2, s2, f2, g2⟩ := rd_total (k := 2) (bs := s1) (by omega)
    obtain ⟨m3, s3, f3, g3⟩ := rd_total (k := 2) (bs := s2) (by omega)
    have d1 := rd_ok f1; have d2 := rd_ok f2; have d3 := rd_ok f3
    simp only [show (decide ((7 : Int) ≠ 6)) = true from rfl, if_true, f1, f2, f3, Res.bind_ok,
      show (decide ((7 : Int) = 8)) = false from rfl, Bool.false_eq_true, if_false]
    rw [if_neg (by omega)]
    refine ⟨_, signed 4 n1, signed 4 n2, signed 4 n3, _, rfl, ?_, signed_InI32 c1.2,
      signed_InI32 c2.2, signed_InI32 c3.2, by dsimp only, by dsimp only, by dsimp only,
      by dsimp only, by simp, ?_, by simp, by simp⟩
    · unfold recordBytes
      simp only [Bool.false_eq_true, if_false, if_true, List.nil_append, List.append_assoc]
      apply pre
      rw [leN_u16 d1.2, leN_u16 d2.2, leN_u16 d3.2, List.take_append_drop, ← d3.1, ← d2.1, ← d1.1]
    · simp; omega
  · simp only [fresh, baseSize] at *
    norm_num at hl
    obtain ⟨m1, s1, f1, g1⟩ := rd_total (k := 2) (bs := r11) (by omega)
    obtain ⟨m2, s2, f2, g2⟩ := rd_total (k := 2) (bs := s1) (by omega)
    obtain ⟨m3, s3, f3, g3⟩ := rd_total (k := 2) (bs := s2) (by omega)
    obtain ⟨m4, s4, f4, g4⟩ := rd_total (k := 2) (bs := s3) (by omega)
    have d1 := rd_ok f1; have d2 := rd_ok f2; have d3 := rd_ok f3; have d4 := rd_ok f4
    simp only [show (decide ((8 : Int) ≠ 6)) = true from rfl, if_true, f1, f2, f3, f4, Res.bind_ok,
      decide_true]
    rw [if_neg (by omega)]
    refine ⟨_, signed 4 n1, signed 4 n2, signed 4 n3, _, rfl, ?_, signed_InI32 c1.2,
      signed_InI32 c2.2, signed_InI32 c3.2, by dsimp only, by dsimp only, by dsimp only,
      by dsimp only, by simp, ?_, by simp, by simp⟩
    · unfold recordBytes
      simp only [if_true, List.append_assoc]
      apply pre
      rw [leN_u16 d1.2, leN_u16 d2.2, leN_u16 d3.2, leN_u16 d4.2, List.take_append_drop, ← d4.1,
        ← d3.1, ← d2.1, ← d1.1]
    · simp; omega

end Point
end Copc
