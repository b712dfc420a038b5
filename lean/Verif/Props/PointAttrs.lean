import Verif.Props.Point
/-! # C15, C16: attributes of a point -/
namespace Copc
open Spec Point

/-! ## C15 -/

/-- All attributes packed into the two bit-field bytes of a point. -/
structure Spec.BitAttrs where
  returnNumber : UInt8
  numberOfReturns : UInt8
  synthetic : Bool
  keyPoint : Bool
  withheld : Bool
  overlap : Bool
  scannerChannel : UInt8
  scanDirection : Bool
  edgeOfFlightLine : Bool
  deriving DecidableEq

/-- What the nine getters report. -/
def Spec.bitAttrs (p : Point) : BitAttrs :=
  ⟨p.returnNumber, p.numberOfReturns, p.synthetic, p.keyPoint, p.withheld, p.overlap,
    p.scannerChannel, p.scanDirectionFlag, p.edgeOfFlightLineFlag⟩

/-- The two points agree in everything except possibly the bit-field bytes. -/
def Spec.SameRest (p q : Point) : Prop := { q with returns := p.returns, flags := p.flags } = p

theorem forall_u8 {P : UInt8 → Prop} (h : ∀ i : Fin 256, P (UInt8.ofNat i.val)) (v : UInt8) : P v := by
  have := h ⟨v.toNat, by simpa using v.toNat_lt⟩
  rwa [UInt8.ofNat_toNat] at this

/-- **C15** (positions): the getters read the bits the LAS 1.4 specification assigns. -/
theorem C15_positions (p : Point) :
    p.returnNumber.toNat = p.returns.toNat % 16 ∧ p.numberOfReturns.toNat = p.returns.toNat / 16 ∧
    p.synthetic = p.flags.toNat.testBit 0 ∧ p.keyPoint = p.flags.toNat.testBit 1 ∧
    p.withheld = p.flags.toNat.testBit 2 ∧ p.overlap = p.flags.toNat.testBit 3 ∧
    p.scannerChannel.toNat = p.flags.toNat / 16 % 4 ∧
    p.scanDirectionFlag = p.flags.toNat.testBit 6 ∧
    p.edgeOfFlightLineFlag = p.flags.toNat.testBit 7 := by
  unfold returnNumber numberOfReturns synthetic keyPoint withheld overlap scannerChannel
    scanDirectionFlag edgeOfFlightLineFlag
  generalize p.returns = r
  generalize p.flags = f
  refine ⟨?_, ?_, ?_, ?_, ?_, ?_, ?_, ?_, ?_⟩
  · revert r; exact forall_u8 (by decide +kernel)
  · revert r; exact forall_u8 (by decide +kernel)
  all_goals revert f; exact forall_u8 (by decide +kernel)

/-- **C15** (return number): exactly the values above 15 are rejected; otherwise the value reads back,
all the other bit-field attributes and all the rest of the point are unchanged. -/
theorem C15_returnNumber (p : Point) (v : UInt8) :
    if 15 < v.toNat then p.setReturnNumber v = .throw .attrRange
    else ∃ q, p.setReturnNumber v = .ok q ∧
      bitAttrs q = { bitAttrs p with returnNumber := v } ∧ SameRest p q := by
  unfold setReturnNumber bitAttrs SameRest
  split
  · rename_i h
    rw [if_pos (by exact h)]
  · rename_i h
    rw [if_neg (by exact h)]
    refine ⟨_, rfl, ?_, rfl⟩
    simp only [returnNumber, numberOfReturns, synthetic, keyPoint, withheld, overlap,
      scannerChannel, scanDirectionFlag, edgeOfFlightLineFlag, BitAttrs.mk.injEq, and_true]
    generalize p.returns = r
    have hv : v = UInt8.ofNat v.toNat := UInt8.ofNat_toNat.symm
    generalize v.toNat = n at *
    subst hv
    have : ∀ n : Fin 16, ∀ r : Fin 256,
        ((UInt8.ofNat n.val ||| UInt8.ofNat r.val &&& 0xF0) &&& 0xF = UInt8.ofNat n.val) ∧
        (UInt8.ofNat n.val ||| UInt8.ofNat r.val &&& 0xF0) >>> (4 : UInt8) =
          UInt8.ofNat r.val >>> (4 : UInt8) := by decide +kernel
    have := this ⟨n, by omega⟩ ⟨r.toNat, by simpa using r.toNat_lt⟩
    simpa only [UInt8.ofNat_toNat] using this

/-- **C15** (number of returns). -/
theorem C15_numberOfReturns (p : Point) (v : UInt8) :
    if 15 < v.toNat then p.setNumberOfReturns v = .throw .attrRange
    else ∃ q, p.setNumberOfReturns v = .ok q ∧
      bitAttrs q = { bitAttrs p with numberOfReturns := v } ∧ SameRest p q := by
  unfold setNumberOfReturns bitAttrs SameRest
  split
  · rename_i h
    rw [if_pos (by exact h)]
  · rename_i h
    rw [if_neg (by exact h)]
    refine ⟨_, rfl, ?_, rfl⟩
    simp only [returnNumber, numberOfReturns, synthetic, keyPoint, withheld, overlap,
      scannerChannel, scanDirectionFlag, edgeOfFlightLineFlag, BitAttrs.mk.injEq, and_true]
    generalize p.returns = r
    have hv : v = UInt8.ofNat v.toNat := UInt8.ofNat_toNat.symm
    generalize v.toNat = n at *
    subst hv
    have : ∀ n : Fin 16, ∀ r : Fin 256,
        ((UInt8.ofNat n.val <<< (4 : UInt8) ||| UInt8.ofNat r.val &&& 0xF) &&& 0xF =
          UInt8.ofNat r.val &&& 0xF) ∧
        (UInt8.ofNat n.val <<< (4 : UInt8) ||| UInt8.ofNat r.val &&& 0xF) >>> (4 : UInt8) =
          UInt8.ofNat n.val := by decide +kernel
    have := this ⟨n, by omega⟩ ⟨r.toNat, by simpa using r.toNat_lt⟩
    simpa only [UInt8.ofNat_toNat] using this

/-- **C15** (scanner channel): exactly the values above 3 are rejected. -/
theorem C15_scannerChannel (p : Point) (v : UInt8) :
    if 3 < v.toNat then p.setScannerChannel v = .throw .attrRange
    else ∃ q, p.setScannerChannel v = .ok q ∧
      bitAttrs q = { bitAttrs p with scannerChannel := v } ∧ SameRest p q := by
  unfold setScannerChannel bitAttrs SameRest
  split
  · rename_i h
    rw [if_pos (by exact h)]
  · rename_i h
    rw [if_neg (by exact h)]
    refine ⟨_, rfl, ?_, rfl⟩
    simp only [returnNumber, numberOfReturns, synthetic, keyPoint, withheld, overlap,
      scannerChannel, scanDirectionFlag, edgeOfFlightLineFlag, BitAttrs.mk.injEq, true_and]
    generalize p.flags = r
    have hv : v = UInt8.ofNat v.toNat := UInt8.ofNat_toNat.symm
    generalize v.toNat = n at *
    subst hv
    have : ∀ n : Fin 4, ∀ r : Fin 256,
        let w := UInt8.ofNat r.val
        let f := w &&& 0xCF ||| UInt8.ofNat n.val <<< (4 : UInt8)
        (f &&& 0x1 != 0) = (w &&& 0x1 != 0) ∧
        (f >>> (1 : UInt8) &&& 0x1 != 0) = (w >>> (1 : UInt8) &&& 0x1 != 0) ∧
        (f >>> (2 : UInt8) &&& 0x1 != 0) = (w >>> (2 : UInt8) &&& 0x1 != 0) ∧
        (f >>> (3 : UInt8) &&& 0x1 != 0) = (w >>> (3 : UInt8) &&& 0x1 != 0) ∧
        f >>> (4 : UInt8) &&& 0x03 = UInt8.ofNat n.val ∧
        (f >>> (6 : UInt8) &&& 0x1 != 0) = (w >>> (6 : UInt8) &&& 0x1 != 0) ∧
        (f >>> (7 : UInt8) != 0) = (w >>> (7 : UInt8) != 0) := by decide +kernel
    have := this ⟨n, by omega⟩ ⟨r.toNat, by simpa using r.toNat_lt⟩
    simpa only [UInt8.ofNat_toNat] using this

/-- **C15** (single bit flags): each flag reads back the value just set and nothing else changes. -/
theorem C15_flags (p : Point) (v : Bool) :
    (bitAttrs (p.setSynthetic v) = { bitAttrs p with synthetic := v } ∧
      SameRest p (p.setSynthetic v)) ∧
    (bitAttrs (p.setKeyPoint v) = { bitAttrs p with keyPoint := v } ∧
      SameRest p (p.setKeyPoint v)) ∧
    (bitAttrs (p.setWithheld v) = { bitAttrs p with withheld := v } ∧
      SameRest p (p.setWithheld v)) ∧
    (bitAttrs (p.setOverlap v) = { bitAttrs p with overlap := v } ∧
      SameRest p (p.setOverlap v)) ∧
    (bitAttrs (p.setScanDirectionFlag v) = { bitAttrs p with scanDirection := v } ∧
      SameRest p (p.setScanDirectionFlag v)) ∧
    (bitAttrs (p.setEdgeOfFlightLineFlag v) = { bitAttrs p with edgeOfFlightLine := v } ∧
      SameRest p (p.setEdgeOfFlightLineFlag v)) := by
  refine ⟨⟨?_, rfl⟩, ⟨?_, rfl⟩, ⟨?_, rfl⟩, ⟨?_, rfl⟩, ⟨?_, rfl⟩, ⟨?_, rfl⟩⟩ <;>
  · simp only [bitAttrs, returnNumber, numberOfReturns, synthetic, keyPoint, withheld, overlap,
      scannerChannel, scanDirectionFlag, edgeOfFlightLineFlag, BitAttrs.mk.injEq, true_and,
      setSynthetic, setKeyPoint, setWithheld, setOverlap, setScanDirectionFlag,
      setEdgeOfFlightLineFlag]
    generalize p.flags = f
    cases v <;> revert f <;> exact forall_u8 (by decide +kernel)

example : ∃ q, (Point.fresh 7 0).setReturnNumber 15 = .ok q ∧ q.returns = 15 := ⟨_, rfl, rfl⟩

/-! ## C16 -/

/-- **C16** (gates): on every point a user can obtain, each RGB getter and setter throws exactly on
format 6 and NIR access throws exactly on formats 6 and 7; on the other formats (7, 8 / 8) the access
succeeds, a set value reads back and nothing else changes. -/
theorem C16_gates (p : Point) (hp : Reach p) :
    (p.fmt = 6 ∨ p.fmt = 7 ∨ p.fmt = 8) ∧
    (p.fmt = 6 → p.getRed = .throw .noRgb ∧ p.getGreen = .throw .noRgb ∧ p.getBlue = .throw .noRgb ∧
      (∀ v, p.setRed v = .throw .noRgb ∧ p.setGreen v = .throw .noRgb ∧
        p.setBlue v = .throw .noRgb) ∧ ∀ l, p.setRgb l = .throw .noRgb) ∧
    (p.fmt ≠ 6 → p.getRed = .ok p.red ∧ p.getGreen = .ok p.green ∧ p.getBlue = .ok p.blue ∧
      (∀ v, p.setRed v = .ok { p with red := v } ∧ p.setGreen v = .ok { p with green := v } ∧
        p.setBlue v = .ok { p with blue := v }) ∧
      (∀ r g b, p.setRgb [r, g, b] = .ok { p with red := r, green := g, blue := b }) ∧
      ∀ l, l.length ≠ 3 → p.setRgb l = .throw .vectorSize) ∧
    (p.fmt ≠ 8 → p.getNir = .throw .noNir ∧ ∀ v, p.setNir v = .throw .noNir) ∧
    (p.fmt = 8 → p.getNir = .ok p.nir ∧ ∀ v, p.setNir v = .ok { p with nir := v }) := by
  have hw := reach_wf hp
  have h1 := hw.hasRgb
  have h2 := hw.hasNir
  refine ⟨hw.fmt, ?_, ?_, ?_, ?_⟩
  · intro h
    simp [getRed, getGreen, getBlue, setRed, setGreen, setBlue, setRgb, h1, h]
  · intro h
    simp only [getRed, getGreen, getBlue, setRed, setGreen, setBlue, setRgb, h1, h, ne_eq,
      not_false_eq_true, decide_true, if_true, implies_true, and_true, true_and]
    intro l hl
    match l with
    | [] => rfl
    | [_] => rfl
    | [_, _] => rfl
    | [_, _, _] => simp at hl
    | _ :: _ :: _ :: _ :: _ => rfl
  · intro h; simp [getNir, setNir, h2, h]
  · intro h; simp [getNir, setNir, h2, h]

/-- **C16** (conversion): `ToPointFormat` succeeds exactly on formats 6, 7 and 8; it keeps every
attribute (also those the new format hides) and the extra bytes, and the record length becomes the
base size of the new format plus the extra bytes. -/
theorem C16_toPointFormat (p : Point) (fmt : Int) :
    (fmt = 6 ∨ fmt = 7 ∨ fmt = 8 → ∃ q, p.toPointFormat fmt = .ok q ∧ q.fmt = fmt ∧
      q.recLen = baseSize fmt + p.extra.length ∧
      { q with fmt := p.fmt, recLen := p.recLen, hasRgb := p.hasRgb, hasNir := p.hasNir } = p) ∧
    (¬ (fmt = 6 ∨ fmt = 7 ∨ fmt = 8) → p.toPointFormat fmt = .throw .badFormat) := by
  rw [toPointFormat_wf]
  constructor
  · intro h; rw [if_pos h]; exact ⟨_, rfl, rfl, rfl, rfl⟩
  · intro h; rw [if_neg h]

/-- **C16** (there and back): converting to a format and back restores the point itself. -/
theorem C16_toPointFormat_back (p : Point) (hp : Reach p) (fmt : Int)
    (hf : fmt = 6 ∨ fmt = 7 ∨ fmt = 8) :
    ∃ q, p.toPointFormat fmt = .ok q ∧ q.toPointFormat p.fmt = .ok p := by
  have hw := reach_wf hp
  have h1 := hw.hasRgb
  have h2 := hw.hasNir
  have h3 := hw.recLen
  refine ⟨_, by rw [toPointFormat_wf, if_pos hf], ?_⟩
  rw [toPointFormat_wf, if_pos hw.fmt]
  congr 1
  obtain ⟨x, y, z, i, r, f, c, sa, ud, ps, g, rd, gr, bl, nr, hr, hn, ex, rl, fm⟩ := p
  simp only at h1 h2 h3 ⊢
  clear hw hp
  rw [h1, h2, h3]

theorem areClose_self {x : Dbl} (h : x.isFinite = true) : areClose x x = true := by
  have hn := Flt.notNaN_of_finite h
  have hi := Flt.notInf_of_finite h
  have hsub : (Flt.sub x x).mag = 0 := by
    have hn' : (x.neg').isNaN = false := hn
    have hi' : (x.neg').isInf = false := hi
    have hs : x.sval + x.neg'.sval = 0 := by
      unfold Flt.sval Flt.neg'; cases x.neg <;> simp
    unfold Flt.sub Flt.add
    rw [hn, hn', hi, hi', hs]
    simp
  have hz : Flt.abs (Flt.sub x x) = Flt.zero := by
    unfold Flt.abs Flt.zero
    congr 1
  unfold areClose
  rw [hz]
  decide +kernel

/-- **C16** (copies): a copy has the same format, record length and visible attributes, packs to the
same bytes with every scale and offset, and compares equal when the coordinates are finite and the
GPS time is not NaN. -/
theorem C16_copy (p : Point) (hp : Reach p) : ∃ q, p.copy = .ok q ∧
    q.fmt = p.fmt ∧ q.recLen = p.recLen ∧ q.extra = p.extra ∧
    q.getRed = p.getRed ∧ q.getGreen = p.getGreen ∧ q.getBlue = p.getBlue ∧ q.getNir = p.getNir ∧
    { q with red := p.red, green := p.green, blue := p.blue, nir := p.nir } = p ∧
    (∀ scale offset, q.pack scale offset = p.pack scale offset) ∧
    (p.x.isFinite = true → p.y.isFinite = true → p.z.isFinite = true → p.gpsTime.isNaN = false →
      Point.eq q p = true ∧ Point.eq p q = true) := by
  have hw := reach_wf hp
  have h1 := hw.hasRgb
  have h2 := hw.hasNir
  have hf := hw.fmt
  refine ⟨_, copy_wf hw, rfl, rfl, rfl, ?_, ?_, ?_, ?_, rfl, ?_, ?_⟩
  · simp only [getRed, h1]; rcases hf with h | h | h <;> simp [h]
  · simp only [getGreen, h1]; rcases hf with h | h | h <;> simp [h]
  · simp only [getBlue, h1]; rcases hf with h | h | h <;> simp [h]
  · simp only [getNir, h2]; rcases hf with h | h | h <;> simp [h]
  · intro scale offset
    have : ∀ X Y Z, recordBytes X Y Z { p with
        red := if p.fmt = 6 then 0 else p.red, green := if p.fmt = 6 then 0 else p.green,
        blue := if p.fmt = 6 then 0 else p.blue, nir := if p.fmt = 8 then p.nir else 0 } =
        recordBytes X Y Z p := by
      intro X Y Z
      unfold recordBytes
      rcases hf with h | h | h <;> simp [h1, h2, h]
    simp only [pack, this]
  · intro fx fy fz hg
    have gg : Flt.eq' p.gpsTime p.gpsTime = true := by simp [Flt.eq', hg]
    simp only [Point.eq, areClose_self fx, areClose_self fy, areClose_self fz, gg, h1, h2]
    rcases hf with h | h | h <;> simp [h]

/-- Equality is not reflexive when the GPS time is NaN, so the last premise is needed. -/
example : Point.eq { Point.fresh 6 0 with gpsTime := Flt.nan } { Point.fresh 6 0 with gpsTime := Flt.nan } =
    false := by decide +kernel

/-- **C16** (finding): colour hidden by a conversion to format 6 survives in the point itself but is
lost in a copy of it. -/
theorem C16_copy_drops_hidden_colour :
    ∃ p q c d, Reach p ∧ p.red = 7 ∧ p.toPointFormat 6 = .ok q ∧ q.copy = .ok c ∧
      (q.toPointFormat 7 = .ok p) ∧ c.toPointFormat 7 = .ok d ∧ d.red = 0 := by
  refine ⟨{ Point.fresh 7 0 with red := 7 }, _, _, _, ?_, rfl, rfl, rfl, rfl, rfl, rfl⟩
  exact Reach.setter (Reach.make (fmt := 7) (eb := 0) (by decide) rfl) (Setter.setRed 7 rfl)

example : Reach { Point.fresh 8 3 with nir := 9 } :=
  Reach.setter (Reach.make (fmt := 8) (eb := 3) (by decide) rfl) (Setter.setNir 9 rfl)

end Copc
