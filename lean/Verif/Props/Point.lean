import Verif.Lemmas.Point
import Verif.Props.Scale
/-! # C11 (records), C14, C15, C16, C18: points -/
namespace Copc
open Spec Point

theorem unpack_wf {fmt : Int} {scale offset : Vec3 Dbl} {eb : Nat} {bs rest : Bytes} {p : Point}
    (he : eb < 65536) (h : unpack fmt scale offset eb bs = .ok (p, rest)) : p.WF := by
  unfold unpack at h
  simp only [Res.bind_eq] at h
  obtain ⟨q, hq, h⟩ := Res.bind_eq_ok.1 h
  obtain ⟨hf, rfl⟩ := make_ok hq
  obtain ⟨⟨_, _⟩, _, h⟩ := Res.bind_eq_ok.1 h
  obtain ⟨⟨_, _⟩, _, h⟩ := Res.bind_eq_ok.1 h
  obtain ⟨⟨_, _⟩, _, h⟩ := Res.bind_eq_ok.1 h
  obtain ⟨⟨_, _⟩, _, h⟩ := Res.bind_eq_ok.1 h
  obtain ⟨⟨_, _⟩, _, h⟩ := Res.bind_eq_ok.1 h
  obtain ⟨⟨_, _⟩, _, h⟩ := Res.bind_eq_ok.1 h
  obtain ⟨⟨_, _⟩, _, h⟩ := Res.bind_eq_ok.1 h
  obtain ⟨⟨_, _⟩, _, h⟩ := Res.bind_eq_ok.1 h
  obtain ⟨⟨_, _⟩, _, h⟩ := Res.bind_eq_ok.1 h
  obtain ⟨⟨_, _⟩, _, h⟩ := Res.bind_eq_ok.1 h
  obtain ⟨⟨_, _⟩, _, h⟩ := Res.bind_eq_ok.1 h
  obtain ⟨⟨_, _⟩, _, h⟩ := Res.bind_eq_ok.1 h
  obtain ⟨⟨_, last⟩, _, h⟩ := Res.bind_eq_ok.1 h
  simp only at h
  split at h
  · simp at h
  · rename_i hl
    simp only [Res.ok.injEq, Prod.mk.injEq] at h
    obtain ⟨rfl, _⟩ := h
    have hlen : (last.take eb).length = eb := by simp; omega
    exact ⟨hf, rfl, rfl, by dsimp only; rw [hlen]; rfl, by dsimp only; omega⟩

/-- Setters keep the format, the record length and consistency. -/
theorem setter_keeps {p q : Point} (hs : Setter p q) :
    q.fmt = p.fmt ∧ q.recLen = p.recLen ∧ (p.WF → q.WF) := by
  have lift : ∀ {q : Point}, q.fmt = p.fmt → q.recLen = p.recLen → q.hasRgb = p.hasRgb →
      q.hasNir = p.hasNir → (p.WF → q.extra.length = p.extra.length) →
      q.fmt = p.fmt ∧ q.recLen = p.recLen ∧ (p.WF → q.WF) := by
    intro q h1 h2 h3 h4 h5
    refine ⟨h1, h2, fun hw => ⟨by rw [h1]; exact hw.fmt, by rw [h1, h3]; exact hw.hasRgb,
      by rw [h1, h4]; exact hw.hasNir, by rw [h1, h2, h5 hw]; exact hw.recLen,
      by rw [h5 hw]; exact hw.extra⟩⟩
  cases hs with
  | setX | setY | setZ | setIntensity | setClassification | setScanAngle | setUserData
  | setPointSourceId | setGpsTime | setReturnsBitField | setFlagsBitField | setSynthetic
  | setKeyPoint | setWithheld | setOverlap | setScanDirectionFlag | setEdgeOfFlightLineFlag =>
    exact lift rfl rfl rfl rfl (fun _ => rfl)
  | setReturnNumber v h | setNumberOfReturns v h | setScannerChannel v h =>
    simp only [setReturnNumber, setNumberOfReturns, setScannerChannel] at h
    split at h
    · simp at h
    · simp only [Res.ok.injEq] at h
      subst h
      exact lift rfl rfl rfl rfl (fun _ => rfl)
  | setRed v h | setGreen v h | setBlue v h | setNir v h =>
    simp only [setRed, setGreen, setBlue, setNir] at h
    split at h
    · simp only [Res.ok.injEq] at h
      subst h
      exact lift rfl rfl rfl rfl (fun _ => rfl)
    · simp at h
  | setRgb v h =>
    simp only [setRgb] at h
    split at h
    · split at h
      · simp only [Res.ok.injEq] at h
        subst h
        exact lift rfl rfl rfl rfl (fun _ => rfl)
      · simp at h
    · simp at h
  | setExtraBytes v h =>
    unfold setExtraBytes at h
    simp only [Res.bind_eq] at h
    obtain ⟨eb, he, h⟩ := Res.bind_eq_ok.1 h
    split at h
    · simp at h
    · rename_i hl
      simp only [Res.ok.injEq] at h
      subst h
      refine lift rfl rfl rfl rfl (fun hw => ?_)
      rw [ebByteSize_wf hw] at he
      simp only [Res.ok.injEq] at he
      simp only
      omega
  | setScanAngleDegrees v h =>
    simp only [setScanAngleDegrees] at h
    split at h
    · split at h
      · simp only [Res.ok.injEq] at h
        subst h
        exact lift rfl rfl rfl rfl (fun _ => rfl)
      · simp at h
    · simp at h

/-- Every reachable point is consistent. -/
theorem reach_wf {p : Point} (h : Reach p) : p.WF := by
  induction h with
  | make he h => obtain ⟨hf, rfl⟩ := make_ok h; exact fresh_wf hf he
  | copy _ h ih =>
    rw [copy_wf ih] at h
    simp only [Res.ok.injEq] at h
    subst h
    exact ⟨ih.fmt, ih.hasRgb, ih.hasNir, ih.recLen, ih.extra⟩
  | unpack he h => exact unpack_wf he h
  | toPointFormat _ h ih =>
    rw [toPointFormat_wf] at h
    split at h
    · simp only [Res.ok.injEq] at h
      subst h
      exact ⟨by assumption, rfl, rfl, rfl, ih.extra⟩
    · simp at h
  | setter _ hs ih => exact (setter_keeps hs).2.2 ih

theorem removeScale_InI32 {v s o : Dbl} {X : Int} (h : removeScale v s o = .ok X) : InI32 X :=
  ((C12_removeScale v s o).1 X h).1

/-! ## C14 -/

theorem field_skip {a b : Bytes} {off len : Nat} (h : a.length ≤ off) :
    field (a ++ b) off len = field b (off - a.length) len := by
  unfold field
  rw [List.drop_append, List.drop_of_length_le h, List.nil_append]

theorem drop_skip {a b : Bytes} {off : Nat} (h : a.length ≤ off) :
    (a ++ b).drop off = b.drop (off - a.length) := by
  rw [List.drop_append, List.drop_of_length_le h, List.nil_append]

theorem field_leN (k n : Nat) (b : Bytes) : field (leN k n ++ b) 0 k = leN k n := by
  unfold field
  simp [List.take_append_of_le_length, List.take_of_length_le]

theorem field_leI (k : Nat) (v : Int) (b : Bytes) : field (leI k v ++ b) 0 k = leI k v := field_leN _ _ _

theorem sField_leI {X : Int} (h : InI32 X) : unLeI 4 (leI 4 X) = X := by
  unfold InI32 at h
  exact unLeI_leI (by decide) (by norm_num; omega) (by norm_num; omega)

theorem sField_i16 (v : Int16) : unLeI 2 (leN 2 v.toUInt16.toNat) = v.toInt := by
  have h1 := v.toUInt16.toNat_lt
  unfold unLeI
  rw [unLe_leN_lt (by simpa using h1)]
  have h2 : v.toInt = v.toBitVec.toInt := rfl
  have h3 : v.toUInt16.toNat = v.toBitVec.toNat := rfl
  rw [h2, h3, BitVec.toInt_eq_toNat_cond]
  unfold signed
  norm_num

theorem lasRecord {p : Point} (h : p.WF) {X Y Z : Int} (hX : InI32 X) (hY : InI32 Y) (hZ : InI32 Z) :
    LasRecord (recordBytes X Y Z p) X Y Z p := by
  have h1 := h.hasRgb
  have h2 := h.hasNir
  have b16 : ∀ v : UInt16, v.toNat < 256 ^ 2 := fun v => by simpa using v.toNat_lt
  have b8 : ∀ v : UInt8, v.toNat < 256 ^ 1 := fun v => by simpa using v.toNat_lt
  have e16 : ∀ v : UInt16, unLe (leN 2 v.toNat) = v.toNat := fun v => unLe_leN_lt (b16 v)
  have e8 : ∀ v : UInt8, unLe (leN 1 v.toNat) = v.toNat := fun v => unLe_leN_lt (b8 v)
  have ed : unLe (leN 8 p.gpsTime.toBits) = p.gpsTime.toBits := unLe_leN_lt (Flt.toBits_lt _)
  constructor
  · simp [sField, recordBytes, field_leI, sField_leI hX]
  · simp [sField, recordBytes, field_skip, field_leI, sField_leI hY]
  · simp [sField, recordBytes, field_skip, field_leI, sField_leI hZ]
  · simp [uField, recordBytes, field_skip, field_leN, e16]
  · simp [uField, recordBytes, field_skip, field_leN, e8]
  · simp [uField, recordBytes, field_skip, field_leN, e8]
  · simp [uField, recordBytes, field_skip, field_leN, e8]
  · simp [uField, recordBytes, field_skip, field_leN, e8]
  · simp [sField, recordBytes, field_skip, field_leN, sField_i16]
  · simp [uField, recordBytes, field_skip, field_leN, e16]
  · simp [uField, recordBytes, field_skip, field_leN, ed]
  · intro hf
    simp [uField, recordBytes, field_skip, field_leN, e16, h1, hf]
  · intro hf
    simp [uField, recordBytes, field_skip, field_leN, e16, h1, hf]
  · intro hf
    simp [uField, recordBytes, field_skip, field_leN, e16, h1, hf]
  · intro hf
    simp [uField, recordBytes, field_skip, field_leN, e16, h1, h2, hf]
  · unfold recordBytes
    rcases h.fmt with hf | hf | hf <;>
      simp [h1, h2, hf, baseSize, drop_skip]

/-- **C14** (layout): whenever packing a point succeeds, it writes exactly the record length in
bytes, with every field at its LAS 1.4 position; the coordinates stored are those of `C12`. -/
theorem C14_layout (p : Point) (hp : Reach p) (scale offset : Vec3 Dbl) (bs : Bytes)
    (h : p.pack scale offset = .ok bs) :
    bs.length = p.recLen ∧ p.recLen = baseSize p.fmt + p.extra.length ∧
    ∃ X Y Z, removeScale p.x scale.x offset.x = .ok X ∧ removeScale p.y scale.y offset.y = .ok Y ∧
      removeScale p.z scale.z offset.z = .ok Z ∧ LasRecord bs X Y Z p := by
  have hw := reach_wf hp
  obtain ⟨X, Y, Z, hX, hY, hZ, rfl⟩ := pack_ok h
  exact ⟨length_recordBytes hw X Y Z, hw.recLen, X, Y, Z, hX, hY, hZ,
    lasRecord hw (removeScale_InI32 hX) (removeScale_InI32 hY) (removeScale_InI32 hZ)⟩

/-- **C14** (round trip): unpacking a packed point, with anything after it in the stream, consumes
exactly the record and recovers every attribute the format stores; the coordinates are the stored
integers scaled back. -/
theorem C14_roundtrip (p : Point) (hp : Reach p) (scale offset : Vec3 Dbl) (bs rest : Bytes)
    (h : p.pack scale offset = .ok bs) :
    ∃ q, Point.unpack p.fmt scale offset p.extra.length (bs ++ rest) = .ok (q, rest) ∧
      ReadBack scale offset p q := by
  have hw := reach_wf hp
  have h1 := hw.hasRgb
  have h2 := hw.hasNir
  obtain ⟨X, Y, Z, hX, hY, hZ, rfl⟩ := pack_ok h
  refine ⟨_, unpack_recordBytes hw (removeScale_InI32 hX) (removeScale_InI32 hY)
    (removeScale_InI32 hZ) scale offset rest, ⟨⟨X, hX, by dsimp only⟩, ⟨Y, hY, by dsimp only⟩,
    ⟨Z, hZ, by dsimp only⟩,
    by dsimp only, by dsimp only, by dsimp only, by dsimp only, by dsimp only, by dsimp only,
    by dsimp only, by dsimp only, ?_, ?_, ?_, ?_, by dsimp only, by dsimp only, by dsimp only⟩⟩ <;>
    simp only [getRed, getGreen, getBlue, getNir, h1, h2] <;>
    rcases hw.fmt with hf | hf | hf <;> simp [hf]

/-- Non-vacuity: a format 8 point with two extra bytes packs. -/
example : ∃ p, Reach p ∧ p.fmt = 8 ∧ p.extra = [1, 2] ∧
    (p.pack ⟨Flt.ofInt 1, Flt.ofInt 1, Flt.ofInt 1⟩ ⟨Flt.zero, Flt.zero, Flt.zero⟩).isOk = true :=
  ⟨{ Point.fresh 8 2 with extra := [1, 2] },
    Reach.setter (Reach.make (fmt := 8) (eb := 2) (by decide) rfl) (Setter.setExtraBytes [1, 2] rfl),
    rfl, rfl, by decide +kernel⟩

/-! ## C11, record level -/

/-- **C11**: for every byte string at least as long as a record, unpacking a point and packing it
again with the same good scale and offset gives back the identical record, and leaves the rest of the
stream. -/
theorem C11_record (fmt : Int) (hf : fmt = 6 ∨ fmt = 7 ∨ fmt = 8) (scale offset : Vec3 Dbl)
    (hx : GoodScale scale.x offset.x) (hy : GoodScale scale.y offset.y)
    (hz : GoodScale scale.z offset.z) (eb : Nat) (bs : Bytes)
    (hl : baseSize fmt + eb ≤ bs.length) :
    ∃ p rest, Point.unpack fmt scale offset eb bs = .ok (p, rest) ∧
      p.pack scale offset = .ok (bs.take (baseSize fmt + eb)) ∧
      rest = bs.drop (baseSize fmt + eb) := by
  obtain ⟨p, X, Y, Z, rest, e, hbs, iX, iY, iZ, ex, ey, ez, hfm, hrl, hel, hr, hn⟩ :=
    unpack_ok hf scale offset eb bs hl
  have hlen : (recordBytes X Y Z p).length = baseSize fmt + eb := by
    unfold recordBytes
    simp only [List.length_append, length_leN, length_leI]
    rw [hr, hn, hel]
    generalize fmt = F at *
    rcases hf with rfl | rfl | rfl <;> simp [baseSize] <;> omega
  refine ⟨p, rest, e, ?_, ?_⟩
  · unfold pack
    rw [ex, ey, ez, C11_coordinate X iX _ _ hx, C11_coordinate Y iY _ _ hy,
      C11_coordinate Z iZ _ _ hz]
    simp only [Res.bind_eq, Res.bind_ok]
    rw [hbs, List.take_append_of_le_length hlen.ge, List.take_of_length_le hlen.le]
  · rw [hbs, List.drop_append_of_le_length hlen.ge, List.drop_of_length_le hlen.le]; simp

end Copc
