import Verif.Props.Point
/-! # C18: arrays of points -/
namespace Copc
open Spec Point

/-- The `i`-th record of length `len` of a byte array. -/
def Spec.nthRecord (data : Bytes) (len i : Nat) : Bytes := (data.drop (i * len)).take len

theorem pointByteSize_ok {fmt : Int} (hf : fmt = 6 ∨ fmt = 7 ∨ fmt = 8) {eb : Nat}
    (h : baseSize fmt + eb < 65536) : pointByteSize fmt eb = .ok (baseSize fmt + eb) := by
  unfold pointByteSize
  rw [baseSize_ok hf]
  simp only [Res.bind_eq, Res.bind_ok, Nat.mod_eq_of_lt h]

theorem rd_ext {k : Nat} {a : Bytes} {n : Nat} {rest : Bytes} (h : rd k a = .ok (n, rest)) (r : Bytes) :
    rd k (a ++ r) = .ok (n, rest ++ r) := by
  obtain ⟨rfl, hn⟩ := rd_ok h
  rw [List.append_assoc, rd_append, Nat.mod_eq_of_lt hn]

/-- Decoding looks only at the record. -/
theorem unpack_ext {fmt : Int} {scale offset : Vec3 Dbl} {eb : Nat} {a rest : Bytes} {p : Point}
    (h : unpack fmt scale offset eb a = .ok (p, rest)) (r : Bytes) :
    unpack fmt scale offset eb (a ++ r) = .ok (p, rest ++ r) := by
  unfold unpack at h ⊢
  simp only [Res.bind_eq] at h ⊢
  obtain ⟨q, hq, h⟩ := Res.bind_eq_ok.1 h
  rw [hq, Res.bind_ok]
  clear hq
  iterate 11
    obtain ⟨⟨_, _⟩, h1, h⟩ := Res.bind_eq_ok.1 h
    rw [rd_ext h1 r, Res.bind_ok]
    clear h1
  obtain ⟨⟨rgb, s1⟩, h1, h⟩ := Res.bind_eq_ok.1 h
  obtain ⟨⟨nir, s2⟩, h2, h⟩ := Res.bind_eq_ok.1 h
  have e1 : ∀ b : Bytes, (if q.hasRgb = true then do
        let x ← rd 2 b
        let y ← rd 2 x.2
        let z ← rd 2 y.2
        Res.ok ((x.1, y.1, z.1), z.2) else Res.ok ((0, 0, 0), b)) = .ok (rgb, s1) →
      (if q.hasRgb = true then do
        let x ← rd 2 (b ++ r)
        let y ← rd 2 x.2
        let z ← rd 2 y.2
        Res.ok ((x.1, y.1, z.1), z.2) else Res.ok ((0, 0, 0), b ++ r)) = .ok (rgb, s1 ++ r) := by
    intro b hb
    split at hb
    · rename_i hq
      rw [if_pos hq]
      obtain ⟨⟨_, _⟩, g1, hb⟩ := Res.bind_eq_ok.1 hb
      obtain ⟨⟨_, _⟩, g2, hb⟩ := Res.bind_eq_ok.1 hb
      obtain ⟨⟨_, _⟩, g3, hb⟩ := Res.bind_eq_ok.1 hb
      simp only [Res.ok.injEq, Prod.mk.injEq] at hb
      obtain ⟨rfl, rfl⟩ := hb
      simp only at g2 g3
      simp only [rd_ext g1 r, Res.bind_ok, rd_ext g2 r, rd_ext g3 r]
    · rename_i hq
      rw [if_neg hq]
      simp only [Res.ok.injEq, Prod.mk.injEq] at hb ⊢
      exact ⟨hb.1, by rw [hb.2]⟩
  have e1' := e1 _ h1
  simp only at e1' ⊢
  rw [e1', Res.bind_ok]
  have e2 : (if q.hasNir = true then rd 2 (s1 ++ r) else Res.ok (0, s1 ++ r)) = .ok (nir, s2 ++ r) := by
    simp only at h2
    split at h2
    · rename_i hq; rw [if_pos hq]; exact rd_ext h2 r
    · rename_i hq; rw [if_neg hq]
      simp only [Res.ok.injEq, Prod.mk.injEq] at h2 ⊢
      exact ⟨h2.1, by rw [h2.2]⟩
  simp only
  rw [e2, Res.bind_ok]
  simp only at h ⊢
  split at h
  · simp at h
  · rename_i hl
    rw [if_neg (by rw [List.length_append]; omega)]
    have hl' : eb ≤ s2.length := by omega
    simp only [Res.ok.injEq, Prod.mk.injEq] at h ⊢
    obtain ⟨rfl, rfl⟩ := h
    rw [List.take_append_of_le_length hl', List.drop_append_of_le_length hl']
    exact ⟨rfl, rfl⟩

/-- Decoding one record off a longer stream. -/
theorem unpack_record {fmt : Int} (hf : fmt = 6 ∨ fmt = 7 ∨ fmt = 8) (scale offset : Vec3 Dbl)
    {eb : Nat} {bs : Bytes} (hl : bs.length = baseSize fmt + eb) : ∃ p : Point,
    (∀ rest, Point.unpack fmt scale offset eb (bs ++ rest) = .ok (p, rest)) ∧
    p.fmt = fmt ∧ p.recLen = baseSize fmt + eb ∧
    (GoodScale scale.x offset.x → GoodScale scale.y offset.y → GoodScale scale.z offset.z →
      p.pack scale offset = .ok bs) := by
  obtain ⟨p, X, Y, Z, rest, e, hbs, iX, iY, iZ, ex, ey, ez, hfm, hrl, hel, hr, hn⟩ :=
    unpack_ok hf scale offset eb bs hl.ge
  have hlen : (recordBytes X Y Z p).length = baseSize fmt + eb := by
    unfold recordBytes
    simp only [List.length_append, length_leN, length_leI]
    rw [hr, hn, hel]
    generalize fmt = F at *
    rcases hf with rfl | rfl | rfl <;> simp [baseSize] <;> omega
  have hrest : rest = [] := by
    have := congrArg List.length hbs
    rw [List.length_append, hlen, hl] at this
    exact List.length_eq_zero_iff.1 (by omega)
  subst hrest
  rw [List.append_nil] at hbs
  refine ⟨p, fun r => by have := unpack_ext e r; simpa using this, hfm, hrl, ?_⟩
  intro gx gy gz
  unfold pack
  rw [ex, ey, ez, C11_coordinate X iX _ _ gx, C11_coordinate Y iY _ _ gy,
    C11_coordinate Z iZ _ _ gz, hbs]
  rfl

theorem unpackLoop_ok {fmt : Int} (hf : fmt = 6 ∨ fmt = 7 ∨ fmt = 8) (scale offset : Vec3 Dbl)
    {eb : Nat} (n : Nat) (data : Bytes) (hl : data.length = n * (baseSize fmt + eb)) :
    ∃ ps : List Point, unpackLoop fmt scale offset eb (baseSize fmt + eb) n data = .ok ps ∧
      ps.length = n ∧ (∀ i, (h : i < ps.length) → ps[i].fmt = fmt ∧
        ps[i].recLen = baseSize fmt + eb ∧
        Point.unpack fmt scale offset eb (nthRecord data (baseSize fmt + eb) i) = .ok (ps[i], [])) ∧
      (GoodScale scale.x offset.x → GoodScale scale.y offset.y → GoodScale scale.z offset.z →
        packPoints ps scale offset = .ok data) := by
  induction n generalizing data with
  | zero =>
    have : data = [] := List.length_eq_zero_iff.1 (by simpa using hl)
    subst this
    exact ⟨[], rfl, rfl, by simp, fun _ _ _ => rfl⟩
  | succ n ih =>
    set L := baseSize fmt + eb with hL
    have hge : L ≤ data.length := by rw [hl, Nat.succ_mul]; omega
    obtain ⟨p, hp, hpf, hpr, hpack⟩ := unpack_record hf scale offset (eb := eb) (bs := data.take L)
      (by rw [List.length_take]; omega)
    obtain ⟨ps, h1, h2, h3, h4⟩ := ih (data.drop L) (by
      rw [List.length_drop, hl, Nat.succ_mul]; omega)
    refine ⟨p :: ps, ?_, by simp [h2], ?_, ?_⟩
    · unfold unpackLoop
      have := hp (data.drop L)
      rw [List.take_append_drop] at this
      rw [this]
      simp only [Res.bind_eq, Res.bind_ok]
      rw [if_pos ⟨hpf, hpr⟩, h1, Res.bind_ok]
    · intro i hi
      cases i with
      | zero =>
        refine ⟨hpf, hpr, ?_⟩
        have := hp []
        simpa [nthRecord] using this
      | succ i =>
        have := h3 i (by simpa using hi)
        simp only [List.getElem_cons_succ]
        refine ⟨this.1, this.2.1, ?_⟩
        rw [← this.2.2]
        unfold nthRecord
        rw [List.drop_drop, Nat.succ_mul, Nat.add_comm]
    · intro gx gy gz
      have hq := h4 gx gy gz
      unfold packPoints at hq ⊢
      simp only [Res.bind_eq] at hq ⊢
      obtain ⟨l, hl1, hl2⟩ := Res.bind_eq_ok.1 hq
      simp only [Res.ok.injEq] at hl2
      simp only [Res.mapL, hpack gx gy gz, hl1, Res.bind_eq, Res.bind_ok]
      rw [List.flatten_cons, hl2, List.take_append_drop]

/-- **C18** (unpacking): for formats 6-8 and record lengths that fit 16 bits (below `2^31` points),
`Points::Unpack` throws exactly when the size is not a multiple of the record length, and otherwise
yields one point per record, in order; with a good scale, packing them gives back the very same
bytes. -/
theorem C18_unpack (data : Bytes) (fmt : Int) (hf : fmt = 6 ∨ fmt = 7 ∨ fmt = 8) (eb : Nat)
    (scale offset : Vec3 Dbl) (hlen : baseSize fmt + eb < 65536)
    (hn : data.length / (baseSize fmt + eb) < 2147483648) :
    let L := baseSize fmt + eb
    (data.length % L ≠ 0 → unpackPoints data fmt eb scale offset = .throw .unpackSize) ∧
    (data.length % L = 0 → ∃ ps, unpackPoints data fmt eb scale offset = .ok ps ∧
      ps.length * L = data.length ∧
      (∀ i, (h : i < ps.length) → ps[i].fmt = fmt ∧ ps[i].recLen = L ∧
        Point.unpack fmt scale offset eb (nthRecord data L i) = .ok (ps[i], [])) ∧
      (GoodScale scale.x offset.x → GoodScale scale.y offset.y → GoodScale scale.z offset.z →
        packPoints ps scale offset = .ok data)) := by
  intro L
  have hb := baseSize_le fmt
  have hL : L ≠ 0 := by simp only [L]; omega
  have e : unpackPoints data fmt eb scale offset = if data.length % L ≠ 0 then .throw .unpackSize
      else unpackLoop fmt scale offset eb L (data.length / L) data := by
    unfold unpackPoints
    rw [pointByteSize_ok hf hlen]
    simp only [Res.bind_eq, Res.bind_ok]
    rw [if_neg hL]
    split
    · rfl
    · rw [if_neg (by simpa only [L] using Nat.not_le.2 hn)]
  constructor
  · intro h; rw [e, if_pos h]
  · intro h
    have hm : data.length / L * L = data.length := Nat.div_mul_cancel (Nat.dvd_of_mod_eq_zero h)
    obtain ⟨ps, h1, h2, h3, h4⟩ := unpackLoop_ok hf scale offset (eb := eb) (data.length / L) data
      hm.symm
    exact ⟨ps, by rw [e, if_neg (by simpa using h)]; exact h1, by rw [h2, hm], h3, h4⟩

/-- **C18** (other formats are rejected). -/
theorem C18_bad_format (data : Bytes) (fmt : Int) (hf : ¬ (fmt = 6 ∨ fmt = 7 ∨ fmt = 8)) (eb : Nat)
    (scale offset : Vec3 Dbl) : unpackPoints data fmt eb scale offset = .throw .badFormat := by
  unfold unpackPoints pointByteSize pointBaseByteSize
  have h1 : fmt ≠ 6 := fun h => hf (.inl h)
  have h2 : fmt ≠ 7 := fun h => hf (.inr (.inl h))
  have h3 : fmt ≠ 8 := fun h => hf (.inr (.inr h))
  rw [if_neg h1, if_neg h2, if_neg h3]
  rfl

/-- **C18** (the boundary of the theorem): an extra-byte count that wraps the 16-bit record length to
zero makes every call undefined behaviour (division by zero). -/
theorem C18_zero_length_ub (data : Bytes) (scale offset : Vec3 Dbl) :
    unpackPoints data 6 65506 scale offset = .ub := rfl

/-- **C18** (length): packing `n` points of record length `L` gives `n * L` bytes. -/
theorem C18_pack_length (ps : List Point) (L : Nat) (hr : ∀ p ∈ ps, Reach p ∧ p.recLen = L)
    (scale offset : Vec3 Dbl) (bs : Bytes) (h : packPoints ps scale offset = .ok bs) :
    bs.length = ps.length * L := by
  induction ps generalizing bs with
  | nil => simp only [packPoints, Res.mapL, Res.bind_eq, Res.bind_ok, Res.ok.injEq] at h; simp [← h]
  | cons p ps ih =>
    unfold packPoints at h
    simp only [Res.bind_eq] at h
    obtain ⟨l, hl, h⟩ := Res.bind_eq_ok.1 h
    simp only [Res.ok.injEq] at h
    obtain ⟨b, l', hb, hl', rfl⟩ := Res.mapL_cons_ok.1 hl
    have h1 := (C14_layout p (hr p (by simp)).1 scale offset b hb).1
    have h2 := ih (fun q hq => hr q (by simp [hq])) l'.flatten (by
      unfold packPoints; rw [hl']; rfl)
    rw [← h, List.flatten_cons, List.length_append, h1, h2, (hr p (by simp)).2, List.length_cons]
    ring

/-- **C18** (round trip from points): packing points of one format and record length and unpacking the
bytes gives as many points, each one the stored value of the original. -/
theorem C18_roundtrip (ps : List Point) (fmt : Int) (eb : Nat) (hlen : baseSize fmt + eb < 65536)
    (hf : fmt = 6 ∨ fmt = 7 ∨ fmt = 8)
    (hr : ∀ p ∈ ps, Reach p ∧ p.fmt = fmt ∧ p.recLen = baseSize fmt + eb)
    (hn : ps.length < 2147483648)
    (scale offset : Vec3 Dbl) (bs : Bytes) (h : packPoints ps scale offset = .ok bs) :
    ∃ qs, unpackPoints bs fmt eb scale offset = .ok qs ∧
      List.Forall₂ (ReadBack scale offset) ps qs := by
  have hb := baseSize_le fmt
  have hL := C18_pack_length ps (baseSize fmt + eb) (fun p hp => ⟨(hr p hp).1, (hr p hp).2.2⟩)
    scale offset bs h
  have hpos : 0 < baseSize fmt + eb := by omega
  have hd : bs.length / (baseSize fmt + eb) = ps.length := by
    rw [hL, Nat.mul_div_cancel _ hpos]
  have key : ∃ qs, unpackLoop fmt scale offset eb (baseSize fmt + eb) ps.length bs = .ok qs ∧
      List.Forall₂ (ReadBack scale offset) ps qs := by
    clear hL hd hn
    induction ps generalizing bs with
    | nil => exact ⟨[], rfl, .nil⟩
    | cons p ps ih =>
      unfold packPoints at h
      simp only [Res.bind_eq] at h
      obtain ⟨l, hl, h⟩ := Res.bind_eq_ok.1 h
      simp only [Res.ok.injEq] at h
      obtain ⟨b, l', hb', hl', rfl⟩ := Res.mapL_cons_ok.1 hl
      obtain ⟨qs, hq, hall⟩ := ih (fun q hq => hr q (by simp [hq])) l'.flatten (by
        unfold packPoints; rw [hl']; rfl)
      obtain ⟨hp1, hp2, hp3⟩ := hr p (by simp)
      have hw := reach_wf hp1
      have he : p.extra.length = eb := by
        have := hw.recLen; rw [hp3, hp2] at this; omega
      obtain ⟨q, hu, hrb⟩ := C14_roundtrip p hp1 scale offset b l'.flatten hb'
      rw [hp2, he] at hu
      refine ⟨q :: qs, ?_, .cons hrb hall⟩
      rw [← h, List.flatten_cons, List.length_cons]
      unfold unpackLoop
      rw [hu]
      simp only [Res.bind_eq, Res.bind_ok]
      rw [if_pos ⟨by rw [hrb.fmt, hp2], by rw [hrb.recLen, hp3]⟩, hq, Res.bind_ok]
  obtain ⟨qs, h1, h2⟩ := key
  refine ⟨qs, ?_, h2⟩
  unfold unpackPoints
  rw [pointByteSize_ok hf hlen]
  simp only [Res.bind_eq, Res.bind_ok]
  rw [if_neg (by omega), if_neg (by rw [hL]; simp), if_neg (by rw [hd]; omega), hd, h1]

/-- Non-vacuity: 76 bytes are two format 8 records. -/
example (scale offset : Vec3 Dbl) : ∃ ps, unpackPoints (List.replicate 76 7) 8 0 scale offset = .ok ps ∧
    ps.length = 2 := by
  obtain ⟨ps, h1, h2, _⟩ := (C18_unpack (List.replicate 76 7) 8 (by decide) 0 scale offset (by decide)
    (by decide)).2 (by decide)
  refine ⟨ps, h1, ?_⟩
  simp [baseSize] at h2
  omega

end Copc
