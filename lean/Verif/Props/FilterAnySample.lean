import Verif.Props.FilterAny
import Verif.Props.ToLazAnySample
/-! # C92: points of the file of another program, selected -/
namespace Copc
open Spec VoxelKey
namespace Foreign

/-- The scale of the file, a hundredth, and its offset. -/
def hundredth : Dbl := Flt.ofBits 0x3F847AE147AE147B

theorem good_hundredth : GoodScale hundredth (Flt.ofInt 0) := by
  have hs : hundredth.val = 0x147AE147AE147B * 2 ^ (-59 : ℤ) := by
    have hk : hundredth.sval = 0x147AE147AE147B * 2 ^ 1015 := by decide +kernel
    unfold Flt.val
    rw [hk]
    have hu : (Flt.unit 52 11 : ℚ) = 2 ^ 1015 * 2 ^ 59 := by rw [← pow_add]; norm_num [Flt.unit]
    rw [hu]; push_cast
    rw [zpow_neg]
    have : (2 : ℚ) ^ 1015 ≠ 0 := pow_ne_zero _ (by norm_num)
    generalize (2 : ℚ) ^ 1015 = T at *
    rw [mul_comm T, mul_div_mul_right _ _ this]
    norm_num
  have ho : (Flt.ofInt 0 : Dbl).val = 0 := by simpa using (Flt.ofInt_val 0 (by decide)).2
  have habs : |hundredth.val| = 0x147AE147AE147B * 2 ^ (-59 : ℤ) := by
    rw [hs]; apply abs_of_pos; norm_num
  refine ⟨by decide +kernel, by decide +kernel, ?_, ?_, ?_⟩
  · rw [habs]
    have : (2 : ℚ) ^ (-1000 : ℤ) ≤ 2 ^ (-59 : ℤ) := zpow_le_zpow_right₀ (by norm_num) (by norm_num)
    refine this.trans ?_
    norm_num
  · rw [habs]
    have : (2 : ℚ) ^ (0 : ℤ) ≤ 2 ^ (900 : ℤ) := zpow_le_zpow_right₀ (by norm_num) (by norm_num)
    refine le_trans ?_ this
    norm_num
  · rw [habs, ho]; norm_num

theorem scales_opened {data : Bytes} {ps : List FPage} {r : Reader} (ho : Opened data ps r)
    (h : (match Reader.init ⟨data, 0, false⟩ with
      | .ok r => decide (r.cfg.header.scale = ⟨hundredth, hundredth, hundredth⟩ ∧
          r.cfg.header.offset = ⟨Flt.ofInt 0, Flt.ofInt 0, Flt.ofInt 0⟩)
      | _ => false) = true) :
    GoodScale r.cfg.header.scale.x r.cfg.header.offset.x ∧ GoodScale r.cfg.header.scale.y r.cfg.header.offset.y ∧
      GoodScale r.cfg.header.scale.z r.cfg.header.offset.z := by
  rw [ho.init] at h
  obtain ⟨h1, h2⟩ := of_decide_eq_true h
  rw [h1, h2]
  exact ⟨good_hundredth, good_hundredth, good_hundredth⟩

theorem selectable_of {data : Bytes} (h0 : 1322 ≤ data.length) (h1 : Format.text data 64 1258 = rec1 ++ rec2)
    (h2 : Format.num data 2 105 = 32) : ∀ n, NodeOf [page] n → Format.Selectable Lazperf.plain data n := by
  rintro n ⟨p, hp, hn⟩
  rw [List.mem_singleton.1 hp] at hn
  obtain rfl : n = node := List.mem_singleton.1 hn
  refine ⟨h0, by decide, ?_, [rec1, rec2], has_of h1 h2, fun l hl => ?_⟩
  · rw [h2]; decide
  · have hx : ∀ x ∈ l, x.length = 32 := by
      intro x hx
      rcases List.mem_cons.1 (hl.subset hx) with rfl | h
      · decide
      · rw [List.mem_singleton.1 h]; decide
    have hlen := hl.length_le
    have e : (Format.chunk Lazperf.plain data l) = l.flatten := rfl
    rw [e, List.length_flatten, List.map_congr_left hx, List.map_const', List.sum_replicate_nat]
    simp only [List.length_cons, List.length_nil] at hlen
    omega

/-- Two records that make up these bytes are these. -/
theorem two_records {recs : List Bytes} (h1 : recs.flatten = rec1 ++ rec2) (h2 : ∀ x ∈ recs, x.length = 32) (h3 : recs.length = 2) :
    recs = [rec1, rec2] := by
  match recs, h3 with
  | [a, b], _ =>
    simp only [List.flatten_cons, List.flatten_nil, List.append_nil] at h1
    have ha : a.length = rec1.length := (h2 a (by simp)).trans (by decide)
    obtain ⟨e1, e2⟩ := List.append_inj h1 ha
    rw [e1, e2]

theorem coords_of {data x : Bytes} {p : Point} (h : Format.PointIs data x p) :
    p.x = applyScale (sField x 0 4) (Format.dbl data 131) (Format.dbl data 155) ∧
    p.y = applyScale (sField x 4 4) (Format.dbl data 139) (Format.dbl data 163) ∧
    p.z = applyScale (sField x 8 4) (Format.dbl data 147) (Format.dbl data 171) := by
  obtain ⟨X, Y, Z, hl, _, h1, h2, h3⟩ := h
  rw [hl.x, hl.y, hl.z]
  exact ⟨h1, h2, h3⟩

/-- The record, read with the scale of the file, is a point in the box. -/
def recInside (data x : Bytes) (b : Box Dbl) : Bool :=
  b.containsPoint ⟨applyScale (sField x 0 4) (Format.dbl data 131) (Format.dbl data 155),
    applyScale (sField x 4 4) (Format.dbl data 139) (Format.dbl data 163),
    applyScale (sField x 8 4) (Format.dbl data 147) (Format.dbl data 171)⟩

theorem lies_of {data x : Bytes} {p : Point} {b : Box Dbl} (h : Format.PointIs data x p) (hx : recInside data x b = true) : Lies b p := by
  obtain ⟨h1, h2, h3⟩ := coords_of h
  unfold recInside at hx
  rw [← h1, ← h2, ← h3] at hx
  exact (C08_contains_point b _).1 hx

theorem lies_opened {data : Bytes} {r : Reader} (ho : Opened data [page] r)
    (h1 : Format.text data 64 1258 = rec1 ++ rec2) (h2 : Format.num data 2 105 = 32)
    (h : (match Reader.init ⟨data, 0, false⟩ with
      | .ok r => recInside data rec1 (boxOf r node) && recInside data rec2 (boxOf r node)
      | _ => false) = true) :
    ∀ n, NodeOf [page] n → ∀ recs pts, Format.NodeHas Lazperf.plain data n recs → List.Forall₂ (Format.PointIs data) recs pts →
      ∀ p ∈ pts, Lies (boxOf r n) p := by
  rintro n ⟨p, hp, hn⟩ recs pts ⟨k1, k2, k3⟩ hpts
  rw [List.mem_singleton.1 hp] at hn
  obtain rfl : n = node := List.mem_singleton.1 hn
  rw [ho.init] at h
  obtain ⟨i1, i2⟩ := Bool.and_eq_true_iff.1 h
  have e : Format.chunk Lazperf.plain data recs = recs.flatten := rfl
  rw [e] at k1
  have k1 : Format.text data 64 1258 = recs.flatten := k1
  have k3 : (2 : Int) = recs.length := k3
  rw [h2] at k2
  obtain rfl := two_records (k1.symm.trans h1) k2 (by omega)
  cases hpts with
  | cons a1 t =>
    cases t with
    | cons a2 t =>
      cases t
      intro p hp
      rcases List.mem_cons.1 hp with rfl | hp
      · exact lies_of a1 i1
      · rw [List.mem_singleton.1 hp]; exact lies_of a2 i2

end Foreign

/-- The conditions of `C92_filter_partial` hold for a file that this library does not write. -/
example : ∃ r, Opened Foreign.bytes1 [Foreign.page] r ∧ Format.ReadAs Foreign.bytes1 r.cfg ∧ ItemsFit r.cfg ∧
    BoundsInOrder r.cfg.header ∧ (Format.found Foreign.bytes1 Format.uCopc 10000).isSome = true ∧
    (∀ n, NodeOf [Foreign.page] n → Format.Selectable Lazperf.plain Foreign.bytes1 n) ∧ Format.num Foreign.bytes1 2 105 ≤ 255 ∧
    GoodScale r.cfg.header.scale.x r.cfg.header.offset.x ∧ GoodScale r.cfg.header.scale.y r.cfg.header.offset.y ∧
    GoodScale r.cfg.header.scale.z r.cfg.header.offset.z ∧
    ∃ all r2, Run.Ends (fun k => Reader.getAllNodes .plain k) r (.ok all, r2) ∧ all.length < 2 ^ 25 := by
  obtain ⟨r, ho, hr⟩ := Foreign.opened1
  obtain ⟨h1, h2⟩ := Foreign.items_opened ho (by decide +kernel)
  obtain ⟨s1, s2, s3⟩ := Foreign.scales_opened ho (by decide +kernel)
  obtain ⟨all, _, r2, _, h3, _, h4, _⟩ := C36_allNodes Foreign.good1 ho (Asked.none (L := Lazperf.plain))
    (Asked.none (L := Lazperf.plain)) .plain .plain
  refine ⟨r, ho, hr, h1, h2, by decide +kernel,
    Foreign.selectable_of (by decide +kernel) (by decide +kernel) (by decide +kernel), by decide +kernel, s1, s2, s3, all, r2, h3, ?_⟩
  rw [Foreign.all_one h4]; decide

/-- The points of the file lie in the box of their node, as `C92_trim_partial` asks. -/
example : ∃ r, Opened Foreign.bytes1 [Foreign.page] r ∧ ∀ n, NodeOf [Foreign.page] n → ∀ recs pts,
    Format.NodeHas Lazperf.plain Foreign.bytes1 n recs → List.Forall₂ (Format.PointIs Foreign.bytes1) recs pts →
    ∀ p ∈ pts, Lies (boxOf r n) p := by
  obtain ⟨r, ho, _⟩ := Foreign.opened1
  exact ⟨r, ho, Foreign.lies_opened ho (by decide +kernel) (by decide +kernel) (by decide +kernel)⟩

end Copc
