import Verif.Lemmas.RatNum
import Verif.Lemmas.FltExact
import Verif.Lemmas.NodeBox
import Verif.Spec.Octree
/-! # C09: node boxes nest -/
namespace Copc
open Spec

/-- Point in a box of exact rationals. -/
def Spec.InBoxQ (b : Box ℚ) (p : Vec3 ℚ) : Prop :=
  (b.xMin ≤ p.x ∧ p.x ≤ b.xMax) ∧ (b.yMin ≤ p.y ∧ p.y ≤ b.yMax) ∧ (b.zMin ≤ p.z ∧ p.z ≤ b.zMax)

theorem nodeStep_succ (d : Int) (mn mx : Vec3 ℚ) :
    Box.nodeStep (d + 1) mn mx = Box.nodeStep d mn mx / 2 := by
  simp only [Box.nodeStep, CxxNum.div, CxxNum.pow2]
  rw [zpow_add₀ (by norm_num : (2 : ℚ) ≠ 0), zpow_one, div_div]

theorem nodeStep_nonneg {d : Int} {mn mx : Vec3 ℚ} (h : 0 ≤ span mn mx) :
    0 ≤ Box.nodeStep d mn mx :=
  div_nonneg h (zpow_nonneg (by norm_num) _)

theorem axis_nest {s lo p : ℚ} (hs : 0 ≤ s) {x c : Int} (hc : c = 2 * x ∨ c = 2 * x + 1)
    (h1 : s / 2 * c + lo ≤ p) (h2 : p ≤ s / 2 * c + lo + s / 2) :
    s * x + lo ≤ p ∧ p ≤ s * x + lo + s := by
  rcases hc with rfl | rfl <;> push_cast at h1 h2 <;> constructor <;> nlinarith

theorem axis_cover {s lo p : ℚ} {x : Int} (h1 : s * x + lo ≤ p)
    (h2 : p ≤ s * x + lo + s) : ∃ c, (c = 2 * x ∨ c = 2 * x + 1) ∧
    s / 2 * (c : ℚ) + lo ≤ p ∧ p ≤ s / 2 * (c : ℚ) + lo + s / 2 := by
  rcases le_total p (s * x + lo + s / 2) with h | h
  · exact ⟨2 * x, .inl rfl, by push_cast; linarith, by push_cast; linarith⟩
  · exact ⟨2 * x + 1, .inr rfl, by push_cast; linarith, by push_cast; linarith⟩

/-- **C09** (the boxes, exact arithmetic): with `s` the largest side of the header bounds divided by `2^d`,
the box of the key `(d, x, y, z)` is the cube of side `s` whose low corner is `(x s, y s, z s)` from the low
corner of the bounds; the root's box begins at the low corner of the bounds and contains them. -/
theorem C09_box (k : VoxelKey) (mn mx : Vec3 ℚ) :
    let s : ℚ := max (mx.x - mn.x) (max (mx.y - mn.y) (mx.z - mn.z)) / 2 ^ k.d
    Box.ofNode k mn mx = ⟨mn.x + k.x * s, mn.y + k.y * s, mn.z + k.z * s,
      mn.x + (k.x + 1) * s, mn.y + (k.y + 1) * s, mn.z + (k.z + 1) * s⟩ := by
  have hs : span mn mx = max (mx.x - mn.x) (max (mx.y - mn.y) (mx.z - mn.z)) := by
    simp only [span, max3, CxxNum.sub, CxxNum.lt, decide_eq_true_eq]
    split_ifs <;> grind
  simp only [Box.ofNode, Box.nodeLow, Box.nodeStep, hs, CxxNum.add, CxxNum.mul, CxxNum.div, CxxNum.ofInt,
    CxxNum.pow2]
  congr 1 <;> ring

/-- The root's box contains the header bounds. -/
theorem C09_root (mn mx p : Vec3 ℚ) (hp : InBoxQ ⟨mn.x, mn.y, mn.z, mx.x, mx.y, mx.z⟩ p) :
    InBoxQ (Box.ofNode ⟨0, 0, 0, 0⟩ mn mx) p := by
  rw [C09_box]
  obtain ⟨⟨a, b⟩, ⟨c, d⟩, ⟨e, f⟩⟩ := hp
  simp only at a b c d e f
  have hx := le_max_left (mx.x - mn.x) (max (mx.y - mn.y) (mx.z - mn.z))
  have hy := (le_max_left (mx.y - mn.y) (mx.z - mn.z)).trans (le_max_right (mx.x - mn.x) _)
  have hz := (le_max_right (mx.y - mn.y) (mx.z - mn.z)).trans (le_max_right (mx.x - mn.x) _)
  refine ⟨⟨?_, ?_⟩, ⟨?_, ?_⟩, ⟨?_, ?_⟩⟩ <;> simp <;> linarith

/-- **C09** (nesting, exact arithmetic): for every key, every child of it and all header bounds with
non-negative span, every point of the child's box is in the key's box. -/
theorem C09_child_inside (k c : VoxelKey) (hc : IsChild k c) (mn mx : Vec3 ℚ)
    (h : 0 ≤ span mn mx) (p : Vec3 ℚ) (hp : InBoxQ (Box.ofNode c mn mx) p) :
    InBoxQ (Box.ofNode k mn mx) p := by
  obtain ⟨hd, hx, hy, hz⟩ := hc
  have hs := nodeStep_nonneg (d := k.d) h
  simp only [InBoxQ, Box.ofNode, Box.nodeLow, hd, nodeStep_succ, CxxNum.add, CxxNum.mul,
    CxxNum.ofInt] at hp ⊢
  exact ⟨axis_nest hs hx hp.1.1 hp.1.2, axis_nest hs hy hp.2.1.1 hp.2.1.2,
    axis_nest hs hz hp.2.2.1 hp.2.2.2⟩

/-- **C09** (cover, exact arithmetic): every point of a key's box is in the box of one of its eight
children. -/
theorem C09_children_cover (k : VoxelKey) (mn mx : Vec3 ℚ) (p : Vec3 ℚ)
    (hp : InBoxQ (Box.ofNode k mn mx) p) :
    ∃ c, IsChild k c ∧ InBoxQ (Box.ofNode c mn mx) p := by
  simp only [InBoxQ, Box.ofNode, Box.nodeLow, CxxNum.add, CxxNum.mul, CxxNum.ofInt] at hp
  obtain ⟨cx, h1, h1'⟩ := axis_cover hp.1.1 hp.1.2
  obtain ⟨cy, h2, h2'⟩ := axis_cover hp.2.1.1 hp.2.1.2
  obtain ⟨cz, h3, h3'⟩ := axis_cover hp.2.2.1 hp.2.2.2
  refine ⟨⟨k.d + 1, cx, cy, cz⟩, ⟨rfl, h1, h2, h3⟩, ?_⟩
  simp only [InBoxQ, Box.ofNode, Box.nodeLow, nodeStep_succ, CxxNum.add, CxxNum.mul, CxxNum.ofInt]
  exact ⟨h1', h2', h3'⟩

/-- **C09** (ancestors, exact arithmetic): every point of a node's box is in the box of each of its
ancestors. -/
theorem C09_ancestor_inside (a b : VoxelKey) (hab : Below a b) (mn mx : Vec3 ℚ)
    (h : 0 ≤ span mn mx) (p : Vec3 ℚ) (hp : InBoxQ (Box.ofNode a mn mx) p) :
    InBoxQ (Box.ofNode b mn mx) p := by
  obtain ⟨n, hn, rfl⟩ := hab
  clear hn
  induction n with
  | zero => simpa [up] using hp
  | succ n ih =>
    refine C09_child_inside _ (up n a) ?_ mn mx h p ih
    have hpow : (2 : Int) ^ (n + 1) = 2 ^ n * 2 := pow_succ 2 n
    have key : ∀ x : Int, x / 2 ^ n = 2 * (x / 2 ^ (n + 1)) ∨
        x / 2 ^ n = 2 * (x / 2 ^ (n + 1)) + 1 := by
      intro x
      rw [hpow, ← Int.ediv_ediv_of_nonneg (by positivity)]
      omega
    refine ⟨?_, key _, key _, key _⟩
    simp only [up]; push_cast; omega

/-- Non-vacuity: bounds `[0,8]³`, root, child `(1,1,0,0)`, grandchild `(2,3,1,0)`. -/
example : IsChild ⟨1, 1, 0, 0⟩ ⟨2, 3, 1, 0⟩ ∧ Below ⟨2, 3, 1, 0⟩ ⟨0, 0, 0, 0⟩ ∧
    (0 : ℚ) ≤ span (⟨0, 0, 0⟩ : Vec3 ℚ) ⟨8, 8, 8⟩ ∧
    InBoxQ (Box.ofNode ⟨2, 3, 1, 0⟩ ⟨0, 0, 0⟩ ⟨8, 8, 8⟩) ⟨7, 3, 1⟩ := by
  refine ⟨by unfold IsChild; decide, ⟨2, by decide, by decide⟩, ?_, ?_⟩
  · norm_num [span, max3, CxxNum.sub, CxxNum.lt]
  · norm_num [InBoxQ, Box.ofNode, Box.nodeLow, Box.nodeStep, span, max3, CxxNum.sub, CxxNum.lt,
      CxxNum.add, CxxNum.mul, CxxNum.ofInt, CxxNum.div, CxxNum.pow2]

/-! ### IEEE arithmetic -/
open Flt

/-- Low corner along one axis in IEEE arithmetic. -/
theorem low_mono {s s' lo : Dbl} {x c : Int} (hs : s.isFinite = true) (hs' : s'.isFinite = true)
    (hlo : lo.isFinite = true) (hv : s'.val = s.val / 2) (h0 : 0 ≤ s.val)
    (hx : x.natAbs < 2 ^ 31) (hc : c = 2 * x ∨ c = 2 * x + 1)
    (f1 : (mul s (ofInt x)).isFinite = true) (f2 : (mul s' (ofInt c)).isFinite = true) :
    le' (add (mul s (ofInt x)) lo) (add (mul s' (ofInt c)) lo) = true := by
  obtain ⟨fx, vx⟩ := ofInt_val x (by omega)
  obtain ⟨fc, vc⟩ := ofInt_val c (by omega)
  have k1 := mul_key hs fx
  have k2 := mul_key hs' fc
  have hle : (mul s (ofInt x)).val ≤ (mul s' (ofInt c)).val := by
    rw [val_le_iff, k1.1, k2.1]
    apply keyR_mono
    rw [vx, vc, hv]
    rcases hc with rfl | rfl <;> push_cast <;> nlinarith
  have a1 := add_key f1 hlo
  have a2 := add_key f2 hlo
  have : keyR 52 11 ((mul s (ofInt x)).val + lo.val) ≤
      keyR 52 11 ((mul s' (ofInt c)).val + lo.val) := keyR_mono (by linarith)
  simp [le', a1.1, a2.1, a1.2, a2.2, this]

/-- The step of a node is the span divided by `2^d`, exactly, when that is not a subnormal number. -/
theorem nodeStep_val {d : Int} {mn mx : Vec3 Dbl} (hd : 0 ≤ d) (hd' : d ≤ 971) (hs : (span mn mx).isFinite = true)
    (hpos : (span mn mx).val = 0 ∨ 2 ^ (d - 1022) ≤ (span mn mx).val) :
    (Box.nodeStep d mn mx).isFinite = true ∧ (Box.nodeStep d mn mx).val = (span mn mx).val / 2 ^ d := by
  have e : Box.nodeStep d mn mx = Flt.div (span mn mx) (pow2 d) := by
    simp only [Box.nodeStep, CxxNum.div, CxxNum.pow2]
  rw [e]
  generalize span mn mx = sp at *
  rcases hpos with h0 | h
  · obtain ⟨fp, vp⟩ := pow2_val d hd (by omega)
    have hk := div_key hs fp (by rw [vp]; exact zpow_ne_zero _ (by norm_num))
    have hz : sp.val / (pow2 d : Dbl).val = (zero : Dbl).val := by rw [h0, zero_div, zero_val]
    have f0 : (zero : Dbl).isFinite = true := by decide
    rw [hz] at hk
    refine ⟨finite_of_abs_le hk.1 hk.2 zero f0 ?_, ?_⟩
    · simp [zero_val]
    · rw [val_exact hk.1 f0 rfl, zero_val, h0, zero_div]
  · refine div_pow2_val hs d hd (by omega) ?_
    have : (0 : ℚ) < 2 ^ (d - 1022) := zpow_pos (by norm_num) _
    rw [abs_of_pos (lt_of_lt_of_le this h)]
    exact h

/-- A multiple of the step that is at most the span does not overflow. -/
theorem mul_finite {s sp : Dbl} {x d : Int} (hs : s.isFinite = true) (hsp : sp.isFinite = true)
    (hv : s.val = sp.val / 2 ^ d) (h0 : 0 ≤ sp.val) (hd : 0 ≤ d) (hx0 : 0 ≤ x) (hx : x < 2 ^ d.toNat)
    (hx' : x.natAbs < 2 ^ 53) :
    (mul s (ofInt x)).isFinite = true ∧ (mul s (ofInt x)).key = keyR 52 11 (s.val * x) ∧ 0 ≤ s.val * x ∧
      s.val * x + s.val ≤ sp.val := by
  obtain ⟨fx, vx⟩ := ofInt_val x hx'
  have k := mul_key hs fx
  rw [vx] at k
  have hp : (0 : ℚ) < 2 ^ d := zpow_pos (by norm_num) _
  have hs0 : 0 ≤ s.val := by rw [hv]; exact div_nonneg h0 hp.le
  have hx0' : (0 : ℚ) ≤ x := by exact_mod_cast hx0
  have h1 : (x : ℚ) + 1 ≤ 2 ^ d := by
    obtain ⟨n, rfl⟩ := Int.eq_ofNat_of_zero_le hd
    rw [zpow_natCast]
    have : x + 1 ≤ 2 ^ n := by
      have : x < 2 ^ n := by simpa using hx
      omega
    exact_mod_cast this
  have h2 : s.val * x + s.val ≤ sp.val := by
    have : s.val * 2 ^ d = sp.val := by rw [hv]; field_simp
    nlinarith
  have h3 : 0 ≤ s.val * x := mul_nonneg hs0 hx0'
  refine ⟨finite_of_abs_le k.1 k.2 sp hsp ?_, k.1, h3, h2⟩
  rw [abs_of_nonneg h3]; linarith

/-- **C09** (IEEE doubles, low corners): for keys of the octree, when the span of the header is zero or a normal
number that stays normal after halving `d + 1` times, the low corner of a child's box is never below the low corner
of the parent's box, on any axis. For smaller spans: `C09_ieee_tiny_violated`; for the high corners:
`C09_ieee_high_corner`, `C09_ieee_high_corner_violated`. -/
theorem C09_ieee_low_corner (k c : VoxelKey) (hc : IsChild k c) (hk : InOctree k) (hco : InOctree c)
    (mn mx : Vec3 Dbl) (hd' : k.d ≤ 900)
    (hi : k.x.natAbs < 2 ^ 31 ∧ k.y.natAbs < 2 ^ 31 ∧ k.z.natAbs < 2 ^ 31)
    (hmn : mn.x.isFinite = true ∧ mn.y.isFinite = true ∧ mn.z.isFinite = true)
    (hs : (span mn mx).isFinite = true)
    (hpos : (span mn mx).val = 0 ∨ 2 ^ (k.d + 1 - 1022) ≤ (span mn mx).val) :
    le' (Box.ofNode k mn mx).xMin (Box.ofNode c mn mx).xMin = true ∧
    le' (Box.ofNode k mn mx).yMin (Box.ofNode c mn mx).yMin = true ∧
    le' (Box.ofNode k mn mx).zMin (Box.ofNode c mn mx).zMin = true := by
  obtain ⟨hcd, hx, hy, hz⟩ := hc
  obtain ⟨hd, kx, kx', ky, ky', kz, kz'⟩ := hk
  obtain ⟨hd2, cx, cx', cy, cy', cz, cz'⟩ := hco
  have hp0 : (0 : ℚ) < 2 ^ (k.d + 1 - 1022) := zpow_pos (by norm_num) _
  have hv0 : 0 ≤ (span mn mx).val := by rcases hpos with h | h <;> linarith
  obtain ⟨s1, v1⟩ := nodeStep_val (d := k.d) hd (by omega) hs (hpos.imp id fun h =>
    le_trans (zpow_le_zpow_right₀ (by norm_num) (by omega)) h)
  obtain ⟨s2, v2⟩ := nodeStep_val (d := c.d) hd2 (by omega) hs (by rw [hcd]; exact hpos)
  have hv : (Box.nodeStep c.d mn mx).val = (Box.nodeStep k.d mn mx).val / 2 := by
    rw [v1, v2, hcd, zpow_add₀ (by norm_num), zpow_one, div_div]
  have h0 : 0 ≤ (Box.nodeStep k.d mn mx).val := by
    rw [v1]; exact div_nonneg hv0 (zpow_nonneg (by norm_num) _)
  simp only [Box.ofNode, Box.nodeLow, CxxNum.add, CxxNum.mul, CxxNum.ofInt]
  exact ⟨low_mono s1 s2 hmn.1 hv h0 hi.1 hx (mul_finite s1 hs v1 hv0 hd kx kx' (by omega)).1
      (mul_finite s2 hs v2 hv0 hd2 cx cx' (by omega)).1,
    low_mono s1 s2 hmn.2.1 hv h0 hi.2.1 hy (mul_finite s1 hs v1 hv0 hd ky ky' (by omega)).1
      (mul_finite s2 hs v2 hv0 hd2 cy cy' (by omega)).1,
    low_mono s1 s2 hmn.2.2 hv h0 hi.2.2 hz (mul_finite s1 hs v1 hv0 hd kz kz' (by omega)).1
      (mul_finite s2 hs v2 hv0 hd2 cz cz' (by omega)).1⟩

/-- Non-vacuity of `C09_ieee_low_corner`: bounds `[0,8]³`, key `(1,1,0,0)`, child `(2,3,1,0)`. -/
example : let mn : Vec3 Dbl := ⟨zero, zero, zero⟩; let mx : Vec3 Dbl := ⟨ofInt 8, ofInt 8, ofInt 8⟩
    let k : VoxelKey := ⟨1, 1, 0, 0⟩; let c : VoxelKey := ⟨2, 3, 1, 0⟩
    IsChild k c ∧ InOctree k ∧ InOctree c ∧
    (span mn mx).isFinite = true ∧ (2 : ℚ) ^ (k.d + 1 - 1022) ≤ (span mn mx).val ∧
    lt' (Box.ofNode k mn mx).xMin (Box.ofNode c mn mx).xMin = true := by
  have h8 : span (⟨zero, zero, zero⟩ : Vec3 Dbl) ⟨ofInt 8, ofInt 8, ofInt 8⟩ = ofInt 8 := by
    decide +kernel
  refine ⟨by unfold IsChild; decide, by decide, by decide, by decide +kernel, ?_, by decide +kernel⟩
  rw [h8, (ofInt_val 8 (by decide)).2]
  have h1 : (2 : ℚ) ^ ((1 : ℤ) + 1 - 1022) ≤ 2 ^ (0 : ℤ) :=
    zpow_le_zpow_right₀ (by norm_num) (by norm_num)
  refine le_trans h1 (by norm_num)

/-- **C09** (IEEE doubles, tiny spans): when halving the span leaves the normal numbers, even the low corner of a
child can be below that of its parent. Bounds `[0, 2⁻¹⁰⁷³]³`, parent `(1,1,0,0)`, child `(2,2,0,0)`. -/
theorem C09_ieee_tiny_violated :
    ∃ (k c : VoxelKey) (mn mx : Vec3 Dbl), IsChild k c ∧ InOctree k ∧ InOctree c ∧ OrderedBounds mn mx ∧
      lt' (Box.ofNode c mn mx).xMin (Box.ofNode k mn mx).xMin = true := by
  refine ⟨⟨1, 1, 0, 0⟩, ⟨2, 2, 0, 0⟩, ⟨zero, zero, zero⟩, ⟨dbl 2, dbl 2, dbl 2⟩, ?_, ?_, ?_, ?_, ?_⟩
  · unfold IsChild; decide
  · decide
  · decide
  · unfold OrderedBounds; decide +kernel
  · decide +kernel

theorem pow1022 : (2 : ℚ) ^ 1022 = 2 ^ 1021 + 2 ^ 1021 := by rw [pow_succ]; ring
theorem pow1021 : (16 : ℚ) ≤ 2 ^ 1021 := by
  calc (16 : ℚ) = 2 ^ 4 := by norm_num
    _ ≤ 2 ^ 1021 := pow_le_pow_right₀ (by norm_num) (by norm_num)
theorem eta_le : (1 : ℚ) / 2 ^ 1075 ≤ 1 := by
  rw [div_le_one (by positivity)]; exact one_le_pow₀ (by norm_num)
theorem eta4 : (1 : ℚ) / 2 ^ 1073 = 4 * (1 / 2 ^ 1075) := by
  rw [show (1075 : ℕ) = 1073 + 2 from rfl, pow_add]; field_simp; norm_num
theorem eta8 : (1 : ℚ) / 2 ^ 1072 = 2 * (1 / 2 ^ 1073) := by
  rw [pow_succ]; field_simp
theorem zpow970 : ((2 ^ 52 : ℤ) : ℚ) * (2 : ℚ) ^ (970 : ℤ) = 2 ^ 1022 := by
  rw [show ((970 : ℤ)) = ((970 : ℕ) : ℤ) from rfl, zpow_natCast]
  rw [show ((2 ^ 52 : ℤ) : ℚ) = (2 : ℚ) ^ 52 by push_cast; norm_num, ← pow_add]

theorem three_le {W P Q η : ℚ} (h1 : Q = P + P) (h2 : 16 ≤ P) (hW : W ≤ P) (_ : 0 ≤ W) (hη : η ≤ 1) :
    W ≤ Q ∧ W + W / 2 ^ 53 + η ≤ Q ∧ W + 3 * (W / 2 ^ 53) + 3 * η ≤ Q := by
  refine ⟨?_, ?_, ?_⟩ <;> linarith

theorem unit_dbl : ((unit 52 11 : ℕ) : ℚ) = 2 ^ 1074 := by
  unfold unit; norm_num

/-- One rounded operation, result bounded by `w`: the error. -/
theorem err_of {r : Dbl} {v w : ℚ} (hk : r.key = keyR 52 11 v) (hn : r.isNaN = false) (hv : |v| ≤ w)
    (hw : w ≤ 2 ^ 1022) :
    r.isFinite = true ∧ |r.val - v| ≤ w / 2 ^ 53 + 1 / 2 ^ 1075 := by
  have hb : ∃ x : Dbl, x.isFinite = true ∧ x.val = 2 ^ 1022 := by
    obtain ⟨x, h1, h2⟩ := exists_dbl (2 ^ 52) 970 (by decide) (by norm_num) (by norm_num)
    exact ⟨x, h1, by rw [h2]; exact zpow970⟩
  obtain ⟨x, hx, vx⟩ := hb
  have hf := finite_of_abs_le hk hn x hx (by rw [vx]; exact hv.trans hw)
  refine ⟨hf, ?_⟩
  have := val_error hk hf
  rw [unit_dbl] at this
  have h1 : |v| / 2 ^ (52 + 1) ≤ w / 2 ^ 53 := div_le_div_of_nonneg_right hv (by norm_num)
  have h2 : (1 : ℚ) / (2 * 2 ^ 1074) = 1 / 2 ^ 1075 := by rw [← pow_succ']
  rw [h2] at this
  linarith

/-- The computed high corner along an axis is close to the exact one. -/
theorem high_error {s sp lo : Dbl} {x d : Int} (hs : s.isFinite = true) (hsp : sp.isFinite = true)
    (hlo : lo.isFinite = true) (hv : s.val = sp.val / 2 ^ d) (h0 : 0 ≤ sp.val) (hd : 0 ≤ d) (hx0 : 0 ≤ x)
    (hx : x < 2 ^ d.toNat) (hx' : x.natAbs < 2 ^ 53) (hb : |lo.val| + sp.val ≤ 2 ^ 1021) :
    (add (add (mul s (ofInt x)) lo) s).isFinite = true ∧
    |(add (add (mul s (ofInt x)) lo) s).val - (lo.val + (x + 1) * s.val)| ≤
      (|lo.val| + sp.val) / 2 ^ 51 + 1 / 2 ^ 1073 := by
  obtain ⟨f1, k1, p1, q1⟩ := mul_finite hs hsp hv h0 hd hx0 hx hx'
  have hs0 : 0 ≤ s.val := by rw [hv]; exact div_nonneg h0 (zpow_nonneg (by norm_num) _)
  have hl := abs_nonneg lo.val
  have hl1 := le_abs_self lo.val
  have hl2 := neg_abs_le lo.val
  set W : ℚ := |lo.val| + sp.val with hW
  have hW0 : 0 ≤ W := by linarith
  have h3 := three_le pow1022 pow1021 hb hW0 eta_le
  have e1 := (err_of k1 (notNaN_of_finite f1) (w := W) (by rw [abs_of_nonneg p1]; linarith)
    h3.1).2
  generalize mul s (ofInt x) = a at *
  have hη : (1 : ℚ) / 2 ^ 1075 ≤ 1 := eta_le
  have hη0 : (0 : ℚ) ≤ 1 / 2 ^ 1075 := by positivity
  rw [eta4]
  obtain ⟨η, hd⟩ : ∃ η : ℚ, η = 1 / 2 ^ 1075 := ⟨_, rfl⟩
  rw [← hd] at e1 hη hη0 h3 ⊢
  have ha := abs_le.1 e1
  obtain ⟨k2, n2⟩ := add_key f1 hlo
  have b2 : |a.val + lo.val| ≤ W + W / 2 ^ 53 + η := by
    rw [abs_le]
    constructor <;> linarith [ha.1, ha.2]
  obtain ⟨f2, e2⟩ := err_of k2 n2 b2 h3.2.1
  generalize add a lo = b at *
  rw [← hd] at e2
  have hb2 := abs_le.1 e2
  obtain ⟨k3, n3⟩ := add_key f2 hs
  have b3 : |b.val + s.val| ≤ W + 3 * (W / 2 ^ 53) + 3 * η := by
    rw [abs_le]
    constructor <;> linarith [ha.1, ha.2, hb2.1, hb2.2]
  obtain ⟨f3, e3⟩ := err_of k3 n3 b3 h3.2.2
  refine ⟨f3, ?_⟩
  rw [← hd] at e3
  clear h3 hb hd
  have hb3 := abs_le.1 e3
  rw [abs_le]
  constructor <;> nlinarith [ha.1, ha.2, hb2.1, hb2.2, hb3.1, hb3.2]

/-- **C09** (IEEE doubles, high corners): rounding can push the high corner of a child's box above
that of its parent. Bounds `[230.87, 450.43]³`, parent `(3,4,4,4)`, child `(4,9,9,9)`. -/
theorem C09_ieee_high_corner_violated :
    ∃ (k c : VoxelKey) (mn mx : Vec3 Dbl), IsChild k c ∧ InOctree k ∧ OrderedBounds mn mx ∧
      lt' (Box.ofNode k mn mx).xMax (Box.ofNode c mn mx).xMax = true := by
  refine ⟨⟨3, 4, 4, 4⟩, ⟨4, 9, 9, 9⟩,
    ⟨dbl 0x406CDBD70A3D70A4, dbl 0x406CDBD70A3D70A4, dbl 0x406CDBD70A3D70A4⟩,
    ⟨dbl 0x407C26E147AE147B, dbl 0x407C26E147AE147B, dbl 0x407C26E147AE147B⟩, ?_, ?_, ?_, ?_⟩
  · unfold IsChild; decide
  · decide
  · unfold OrderedBounds; decide +kernel
  · decide +kernel

/-- **C09** (IEEE doubles, high corners): for keys of the octree the high corner of a child's box exceeds that of
its parent by at most `2⁻⁵⁰ (|lo| + span) + 2⁻¹⁰⁷²`, on any axis. -/
theorem C09_ieee_high_corner (k c : VoxelKey) (hc : IsChild k c) (hk : InOctree k) (hco : InOctree c)
    (mn mx : Vec3 Dbl) (hd' : k.d ≤ 900)
    (hi : k.x.natAbs < 2 ^ 31 ∧ k.y.natAbs < 2 ^ 31 ∧ k.z.natAbs < 2 ^ 31)
    (hmn : mn.x.isFinite = true ∧ mn.y.isFinite = true ∧ mn.z.isFinite = true)
    (hs : (span mn mx).isFinite = true)
    (hpos : (span mn mx).val = 0 ∨ 2 ^ (k.d + 1 - 1022) ≤ (span mn mx).val)
    (hb : ∀ lo ∈ [mn.x, mn.y, mn.z], |lo.val| + (span mn mx).val ≤ 2 ^ 1021) :
    (Box.ofNode c mn mx).xMax.val ≤
      (Box.ofNode k mn mx).xMax.val + (|mn.x.val| + (span mn mx).val) / 2 ^ 50 + 1 / 2 ^ 1072 ∧
    (Box.ofNode c mn mx).yMax.val ≤
      (Box.ofNode k mn mx).yMax.val + (|mn.y.val| + (span mn mx).val) / 2 ^ 50 + 1 / 2 ^ 1072 ∧
    (Box.ofNode c mn mx).zMax.val ≤
      (Box.ofNode k mn mx).zMax.val + (|mn.z.val| + (span mn mx).val) / 2 ^ 50 + 1 / 2 ^ 1072 := by
  obtain ⟨hcd, hx, hy, hz⟩ := hc
  obtain ⟨hd, kx, kx', ky, ky', kz, kz'⟩ := hk
  obtain ⟨hd2, cx, cx', cy, cy', cz, cz'⟩ := hco
  have hp0 : (0 : ℚ) < 2 ^ (k.d + 1 - 1022) := zpow_pos (by norm_num) _
  have hv0 : 0 ≤ (span mn mx).val := by rcases hpos with h | h <;> linarith
  obtain ⟨s1, v1⟩ := nodeStep_val (d := k.d) hd (by omega) hs (hpos.imp id fun h =>
    le_trans (zpow_le_zpow_right₀ (by norm_num) (by omega)) h)
  obtain ⟨s2, v2⟩ := nodeStep_val (d := c.d) hd2 (by omega) hs (by rw [hcd]; exact hpos)
  have hv : (Box.nodeStep c.d mn mx).val = (Box.nodeStep k.d mn mx).val / 2 := by
    rw [v1, v2, hcd, zpow_add₀ (by norm_num), zpow_one, div_div]
  have h0 : 0 ≤ (Box.nodeStep k.d mn mx).val := by
    rw [v1]; exact div_nonneg hv0 (zpow_nonneg (by norm_num) _)
  simp only [Box.ofNode, Box.nodeLow, CxxNum.add, CxxNum.mul, CxxNum.ofInt]
  have key : ∀ {lo : Dbl} {x y : Int}, lo.isFinite = true → 0 ≤ x → x < 2 ^ k.d.toNat → 0 ≤ y → y < 2 ^ c.d.toNat →
      x.natAbs < 2 ^ 31 → (y = 2 * x ∨ y = 2 * x + 1) → |lo.val| + (span mn mx).val ≤ 2 ^ 1021 →
      (add (add (mul (Box.nodeStep c.d mn mx) (ofInt y)) lo) (Box.nodeStep c.d mn mx)).val ≤
      (add (add (mul (Box.nodeStep k.d mn mx) (ofInt x)) lo) (Box.nodeStep k.d mn mx)).val +
        (|lo.val| + (span mn mx).val) / 2 ^ 50 + 1 / 2 ^ 1072 := by
    intro lo x y hlo x0 x1 y0 y1 xs hxy hbd
    have e1 := abs_le.1 (high_error s1 hs hlo v1 hv0 hd x0 x1 (by omega) hbd).2
    have e2 := abs_le.1 (high_error s2 hs hlo v2 hv0 hd2 y0 y1 (by omega) hbd).2
    generalize add (add (mul (Box.nodeStep c.d mn mx) (ofInt y)) lo) (Box.nodeStep c.d mn mx) = hc at *
    generalize add (add (mul (Box.nodeStep k.d mn mx) (ofInt x)) lo) (Box.nodeStep k.d mn mx) = hk at *
    have : ((y : ℚ) + 1) * (Box.nodeStep c.d mn mx).val ≤ (x + 1) * (Box.nodeStep k.d mn mx).val := by
      rw [hv]
      rcases hxy with rfl | rfl <;> push_cast <;> nlinarith
    rw [eta8]
    generalize (1 : ℚ) / 2 ^ 1073 = η at *
    linarith [e1.1, e2.2]
  exact ⟨key hmn.1 kx kx' cx cx' hi.1 hx (hb _ (by simp)), key hmn.2.1 ky ky' cy cy' hi.2.1 hy (hb _ (by simp)),
    key hmn.2.2 kz kz' cz cz' hi.2.2 hz (hb _ (by simp))⟩

/-- Non-vacuity of `C09_ieee_high_corner`: the example above also meets its last hypothesis. -/
example : ∀ lo ∈ [(zero : Dbl), zero, zero],
    |lo.val| + (span (⟨zero, zero, zero⟩ : Vec3 Dbl) ⟨ofInt 8, ofInt 8, ofInt 8⟩).val ≤ 2 ^ 1021 := by
  have h8 : span (⟨zero, zero, zero⟩ : Vec3 Dbl) ⟨ofInt 8, ofInt 8, ofInt 8⟩ = ofInt 8 := by
    decide +kernel
  rw [h8, (ofInt_val 8 (by decide)).2]
  intro lo hl
  have : lo = zero := by simpa using hl
  rw [this, zero_val, abs_zero, zero_add]
  refine le_trans ?_ pow1021
  norm_num

end Copc
