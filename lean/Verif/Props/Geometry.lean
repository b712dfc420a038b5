import Verif.Lemmas.NodeBox
/-! # C08: box predicates; C10: within implies intersects -/
namespace Copc
open Spec Flt

/-- The axes of a box are ordered. -/
theorem proper_of_make {a b c d e f : Dbl} {bx : Box Dbl} (h : Box.make a b c d e f = .ok bx)
    (hn : NoNaN bx) : le' bx.xMin bx.xMax = true ∧ le' bx.yMin bx.yMax = true ∧
      le' bx.zMin bx.zMax = true := by
  unfold Box.make at h
  split at h
  · simp at h
  · rename_i hc
    simp only [Res.ok.injEq] at h
    subst h
    obtain ⟨h1, h2, h3, h4, h5, h6⟩ := hn
    simp only [Bool.or_eq_true, not_or, Bool.not_eq_true] at hc
    exact ⟨le'_of_not_lt' h1 h4 hc.1.1, le'_of_not_lt' h2 h5 hc.1.2, le'_of_not_lt' h3 h6 hc.2⟩

/-- **C08** (points): for every box and point, `Contains(point)` holds exactly when the point lies in
the box, all six bounds inclusive; any NaN makes it false. -/
theorem C08_contains_point (b : Box Dbl) (p : Vec3 Dbl) :
    b.containsPoint p = true ↔ InBox b p := by
  unfold Box.containsPoint InBox
  simp only [between_iff, CxxNum.le, Bool.and_eq_true]
  tauto

/-- **C08** (boxes): for every box `b` and every box `o` accepted by the constructor with non-NaN
corners, `b.Contains(o)` holds exactly when every point of `o` is a point of `b`. -/
theorem C08_contains_box (b : Box Dbl) {x0 y0 z0 x1 y1 z1 : Dbl} {o : Box Dbl}
    (ho : Box.make x0 y0 z0 x1 y1 z1 = .ok o) (hn : NoNaN o) :
    b.containsBox o = true ↔ ∀ p, InBox o p → InBox b p := by
  obtain ⟨px, py, pz⟩ := proper_of_make ho hn
  obtain ⟨n1, n2, n3, n4, n5, n6⟩ := hn
  unfold Box.containsBox InBox
  simp only [between_iff, CxxNum.le, Bool.and_eq_true]
  constructor
  · rintro ⟨⟨⟨⟨⟨h1, h2⟩, h3⟩, h4⟩, h5⟩, h6⟩ p ⟨⟨a, b⟩, ⟨c, d⟩, e, f⟩
    exact ⟨⟨le'_trans h2 a, le'_trans b h1⟩, ⟨le'_trans h4 c, le'_trans d h3⟩,
      le'_trans h6 e, le'_trans f h5⟩
  · intro h
    have hlo := h ⟨o.xMin, o.yMin, o.zMin⟩
      ⟨⟨le'_refl n1, px⟩, ⟨le'_refl n2, py⟩, le'_refl n3, pz⟩
    have hhi := h ⟨o.xMax, o.yMax, o.zMax⟩
      ⟨⟨px, le'_refl n4⟩, ⟨py, le'_refl n5⟩, pz, le'_refl n6⟩
    exact ⟨⟨⟨⟨⟨hhi.1.2, hlo.1.1⟩, hhi.2.1.2⟩, hlo.2.1.1⟩, hhi.2.2.2⟩, hlo.2.2.1⟩

/-- **C08** (`Within` is the converse of `Contains`, in terms of points). -/
theorem C08_within {x0 y0 z0 x1 y1 z1 : Dbl} {b : Box Dbl}
    (hb : Box.make x0 y0 z0 x1 y1 z1 = .ok b) (hn : NoNaN b) (o : Box Dbl) :
    b.within o = true ↔ ∀ p, InBox b p → InBox o p :=
  C08_contains_box o hb hn

/-- Common point of two overlapping intervals. -/
theorem exists_between {a b c d : Dbl} (h1 : le' a b = true) (h2 : le' c d = true) :
    (le' c b = true ∧ le' a d = true) ↔
      ∃ v, (le' a v = true ∧ le' v b = true) ∧ (le' c v = true ∧ le' v d = true) := by
  constructor
  · rintro ⟨h3, h4⟩
    have na := (le'_notNaN h1).1
    have nc := (le'_notNaN h2).1
    rcases le'_total na nc with h | h
    · exact ⟨c, ⟨h, h3⟩, le'_refl nc, h2⟩
    · exact ⟨a, ⟨le'_refl na, h1⟩, h, h4⟩
  · rintro ⟨v, ⟨h3, h4⟩, h5, h6⟩
    exact ⟨le'_trans h5 h4, le'_trans h3 h6⟩

/-- **C08** (intersection): two boxes accepted by the constructor with non-NaN corners intersect
exactly when some point lies in both. -/
theorem C08_intersects {x0 y0 z0 x1 y1 z1 : Dbl} {b : Box Dbl}
    (hb : Box.make x0 y0 z0 x1 y1 z1 = .ok b) (hnb : NoNaN b)
    {u0 v0 w0 u1 v1 w1 : Dbl} {o : Box Dbl}
    (ho : Box.make u0 v0 w0 u1 v1 w1 = .ok o) (hno : NoNaN o) :
    b.intersects o = true ↔ ∃ p, InBox b p ∧ InBox o p := by
  obtain ⟨px, py, pz⟩ := proper_of_make hb hnb
  obtain ⟨qx, qy, qz⟩ := proper_of_make ho hno
  have ex := exists_between px qx
  have ey := exists_between py qy
  have ez := exists_between pz qz
  unfold Box.intersects InBox
  simp only [between_iff, CxxNum.le, Bool.and_eq_true]
  constructor
  · rintro ⟨⟨⟨⟨⟨h1, h2⟩, h3⟩, h4⟩, h5⟩, h6⟩
    obtain ⟨x, a1, a2⟩ := ex.1 ⟨h1, h2⟩
    obtain ⟨y, b1, b2⟩ := ey.1 ⟨h3, h4⟩
    obtain ⟨z, c1, c2⟩ := ez.1 ⟨h5, h6⟩
    exact ⟨⟨x, y, z⟩, ⟨a1, b1, c1⟩, a2, b2, c2⟩
  · rintro ⟨⟨x, y, z⟩, ⟨a1, b1, c1⟩, a2, b2, c2⟩
    have hx := ex.2 ⟨x, a1, a2⟩
    have hy := ey.2 ⟨y, b1, b2⟩
    have hz := ez.2 ⟨z, c1, c2⟩
    exact ⟨⟨⟨⟨⟨hx.1, hx.2⟩, hy.1⟩, hy.2⟩, hz.1⟩, hz.2⟩

/-- **C08** (symmetry), for all boxes whatsoever. -/
theorem C08_intersects_symm (b o : Box Dbl) : b.intersects o = o.intersects b := by
  rw [Bool.eq_iff_iff]
  unfold Box.intersects
  simp only [CxxNum.le, Bool.and_eq_true]
  tauto

/-- **C08** (NaN): a box with a NaN corner contains nothing, a NaN point is nowhere. -/
theorem C08_nan_corner (b : Box Dbl) (h : ¬ NoNaN b) (p : Vec3 Dbl) (o : Box Dbl) :
    b.containsPoint p = false ∧ b.containsBox o = false ∧ b.intersects o = false := by
  have hc : ∀ x y : Dbl, le' x y = true → x.isNaN = false ∧ y.isNaN = false :=
    fun x y => le'_notNaN
  refine ⟨?_, ?_, ?_⟩ <;> rw [Bool.eq_false_iff] <;> intro hp <;> apply h <;>
    simp only [Box.containsPoint, Box.containsBox, Box.intersects, CxxNum.le,
      Bool.and_eq_true] at hp <;>
    obtain ⟨⟨⟨⟨⟨h1, h2⟩, h3⟩, h4⟩, h5⟩, h6⟩ := hp <;>
    (have := hc _ _ h1; have := hc _ _ h2; have := hc _ _ h3; have := hc _ _ h4
     have := hc _ _ h5; have := hc _ _ h6; unfold NoNaN; tauto)

theorem C08_nan_point (b : Box Dbl) (p : Vec3 Dbl)
    (h : p.x.isNaN = true ∨ p.y.isNaN = true ∨ p.z.isNaN = true) : b.containsPoint p = false := by
  rw [Bool.eq_false_iff]
  intro hp
  have := (C08_contains_point b p).1 hp
  obtain ⟨⟨_, h1, _⟩, ⟨_, h2, _⟩, ⟨_, h3, _⟩⟩ := this
  rcases h with h | h | h <;> simp_all

/-- **C08** (constructors): the constructor throws exactly when on some axis the maximum is smaller
than the minimum (as non-NaN numbers), and otherwise keeps the corners as given. -/
theorem C08_constructor (x0 y0 z0 x1 y1 z1 : Dbl) :
    (Box.make x0 y0 z0 x1 y1 z1 = .throw .boxOrder ↔
      (x0.isNaN = false ∧ x1.isNaN = false ∧ ext x1 < ext x0) ∨
      (y0.isNaN = false ∧ y1.isNaN = false ∧ ext y1 < ext y0) ∨
      (z0.isNaN = false ∧ z1.isNaN = false ∧ ext z1 < ext z0)) ∧
    (Box.make x0 y0 z0 x1 y1 z1 = .throw .boxOrder ∨
      Box.make x0 y0 z0 x1 y1 z1 = .ok ⟨x0, y0, z0, x1, y1, z1⟩) := by
  have key : ∀ a b : Dbl, lt' a b = true ↔ b.isNaN = false ∧ a.isNaN = false ∧ ext a < ext b := by
    intro a b
    constructor
    · intro h
      simp [lt'] at h
      refine ⟨h.1.2, h.1.1, ?_⟩
      rw [← not_le, ext_le_iff infMag_dbl_pos h.1.2 h.1.1]; omega
    · rintro ⟨h1, h2, h3⟩
      rw [← not_le, ext_le_iff infMag_dbl_pos h1 h2] at h3
      simp [lt', h1, h2]; omega
  rw [← key, ← key, ← key]
  unfold Box.make
  simp only [CxxNum.lt]
  by_cases hc : (lt' x1 x0 || lt' y1 y0 || lt' z1 z0) = true
  · rw [if_pos hc]; simp only [Bool.or_eq_true] at hc; simp; tauto
  · rw [if_neg hc]; simp only [Bool.or_eq_true] at hc; simp; simp at hc; tauto

/-- **C08** (2D boxes): a box built from two corners in the plane constrains `z` only to be finite. -/
theorem C08_flat {x0 y0 x1 y1 : Dbl} {b : Box Dbl} (h : Box.make2D x0 y0 x1 y1 = .ok b)
    (p : Vec3 Dbl) :
    b.containsPoint p = true ↔
      Between x0 p.x x1 ∧ Between y0 p.y y1 ∧ p.z.isFinite = true := by
  rw [C08_contains_point]
  have hb := (C08_constructor x0 y0 (maxFinite true) x1 y1 (maxFinite false)).2
  unfold Box.make2D at h
  rw [h] at hb
  simp at hb
  subst hb
  unfold InBox
  have : Between (maxFinite true) p.z (maxFinite false) ↔ p.z.isFinite = true := by
    rw [between_iff]
    have h1 : (maxFinite true : Dbl).isNaN = false := by decide
    have h2 : (maxFinite false : Dbl).isNaN = false := by decide
    have h3 : (maxFinite true : Dbl).key = -(infMag 52 11 - 1 : ℤ) := by decide
    have h4 : (maxFinite false : Dbl).key = (infMag 52 11 - 1 : ℤ) := by decide
    simp only [le', h1, h2, h3, h4]
    have := infMag_dbl_pos
    generalize p.z = z
    obtain ⟨n, g, hg⟩ := z
    cases n <;> simp [isNaN, isFinite, key] <;> omega
  simp only [this]

/-- Non-vacuity: `[0,1]³` and `[1,2]³` are accepted, touch in one point and neither contains the
other. -/
example : let one := dbl 0x3FF0000000000000; let two := dbl 0x4000000000000000
    let z : Dbl := zero
    ∃ b o, Box.make z z z one one one = .ok b ∧ Box.make one one one two two two = .ok o ∧
      NoNaN b ∧ NoNaN o ∧ b.intersects o = true ∧ b.containsBox o = false ∧
      Box.make one z z z one one = .throw .boxOrder := by
  refine ⟨_, _, rfl, rfl, ?_, ?_, ?_, ?_, ?_⟩ <;> first | decide | (unfold NoNaN; decide)

/-! ## C10 -/

/-- **C10**: for every key (even an invalid one), every header whose bounds are ordered and every
query box whatsoever, a node within the box intersects the box. -/
theorem C10_within_intersects (k : VoxelKey) (mn mx : Vec3 Dbl) (h : OrderedBounds mn mx)
    (q : Box Dbl) (hw : k.within mn mx q = true) : k.intersects mn mx q = true := by
  obtain ⟨ox, oy, oz⟩ := nodeBox_ordered h k
  unfold VoxelKey.within Box.within Box.containsBox at hw
  unfold VoxelKey.intersects Box.intersects
  revert hw ox oy oz
  generalize Box.ofNode k mn mx = b
  intro hw ox oy oz
  simp only [CxxNum.le, Bool.and_eq_true] at hw ⊢
  obtain ⟨⟨⟨⟨⟨h1, h2⟩, h3⟩, h4⟩, h5⟩, h6⟩ := hw
  have ax := ox (le'_notNaN h1).1
  have ay := oy (le'_notNaN h3).1
  have az := oz (le'_notNaN h5).1
  exact ⟨⟨⟨⟨⟨le'_trans h2 ax, le'_trans ax h1⟩, le'_trans h4 ay⟩, le'_trans ay h3⟩,
    le'_trans h6 az⟩, le'_trans az h5⟩

/-- **C10** (`Crosses`): the nodes that intersect a box are exactly those within it plus those
crossing it, and no node is both. -/
theorem C10_crosses (k : VoxelKey) (mn mx : Vec3 Dbl) (h : OrderedBounds mn mx) (q : Box Dbl) :
    (k.intersects mn mx q = true ↔ (k.within mn mx q = true ∨ k.crosses mn mx q = true)) ∧
    ¬ (k.within mn mx q = true ∧ k.crosses mn mx q = true) := by
  have hw := C10_within_intersects k mn mx h q
  unfold VoxelKey.crosses
  unfold VoxelKey.within VoxelKey.intersects at *
  constructor
  · constructor
    · intro hi
      cases hb : (Box.ofNode k mn mx).within q <;> simp [hi]
    · rintro (h1 | h1)
      · exact hw h1
      · simp at h1; exact h1.1
  · rintro ⟨h1, h2⟩; simp [h1] at h2

/-- Without ordered bounds the implication fails: with the bounds swapped (`min = 1 > max = 0`) the
node box of the root has its corners swapped, and is "within" a box it does not "intersect". -/
example : let one := dbl 0x3FF0000000000000; let z : Dbl := zero
    let mn : Vec3 Dbl := ⟨one, one, one⟩; let mx : Vec3 Dbl := ⟨z, z, z⟩
    let h : Dbl := dbl 0x3FE0000000000000
    VoxelKey.within ⟨0, 0, 0, 0⟩ mn mx ⟨h, h, h, h, h, h⟩ = true ∧
      VoxelKey.intersects ⟨0, 0, 0, 0⟩ mn mx ⟨h, h, h, h, h, h⟩ = false := by
  decide +kernel

/-- Non-vacuity: with bounds `[0,1]³`, the second child of the root is within `[0,1]³` and crosses
`[0, 3/4]³`. -/
example : let one := dbl 0x3FF0000000000000; let z : Dbl := zero
    let q : Dbl := dbl 0x3FE8000000000000
    OrderedBounds ⟨z, z, z⟩ ⟨one, one, one⟩ ∧
    VoxelKey.within ⟨1, 1, 0, 0⟩ ⟨z, z, z⟩ ⟨one, one, one⟩ ⟨z, z, z, one, one, one⟩ = true ∧
    VoxelKey.crosses ⟨1, 1, 0, 0⟩ ⟨z, z, z⟩ ⟨one, one, one⟩ ⟨z, z, z, q, q, q⟩ = true := by
  refine ⟨⟨?_, ?_, ?_⟩, ?_, ?_⟩ <;> decide +kernel

end Copc
