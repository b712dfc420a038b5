import Verif.Spec.Geometry
/-! # The C++ comparisons are the order of extended values -/
namespace Copc.Flt
variable {m e : Nat}

theorem le'_trans {x y z : Flt m e} (h1 : le' x y = true) (h2 : le' y z = true) :
    le' x z = true := by
  simp [le'] at *; exact ⟨⟨h1.1.1, h2.1.2⟩, by omega⟩

theorem le'_refl {x : Flt m e} (h : x.isNaN = false) : le' x x = true := by simp [le', h]

theorem le'_of_not_lt' {x y : Flt m e} (hx : x.isNaN = false) (hy : y.isNaN = false)
    (h : lt' y x = false) : le' x y = true := by
  simp [le', lt', hx, hy] at *; omega

theorem not_lt'_of_le' {x y : Flt m e} (h : le' x y = true) : lt' y x = false := by
  simp [le', lt'] at *; intros; omega

theorem le'_total {x y : Flt m e} (hx : x.isNaN = false) (hy : y.isNaN = false) :
    le' x y = true ∨ le' y x = true := by
  simp [le', hx, hy]; omega

theorem le'_notNaN {x y : Flt m e} (h : le' x y = true) : x.isNaN = false ∧ y.isNaN = false := by
  simp [le'] at h; exact ⟨h.1.1, h.1.2⟩

theorem ext_le_iff (hpos : 0 < infMag m e) {x y : Flt m e} (hx : x.isNaN = false) (hy : y.isNaN = false) :
    Spec.ext x ≤ Spec.ext y ↔ x.key ≤ y.key := by
  simp only [isNaN, decide_eq_false_iff_not, not_lt] at hx hy
  unfold Spec.ext
  by_cases ix : x.isInf = true <;> by_cases iy : y.isInf = true
  · have ex : x.mag = infMag m e := by simpa [isInf] using ix
    have ey : y.mag = infMag m e := by simpa [isInf] using iy
    cases hxn : x.neg <;> cases hyn : y.neg <;> simp [ix, iy, key, hxn, hyn, ex, ey] <;> omega
  · have ex : x.mag = infMag m e := by simpa [isInf] using ix
    have ey : y.mag ≠ infMag m e := by simpa [isInf] using iy
    cases hxn : x.neg <;> cases hyn : y.neg <;> simp [ix, iy, key, hxn, hyn, ex] <;> omega
  · have ex : x.mag ≠ infMag m e := by simpa [isInf] using ix
    have ey : y.mag = infMag m e := by simpa [isInf] using iy
    cases hxn : x.neg <;> cases hyn : y.neg <;> simp [ix, iy, key, hxn, hyn, ey] <;> omega
  · simp only [ix, iy]
    simp [val_le_iff]

theorem infMag_dbl_pos : 0 < infMag 52 11 := by decide

/-- C++ `<=` on doubles. -/
theorem le'_iff_ext {x y : Dbl} :
    le' x y = true ↔ x.isNaN = false ∧ y.isNaN = false ∧ Spec.ext x ≤ Spec.ext y := by
  constructor
  · intro h
    have hn := le'_notNaN h
    refine ⟨hn.1, hn.2, (ext_le_iff infMag_dbl_pos hn.1 hn.2).2 ?_⟩
    simp [le'] at h; exact h.2
  · rintro ⟨h1, h2, h3⟩
    have := (ext_le_iff infMag_dbl_pos h1 h2).1 h3
    simp [le', h1, h2, this]

theorem between_iff {lo v hi : Dbl} :
    Spec.Between lo v hi ↔ le' lo v = true ∧ le' v hi = true := by
  rw [le'_iff_ext, le'_iff_ext]; unfold Spec.Between; tauto

end Copc.Flt
