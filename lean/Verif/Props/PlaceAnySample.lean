import Verif.Props.PlaceAny
import Verif.Props.ConformingLazSample
import Verif.Props.FilterAnySample
/-! # C94: the LAZ file of another program, converted -/
namespace Copc
open Spec VoxelKey
namespace ForeignLaz

/-- Its points go to the root and to one of its children, by their intensity; another child gets none. -/
def place (p : Point) : VoxelKey := if p.intensity.toNat < 501 then VoxelKey.root else ⟨1, 0, 1, 1⟩
def keys : List VoxelKey := [VoxelKey.root, ⟨1, 0, 1, 1⟩, ⟨1, 0, 0, 0⟩]

theorem places_good {pts : List Point} (h : pts.length = 3) :
    GoodPlaces Lazperf.plain ((Format.num bytes1 1 104 : Int) - 128) (Format.num bytes1 2 105) place (fun _ => VoxelKey.root) keys pts := by
  have hk : Format.num bytes1 2 105 = 38 := by decide +kernel
  rw [hk]
  have hle : ∀ k, (pts.filter fun p => decide (place p = k)).length ≤ 3 := fun k => h ▸ List.length_filter_le _ _
  refine ⟨by decide, by decide, fun p _ => ?_, ?_, ?_, fun k _ => ?_, fun k _ eb recs h1 h2 => ?_⟩
  · unfold place keys
    split <;> simp
  · intro k hk
    simp only [keys, List.mem_cons, List.not_mem_nil, or_false] at hk
    rcases hk with rfl | rfl | rfl <;> exact ⟨by decide, by decide +kernel⟩
  · intro k hk
    refine ⟨by decide, ?_, by decide +kernel⟩
    simp only [keys, List.mem_cons, List.not_mem_nil, or_false] at hk
    rcases hk with rfl | rfl | rfl <;> exact (childOf_iff _ _).1 (by decide +kernel) |>.2
  · have := hle k
    omega
  · have e : Lazperf.plain.compress ((Format.num bytes1 1 104 : Int) - 128) eb recs = recs.flatten := rfl
    rw [e, List.length_flatten, List.map_congr_left h2, List.map_const', List.sum_replicate_nat, h1]
    have := hle k
    omega

/-- What can be computed of the configuration of the reader. -/
def lazItemsB (c : LazConfig) : Bool :=
  decide (∀ f ∈ c.eb, f.dataType ≤ 30 ∧ 0 < lasItemSize f) && decide (∀ f ∈ c.eb, NoNul f.name ∧ NoNul f.description) &&
  decide (c.header.recLen.toNat = lasBaseSize c.header.fmt + (c.eb.map lasItemSize).sum) &&
  decide (c.header.scale = ⟨Foreign.hundredth, Foreign.hundredth, Foreign.hundredth⟩ ∧
    c.header.offset = ⟨Flt.ofInt 0, Flt.ofInt 0, Flt.ofInt 0⟩)

theorem laz_items {r : LazReader} (hr : LazReader.init Lazperf.plain ⟨bytes1, 0, false⟩ = .ok r) : LazItemsFit r.base.las ∧
    GoodScale r.base.las.header.scale.x r.base.las.header.offset.x ∧ GoodScale r.base.las.header.scale.y r.base.las.header.offset.y ∧
    GoodScale r.base.las.header.scale.z r.base.las.header.offset.z := by
  have h : (match LazReader.init Lazperf.plain ⟨bytes1, 0, false⟩ with | .ok r => lazItemsB r.base.las | _ => false) = true := by
    decide +kernel
  rw [hr] at h
  dsimp only at h
  unfold lazItemsB at h
  simp only [Bool.and_eq_true, decide_eq_true_eq] at h
  obtain ⟨⟨⟨h1, h2⟩, h3⟩, h4, h5⟩ := h
  rw [h4, h5]
  exact ⟨⟨h1, h2, h3⟩, Foreign.good_hundredth, Foreign.good_hundredth, Foreign.good_hundredth⟩

end ForeignLaz

/-- The LAZ file that this library does not write can be converted to COPC: the conditions of `C94_place_partial` hold for it, with an
unedited configuration. -/
example : ∃ (r : LazReader) (pts : List Point) (c : CopcConfig) (w0 w w' : Writer) (h : List (Op × Res (Option Node))),
    LazReader.init Lazperf.plain ⟨ForeignLaz.bytes1, 0, false⟩ = .ok r ∧ LazReader.getPoints Lazperf.plain r = .ok pts ∧ pts.length = 3 ∧
    CopcConfig.make r.base.las.header.fmt r.base.las.header.scale r.base.las.header.offset r.base.las.wkt r.base.las.eb true = .ok c ∧
    Writer.make OStream.fresh c {} = .ok w0 ∧ History Lazperf.plain .plain w0 h w ∧
    Writer.close Lazperf.plain .plain w = (.ok (), w') := by
  obtain ⟨r, pts, h1, h2, h3, h4, h5⟩ := C94_place_partial Lazperf.plain .plain ForeignLaz.las1 ForeignLaz.suits1 ForeignLaz.chunks1
    (.inl ForeignLaz.varying1) (by decide +kernel) (by decide) true
  obtain ⟨k1, k2, k3, k4⟩ := ForeignLaz.laz_items h1
  obtain ⟨c, hc, h6⟩ := h5 k1 k2 k3 k4
  have hl : pts.length = 3 := h4.length_eq.symm
  obtain ⟨w0, h, w, w', t1, t2, _, _, t5, _⟩ := h6 c (PublicEdit.refl c) (made_good (laz_args ForeignLaz.las1 ForeignLaz.suits1 h2 k1) hc)
    ForeignLaz.place (fun _ => VoxelKey.root) ForeignLaz.keys (ForeignLaz.places_good hl)
  exact ⟨r, pts, c, w0, w, w', h, h1, h3, hl, hc, t1, t2, t5⟩

end Copc
