import Verif.Props.MapFormat
import Verif.Props.FilterAnySample
/-! # C93: the file of another program, converted -/
namespace Copc
open Spec VoxelKey
namespace Foreign

theorem nodes4 {n : Node} (hn : NodeOf [page4] n) : n = node ∨ n = emptyNode := by
  obtain ⟨p, hp, hn⟩ := hn
  rw [List.mem_singleton.1 hp] at hn
  have : n ∈ [node, emptyNode] := hn
  simpa using this

theorem few4 {all : List Node} (h : ListsAll [page4] all) : all.length ≤ 2 := by
  obtain ⟨h1, h2⟩ := h
  have hsub : all ⊆ [node, emptyNode] := by
    intro m hm
    rcases nodes4 ((h2 m).1 hm) with rfl | rfl <;> simp
  exact (h1.subperm hsub).length_le

theorem holds4 {n : Node} (hn : NodeOf [page4] n) : ∃ recs, Format.NodeHolds Lazperf.plain bytes4 n recs := by
  rcases nodes4 hn with rfl | rfl
  · exact ⟨[rec1, rec2], .inr ⟨by decide, by decide +kernel, has_of (by decide +kernel) (by decide +kernel)⟩⟩
  · exact ⟨[], .inl ⟨rfl, by decide, rfl⟩⟩

/-- The record, read with the scale of the file, has coordinates that fit this scale. -/
def recFits (data x : Bytes) (scale offset : Dbl) : Bool :=
  (removeScale (applyScale (sField x 0 4) (Format.dbl data 131) (Format.dbl data 155)) scale offset).isOk &&
  (removeScale (applyScale (sField x 4 4) (Format.dbl data 139) (Format.dbl data 163)) scale offset).isOk &&
  (removeScale (applyScale (sField x 8 4) (Format.dbl data 147) (Format.dbl data 171)) scale offset).isOk

theorem fits_of {data x : Bytes} {p : Point} {scale offset : Dbl} (h : Format.PointIs data x p) (hx : recFits data x scale offset = true) :
    CoordFits p.x scale offset ∧ CoordFits p.y scale offset ∧ CoordFits p.z scale offset := by
  obtain ⟨h1, h2, h3⟩ := coords_of h
  unfold recFits at hx
  rw [← h1, ← h2, ← h3] at hx
  have hok : ∀ a : Res Int, a.isOk = true → ∃ n, a = .ok n := by
    intro a ha
    cases a with
    | ok n => exact ⟨n, rfl⟩
    | _ => cases ha
  obtain ⟨hx, x3⟩ := Bool.and_eq_true_iff.1 hx
  obtain ⟨x1, x2⟩ := Bool.and_eq_true_iff.1 hx
  exact ⟨(removeScale_fits _ _ _).1 (hok _ x1), (removeScale_fits _ _ _).1 (hok _ x2), (removeScale_fits _ _ _).1 (hok _ x3)⟩

theorem room4 {n : Node} (hn : NodeOf [page4] n) {k : Nat} (hk : k ≤ 255) : n.entry.pointCount * k ≤ 2147483647 ∧
    ∀ (f : Int) (eb : Nat) (recs : List Bytes), (recs.length : Int) = n.entry.pointCount → (∀ x ∈ recs, x.length = k) →
      (Lazperf.plain.compress f eb recs).length ≤ 2147483647 := by
  have hc : 0 ≤ n.entry.pointCount ∧ n.entry.pointCount ≤ 2 := by
    rcases nodes4 hn with rfl | rfl <;> decide
  have hmul : n.entry.pointCount * k ≤ 2 * 255 := Int.mul_le_mul hc.2 (by exact_mod_cast hk) (by omega) (by omega)
  refine ⟨by omega, fun f eb recs h1 h2 => ?_⟩
  have e : Lazperf.plain.compress f eb recs = recs.flatten := rfl
  rw [e, List.length_flatten, List.map_congr_left h2, List.map_const', List.sum_replicate_nat]
  rw [← h1] at hmul
  have : recs.length * k ≤ 510 := by exact_mod_cast hmul
  omega

theorem fits4 {n : Node} (hn : NodeOf [page4] n) {recs : List Bytes} {pts : List Point} (hr : Format.NodeHolds Lazperf.plain bytes4 n recs)
    (hp : List.Forall₂ (Format.PointIs bytes4) recs pts) {scale offset : Dbl}
    (h : (recFits bytes4 rec1 scale offset && recFits bytes4 rec2 scale offset) = true) :
    ∀ p ∈ pts, CoordFits p.x scale offset ∧ CoordFits p.y scale offset ∧ CoordFits p.z scale offset := by
  obtain ⟨i1, i2⟩ := Bool.and_eq_true_iff.1 h
  rcases hr with ⟨_, _, rfl⟩ | ⟨h1, _, k1, k2, k3⟩
  · cases hp; intro p hp; cases hp
  · rcases nodes4 hn with rfl | rfl
    · have e : Format.chunk Lazperf.plain bytes4 recs = recs.flatten := rfl
      rw [e] at k1
      have k1 : Format.text bytes4 64 1258 = recs.flatten := k1
      have k3 : (2 : Int) = recs.length := k3
      have kt : Format.text bytes4 64 1258 = rec1 ++ rec2 := by decide +kernel
      have kl : Format.num bytes4 2 105 = 32 := by decide +kernel
      rw [kl] at k2
      obtain rfl := two_records (k1.symm.trans kt) k2 (by omega)
      cases hp with
      | cons a1 t =>
        cases t with
        | cons a2 t =>
          cases t
          intro p hp
          rcases List.mem_cons.1 hp with rfl | hp
          · exact fits_of a1 i1
          · rw [List.mem_singleton.1 hp]; exact fits_of a2 i2
    · cases h1

/-- A thousandth. -/
def thousandth : Dbl := Flt.ofBits 0x3F50624DD2F1A9FC

end Foreign

/-- A file that this library does not write, with a node without points (which C90 cannot copy), can be converted to format 8: the
conditions of `C93_format_partial` hold for it. -/
example : ∃ (r : Reader) (all : List Node) (r2 : Reader) (v0 v v' : Writer), Opened Foreign.bytes4 [Foreign.page4] r ∧
    Run.Ends (fun k => Reader.getAllNodes .plain k) r (.ok all, r2) ∧
    Writer.make OStream.fresh r.cfg { fmt := some 8 } = .ok v0 ∧
    (∃ r3, mapNodes Lazperf.plain .plain (fun _ => convertPoints 8) all (r2, v0) = (.ok (), (r3, v))) ∧
    Writer.close Lazperf.plain .plain v = (.ok (), v') := by
  obtain ⟨r, ho, hr⟩ := Foreign.opened4
  obtain ⟨h1, h2⟩ := Foreign.items_opened ho (by decide +kernel)
  obtain ⟨s1, s2, s3⟩ := Foreign.scales_opened ho (by decide +kernel)
  obtain ⟨all, _, r2, _, h3, _, h4, _⟩ := C36_allNodes Foreign.good4 ho (Asked.none (L := Lazperf.plain))
    (Asked.none (L := Lazperf.plain)) .plain .plain
  have hnew : newLength Foreign.bytes4 8 ≤ 255 := by decide +kernel
  obtain ⟨v0, pts, r3, v, v', k1, _, _, k2, k3, _⟩ := C93_format_partial (L := Lazperf.plain) (ord := .plain) Foreign.conforms4
    Foreign.suits4 Foreign.good4 ho hr (Asked.none (L := Lazperf.plain)) h3 h1 (by decide +kernel) h2 (fun n hn => Foreign.holds4 hn)
    (by decide +kernel) s1 s2 s3 (by have := Foreign.few4 h4; omega) (f := 8) (.inr (.inr rfl)) hnew
    (fun n hn => ⟨(Foreign.room4 hn hnew).1, (Foreign.room4 hn hnew).2 8⟩)
  exact ⟨r, all, r2, v0, v, v', ho, h3, k1, ⟨r3, k2⟩, k3⟩

/-- And stored with a scale of a thousandth: the conditions of `C93_rescale_partial` hold for it. -/
example : ∃ (r : Reader) (all : List Node) (r2 : Reader) (v0 v v' : Writer), Opened Foreign.bytes4 [Foreign.page4] r ∧
    Run.Ends (fun k => Reader.getAllNodes .plain k) r (.ok all, r2) ∧
    Writer.make OStream.fresh r.cfg { scale := some ⟨Foreign.thousandth, Foreign.thousandth, Foreign.thousandth⟩
                                      offset := some ⟨Flt.ofInt 1, Flt.ofInt 1, Flt.ofInt 1⟩ } = .ok v0 ∧
    (∃ r3, mapNodes Lazperf.plain .plain (fun _ a => a) all (r2, v0) = (.ok (), (r3, v))) ∧
    Writer.close Lazperf.plain .plain v = (.ok (), v') := by
  obtain ⟨r, ho, hr⟩ := Foreign.opened4
  obtain ⟨h1, h2⟩ := Foreign.items_opened ho (by decide +kernel)
  obtain ⟨all, _, r2, _, h3, _, h4, _⟩ := C36_allNodes Foreign.good4 ho (Asked.none (L := Lazperf.plain))
    (Asked.none (L := Lazperf.plain)) .plain .plain
  have hlen : Format.num Foreign.bytes4 2 105 ≤ 255 := by decide +kernel
  have hfit : (Foreign.recFits Foreign.bytes4 Foreign.rec1 Foreign.thousandth (Flt.ofInt 1) &&
      Foreign.recFits Foreign.bytes4 Foreign.rec2 Foreign.thousandth (Flt.ofInt 1)) = true := by decide +kernel
  obtain ⟨v0, pts, r3, v, v', k1, _, _, k2, k3, _⟩ := C93_rescale_partial (L := Lazperf.plain) (ord := .plain) Foreign.conforms4
    Foreign.suits4 Foreign.good4 ho hr (Asked.none (L := Lazperf.plain)) h3 h1 (by decide +kernel) h2 (fun n hn => Foreign.holds4 hn)
    (by decide +kernel) (by have := Foreign.few4 h4; omega) ⟨Foreign.thousandth, Foreign.thousandth, Foreign.thousandth⟩
    ⟨Flt.ofInt 1, Flt.ofInt 1, Flt.ofInt 1⟩ (fun n recs pts hn hr hp p hq => Foreign.fits4 hn hr hp hfit p hq)
    (fun n hn => ⟨(Foreign.room4 hn hlen).1, (Foreign.room4 hn hlen).2 _⟩)
  exact ⟨r, all, r2, v0, v, v', ho, h3, k1, ⟨r3, k2⟩, k3⟩

end Copc
