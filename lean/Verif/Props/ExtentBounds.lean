import Verif.Props.Format
import Verif.Props.BoxSample
/-! # C86: the X, Y and Z extents and the bounds of the header -/
namespace Copc
open Spec

/-- The extents at `o` (pairs of a minimum and a maximum) begin with the bounds of the header. -/
def Format.ExtentsAgree (data : Bytes) (o : Nat) : Prop :=
  (dbl data o = dbl data 187 ∧ dbl data (o + 8) = dbl data 179) ∧
  (dbl data (o + 16) = dbl data 203 ∧ dbl data (o + 24) = dbl data 195) ∧
  (dbl data (o + 32) = dbl data 219 ∧ dbl data (o + 40) = dbl data 211)

/-- The program set the X, Y and Z extents to the bounds of the header. -/
def CopcConfig.ExtentsAgree (c : CopcConfig) : Prop :=
  ∃ x y z rest, c.extents.extents = x :: y :: z :: rest ∧
    (x.minimum = c.header.min.x ∧ x.maximum = c.header.max.x) ∧
    (y.minimum = c.header.min.y ∧ y.maximum = c.header.max.y) ∧
    (z.minimum = c.header.min.z ∧ z.maximum = c.header.max.z)

variable {L : Lazperf} {ord : Order} {w0 w : Writer} {h : List (Op × Res (Option Node))} {data : Bytes}

/-- The extents VLR of a file agrees with its header exactly if the program made the two agree before `Close`. -/
theorem C86_partial (hw : Written L ord w0 w h data) :
    ∃ o, ⟨copcUser, 10000, o, 16 * w.cfg.extents.extents.length⟩ ∈ Format.vlrs data ∧
      (Format.ExtentsAgree data o ↔ w.cfg.ExtentsAgree) := by
  obtain ⟨o, h1, h2⟩ := (C82_vlrs hw).1
  refine ⟨o, h1, ?_⟩
  have hh := (C82_header hw).1
  have e1 := hh.max
  have e2 := hh.min
  have hlen := hw.storable.extents
  have hb : 3 ≤ w.cfg.extents.extents.length := by
    rw [hlen]
    obtain h | h | h := hw.storable.fmt <;> rw [h] <;> simp [baseDims] <;> omega
  obtain ⟨x, l1, e3⟩ : ∃ x l, w.cfg.extents.extents = x :: l := by
    cases hl : w.cfg.extents.extents with
    | nil => rw [hl] at hb; simp at hb
    | cons x l => exact ⟨x, l, rfl⟩
  obtain ⟨y, l2, rfl⟩ : ∃ x l, l1 = x :: l := by
    cases l1 with
    | nil => rw [e3] at hb; simp at hb
    | cons x l => exact ⟨x, l, rfl⟩
  obtain ⟨z, rest, rfl⟩ : ∃ x l, l2 = x :: l := by
    cases l2 with
    | nil => rw [e3] at hb; simp at hb
    | cons x l => exact ⟨x, l, rfl⟩
  have a1 := h2 0 x (by rw [e3]; rfl)
  have a2 := h2 1 y (by rw [e3]; rfl)
  have a3 := h2 2 z (by rw [e3]; rfl)
  unfold Format.ExtentsAgree CopcConfig.ExtentsAgree
  have m1 : Format.dbl data 179 = w.cfg.header.max.x := by rw [← e1]
  have m2 : Format.dbl data 195 = w.cfg.header.max.y := by rw [← e1]
  have m3 : Format.dbl data 211 = w.cfg.header.max.z := by rw [← e1]
  have n1 : Format.dbl data 187 = w.cfg.header.min.x := by rw [← e2]
  have n2 : Format.dbl data 203 = w.cfg.header.min.y := by rw [← e2]
  have n3 : Format.dbl data 219 = w.cfg.header.min.z := by rw [← e2]
  rw [m1, m2, m3, n1, n2, n3]
  rw [show o + 16 * 0 = o from rfl] at a1
  rw [show o + 16 * 1 = o + 16 from rfl, show o + 16 + 8 = o + 24 from rfl] at a2
  rw [show o + 16 * 2 = o + 32 from rfl, show o + 32 + 8 = o + 40 from rfl] at a3
  rw [a1.1, a1.2, a2.1, a2.2, a3.1, a3.2]
  constructor
  · intro hx; exact ⟨x, y, z, rest, e3, hx⟩
  · rintro ⟨x', y', z', r', e, hx⟩
    rw [e3] at e
    injection e with e4 e
    injection e with e5 e
    injection e with e6 e
    subst e4; subst e5; subst e6
    exact hx

/-- The program of the sample did. -/
example : (match Sample.w.cfg.extents.extents with
    | x :: y :: z :: _ => decide ((x.minimum = Sample.w.cfg.header.min.x ∧ x.maximum = Sample.w.cfg.header.max.x) ∧
        (y.minimum = Sample.w.cfg.header.min.y ∧ y.maximum = Sample.w.cfg.header.max.y) ∧
        (z.minimum = Sample.w.cfg.header.min.z ∧ z.maximum = Sample.w.cfg.header.max.z))
    | _ => false) = true := by decide +kernel

/-- The full claim, that the file's X, Y and Z extents are the bounds of its header, is false: a file with bounds
from 0 to 8 in the header and the extent of X from 0 to 0. -/
theorem C86_violated : ∃ (data : Bytes) (o n : Nat), (∃ w0 w h, Written Sample.L Sample.ord w0 w h data) ∧
    ⟨copcUser, 10000, o, n⟩ ∈ Format.vlrs data ∧ ¬ Format.ExtentsAgree data o := by
  have hw := BoxFile.written.1
  obtain ⟨o, h1, h2⟩ := C86_partial hw
  refine ⟨BoxFile.data, o, _, ⟨_, _, _, hw⟩, h1, fun e => ?_⟩
  obtain ⟨x, y, z, rest, e, hx, _⟩ := h2.1 e
  have : (match BoxFile.w.cfg.extents.extents with
    | x :: _ => decide (x.maximum = BoxFile.w.cfg.header.max.x)
    | [] => true) = false := by decide +kernel
  rw [e] at this
  exact absurd hx.2 (of_decide_eq_false this)

end Copc
