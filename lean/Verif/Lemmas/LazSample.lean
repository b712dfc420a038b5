import Verif.Lemmas.LazClose
import Verif.Lemmas.Sample
/-! # A concrete LAZ writer and history, used to show that hypotheses can be met -/
namespace Copc.LazSample
open Copc

instance : Inhabited LazConfig := ⟨⟨LasHeader.make 6 30 Sample.scale Sample.zero false, [], []⟩⟩
instance : Inhabited LazWriter := ⟨⟨BaseW.init OStream.fresh 0, default⟩⟩
instance : Inhabited Point := ⟨⟨Flt.zero, Flt.zero, Flt.zero, 0, 0, 0, 0, 0, 0, 0, Flt.zero, 0, 0, 0, 0, false, false,
  [], 30, 6⟩⟩

/-- Format 6 with one extra byte of type 1 and a WKT string. -/
def cfg : LazConfig := Sample.getOk (LazConfig.make 6 Sample.scale Sample.zero [87, 75, 84] [EbField.simple 1 0 []] false)

def w0 : LazWriter := Sample.getOk (LazWriter.make OStream.fresh cfg)

def pt (x : Int) : Point :=
  { Sample.getOk (Point.make 6 1) with
    x := Flt.ofInt x
    y := Flt.ofInt 2
    z := Flt.ofInt (-3)
    intensity := 77
    extra := [9] }

def ops : List LazOp :=
  [.points 6 31 [pt 1, pt 5], .points 6 31 [], .points 7 37 [pt 1], .compressed [1, 2] 0, .compressed (List.replicate 31 4) 1,
   .points 6 31 [pt (-8)]]

/-- The calls with their outcomes and the state after them. -/
def run (L : Lazperf) : List LazOp → LazWriter → List (LazOp × Res Unit) → List (LazOp × Res Unit) × LazWriter
  | [], w, h => (h, w)
  | op :: l, w, h => run L l (op.run L w).2 (h ++ [(op, (op.run L w).1)])

theorem run_history {L : Lazperf} {s : LazWriter} : ∀ (l : List LazOp) (w : LazWriter) (h),
    LazHistory L s h w → (∀ x ∈ (run L l w h).1, x.2 ≠ .ub) →
      LazHistory L s (run L l w h).1 (run L l w h).2
  | [], _, _, hh, _ => hh
  | op :: l, w, h, hh, hu => by
    have mono : ∀ (l : List LazOp) (w : LazWriter) (h), ∀ x ∈ h, x ∈ (run L l w h).1 := by
      intro l
      induction l with
      | nil => intro w h x hx; exact hx
      | cons o l ih => intro w h x hx; exact ih _ _ x (List.mem_append_left _ hx)
    have := hu (op, (op.run L w).1) (mono l _ _ _ (List.mem_append_right _ (List.mem_singleton.2 rfl)))
    exact run_history l _ _ (.call op hh this) hu

theorem run_ops {L : Lazperf} : ∀ (l : List LazOp) (w : LazWriter) (h),
    (run L l w h).1.map (·.1) = h.map (·.1) ++ l
  | [], _, _ => by simp [run]
  | op :: l, w, h => by rw [run, run_ops l]; simp

def L : Lazperf := Lazperf.plain
def hist : List (LazOp × Res Unit) := (run L ops w0 []).1
def w : LazWriter := (run L ops w0 []).2

theorem make_of_ok {c : LazConfig} {w0 : LazWriter} (h : (LazWriter.make OStream.fresh c).isOk = true)
    (e : w0 = Sample.getOk (LazWriter.make OStream.fresh c)) : LazWriter.make OStream.fresh c = .ok w0 := by
  subst e
  cases hm : LazWriter.make OStream.fresh c with
  | ok a => rfl
  | throw e => rw [hm] at h; cases h
  | ub => rw [hm] at h; cases h

theorem made : LazWriter.make OStream.fresh cfg = .ok w0 := make_of_ok (by decide +kernel) rfl

theorem outcomes : hist.map (·.2) =
    [.ok (), .ok (), .throw .wrongFormat, .throw .zeroCount, .ok (), .ok ()] := by decide +kernel

theorem history : LazHistory L w0 hist w :=
  run_history ops w0 [] .start (by
    intro x hx
    have hm : x.2 ∈ hist.map (·.2) := List.mem_map_of_mem hx
    rw [outcomes] at hm
    intro he
    rw [he] at hm
    simp at hm)

theorem noneTooLarge : LazNoneTooLarge hist := by
  intro x hx
  have hm : x.2 ∈ hist.map (·.2) := List.mem_map_of_mem hx
  rw [outcomes] at hm
  intro he
  rw [he] at hm
  simp at hm

theorem unclosed : LazUnclosed hist := by
  intro x hx
  have hm : x.1 ∈ hist.map (·.1) := List.mem_map_of_mem hx
  rw [show hist.map (·.1) = [] ++ ops from run_ops ops w0 []] at hm
  intro he
  rw [he] at hm
  simp [ops] at hm

theorem closes : (LazWriter.close L w).1 = .ok () := by decide +kernel
def closed : LazWriter := (LazWriter.close L w).2
theorem close_eq : LazWriter.close L w = (.ok (), closed) := Prod.ext closes rfl
theorem returns : cfg.header.pointsByReturn.length = 15 := by decide +kernel
theorem few : cfg.eb.length ≤ 341 := by decide +kernel
theorem small : closed.base.out.data.length < 2 ^ 63 := by decide +kernel

end Copc.LazSample
