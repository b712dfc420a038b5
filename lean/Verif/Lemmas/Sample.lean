import Verif.Lemmas.WriterClosed
/-! # A concrete writer and history, used to show that hypotheses can be met -/
namespace Copc.Sample
open Copc

/-- The value of a call known to return. -/
def getOk {α : Type} [Inhabited α] : Res α → α
  | .ok a => a
  | _ => default

def scale : Vec3 Dbl := ⟨Flt.ofInt 1, Flt.ofInt 1, Flt.ofInt 1⟩
def zero : Vec3 Dbl := ⟨Flt.ofInt 0, Flt.ofInt 0, Flt.ofInt 0⟩

instance : Inhabited CopcConfig := ⟨⟨⟨LasHeader.make 6 30 scale zero true, [], []⟩, CopcInfo.default, ⟨6, false, []⟩⟩⟩
instance : Inhabited Writer := ⟨⟨BaseW.init OStream.fresh 0, default, [], []⟩⟩

/-- Format 6 with one extra byte of type 1, extended statistics and a WKT string. -/
def cfg : CopcConfig := getOk (CopcConfig.make 6 scale zero [87, 75, 84] [EbField.simple 1 0 []] true)

def w0 : Writer := getOk (Writer.make OStream.fresh cfg {})

/-- A child of the root and one of its children. -/
def kA : VoxelKey := ⟨1, 1, 0, 1⟩
def kB : VoxelKey := ⟨2, 2, 1, 3⟩

def ops : List Op :=
  [.add VoxelKey.root (List.replicate 62 7) VoxelKey.root,
   .addCompressed kA [1, 2, 3] 5 kA,
   .addCompressed kB [4, 5] 1 VoxelKey.root,
   .addCompressed kB [4, 5] 0 VoxelKey.root,
   .move kB kA]

/-- The calls with their outcomes and the state after them. -/
def run (L : Lazperf) (ord : Order) : List Op → Writer → List (Op × Res (Option Node)) →
    List (Op × Res (Option Node)) × Writer
  | [], w, h => (h, w)
  | op :: l, w, h => run L ord l (op.run L ord w).2 (h ++ [(op, (op.run L ord w).1)])

theorem run_history {L : Lazperf} {ord : Order} {s : Writer} : ∀ (l : List Op) (w : Writer) (h),
    History L ord s h w → (∀ x ∈ (run L ord l w h).1, x.2 ≠ .ub) →
      History L ord s (run L ord l w h).1 (run L ord l w h).2
  | [], _, _, hh, _ => hh
  | op :: l, w, h, hh, hu => by
    have mono : ∀ (l : List Op) (w : Writer) (h), ∀ x ∈ h, x ∈ (run L ord l w h).1 := by
      intro l
      induction l with
      | nil => intro w h x hx; exact hx
      | cons o l ih => intro w h x hx; exact ih _ _ x (List.mem_append_left _ hx)
    have := hu (op, (op.run L ord w).1)
      (mono l _ _ _ (List.mem_append_right _ (List.mem_singleton.2 rfl)))
    exact run_history l _ _ (.call op hh this) hu

def L : Lazperf := Lazperf.plain
def ord : Order := Order.plain
def hist : List (Op × Res (Option Node)) := (run L ord ops w0 []).1
def w : Writer := (run L ord ops w0 []).2

theorem made : Writer.make OStream.fresh cfg {} = .ok w0 := by
  have h : (Writer.make OStream.fresh cfg {}).isOk = true := by decide +kernel
  unfold w0
  cases hm : Writer.make OStream.fresh cfg {} with
  | ok a => rfl
  | throw e => rw [hm] at h; cases h
  | ub => rw [hm] at h; cases h

theorem outcomes : hist.map (·.2) =
    [.ok (some ⟨⟨VoxelKey.root, 1531, 62, 2⟩, VoxelKey.root⟩), .ok (some ⟨⟨kA, 1593, 3, 5⟩, kA⟩),
     .ok (some ⟨⟨kB, 1596, 2, 1⟩, VoxelKey.root⟩), .throw .zeroCount, .ok none] := by decide +kernel

theorem history : History L ord w0 hist w :=
  run_history ops w0 [] .start (by
    intro x hx
    have hm : x.2 ∈ hist.map (·.2) := List.mem_map_of_mem hx
    rw [outcomes] at hm
    intro he
    rw [he] at hm
    simp at hm)

theorem unclosed : Unclosed hist := by
  have h : hist.map (·.1) = ops := by rfl
  intro x hx
  have hm : x.1 ∈ hist.map (·.1) := List.mem_map_of_mem hx
  rw [h] at hm
  intro he
  rw [he] at hm
  simp [ops] at hm

theorem closes : (Writer.close L ord w).1 = .ok () := by decide +kernel

end Copc.Sample
