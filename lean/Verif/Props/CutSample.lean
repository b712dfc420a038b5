import Verif.Props.BoxSample
import Verif.Props.BoxBytes
import Verif.Props.RetryOpen
import Verif.Props.CutFile
/-! # C72, C73: files to which the theorems apply, and a file that is misread -/
namespace Copc
open Spec VoxelKey

/-- The configuration of `BoxFile` without a WKT string. -/
def cutCfg : CopcConfig := { boxCfg eight with wkt := [] }

/-- The file that the writer of `CutSample` leaves, written out. -/
def cutBytes : Bytes := [76, 65, 83, 70, 0, 0, 16, 0, 0, 0, 0, 0, 0, 0, 0, 0, 0, 0, 0, 0, 0, 0, 0, 0, 1, 4, 0, 0, 0, 0, 0, 0, 0, 0, 0, 0, 0,
  0, 0, 0, 0, 0, 0, 0, 0, 0, 0, 0, 0, 0, 0, 0, 0, 0, 0, 0, 0, 0, 0, 0, 0, 0, 0, 0, 0, 0, 0, 0, 0, 0, 0, 0, 0, 0, 0,
  0, 0, 0, 0, 0, 0, 0, 0, 0, 0, 0, 0, 0, 0, 0, 0, 0, 0, 0, 119, 1, 243, 5, 0, 0, 5, 0, 0, 0, 134, 31, 0, 5, 0, 0, 0,
  0, 0, 0, 0, 0, 0, 0, 0, 0, 0, 0, 0, 0, 0, 0, 0, 0, 0, 0, 0, 0, 0, 0, 0, 0, 0, 240, 63, 0, 0, 0, 0, 0, 0, 240, 63,
  0, 0, 0, 0, 0, 0, 240, 63, 0, 0, 0, 0, 0, 0, 0, 0, 0, 0, 0, 0, 0, 0, 0, 0, 0, 0, 0, 0, 0, 0, 0, 0, 0, 0, 0, 0, 0,
  0, 32, 64, 0, 0, 0, 0, 0, 0, 0, 0, 0, 0, 0, 0, 0, 0, 32, 64, 0, 0, 0, 0, 0, 0, 0, 0, 0, 0, 0, 0, 0, 0, 32, 64, 0,
  0, 0, 0, 0, 0, 0, 0, 0, 0, 0, 0, 0, 0, 0, 0, 190, 6, 0, 0, 0, 0, 0, 0, 2, 0, 0, 0, 5, 0, 0, 0, 0, 0, 0, 0, 0, 0,
  0, 0, 0, 0, 0, 0, 0, 0, 0, 0, 0, 0, 0, 0, 0, 0, 0, 0, 0, 0, 0, 0, 0, 0, 0, 0, 0, 0, 0, 0, 0, 0, 0, 0, 0, 0, 0, 0,
  0, 0, 0, 0, 0, 0, 0, 0, 0, 0, 0, 0, 0, 0, 0, 0, 0, 0, 0, 0, 0, 0, 0, 0, 0, 0, 0, 0, 0, 0, 0, 0, 0, 0, 0, 0, 0, 0,
  0, 0, 0, 0, 0, 0, 0, 0, 0, 0, 0, 0, 0, 0, 0, 0, 0, 0, 0, 0, 0, 0, 0, 0, 0, 0, 0, 0, 0, 0, 0, 0, 0, 0, 0, 0, 0, 0,
  0, 0, 0, 0, 0, 0, 99, 111, 112, 99, 0, 0, 0, 0, 0, 0, 0, 0, 0, 0, 0, 0, 1, 0, 160, 0, 67, 79, 80, 67, 32, 105,
  110, 102, 111, 32, 86, 76, 82, 0, 0, 0, 0, 0, 0, 0, 0, 0, 0, 0, 0, 0, 0, 0, 0, 0, 0, 0, 0, 0, 0, 0, 0, 0, 0, 0, 0,
  0, 0, 0, 0, 0, 0, 0, 0, 0, 0, 0, 0, 0, 0, 0, 0, 0, 0, 0, 0, 0, 0, 0, 0, 0, 0, 0, 0, 0, 0, 0, 86, 7, 0, 0, 0, 0, 0,
  0, 64, 0, 0, 0, 0, 0, 0, 0, 0, 0, 0, 0, 0, 0, 0, 0, 0, 0, 0, 0, 0, 0, 0, 0, 0, 0, 0, 0, 0, 0, 0, 0, 0, 0, 0, 0, 0,
  0, 0, 0, 0, 0, 0, 0, 0, 0, 0, 0, 0, 0, 0, 0, 0, 0, 0, 0, 0, 0, 0, 0, 0, 0, 0, 0, 0, 0, 0, 0, 0, 0, 0, 0, 0, 0, 0,
  0, 0, 0, 0, 0, 0, 0, 0, 0, 0, 0, 0, 0, 0, 0, 0, 0, 0, 0, 0, 0, 0, 0, 0, 0, 0, 0, 0, 0, 0, 0, 0, 0, 0, 0, 0, 0, 0,
  0, 99, 111, 112, 99, 0, 0, 0, 0, 0, 0, 0, 0, 0, 0, 0, 0, 16, 39, 240, 0, 67, 79, 80, 67, 32, 101, 120, 116, 101,
  110, 116, 115, 0, 0, 0, 0, 0, 0, 0, 0, 0, 0, 0, 0, 0, 0, 0, 0, 0, 0, 0, 0, 0, 0, 0, 0, 0, 0, 0, 0, 0, 0, 0, 0, 0,
  0, 0, 0, 0, 0, 0, 0, 0, 0, 0, 0, 0, 0, 0, 0, 0, 0, 0, 0, 0, 0, 0, 0, 0, 0, 0, 0, 0, 0, 0, 0, 0, 0, 0, 0, 0, 0, 0,
  0, 0, 0, 0, 0, 0, 0, 0, 0, 0, 0, 0, 0, 0, 0, 0, 0, 0, 0, 0, 0, 0, 0, 0, 0, 0, 0, 0, 0, 0, 0, 0, 0, 0, 0, 0, 0, 0,
  0, 0, 0, 0, 0, 0, 0, 0, 0, 0, 0, 0, 0, 0, 0, 0, 0, 0, 0, 0, 0, 0, 0, 0, 0, 0, 0, 0, 0, 0, 0, 0, 0, 0, 0, 0, 0, 0,
  0, 0, 0, 0, 0, 0, 0, 0, 0, 0, 0, 0, 0, 0, 0, 0, 0, 0, 0, 0, 0, 0, 0, 0, 0, 0, 0, 0, 0, 0, 0, 0, 0, 0, 0, 0, 0, 0,
  0, 0, 0, 0, 0, 0, 0, 0, 0, 0, 0, 0, 0, 0, 0, 0, 0, 0, 0, 0, 0, 0, 0, 0, 0, 0, 0, 0, 0, 0, 0, 0, 0, 0, 0, 0, 0, 0,
  0, 0, 0, 0, 0, 0, 0, 0, 0, 0, 0, 0, 0, 0, 0, 0, 0, 0, 0, 0, 0, 0, 0, 0, 0, 0, 0, 0, 0, 0, 0, 0, 0, 0, 0, 0, 0, 0,
  0, 114, 111, 99, 107, 95, 114, 111, 98, 111, 116, 105, 99, 0, 0, 0, 0, 17, 39, 240, 0, 67, 79, 80, 67, 32, 101,
  120, 116, 101, 110, 100, 101, 100, 32, 115, 116, 97, 116, 115, 0, 0, 0, 0, 0, 0, 0, 0, 0, 0, 0, 0, 0, 0, 0, 0, 0,
  0, 0, 0, 0, 0, 0, 0, 0, 0, 0, 240, 63, 0, 0, 0, 0, 0, 0, 0, 0, 0, 0, 0, 0, 0, 0, 240, 63, 0, 0, 0, 0, 0, 0, 0, 0,
  0, 0, 0, 0, 0, 0, 240, 63, 0, 0, 0, 0, 0, 0, 0, 0, 0, 0, 0, 0, 0, 0, 240, 63, 0, 0, 0, 0, 0, 0, 0, 0, 0, 0, 0, 0,
  0, 0, 240, 63, 0, 0, 0, 0, 0, 0, 0, 0, 0, 0, 0, 0, 0, 0, 240, 63, 0, 0, 0, 0, 0, 0, 0, 0, 0, 0, 0, 0, 0, 0, 240,
  63, 0, 0, 0, 0, 0, 0, 0, 0, 0, 0, 0, 0, 0, 0, 240, 63, 0, 0, 0, 0, 0, 0, 0, 0, 0, 0, 0, 0, 0, 0, 240, 63, 0, 0, 0,
  0, 0, 0, 0, 0, 0, 0, 0, 0, 0, 0, 240, 63, 0, 0, 0, 0, 0, 0, 0, 0, 0, 0, 0, 0, 0, 0, 240, 63, 0, 0, 0, 0, 0, 0, 0,
  0, 0, 0, 0, 0, 0, 0, 240, 63, 0, 0, 0, 0, 0, 0, 0, 0, 0, 0, 0, 0, 0, 0, 240, 63, 0, 0, 0, 0, 0, 0, 0, 0, 0, 0, 0,
  0, 0, 0, 240, 63, 0, 0, 0, 0, 0, 0, 0, 0, 0, 0, 0, 0, 0, 0, 240, 63, 0, 0, 76, 65, 83, 70, 95, 83, 112, 101, 99,
  0, 0, 0, 0, 0, 0, 0, 4, 0, 192, 0, 0, 0, 0, 0, 0, 0, 0, 0, 0, 0, 0, 0, 0, 0, 0, 0, 0, 0, 0, 0, 0, 0, 0, 0, 0, 0,
  0, 0, 0, 0, 0, 0, 0, 0, 1, 0, 0, 0, 0, 0, 0, 0, 0, 0, 0, 0, 0, 0, 0, 0, 0, 0, 0, 0, 0, 0, 0, 0, 0, 0, 0, 0, 0, 0,
  0, 0, 0, 0, 0, 0, 0, 0, 0, 0, 0, 0, 0, 0, 0, 0, 0, 0, 0, 0, 0, 0, 0, 0, 0, 0, 0, 0, 0, 0, 0, 0, 0, 0, 0, 0, 0, 0,
  0, 0, 0, 0, 0, 0, 0, 0, 0, 0, 0, 0, 0, 0, 0, 0, 0, 0, 0, 0, 0, 0, 0, 0, 0, 0, 0, 0, 0, 0, 0, 0, 0, 0, 0, 0, 0, 0,
  0, 0, 0, 0, 0, 0, 0, 0, 0, 0, 0, 0, 0, 0, 0, 0, 0, 0, 0, 0, 0, 0, 0, 0, 0, 0, 0, 0, 0, 0, 0, 0, 0, 0, 0, 0, 0, 0,
  0, 0, 0, 0, 0, 0, 0, 0, 0, 0, 0, 0, 0, 0, 0, 0, 0, 0, 0, 0, 0, 0, 0, 0, 0, 0, 0, 0, 0, 0, 0, 0, 0, 0, 0, 0, 0, 0,
  0, 0, 0, 0, 0, 0, 0, 0, 0, 0, 108, 97, 115, 122, 105, 112, 32, 101, 110, 99, 111, 100, 101, 100, 0, 0, 188, 86,
  46, 0, 108, 97, 122, 112, 101, 114, 102, 32, 118, 97, 114, 105, 97, 110, 116, 0, 0, 0, 0, 0, 0, 0, 0, 0, 0, 0, 0,
  0, 0, 0, 0, 0, 1, 1, 1, 1, 1, 1, 1, 1, 1, 1, 1, 1, 255, 255, 255, 255, 1, 1, 1, 1, 1, 1, 1, 1, 1, 1, 1, 1, 1, 1, 1, 1, 1,
  1, 1, 1, 1, 1, 1, 1, 1, 1, 1, 1, 1, 1, 150, 6, 0, 0, 0, 0, 0, 0, 1, 0, 0, 0, 2, 0, 0, 0, 3, 0, 0, 0, 0, 0, 0, 0,
  0, 0, 0, 0, 0, 0, 0, 0, 0, 0, 0, 0, 0, 0, 0, 7, 0, 0, 0, 0, 0, 0, 0, 8, 0, 0, 0, 0, 0, 0, 0, 0, 0, 0, 0, 0, 0, 0,
  0, 0, 0, 0, 0, 0, 0, 0, 5, 0, 0, 0, 1, 0, 0, 0, 6, 0, 0, 0, 0, 0, 0, 0, 0, 0, 0, 0, 0, 0, 0, 0, 0, 0, 0, 0, 0, 0,
  0, 6, 0, 0, 0, 4, 0, 0, 0, 4, 0, 0, 0, 0, 0, 0, 0, 0, 0, 0, 0, 0, 0, 0, 0, 0, 0, 0, 0, 0, 0, 0, 8, 0, 0, 0, 0, 0,
  0, 0, 8, 0, 0, 0, 0, 0, 0, 0, 0, 0, 0, 0, 0, 0, 0, 0, 0, 0, 0, 0, 0, 0, 0, 0, 0, 0, 0, 2, 0, 0, 0, 2, 0, 0, 0, 0,
  0, 0, 0, 62, 0, 0, 0, 0, 0, 0, 0, 3, 0, 0, 0, 0, 0, 0, 0, 93, 0, 0, 0, 0, 0, 0, 0, 0, 0, 99, 111, 112, 99, 0, 0,
  0, 0, 0, 0, 0, 0, 0, 0, 0, 0, 232, 3, 32, 0, 0, 0, 0, 0, 0, 0, 40, 49, 44, 32, 49, 44, 32, 48, 44, 32, 49, 41, 0,
  0, 0, 0, 0, 0, 0, 0, 0, 0, 0, 0, 0, 0, 0, 0, 0, 0, 0, 0, 1, 0, 0, 0, 1, 0, 0, 0, 0, 0, 0, 0, 1, 0, 0, 0, 57, 6, 0,
  0, 0, 0, 0, 0, 93, 0, 0, 0, 3, 0, 0, 0, 0, 0, 99, 111, 112, 99, 0, 0, 0, 0, 0, 0, 0, 0, 0, 0, 0, 0, 232, 3, 64, 0,
  0, 0, 0, 0, 0, 0, 40, 48, 44, 32, 48, 44, 32, 48, 44, 32, 48, 41, 0, 0, 0, 0, 0, 0, 0, 0, 0, 0, 0, 0, 0, 0, 0, 0,
  0, 0, 0, 0, 0, 0, 0, 0, 0, 0, 0, 0, 0, 0, 0, 0, 0, 0, 0, 0, 251, 5, 0, 0, 0, 0, 0, 0, 62, 0, 0, 0, 2, 0, 0, 0, 1,
  0, 0, 0, 1, 0, 0, 0, 0, 0, 0, 0, 1, 0, 0, 0, 250, 6, 0, 0, 0, 0, 0, 0, 32, 0, 0, 0, 255, 255, 255, 255]

namespace CutSample

def w0 : Writer := Sample.getOk (Writer.make OStream.fresh cutCfg {})
def hist : List (Op × Res (Option Node)) := (Sample.run Sample.L Sample.ord BoxFile.ops w0 []).1
def w : Writer := (Sample.run Sample.L Sample.ord BoxFile.ops w0 []).2

theorem hist_eq : (Sample.run Sample.L Sample.ord BoxFile.ops w0 []).1 = hist := by rw [hist]
theorem w_eq : (Sample.run Sample.L Sample.ord BoxFile.ops w0 []).2 = w := by rw [w]

theorem made : Writer.make OStream.fresh cutCfg {} = .ok w0 := make_of_ok (by decide +kernel)
theorem outcomes : hist.map (·.2) = BoxFile.outs := by decide +kernel
theorem closes : (Writer.close Sample.L Sample.ord w).1 = .ok () := by decide +kernel
theorem bytes : (Writer.close Sample.L Sample.ord w).2.base.out.data = cutBytes := by decide +kernel

theorem storable : Storable w.cfg := by
  refine ⟨⟨by decide +kernel, by decide +kernel, by decide +kernel, by decide +kernel⟩, ⟨by decide +kernel,
    by decide +kernel, ⟨by decide +kernel, ?_⟩, ⟨by decide +kernel, ?_⟩, ⟨by decide +kernel, ?_⟩⟩,
    by decide +kernel, ?_, by decide +kernel, ?_, by decide +kernel⟩
  · have : w.cfg.header.guid = [] := by decide +kernel
    rw [this]; decide
  · have : w.cfg.header.systemIdentifier = [] := by decide +kernel
    rw [this]; decide
  · have : w.cfg.header.generatingSoftware = [] := by decide +kernel
    rw [this]; decide
  · have : ∀ x ∈ w.cfg.extents.extents, Flt.lt' x.maximum x.minimum = false ∧
        Flt.lt' x.var Flt.zero = false := by decide +kernel
    intro x hx
    exact ⟨(ordered_iff x).2 (this x hx).1, (varOk_iff x).2 (this x hx).2⟩
  · have : w.cfg.eb = [EbField.simple 1 0 []] := by decide +kernel
    rw [this]
    intro f hf
    obtain rfl := List.mem_singleton.1 hf
    exact ⟨by decide, by decide, ⟨by decide, by decide⟩, ⟨by decide, by decide⟩⟩

theorem size : cutBytes.length < 2 ^ 63 := by decide +kernel
theorem few : w.pages.length + 1 < 2 ^ 31 := by decide +kernel

theorem written : Written Sample.L Sample.ord w0 w hist cutBytes :=
  (written_of made BoxFile.adds hist_eq w_eq bytes outcomes BoxFile.oks closes BoxFile.distinct BoxFile.counted
    storable size few).1


theorem pieces_more (k : Nat) : ∀ (n : Nat) (bs rest : Bytes), n * k ≤ bs.length → Lazperf.pieces k n (bs ++ rest) = Lazperf.pieces k n bs
  | 0, _, _, _ => rfl
  | n + 1, bs, rest, h => by
    have hk : k ≤ bs.length := by
      have : k ≤ (n + 1) * k := Nat.le_mul_of_pos_left k (by omega)
      omega
    have hp : padTo k (bs ++ rest) = padTo k bs := by
      unfold padTo
      rw [List.take_append_of_le_length hk, List.length_append, show k - (bs.length + rest.length) = 0 by omega,
        show k - bs.length = 0 by omega]
    rw [Lazperf.pieces, Lazperf.pieces, hp, List.drop_append_of_le_length hk,
      pieces_more k n _ _ (by rw [List.length_drop]; rw [Nat.succ_mul] at h; omega)]

theorem streams : Sample.L.Streams := by
  intro fmt eb n bs rest l h
  change (if bs.length < n * (lazBase fmt + eb) then none else some (Lazperf.pieces (lazBase fmt + eb) n bs)) = some l at h
  show (if (bs ++ rest).length < n * (lazBase fmt + eb) then none else some (Lazperf.pieces (lazBase fmt + eb) n (bs ++ rest))) = some l
  split at h
  · cases h
  · rename_i hl
    rw [if_neg (by rw [List.length_append]; omega), pieces_more _ _ _ _ (by omega)]
    exact h

/-- The reader of the file without its last 42 bytes. -/
def cutReader : Option Reader := match Reader.init ⟨cutBytes.take 1900, 0, false⟩ with
  | .ok r => some r
  | _ => none

theorem readable : cutReader.map (fun r => BoxFile.coords (Reader.getPoints Sample.L BoxFile.root r)) =
    some (some [BoxFile.at' 1 2 3, BoxFile.at' 7 0 8]) := by decide +kernel

end CutSample

/-- The theorems on files that were cut apply: this one opens, and `GetPoints` returns two points. -/
example : ∃ r ps v, Written Sample.L Sample.ord CutSample.w0 CutSample.w CutSample.hist
      (cutBytes.take 1900 ++ cutBytes.drop 1900) ∧ cutBytes.drop 1900 ≠ [] ∧ Sample.L.Streams ∧
    Reader.init ⟨cutBytes.take 1900, 0, false⟩ = .ok r ∧ Answered Sample.L r [] r ∧
    Run.Ends (fun _ => Run.ofAct (Reader.getPoints Sample.L BoxFile.root)) r (.ok ps, v) ∧ ps.length = 2 := by
  have hr := CutSample.readable
  unfold CutSample.cutReader at hr
  cases hi : Reader.init ⟨cutBytes.take 1900, 0, false⟩ with
  | throw e => rw [hi] at hr; cases hr
  | ub => rw [hi] at hr; cases hr
  | ok r =>
    rw [hi] at hr
    obtain ⟨ps, h1, h2⟩ := BoxFile.coords_some (Option.some.inj hr)
    refine ⟨r, ps, _, ?_, by decide +kernel, CutSample.streams, rfl, .none, ⟨0, fun _ _ => congrArg some h1⟩, ?_⟩
    · rw [List.take_append_drop]; exact CutSample.written
    · have := congrArg List.length h2
      simpa using this

/-- C72 does not hold as it stands: of a file that was written and cut, the constructor of `Reader` uses values it
never read. -/
theorem C72_open_violated : ∃ (L : Lazperf) (ord : Order) (w0 w : Writer) (h : List (Op × Res (Option Node))) (d t : Bytes),
    Written L ord w0 w h (d ++ t) ∧ Reader.init ⟨d, 0, false⟩ = .ub := by
  refine ⟨Sample.L, Sample.ord, BoxFile.w0, BoxFile.w, BoxFile.hist, boxBytes.take 1800, boxBytes.drop 1800, ?_, ?_⟩
  · rw [List.take_append_drop, ← boxBytes_eq]; exact BoxFile.written.1
  · have : isUb (Reader.init ⟨boxBytes.take 1800, 0, false⟩) = true := by decide +kernel
    cases hi : Reader.init ⟨boxBytes.take 1800, 0, false⟩ with
    | ok r => rw [hi] at this; cases this
    | throw e => rw [hi] at this; cases this
    | ub => rfl

end Copc
