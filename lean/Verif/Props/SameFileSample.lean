import Verif.Props.SameFile
import Verif.Props.LazReader
/-! # C97 applies to a program whose file depends on the order of iteration -/
namespace Copc
open Spec

/-- Last added first. -/
def Order.backwards : Order := ⟨fun _ l => l.reverse, fun _ l => l.reverse, fun _ l => l.reverse_perm, fun _ l => l.reverse_perm⟩

/-- The program of the sample, one addition of which is refused. -/
example : Sample.hist.length = 5 ∧ (Sample.hist.filter fun x => !refused x).length = 4 := by decide +kernel

example : LazSample.hist.length = 6 ∧ (LazSample.hist.filter fun x => !lazRefused x).length = 4 := by decide +kernel

/-- The file with the other order is not the same, but as long. -/
example : (Writer.close Sample.L .backwards Sample.w).2.base.out.data ≠ (Writer.close Sample.L Sample.ord Sample.w).2.base.out.data ∧
    (Writer.close Sample.L .backwards Sample.w).2.base.out.data.length = (Writer.close Sample.L Sample.ord Sample.w).2.base.out.data.length ∧
    Format.num (Writer.close Sample.L Sample.ord Sample.w).2.base.out.data 8 235 <
      (Writer.close Sample.L Sample.ord Sample.w).2.base.out.data.length - wktPart Sample.w.cfg.wkt := by decide +kernel

end Copc
