import Verif.Spec.Writer
import Verif.Spec.LazWriter
import Verif.Model.Lifetime
/-!
# Model of copies of writers

`Writer` and `LazWriter` have the copy constructors of the compiler (`copc_writer.hpp:26-75`, `laz_writer.hpp:22-39`).
-/
namespace Copc

/-- What a program does with a `Writer` and its copies: copy one, call one, destroy one. -/
inductive CopyAct where
  | copy
  | call (op : Op)
  | drop

namespace Copies

/-- A program on the copies of a `Writer`, of which there are `n`. A copy has the configuration, the `WriterInternal` and
the hierarchy in common with the original (shared pointers, `copc_writer.hpp:57-59`, `copc_base_io.hpp:29`), so it does
not matter which of them is meant. `~Writer()` calls `Close` (`copc_writer.hpp:52`); the last one also destroys the
`WriterInternal`. An exception of a call is caught by the program and one of a destructor ends it. Simplification: the output
stream outlives the copies. -/
def exec (L : Lazperf) (ord : Order) : List CopyAct → Writer × Nat → Fate (Writer × Nat)
  | [], s => .returns s
  | .copy :: as, (w, n) => if n = 0 then .ub else exec L ord as (w, n + 1)
  | .call op :: as, (w, n) => if n = 0 ∨ (op.run L ord w).1 = .ub then .ub else exec L ord as ((op.run L ord w).2, n)
  | .drop :: as, (w, n) =>
    if n = 0 then .ub
    else if n = 1 then match Writer.destroy L ord w with
      | .returns o => exec L ord as ({ w with base := { w.base with
          out := o
          open_ := false } }, 0)
      | .throws e => .throws e
      | .ub => .ub
      | .terminates => .terminates
    else (Writer.close L ord).noexcept (fun w' => exec L ord as (w', n - 1)) w

end Copies

/-- A `LazWriter` and its copies: the stream they write to in common (a reference, `laz_base_writer.hpp:50`) and the rest of
each, which the copies have to themselves (`laz_base_writer.hpp:49-55`; the stream inside is not used). Simplification: the
configuration is shared by pointer; edits of it are not modelled here. -/
structure LazCopies where
  out : OStream
  writers : List LazWriter
  deriving DecidableEq

namespace LazCopies

/-- Copying writer `i`. -/
def copy (i : Nat) (s : LazCopies) : LazCopies :=
  match s.writers[i]? with
  | some w => { s with writers := s.writers ++ [w] }
  | none => s

/-- A call of writer `i`. -/
def call (L : Lazperf) (i : Nat) (op : LazOp) (s : LazCopies) : Res Unit × LazCopies :=
  match s.writers[i]? with
  | some w =>
    let r := op.run L { w with base := { w.base with out := s.out } }
    (r.1, ⟨r.2.base.out, s.writers.set i r.2⟩)
  | none => (.ub, s)

end LazCopies
end Copc
