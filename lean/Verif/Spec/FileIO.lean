import Verif.Spec.Lifetime
import Verif.Spec.RoundTrip
import Verif.Spec.LazReader
/-! # Files written through `FileWriter` and `LazFileWriter` -/
namespace Copc

/-- The calls made on a `FileWriter`, with their outcomes, in order, and edits of the configuration it shares with
the caller in between. -/
inductive FileCalls (L : Lazperf) (ord : Order) (f0 : FileWriter) :
    List (Op × Res (Option Node)) → FileWriter → Prop
  | start : FileCalls L ord f0 [] f0
  | call {h f} (op : Op) : FileCalls L ord f0 h f → (op.runFile L ord f).1 ≠ .ub →
      FileCalls L ord f0 (h ++ [(op, (op.runFile L ord f).1)]) (op.runFile L ord f).2
  | edit {h f c} : FileCalls L ord f0 h f → PublicEdit f.w.cfg c →
      FileCalls L ord f0 h { f with w := { f.w with cfg := c } }

/-- The same for a `LazFileWriter`. -/
inductive LazFileCalls (L : Lazperf) (f0 : LazFileWriter) : List (LazOp × Res Unit) → LazFileWriter → Prop
  | start : LazFileCalls L f0 [] f0
  | call {h f} (op : LazOp) : LazFileCalls L f0 h f → (op.runFile L f).1 ≠ .ub →
      LazFileCalls L f0 (h ++ [(op, (op.runFile L f).1)]) (op.runFile L f).2
  | edit {h f c} : LazFileCalls L f0 h f → LazEdit f.w.cfg c →
      LazFileCalls L f0 h { f with w := { f.w with cfg := c } }

/-- The file `data` was made by constructing a `FileWriter` with `c` and `o` on a path (whatever was there before),
the calls `h`, and a `Close` that returned or the destruction of the writer. As in `Written`, no key was used twice,
no node moved more than once, and everything fits its field. -/
structure FileWritten (L : Lazperf) (ord : Order) (c : CopcConfig) (o : Writer.Overrides)
    (h : List (Op × Res (Option Node))) (f0 f : FileWriter) (data : Bytes) : Prop where
  made : ∃ old, (FileWriter.make L true none c o old).1 = .returns f0
  calls : FileCalls L ord f0 h f
  unclosed : Unclosed h
  ended : (∃ f', FileWriter.close L ord f = (.ok (), f') ∧ f'.contents = data) ∨
    FileWriter.destroy L ord f = .returns data
  distinct : DistinctKeys h
  once : MovedOnce h
  counted : Counted h
  storable : Spec.Storable f.w.cfg
  size : data.length < 2 ^ 63
  few : f.w.pages.length + 1 < 2 ^ 31

/-- The same for LAZ files. -/
structure LazFileWritten (L : Lazperf) (c : LazConfig) (h : List (LazOp × Res Unit)) (f0 f : LazFileWriter)
    (data : Bytes) : Prop where
  made : ∃ old, (LazFileWriter.make L true none c old).1 = .returns f0
  calls : LazFileCalls L f0 h f
  unclosed : LazUnclosed h
  ended : (∃ f', LazFileWriter.close L f = (.ok (), f') ∧ f'.contents = data) ∨
    LazFileWriter.destroy L f = .returns data
  noneTooLarge : LazNoneTooLarge h
  storable : Spec.LazStorable f.w.cfg
  size : data.length < 2 ^ 63

end Copc
