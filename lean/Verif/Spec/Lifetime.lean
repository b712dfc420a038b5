import Verif.Model.Lifetime
import Verif.Spec.Writer
import Verif.Spec.LazWriter
/-! # What a caller may do with a writer on a file -/
namespace Copc

/-- The bytes of the file. -/
def FileWriter.contents (f : FileWriter) : Bytes := f.w.base.out.data
/-- The bytes of the file. -/
def LazFileWriter.contents (f : LazFileWriter) : Bytes := f.w.base.out.data

/-- A call on a `FileWriter`: `Close` is its own, the others are those of `Writer`. -/
def Op.runFile (L : Lazperf) (ord : Order) : Op → Act FileWriter (Option Node)
  | .close => do
    FileWriter.close L ord
    pure none
  | op => FileWriter.onWriter (op.run L ord)

/-- A call on a `LazFileWriter`. -/
def LazOp.runFile (L : Lazperf) : LazOp → Act LazFileWriter Unit
  | .close => LazFileWriter.close L
  | op => LazFileWriter.onWriter (op.run L)

/-- The states a program can bring a `FileWriter` to, by calls and edits of the shared configuration. -/
inductive FileHistory (L : Lazperf) (ord : Order) (f0 : FileWriter) : FileWriter → Prop
  | start : FileHistory L ord f0 f0
  | call {f} (op : Op) : FileHistory L ord f0 f → FileHistory L ord f0 (op.runFile L ord f).2
  | edit {f c} : FileHistory L ord f0 f → PublicEdit f.w.cfg c →
      FileHistory L ord f0 { f with w := { f.w with cfg := c } }

/-- The same for a `LazFileWriter`. -/
inductive LazFileHistory (L : Lazperf) (f0 : LazFileWriter) : LazFileWriter → Prop
  | start : LazFileHistory L f0 f0
  | call {f} (op : LazOp) : LazFileHistory L f0 f → LazFileHistory L f0 (op.runFile L f).2
  | edit {f c} : LazFileHistory L f0 f → LazEdit f.w.cfg c →
      LazFileHistory L f0 { f with w := { f.w with cfg := c } }

end Copc
