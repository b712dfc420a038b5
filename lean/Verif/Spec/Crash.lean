import Verif.Spec.Writer
import Verif.Model.Reader
/-!
# Runs that end at some byte of the output

A run that dies (the process is killed, the machine stops) leaves what it has written until then. A stream
that takes `k` more bytes and then nothing stands for all such runs: `k` says where the run ends. Bytes
reach the file in the order in which they are written.
-/
namespace Copc

/-- A new file of which only the first `k` bytes that are written arrive. -/
def OStream.dying (k : Nat) : OStream := ⟨[], 0, false, some (.total k)⟩

/-- The same writer, of whose output only `k` more bytes arrive. -/
def Writer.dying (k : Nat) (w : Writer) : Writer :=
  { w with base := { w.base with out := { w.base.out with cap := some (.total k) } } }

/-- A reader accepts the file. -/
def Opens (d : Bytes) : Prop := ∃ r, Reader.init ⟨d, 0, false⟩ = .ok r

/-- `d` is the file `f` but for zeros from `j` up to `n`. -/
def ZeroGap (f : Bytes) (j n : Nat) (d : Bytes) : Prop :=
  j ≤ n ∧ n ≤ f.length ∧ d.length = f.length ∧
  ∀ i, d[i]? = if j ≤ i ∧ i < n then some 0 else f[i]?

end Copc
