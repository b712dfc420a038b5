import Verif.Spec.RoundTrip
import Verif.Spec.LazWriter
/-!
# Runs of a program that give the same file
-/
namespace Copc

/-- An addition that was answered with an exception, but the two that come after the chunk has been written ("too large" and
"error"). -/
def refused : Op × Res (Option Node) → Bool
  | (op, .throw e) => op.target.isSome && decide (e ≠ .chunkTooLarge ∧ e ≠ .chunkError)
  | _ => false

/-- The same for a `LazWriter`. -/
def lazRefused : LazOp × Res Unit → Bool
  | (.points _ _ _, .throw e) => decide (e ≠ .chunkTooLarge ∧ e ≠ .chunkError)
  | (.compressed _ _, .throw e) => decide (e ≠ .chunkTooLarge ∧ e ≠ .chunkError)
  | _ => false

/-- Bytes of the record of the WKT: 60 of its header and the text; no record for an empty one. -/
def wktPart (wkt : Bytes) : Nat := if wkt = [] then 0 else 60 + wkt.length

end Copc
