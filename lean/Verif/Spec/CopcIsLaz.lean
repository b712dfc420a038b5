import Verif.Spec.LazReader
import Verif.Spec.RoundTrip
/-!
# What a LAZ reader should find in a COPC file
-/
namespace Copc

/-- The calls that added a node, in order. -/
def addedCalls (h : List (Op × Res (Option Node))) : List Op :=
  h.filterMap fun x => match x.2 with
    | .ok (some _) => some x.1
    | _ => none

/-- The records a call gives to the file, when the header is `hd`: the given records, the packed points, or the records of
which the data is the LAZ compression, their number being announced correctly. At least one record and less than 2^31. -/
def Op.Gives (L : Lazperf) (hd : LasHeader) (op : Op) (recs : List Bytes) : Prop :=
  recs ≠ [] ∧ recs.length < 2 ^ 31 ∧ (∀ r ∈ recs, r.length = hd.recLen.toNat) ∧
  match op with
  | .add _ bs _ => recs.flatten = bs
  | .addPoints _ _ _ ps _ => packPoints ps hd.scale hd.offset = .ok recs.flatten
  | .addCompressed _ bs c _ => c = recs.length ∧ ∃ eb, hd.ebSize = .ok eb ∧ bs = L.compress hd.fmt eb recs
  | .move _ _ => False
  | .close => False

/-- The points given to a call. -/
def Op.points : Op → List Point
  | .addPoints _ _ _ ps _ => ps
  | _ => []

end Copc
