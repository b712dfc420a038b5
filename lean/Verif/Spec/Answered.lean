import Verif.Spec.Calls
import Verif.Lemmas.ReaderCalls
/-! # A reader that has answered calls -/
namespace Copc

/-- All calls of a `Reader` that return something from the file. -/
inductive ReaderCall (L : Lazperf) : {α : Type} → (Nat → Run Reader α) → Prop
  | hierarchy {α : Type} {x : Nat → Run Reader α} : HierarchyCall x → ReaderCall L x
  | point {α : Type} {x : Nat → Run Reader α} : PointCall L x → ReaderCall L x
  | compressed (n : Node) : ReaderCall L fun _ => Run.ofAct (Reader.getPointDataCompressed n)
  | compressedAt (key : VoxelKey) : ReaderCall L fun k => Reader.getPointDataCompressedAt k key

/-- The calls `l` (the last one first), one after the other, that all returned and left the stream good. -/
inductive Answered (L : Lazperf) (r : Reader) : List Query → Reader → Prop
  | none : Answered L r [] r
  | ask {l : List Query} {q : Query} {u v : Reader} : Answered L r l u → Run.Ends (fun k => q.run L k) u (.ok (), v) →
      v.h.str.fail = false → Answered L r (q :: l) v

end Copc
