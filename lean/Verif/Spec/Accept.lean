import Verif.Spec.Writer
/-!
# Additions that a writer should accept
-/
namespace Copc
open Spec

/-- What else a call must meet when it gives `n` uncompressed points: a collection of the format and record length of
the file, and at most 2^31 - 1 bytes before compression. -/
def Op.Fits (hd : LasHeader) (n : Int) : Op → Prop
  | .add _ _ _ => n * hd.recLen.toNat ≤ 2147483647
  | .addPoints _ fmt len _ _ => fmt = hd.fmt ∧ len = hd.recLen.toNat ∧ n * hd.recLen.toNat ≤ 2147483647
  | _ => True

/-- A good addition: valid keys, the node at or below its page, and data that can be stored as `n ≠ 0` points in `blob`, at
most 2^31 - 1 bytes. -/
structure GoodAdd (L : Lazperf) (hd : LasHeader) (op : Op) (key page : VoxelKey) (blob : Bytes) (n : Int) : Prop where
  target : op.target = some (key, page)
  validKey : Valid key
  validPage : Valid page
  below : Below key page
  stores : op.Stores L hd blob n
  points : n ≠ 0
  fits : op.Fits hd n
  size : blob.length ≤ 2147483647

/-- The last node added with the key; the invalid node if there is none. -/
def lastAdded (h : List (Op × Res (Option Node))) (k : VoxelKey) : Node :=
  (((addedNodes h).filter fun n => decide (n.entry.key = k)).getLast?).getD Node.empty

end Copc
