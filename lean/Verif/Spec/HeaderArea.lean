import Verif.Model.Config
import Verif.Spec.Config
import Verif.Spec.Extents
/-! # Consistent configurations and the VLR area of a file -/
namespace Copc.Spec

/-- A COPC configuration whose parts agree: a format 6-8, a record length that is the size of the format
plus that of the extra-byte items, items that take space, and one extent per dimension and item. -/
structure Consistent (c : CopcConfig) : Prop where
  fmt : c.header.fmt = 6 ∨ c.header.fmt = 7 ∨ c.header.fmt = 8
  len : c.header.recLen.toNat = lasBaseSize c.header.fmt + (c.eb.map lasItemSize).sum
  items : ∀ f ∈ c.eb, 0 < lasItemSize f
  extents : c.extents.extents.length = baseDims c.header.fmt + c.eb.length

/-- Where `n` VLRs starting at `p` end: each has a header of 54 bytes whose 16-bit payload length is at
byte 20 (LAS 1.4 R15, table 5). -/
def vlrEnd (data : Bytes) : Nat → Nat → Nat
  | 0, p => p
  | n + 1, p => vlrEnd data n (p + 54 + getN 2 (data.drop (p + 20)))

end Copc.Spec
