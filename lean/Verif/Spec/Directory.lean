import Verif.Spec.HeaderArea
import Verif.Spec.Layout
/-!
# The VLRs and extended VLRs announced by a file

A VLR has a header of 54 bytes: user id in the 16 bytes from byte 2 (ends at the first NUL), record id in the
2 bytes from byte 18, payload length in the 2 bytes from byte 20 (LAS 1.4 R15, table 5). An extended VLR has a
header of 60 bytes, where the payload length takes 8 bytes (table 6).
-/
namespace Copc.Spec
open Copc

/-- User id and record id of the record at `p`. -/
def recordAt (data : Bytes) (p : Nat) : Bytes × Nat :=
  (((data.drop (p + 2)).take 16).takeWhile (· ≠ 0), getN 2 (data.drop (p + 18)))

/-- The ids of `n` VLRs starting at `p`. -/
def vlrIds (data : Bytes) : Nat → Nat → List (Bytes × Nat)
  | 0, _ => []
  | n + 1, p => recordAt data p :: vlrIds data n (p + 54 + getN 2 (data.drop (p + 20)))

/-- The ids of `n` extended VLRs starting at `p`. -/
def evlrIds (data : Bytes) : Nat → Nat → List (Bytes × Nat)
  | 0, _ => []
  | n + 1, p => recordAt data p :: evlrIds data n (p + 60 + getN 8 (data.drop (p + 20)))

/-- Where `n` extended VLRs starting at `p` end. -/
def evlrEnd (data : Bytes) : Nat → Nat → Nat
  | 0, p => p
  | n + 1, p => evlrEnd data n (p + 60 + getN 8 (data.drop (p + 20)))

/-- `"copc"` -/
def copcUser : Bytes := [99, 111, 112, 99]
/-- `"rock_robotic"` -/
def rockUser : Bytes := [114, 111, 99, 107, 95, 114, 111, 98, 111, 116, 105, 99]
/-- `"LASF_Spec"` -/
def specUser : Bytes := [76, 65, 83, 70, 95, 83, 112, 101, 99]
/-- `"LASF_Projection"` -/
def projectionUser : Bytes := [76, 65, 83, 70, 95, 80, 114, 111, 106, 101, 99, 116, 105, 111, 110]
/-- `"laszip encoded"` -/
def laszipUser : Bytes := [108, 97, 115, 122, 105, 112, 32, 101, 110, 99, 111, 100, 101, 100]

end Copc.Spec
