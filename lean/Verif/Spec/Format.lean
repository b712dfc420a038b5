import Verif.Base.Bytes
/-!
# Reading a COPC file by its format alone

Positions of fields from the published formats: LAS 1.4 R15 (table 3: header of 375 bytes, table 5: VLR header of 54
bytes), COPC 1.0 (the info VLR is the first VLR; its 160 bytes start at byte 429, hierarchy entries have 32 bytes).
Nothing is taken from the model but bytes and little-endian numbers.
-/
namespace Copc.Format
open Copc

/-- The unsigned number in the `k` bytes at `p`, lowest byte first. -/
def num (data : Bytes) (k p : Nat) : Nat := getN k (data.drop p)

/-- The signed 32-bit number at `p`. -/
def int (data : Bytes) (p : Nat) : Int :=
  if num data 4 p < 2 ^ 31 then (num data 4 p : Int) else (num data 4 p : Int) - 2 ^ 32

/-- The `k` bytes at `p`. -/
def text (data : Bytes) (k p : Nat) : Bytes := (data.drop p).take k

/-- An entry of a hierarchy page: level and cell of the octree, place of the data, number of points. -/
structure HEntry where
  d : Int
  x : Int
  y : Int
  z : Int
  offset : Nat
  size : Int
  count : Int
  deriving DecidableEq

def entryAt (data : Bytes) (p : Nat) : HEntry :=
  ⟨int data p, int data (p + 4), int data (p + 8), int data (p + 12), num data 8 (p + 16), int data (p + 24),
    int data (p + 28)⟩

/-- The hierarchy pages (offset and size): the root page that the info VLR gives, and those that an entry of a page
refers to by a number of points of -1. -/
inductive Page (data : Bytes) : Nat → Nat → Prop
  | root : Page data (num data 8 469) (num data 8 477)
  | sub {o s i : Nat} : Page data o s → 32 * (i + 1) ≤ s → (entryAt data (o + 32 * i)).count = -1 →
    Page data (entryAt data (o + 32 * i)).offset (entryAt data (o + 32 * i)).size.toNat

/-- `e` is the node entry at byte `p` of the file, in one of the hierarchy pages. -/
def NodeAt (data : Bytes) (p : Nat) (e : HEntry) : Prop :=
  ∃ o s i, Page data o s ∧ 32 * (i + 1) ≤ s ∧ p = o + 32 * i ∧ entryAt data p = e ∧ e.count ≠ -1

/-- A (extended) VLR: user id, record id, place of the payload. -/
structure Record where
  user : Bytes
  id : Nat
  offset : Nat
  size : Nat
  deriving DecidableEq

/-- `n` records one after the other from `p`, with headers of `head` bytes and payload lengths of `len` bytes. -/
def records (data : Bytes) (head len : Nat) : Nat → Nat → List Record
  | 0, _ => []
  | n + 1, p =>
    ⟨(text data 16 (p + 2)).takeWhile (· ≠ 0), num data 2 (p + 18), p + head, num data len (p + 20)⟩ ::
      records data head len n (p + head + num data len (p + 20))

/-- The VLRs that the header announces. -/
def vlrs (data : Bytes) : List Record := records data 54 2 (num data 4 100) (num data 2 94)

/-- The extended VLRs that the header announces. -/
def evlrs (data : Bytes) : List Record := records data 60 8 (num data 4 243) (num data 8 235)

end Copc.Format
