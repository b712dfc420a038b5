import Verif.Spec.Pages
import Verif.Spec.Writer
/-!
# The hierarchy stored in a file

Only the data types `VoxelKey` and `Entry` with its 32-byte encoding are taken from the model.
-/
namespace Copc.Spec
open Copc

/-- A hierarchy page of a file: its key, where its entries are, how many bytes they take, and the
entries of nodes among them. -/
structure FPage where
  key : VoxelKey
  offset : Nat
  size : Nat
  nodes : List Entry

/-- The entry that refers to a page. -/
def FPage.entry (p : FPage) : Entry := ⟨p.key, p.offset, (p.size : Int), -1⟩

/-- The `size` bytes at `offset` of a file are these entries. -/
def HasEntries (data : Bytes) (offset size : Nat) (es : List Entry) : Prop :=
  size = 32 * es.length ∧ slice data offset size = es.flatMap Entry.pack

/-- The pages `ps` of a file form a tree below the page of the root key: keys are distinct, and each
page holds, in some order, its node entries and one entry for each page whose nearest page above it
is. -/
structure PageTree (data : Bytes) (ps : List FPage) : Prop where
  distinct : (ps.map (·.key)).Nodup
  root : VoxelKey.root ∈ ps.map (·.key)
  inTree : ∀ p ∈ ps, InOctree p.key
  stored : ∀ p ∈ ps, ∃ subs : List FPage, subs.Nodup ∧
    (∀ q, q ∈ subs ↔ q ∈ ps ∧ IsParentPage (ps.map (·.key)) q.key p.key) ∧
    ∃ es : List Entry, es.Perm (p.nodes ++ subs.map FPage.entry) ∧ HasEntries data p.offset p.size es

/-- The bytes of the first page end before those of the second. -/
def FPage.Before (p q : FPage) : Prop := p.offset + p.size ≤ q.offset

/-- Pages reached from the root page by going from a page to those it refers to. -/
inductive Reached (ks : List VoxelKey) : VoxelKey → Prop
  | root : Reached ks VoxelKey.root
  | sub {p q : VoxelKey} : Reached ks p → q ∈ ks → IsParentPage ks q p → Reached ks q

end Copc.Spec
