import Verif.Spec.Writer
import Verif.Spec.Metadata
/-! # What a reader should find in a file written by a history -/
namespace Copc

/-- What a reader should report for an added node: its entry and the page it is in at the end. -/
def reported (h : List (Op × Res (Option Node))) (n : Node) : Node := ⟨n.entry, finalPage h n⟩

/-- The nodes have keys of 32-bit numbers and positive 32-bit numbers of points. -/
def Counted (h : List (Op × Res (Option Node))) : Prop :=
  ∀ n ∈ addedNodes h, n.entry.key.InRange ∧ 0 < n.entry.pointCount ∧ n.entry.pointCount < 2 ^ 31

/-- The pages of the file: the root page, and those that hold a node. -/
def PageOf (h : List (Op × Res (Option Node))) (p : VoxelKey) : Prop :=
  p = VoxelKey.root ∨ ∃ n ∈ addedNodes h, finalPage h n = p

/-- The file `data` is what a writer starting as `w0` wrote by the history `h`, ending as `w`, and a `Close`
that returned. No key was used twice, no node was moved more than once, and everything fits its field:
the configuration (`Spec.Storable`), the nodes (`Counted`), offsets (63 bits) and the number of pages
(31 bits). -/
structure Written (L : Lazperf) (ord : Order) (w0 w : Writer) (h : List (Op × Res (Option Node)))
    (data : Bytes) : Prop where
  made : ∃ c o, Writer.make OStream.fresh c o = .ok w0
  history : History L ord w0 h w
  unclosed : Unclosed h
  closed : ∃ w', Writer.close L ord w = (.ok (), w') ∧ w'.base.out.data = data
  distinct : DistinctKeys h
  once : MovedOnce h
  counted : Counted h
  storable : Spec.Storable w.cfg
  size : data.length < 2 ^ 63
  few : w.pages.length + 1 < 2 ^ 31

end Copc
