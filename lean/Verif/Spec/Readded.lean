import Verif.Spec.Accept
import Verif.Spec.RoundTrip
/-!
# Keys that are added again
-/
namespace Copc

/-- Keys may be added again, always with the page of the first time; no node is moved. -/
def OnePage (h : List (Op × Res (Option Node))) : Prop :=
  (∀ n ∈ addedNodes h, ∀ m ∈ addedNodes h, n.entry.key = m.entry.key → n.pageKey = m.pageKey) ∧ ∀ k, movedTo h k = []

/-- The key of one of the nodes added. -/
def KeyOf (h : List (Op × Res (Option Node))) (k : VoxelKey) : Prop := ∃ n ∈ addedNodes h, n.entry.key = k

/-- The file `data` is what a writer starting as `w0` wrote by the history `h`, ending as `w`, and a `Close` that
returned; as `Written`, but keys may have been added again. -/
structure Rewritten (L : Lazperf) (ord : Order) (w0 w : Writer) (h : List (Op × Res (Option Node)))
    (data : Bytes) : Prop where
  made : ∃ c o, Writer.make OStream.fresh c o = .ok w0
  history : History L ord w0 h w
  unclosed : Unclosed h
  closed : ∃ w', Writer.close L ord w = (.ok (), w') ∧ w'.base.out.data = data
  onePage : OnePage h
  counted : Counted h
  storable : Spec.Storable w.cfg
  size : data.length < 2 ^ 63
  few : w.pages.length + 1 < 2 ^ 31

end Copc
