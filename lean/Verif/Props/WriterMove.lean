import Verif.Lemmas.WriterInv
import Verif.Lemmas.Sample
/-!
# C29: moving a node between pages
-/
namespace Copc
open Spec VoxelKey

/-- `ChangeNodePage` throws, and changes nothing, when a key is invalid, the node is unknown or the page
is not an ancestor of the node (or the node's own key). -/
theorem C29_rejects {key page : VoxelKey} {w : Writer}
    (h : ¬ Valid key ∨ ¬ Valid page ∨ AList.get key w.nodes = none ∨ ¬ Below key page) :
    ∃ e, Writer.changeNodePage key page w = (.throw e, w) := changeNodePage_rejects h

/-- Whatever its outcome, `ChangeNodePage` leaves the file, the configuration and the nodes that
`FindNode` returns as they were, and where all other nodes are listed. -/
theorem C29_frame (key page : VoxelKey) (w : Writer) :
    (Writer.changeNodePage key page w).2.base = w.base ∧ (Writer.changeNodePage key page w).2.cfg = w.cfg ∧
    (Writer.changeNodePage key page w).2.nodes = w.nodes ∧
    ∀ p k, k ≠ key → (Writer.changeNodePage key page w).2.listing p k = w.listing p k := by
  obtain ⟨h1, h2, h3⟩ := changeNodePage_frame key page w
  refine ⟨h1, h2, h3, ?_⟩
  intro p k hk
  rcases changeNodePage_cases key page w with ⟨e, he⟩ | ⟨n, g1, g2, g3, g4⟩
  · rw [he]
  · rw [changeNodePage_eq g1 g2 g4 g3]
    split
    · rfl
    · rw [← (listing_put (w := w) page key p k n).trans (if_neg fun h => hk h.2)]
      generalize ({ w with
        pages := AList.put page (AList.put key n ((AList.get page w.pages).getD [])) w.pages } : Writer) = w1
      cases hg : AList.get n.pageKey w1.pages with
      | none => unfold Writer.leavePage; rw [hg]
      | some ns => rw [(leavePage_listing hg).2.1, if_neg fun h => hk h.2]

/-- After every history that adds no key twice and moves no node twice, every node added is listed by
exactly one page, that of its last move or else the one it was added to, and no page lists anything
else; the pages are the root and those that list something; `FindNode` returns the node as added.
Missing for the full property: nodes moved more than once. -/
theorem C29_moved_partial {L : Lazperf} {ord : Order} {c : CopcConfig} {o : Writer.Overrides} {out : OStream}
    {w0 w : Writer} {h : List (Op × Res (Option Node))} (hm : Writer.make out c o = .ok w0)
    (hh : History L ord w0 h w) (hd : DistinctKeys h) (h1 : MovedOnce h) :
    (∀ p k n, w.listing p k = some n ↔ n ∈ addedNodes h ∧ n.entry.key = k ∧ finalPage h n = p) ∧
    (∀ p, p ∈ AList.keys w.pages ↔ p = VoxelKey.root ∨ ∃ n ∈ addedNodes h, finalPage h n = p) ∧
    (∀ n ∈ addedNodes h, w.findNode n.entry.key = n) := by
  have hi := hInv_history (hInv_start hm) hh hd h1
  refine ⟨hi.listed, hi.pages, ?_⟩
  intro n hn
  unfold Writer.findNode
  rw [(hi.nodes _ _).2 ⟨hn, rfl⟩]; rfl

/-- The full property fails: a node moved away and back stays where it was moved first. -/
def backOps : List Op := [.addCompressed Sample.kB [4, 5] 1 VoxelKey.root, .move Sample.kB Sample.kA,
  .move Sample.kB VoxelKey.root]

theorem C29_violated :
    let r := Sample.run Lazperf.plain Order.plain backOps Sample.w0 []
    (∀ x ∈ r.1, x.2.isOk) ∧ finalPage r.1 ⟨⟨Sample.kB, 1531, 2, 1⟩, VoxelKey.root⟩ = VoxelKey.root ∧
    r.2.listing VoxelKey.root Sample.kB = none ∧
    r.2.listing Sample.kA Sample.kB = some ⟨⟨Sample.kB, 1531, 2, 1⟩, VoxelKey.root⟩ := by
  decide +kernel

/-- A node moved twice is listed by both pages. -/
def twiceOps : List Op := [.addCompressed Sample.kB [4, 5] 1 VoxelKey.root, .move Sample.kB Sample.kA,
  .move Sample.kB Sample.kB]

theorem C29_violated_twice :
    let r := Sample.run Lazperf.plain Order.plain twiceOps Sample.w0 []
    (∀ x ∈ r.1, x.2.isOk) ∧
    r.2.listing Sample.kA Sample.kB = some ⟨⟨Sample.kB, 1531, 2, 1⟩, VoxelKey.root⟩ ∧
    r.2.listing Sample.kB Sample.kB = some ⟨⟨Sample.kB, 1531, 2, 1⟩, VoxelKey.root⟩ := by
  decide +kernel

/-- A second move of a node whose first page has disappeared dereferences a null pointer. -/
def lostOps : List Op := [.addCompressed Sample.kB [4, 5] 1 Sample.kA, .move Sample.kB VoxelKey.root,
  .move Sample.kB Sample.kB]

theorem C29_violated_ub :
    (Sample.run Lazperf.plain Order.plain lostOps Sample.w0 []).1.map (·.2) =
      [.ok (some ⟨⟨Sample.kB, 1531, 2, 1⟩, Sample.kA⟩), .ok none, .ub] := by
  decide +kernel

/-- The history of `Sample` meets the hypotheses and moves a node. -/
theorem sample_moves : DistinctKeys Sample.hist ∧ MovedOnce Sample.hist ∧ movedTo Sample.hist Sample.kB = [Sample.kA] := by
  have h1 : (addedNodes Sample.hist).map (·.entry.key) = [VoxelKey.root, Sample.kA, Sample.kB] := by
    decide +kernel
  have h2 : ∀ k, movedTo Sample.hist k = if Sample.kB = k then [Sample.kA] else [] := by
    have e : ∀ l : List (Op × Res (Option Node)), l = (l.map (·.1)).zip (l.map (·.2)) := by
      intro l
      induction l with
      | nil => rfl
      | cons a l ih => rw [List.map_cons, List.map_cons, List.zip_cons_cons, ← ih]
    have e3 : Sample.hist.map (·.1) = Sample.ops := by rfl
    rw [e Sample.hist, e3, Sample.outcomes]
    intro k
    by_cases hk : Sample.kB = k <;> simp [Sample.ops, movedTo, hk]
  refine ⟨?_, ?_, ?_⟩
  · unfold DistinctKeys; rw [h1]; decide
  · intro k; rw [h2]; split <;> simp
  · rw [h2]; simp

end Copc
