import Verif.Props.MpFile
/-! # Files written by additions of compressed nodes -/
namespace Copc
open Spec VoxelKey

section
variable {L : Lazperf} {ord : Order} {c : CopcConfig} {o : Writer.Overrides} {w0 w w' : Writer}
  {h : List (Op × Res (Option Node))} {nodes : List Node} {blob : Node → Bytes}

/-- The addition of a node as it is. -/
def blobOp (blob : Node → Bytes) (n : Node) : Op := .addCompressed n.entry.key (blob n) n.entry.pointCount n.pageKey

theorem blobs_written (hm : Writer.make OStream.fresh c o = .ok w0) (hh : History L ord w0 h w)
    (hops : h.map (·.1) = nodes.map (blobOp blob)) (hall : ∀ x ∈ h, ∃ node, x.2 = .ok (some node))
    (hk : (nodes.map (·.entry.key)).Nodup)
    (hin : ∀ n ∈ nodes, n.entry.key.InRange ∧ 0 < n.entry.pointCount ∧ n.entry.pointCount < 2 ^ 31)
    (hc : Writer.close L ord w = (.ok (), w')) (hst : Storable w.cfg) (hsize : w'.base.out.data.length < 2 ^ 63)
    (hfew : w.pages.length + 1 < 2 ^ 31) :
    Written L ord w0 w h w'.base.out.data ∧ (∀ n, finalPage h n = n.pageKey) ∧
    (∀ node ∈ addedNodes h, ∃ n ∈ nodes, ∃ off,
      node = ⟨⟨n.entry.key, off, (blob n).length, n.entry.pointCount⟩, n.pageKey⟩) ∧
    (∀ n ∈ nodes, ∃ off, (blobOp blob n, Res.ok (some
      (⟨⟨n.entry.key, off, (blob n).length, n.entry.pointCount⟩, n.pageKey⟩ : Node))) ∈ h) := by
  have hops' : ∀ x ∈ h, ∃ n ∈ nodes, x.1 = blobOp blob n := by
    intro x hx
    have : x.1 ∈ nodes.map (blobOp blob) := by rw [← hops]; exact List.mem_map_of_mem hx
    obtain ⟨n, hn, he⟩ := List.mem_map.1 this
    exact ⟨n, hn, he.symm⟩
  have hisAdd : ∀ x ∈ h, x.1.isAdd = true := by
    intro x hx
    obtain ⟨n, _, e⟩ := hops' x hx
    rw [e]; rfl
  have hu : Unclosed h := by
    intro x hx he
    have := hisAdd x hx
    rw [he] at this
    cases this
  have hstored : ∀ x ∈ h, ∀ node, x.2 = .ok (some node) → NodeStored L w0.cfg.header w'.base.out.data x.1 node := by
    intro x hx node he
    obtain ⟨op, res⟩ := x
    simp only at he
    subst he
    exact (C27_closed hm hh hu hc hsize hx).1
  have hmem := added_mem hall
  have hpage : ∀ n, finalPage h n = n.pageKey := by
    intro n
    unfold finalPage
    rw [unmoved_of_adds hisAdd]
    rfl
  have hkeys := added_keys hall fun x hx node he => (hstored x hx node he).1
  have hdist : DistinctKeys h := by
    unfold DistinctKeys
    have e1 : ((addedNodes h).map (·.entry.key)).map some = ((h.map (·.1)).map (·.target)).map (·.map (·.1)) := by
      rw [← hkeys, List.map_map, List.map_map]
      rfl
    have : (((addedNodes h).map (·.entry.key)).map some).Nodup := by
      rw [e1, hops, List.map_map, List.map_map]
      have : nodes.map ((Option.map (·.1) ∘ Op.target) ∘ blobOp blob) = (nodes.map (·.entry.key)).map some := by
        rw [List.map_map]; rfl
      refine (congrArg List.Nodup this).mpr ?_
      exact List.Nodup.map (Option.some_injective _) hk
    exact List.Nodup.of_map _ this
  have hform : ∀ n node, NodeStored L w0.cfg.header w'.base.out.data (blobOp blob n) node →
      ∃ off, node = ⟨⟨n.entry.key, off, (blob n).length, n.entry.pointCount⟩, n.pageKey⟩ := by
    rintro n ⟨⟨key, off, sz, cnt⟩, pg⟩ ⟨s1, b, s2, s3, _⟩
    obtain ⟨rfl, s5⟩ := s2
    simp only [blobOp, Op.target, Option.some.injEq, Prod.mk.injEq] at s1
    simp only at s3 s5
    obtain ⟨rfl, rfl⟩ := s1
    subst s3 s5
    exact ⟨off, rfl⟩
  have hentry : ∀ node ∈ addedNodes h, ∃ n ∈ nodes, ∃ off,
      node = ⟨⟨n.entry.key, off, (blob n).length, n.entry.pointCount⟩, n.pageKey⟩ := by
    intro node hn
    obtain ⟨op, hx⟩ := (hmem node).1 hn
    obtain ⟨n, h1, h3⟩ := hops' _ hx
    simp only at h3
    subst h3
    exact ⟨n, h1, hform n node (hstored _ hx node rfl)⟩
  have hconv : ∀ n ∈ nodes, ∃ off, (blobOp blob n, Res.ok (some
      (⟨⟨n.entry.key, off, (blob n).length, n.entry.pointCount⟩, n.pageKey⟩ : Node))) ∈ h := by
    intro n hn
    have : blobOp blob n ∈ h.map (·.1) := by rw [hops]; exact List.mem_map_of_mem hn
    obtain ⟨⟨op, res⟩, hx, he⟩ := List.mem_map.1 this
    simp only at he
    subst he
    obtain ⟨node, he⟩ := hall _ hx
    simp only at he
    subst he
    obtain ⟨off, rfl⟩ := hform n node (hstored _ hx node rfl)
    exact ⟨off, hx⟩
  refine ⟨?_, hpage, hentry, hconv⟩
  refine ⟨⟨c, o, hm⟩, hh, hu, ⟨w', hc, rfl⟩, hdist, ?_, ?_, hst, hsize, hfew⟩
  · intro k; rw [unmoved_of_adds hisAdd]; simp
  · intro node hn
    obtain ⟨n, g1, off, rfl⟩ := hentry node hn
    exact hin n g1

end
end Copc
