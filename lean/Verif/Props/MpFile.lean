import Verif.Props.Mp
import Verif.Lemmas.SampleFile
/-!
# C49: the file written by a transform does not depend on the schedule
-/
namespace Copc
open Spec Mp VoxelKey

theorem added_mem {h : List (Op × Res (Option Node))} (hall : ∀ x ∈ h, ∃ node, x.2 = .ok (some node)) :
    ∀ n, n ∈ addedNodes h ↔ ∃ op, (op, Res.ok (some n)) ∈ h := by
  intro n
  constructor
  · intro hn
    obtain ⟨⟨op, res⟩, hx, he⟩ := List.mem_filterMap.1 hn
    obtain ⟨node, h2⟩ := hall _ hx
    simp only at h2
    subst h2
    simp only [Option.some.injEq] at he
    subst he
    exact ⟨op, hx⟩
  · rintro ⟨op, hx⟩
    exact List.mem_filterMap.2 ⟨_, hx, rfl⟩

theorem added_keys {h : List (Op × Res (Option Node))} (hall : ∀ x ∈ h, ∃ node, x.2 = .ok (some node))
    (ht : ∀ x ∈ h, ∀ node, x.2 = .ok (some node) → x.1.target = some (node.entry.key, node.pageKey)) :
    (addedNodes h).map (fun n => some (n.entry.key, n.pageKey)) = (h.map (·.1)).map (·.target) := by
  induction h with
  | nil => rfl
  | cons x h ih =>
    obtain ⟨node, hn⟩ := hall x (by simp)
    have ih := ih (fun y hy => hall y (by simp [hy])) fun y hy => ht y (by simp [hy])
    have : addedNodes (x :: h) = node :: addedNodes h := by
      unfold addedNodes
      rw [List.filterMap_cons, hn]
    rw [this, List.map_cons, ih, List.map_cons, List.map_cons, ht x (by simp) node hn]

/-- The file a transform into a new writer leaves, once closed, holds exactly the nodes that have points left:
`FindNode` of such a node's key returns a node with the page of the original, the size of the compressed
transformed points and their number, `GetPointDataCompressed` returns the compressed transformed points, and
`FindNode` of any other key returns the invalid node. None of this depends on the schedule or the chunk size. -/
theorem C49_file {L : Lazperf} {ord : Order} {c : CopcConfig} {o : Writer.Overrides} {w0 w w' : Writer}
    {r : Reader} {f : Node → List Point → Res (List Point)} {update : Bool}
    {nodes : List Node} {size : Int} {out : Res Unit} {qs : Node → List Point} {blob : Node → Bytes}
    (hm : Writer.make OStream.fresh c o = .ok w0)
    (hr : r.h.str.fail = false) (hb : ∀ n ∈ nodes, Becomes L r f w0.cfg.header n (qs n) (blob n))
    (ha : ∀ n ∈ nodes, Addable n.entry.key n.pageKey) (hk : (nodes.map (·.entry.key)).Nodup)
    (hin : ∀ n ∈ nodes, n.entry.key.InRange ∧ (qs n).length < 2 ^ 31) (hs : 0 < size)
    (ht : Transform L f update r nodes size w0 out w)
    (hc : Writer.close L ord w = (.ok (), w')) (hst : Storable w.cfg) (hsize : w'.base.out.data.length < 2 ^ 63)
    (hfew : w.pages.length + 1 < 2 ^ 31)
    {r2 r3 : Reader} (hr2 : Reader.init ⟨w'.base.out.data, 0, false⟩ = .ok r2) {l : List Query} (hq : Asked L r2 l r3) :
    (∀ n ∈ nodes, qs n ≠ [] → ∃ off r4, Run.Ends (fun k => Reader.findNode k n.entry.key) r3
      (.ok ⟨⟨n.entry.key, off, (blob n).length, (qs n).length⟩, n.pageKey⟩, r4)) ∧
    (∀ n ∈ nodes, qs n ≠ [] → ∃ r4, Run.Ends (fun k => Reader.getPointDataCompressedAt k n.entry.key) r3
      (.ok (blob n), r4) ∧ r4.h.str.fail = false) ∧
    (∀ key, (∀ n ∈ nodes, qs n ≠ [] → n.entry.key ≠ key) →
      ∃ r4, Run.Ends (fun k => Reader.findNode k key) r3 (.ok Node.empty, r4)) := by
  obtain ⟨_, h, hh, hperm, hall, _⟩ := C49_written (ord := ord) hm .start (by intro x hx; simp at hx) hr hb ha hs ht
  rw [List.nil_append] at hh
  have hops : ∀ x ∈ h, ∃ n ∈ nodes, qs n ≠ [] ∧ x.1 = Op.addCompressed n.entry.key (blob n) (qs n).length n.pageKey := by
    intro x hx
    obtain ⟨n, hn, he⟩ := List.mem_map.1 (hperm.subset (List.mem_map_of_mem hx))
    have := List.mem_filter.1 hn
    exact ⟨n, this.1, by simpa using this.2, he.symm⟩
  have hisAdd : ∀ x ∈ h, x.1.isAdd = true := by
    intro x hx
    obtain ⟨n, _, _, e⟩ := hops x hx
    rw [e]; rfl
  have hu : Unclosed h := by
    intro x hx he
    have := hisAdd x hx
    rw [he] at this
    cases this
  have hstored : ∀ x ∈ h, ∀ node, x.2 = .ok (some node) → NodeStored L w0.cfg.header w'.base.out.data x.1 node := by
    intro x hx node he
    obtain ⟨op, res⟩ := x
    simp only at he
    subst he
    exact (C27_closed hm hh hu hc hsize hx).1
  have hmem := added_mem hall
  have hpage : ∀ n, finalPage h n = n.pageKey := by
    intro n
    unfold finalPage
    rw [unmoved_of_adds hisAdd]
    rfl
  have hkeys := added_keys hall fun x hx node he => (hstored x hx node he).1
  have hdist : DistinctKeys h := by
    unfold DistinctKeys
    have e1 : ((addedNodes h).map (·.entry.key)).map some = ((h.map (·.1)).map (·.target)).map (·.map (·.1)) := by
      rw [← hkeys, List.map_map, List.map_map]
      rfl
    have hp2 := ((hperm.map (·.target)).map (Option.map (·.1)))
    rw [← e1] at hp2
    have : ((addedNodes h).map (·.entry.key)).map some |>.Nodup := by
      rw [hp2.nodup_iff, List.map_map, List.map_map]
      have : (nodes.filter fun n => decide (qs n ≠ [])).map ((Option.map (·.1) ∘ Op.target) ∘ fun n =>
          Op.addCompressed n.entry.key (blob n) (qs n).length n.pageKey) =
          ((nodes.filter fun n => decide (qs n ≠ [])).map (·.entry.key)).map some := by
        rw [List.map_map]; rfl
      refine (congrArg List.Nodup this).mpr ?_
      refine List.Nodup.map (Option.some_injective _) ?_
      exact (List.filter_sublist.map _).nodup hk
    exact List.Nodup.of_map _ this
  have hentry : ∀ node ∈ addedNodes h, ∃ n ∈ nodes, qs n ≠ [] ∧ (∃ off, node = ⟨⟨n.entry.key, off, (blob n).length, (qs n).length⟩, n.pageKey⟩) ∧
      (Op.addCompressed n.entry.key (blob n) (qs n).length n.pageKey, Res.ok (some node)) ∈ h := by
    intro node hn
    obtain ⟨op, hx⟩ := (hmem node).1 hn
    obtain ⟨n, h1, h2, h3⟩ := hops _ hx
    simp only at h3
    subst h3
    obtain ⟨s1, b, s2, s3, _⟩ := hstored _ hx node rfl
    obtain ⟨rfl, s5⟩ := s2
    obtain ⟨⟨key, off, sz, cnt⟩, pg⟩ := node
    simp only [Op.target, Option.some.injEq, Prod.mk.injEq] at s1
    simp only at s3 s5
    obtain ⟨rfl, rfl⟩ := s1
    subst s3 s5
    exact ⟨n, h1, h2, ⟨off, rfl⟩, hx⟩
  have hconv : ∀ n ∈ nodes, qs n ≠ [] → ∃ off,
      (⟨⟨n.entry.key, off, (blob n).length, (qs n).length⟩, n.pageKey⟩ : Node) ∈ addedNodes h ∧
      (Op.addCompressed n.entry.key (blob n) (qs n).length n.pageKey, Res.ok (some
        (⟨⟨n.entry.key, off, (blob n).length, (qs n).length⟩, n.pageKey⟩ : Node))) ∈ h := by
    intro n hn hq
    have : Op.addCompressed n.entry.key (blob n) (qs n).length n.pageKey ∈ h.map (·.1) :=
      hperm.mem_iff.2 (List.mem_map.2 ⟨n, List.mem_filter.2 ⟨hn, by simpa using hq⟩, rfl⟩)
    obtain ⟨⟨op, res⟩, hx, he⟩ := List.mem_map.1 this
    simp only at he
    subst he
    obtain ⟨node, he⟩ := hall _ hx
    simp only at he
    subst he
    obtain ⟨s1, b, s2, s3, _⟩ := hstored _ hx node rfl
    obtain ⟨rfl, s5⟩ := s2
    obtain ⟨⟨key, off, sz, cnt⟩, pg⟩ := node
    simp only [Op.target, Option.some.injEq, Prod.mk.injEq] at s1
    simp only at s3 s5
    obtain ⟨rfl, rfl⟩ := s1
    subst s3 s5
    exact ⟨off, (hmem _).2 ⟨_, hx⟩, hx⟩
  have hw : Written L ord w0 w h w'.base.out.data := by
    refine ⟨⟨c, o, hm⟩, hh, hu, ⟨w', hc, rfl⟩, hdist, ?_, ?_, hst, hsize, hfew⟩
    · intro k; rw [unmoved_of_adds hisAdd]; simp
    · intro node hn
      obtain ⟨n, g1, g2, ⟨off, rfl⟩, _⟩ := hentry node hn
      refine ⟨(hin n g1).1, ?_, ?_⟩
      · show (0 : Int) < ((qs n).length : Nat)
        have : (qs n).length ≠ 0 := fun e => g2 (List.length_eq_zero_iff.1 e)
        omega
      · show (((qs n).length : Nat) : Int) < 2 ^ 31
        have := (hin n g1).2
        omega
  refine ⟨?_, ?_, ?_⟩
  · intro n hn hq'
    obtain ⟨off, g1, _⟩ := hconv n hn hq'
    obtain ⟨r4, h4⟩ := C33_findNode hw hr2 hq g1
    rw [hpage] at h4
    exact ⟨off, r4, h4⟩
  · intro n hn hq'
    obtain ⟨off, _, g2⟩ := hconv n hn hq'
    obtain ⟨b, r4, ⟨rfl, _⟩, h5, h6⟩ := C33_compressed hw hr2 hq g2
    exact ⟨r4, h5, h6⟩
  · intro key hkey
    obtain ⟨r4, h4, _⟩ := C33_findNode_other hw hr2 hq (key := key) (by
      intro node hn
      obtain ⟨n, g1, g2, ⟨off, rfl⟩, _⟩ := hentry node hn
      exact hkey n g1 g2)
    exact ⟨r4, h4⟩

end Copc
