import Verif.Props.KeyText
import Verif.Props.MpSample
/-!
# C54: reads by worker processes
-/
namespace Copc
open Spec Mp VoxelKey

theorem readXyz_eq (limits : List UInt8) (ps : List Point) : readXyz limits ps = coordsOf limits ps := by
  unfold readXyz coordsOf
  congr 2
  funext p
  rw [Bool.eq_iff_iff]
  rw [decide_eq_true_iff]
  simp only [Allowed, Bool.or_eq_true, List.isEmpty_iff, List.contains_iff_mem]

theorem readNode_steady {L : Lazperf} {limits : List UInt8} {r : Reader} {n : Node} {ps : List Point}
    (hr : r.h.str.fail = false) (h : PointsOf L r n ps) : Steady r (readNode L limits) n (n, coordsOf limits ps) := by
  intro r' hf
  obtain ⟨r'', h3, h4⟩ := h.again hr hf
  refine ⟨r'', ?_, h4⟩
  unfold readNode
  rw [Act.bind_ok h3, readXyz_eq]
  rfl

theorem readRun_order {σ : Type} {L : Lazperf} {limits : List UInt8} {cb : Node × List (Vec3 Dbl) → Act σ Unit} {r : Reader}
    {nodes : List Node} {size : Int} {s : σ} {out : Res Unit × σ} {ps : Node → List Point} (hr : r.h.str.fail = false)
    (hp : ∀ n ∈ nodes, PointsOf L r n (ps n)) (hs : 0 < size) (h : ReadRun L limits cb r nodes size s out) :
    ∃ order rest, (order ++ rest).Perm nodes ∧ Act.forEach (fun n => cb (n, coordsOf limits (ps n))) order s = out ∧
      (out.1 = .ok () → rest = []) := by
  obtain ⟨cs, hc, hrun⟩ := h
  obtain ⟨cs', e1, e2⟩ := chunks_flatten nodes hs
  rw [e1] at hc
  obtain rfl := Option.some.inj hc
  have := poolRun_order hrun (g := fun n => (n, coordsOf limits (ps n)))
    (fun n hn => readNode_steady hr (hp n (by rw [← e2]; exact hn))) (fun _ => Fresh.refl hr)
  rw [e2] at this
  exact this

theorem concat_forEach (g : Node → Node × List (Vec3 Dbl)) : ∀ (l : List Node) (s : List (List (Vec3 Dbl))),
    Act.forEach (fun n => concatCallback (g n)) l s = (.ok (), s ++ l.map fun n => (g n).2)
  | [], s => by simp
  | n :: l, s => by
    rw [Act.forEach_cons]
    refine (Act.bind_ok (Act.modify_apply _ _)).trans ?_
    rw [concat_forEach g l]
    simp

/-- `read_concat_xyz_class_limit` returns the coordinates of the allowed points of the nodes, node by node in some
order: a permutation of those of all nodes, whatever the schedule. It raises exactly if there are no nodes. -/
theorem C54_concat {L : Lazperf} {limits : List UInt8} {r : Reader} {nodes : List Node} {size : Int}
    {out : Res Unit × List (List (Vec3 Dbl))} {ps : Node → List Point} (hr : r.h.str.fail = false)
    (hp : ∀ n ∈ nodes, PointsOf L r n (ps n)) (hs : 0 < size)
    (h : ReadRun L limits concatCallback r nodes size [] out) :
    out.1 = .ok () ∧ (nodes = [] → concatenate out.2 = none) ∧
    (nodes ≠ [] → ∃ order : List Node, order.Perm nodes ∧
      concatenate out.2 = some (order.flatMap fun n => coordsOf limits (ps n)) ∧
      (order.flatMap fun n => coordsOf limits (ps n)).Perm (coordsOf limits (nodes.flatMap ps))) := by
  obtain ⟨order, rest, o1, o2, o3⟩ := readRun_order hr hp hs h
  rw [concat_forEach] at o2
  subst o2
  obtain rfl := o3 rfl
  rw [List.append_nil] at o1
  refine ⟨rfl, ?_, fun hne => ⟨order, o1, ?_, ?_⟩⟩
  · rintro rfl
    obtain rfl := List.perm_nil.1 o1
    rfl
  · unfold concatenate
    rw [if_neg]
    · rw [List.nil_append]; rfl
    · simp only [List.nil_append, List.map_eq_nil_iff]
      rintro rfl
      exact hne (List.nil_perm.1 o1)
  · have e : coordsOf limits (nodes.flatMap ps) = nodes.flatMap fun n => coordsOf limits (ps n) := by
      unfold coordsOf
      rw [List.filter_flatMap, List.map_flatMap]
    rw [e]
    exact o1.flatMap_right _

theorem map_forEach (g : Node → List (Vec3 Dbl)) : ∀ (l : List Node) (s : List (List Nat × List (Vec3 Dbl))),
    (l.map (·.entry.key.text)).Nodup → (AList.keys s).Nodup →
    ∃ m, Act.forEach (fun n => mapCallback (n, g n)) l s = (.ok (), m) ∧ (AList.keys m).Nodup ∧
      ∀ k, AList.get k m = match l.find? (fun n => decide (n.entry.key.text = k ∧ g n ≠ [])) with
        | some n => some (g n)
        | none => AList.get k s
  | [], s, _, hs => ⟨s, rfl, hs, fun k => rfl⟩
  | n :: l, s, hl, hs => by
    rw [List.map_cons, List.nodup_cons] at hl
    obtain ⟨hn, hl⟩ := hl
    by_cases hg : g n = []
    · obtain ⟨m, h1, h2, h3⟩ := map_forEach g l s hl hs
      refine ⟨m, ?_, h2, fun k => ?_⟩
      · rw [Act.forEach_cons]
        refine (Act.bind_ok (a := ()) (s' := s) ?_).trans h1
        unfold mapCallback
        rw [if_neg (by simp [hg])]
        rfl
      · rw [h3, List.find?_cons_of_neg (by simp [hg])]
    · obtain ⟨m, h1, h2, h3⟩ := map_forEach g l (AList.put n.entry.key.text (g n) s) hl (AList.nodup_put hs)
      refine ⟨m, ?_, h2, fun k => ?_⟩
      · rw [Act.forEach_cons]
        refine (Act.bind_ok (a := ()) (s' := AList.put n.entry.key.text (g n) s) ?_).trans h1
        unfold mapCallback
        rw [if_pos (by simp; exact List.length_pos_iff.2 hg)]
        rfl
      · rw [h3]
        by_cases hk : n.entry.key.text = k
        · subst hk
          rw [List.find?_cons_of_pos (by simp [hg])]
          have : l.find? (fun m => decide (m.entry.key.text = n.entry.key.text ∧ g m ≠ [])) = none := by
            rw [List.find?_eq_none]
            intro m hm
            simp only [decide_eq_true_eq, not_and]
            intro e
            exact absurd (List.mem_map.2 ⟨m, hm, e⟩) hn
          rw [this]
          simp
        · rw [List.find?_cons_of_neg (by simp [hk])]
          split
          · rfl
          · rw [AList.get_put, if_neg (fun e => hk e.symm)]

/-- `read_map_xyz_class_limit` returns a dictionary with, for each node that has allowed points, their coordinates in
order, and nothing else, whatever the schedule. -/
theorem C54_map {L : Lazperf} {limits : List UInt8} {r : Reader} {nodes : List Node} {size : Int}
    {out : Res Unit × List (List Nat × List (Vec3 Dbl))} {ps : Node → List Point} (hr : r.h.str.fail = false)
    (hp : ∀ n ∈ nodes, PointsOf L r n (ps n)) (hk : (nodes.map (·.entry.key)).Nodup) (hs : 0 < size)
    (h : ReadRun L limits mapCallback r nodes size [] out) :
    out.1 = .ok () ∧ (out.2.map (·.1)).Nodup ∧
    ∀ k a, (k, a) ∈ out.2 ↔ ∃ n ∈ nodes, n.entry.key.text = k ∧ a = coordsOf limits (ps n) ∧ a ≠ [] := by
  obtain ⟨order, rest, o1, o2, o3⟩ := readRun_order hr hp hs h
  have hkt : (nodes.map (·.entry.key.text)).Nodup := by
    have := hk.map (f := VoxelKey.text) fun a b h => C59_text.1 h
    rwa [List.map_map] at this
  have hko : (order.map (·.entry.key.text)).Nodup := by
    have := (o1.map (·.entry.key.text)).nodup_iff.2 hkt
    rw [List.map_append] at this
    exact (List.nodup_append.1 this).1
  obtain ⟨m, h1, h2, h3⟩ := map_forEach (fun n => coordsOf limits (ps n)) order [] hko (by simp)
  rw [h1] at o2
  subst o2
  obtain rfl := o3 rfl
  rw [List.append_nil] at o1
  refine ⟨rfl, h2, fun k a => ?_⟩
  rw [← AList.get_iff_mem h2, h3]
  constructor
  · intro he
    split at he
    · rename_i n hn
      have h4 := List.find?_some hn
      have h5 := List.mem_of_find?_eq_some hn
      simp only [decide_eq_true_eq] at h4
      obtain rfl := Option.some.inj he
      exact ⟨n, o1.subset h5, h4.1, rfl, h4.2⟩
    · cases he
  · rintro ⟨n, hn, rfl, rfl, hne⟩
    have hmem := o1.mem_iff.2 hn
    cases hf : order.find? (fun m => decide (m.entry.key.text = n.entry.key.text ∧ coordsOf limits (ps m) ≠ [])) with
    | none =>
      have := List.find?_eq_none.1 hf n hmem
      simp [hne] at this
    | some m =>
      have h4 := List.find?_some hf
      have h5 := List.mem_of_find?_eq_some hf
      simp only [decide_eq_true_eq] at h4
      have : m = n := List.inj_on_of_nodup_map hko h5 hmem h4.1
      subst this
      rfl

/-- There are runs, for every chunk size, and the hypotheses are met by the sample file. -/
theorem C54_runs {L : Lazperf} {limits : List UInt8} {r : Reader} {nodes : List Node} {size : Int} {ps : Node → List Point}
    (hr : r.h.str.fail = false) (hp : ∀ n ∈ nodes, PointsOf L r n (ps n)) (hs : 0 < size) :
    ∃ out, ReadRun L limits concatCallback r nodes size [] (.ok (), out) := by
  obtain ⟨cs, e1, e2⟩ := chunks_flatten nodes hs
  exact ⟨_, cs, e1, poolRun_exists (r := r) (g := fun n => (n, coordsOf limits (ps n))) cs _ _ _
    (fun n hn => readNode_steady hr (hp n (by rw [← e2]; exact hn))) (fun _ => Fresh.refl hr) (concat_forEach _ _ _)⟩

example : ∃ (r : Reader) (ps : Node → List Point) (out : List (List (Vec3 Dbl))) (order : List Node),
    ReadRun Sample.L [] concatCallback r [BoxFile.root, BoxFile.child] 1 [] (.ok (), out) ∧
    order.Perm [BoxFile.root, BoxFile.child] ∧
    concatenate out = some (order.flatMap fun n => coordsOf [] (ps n)) ∧ (ps BoxFile.root).length = 2 ∧
    (ps BoxFile.child).length = 3 := by
  obtain ⟨_, r, ps, _, g4, g5, g6, g7, g8, _⟩ := boxFile_ok
  have hp : ∀ n ∈ [BoxFile.root, BoxFile.child], PointsOf Sample.L r n (ps n) := by
    intro n hn
    exact g6 n ((g5 n).2 (by simpa using hn))
  obtain ⟨out, hrun⟩ := C54_runs (limits := []) (size := 1) g4.good hp (by decide)
  obtain ⟨_, _, h3⟩ := C54_concat g4.good hp (by decide) hrun
  obtain ⟨order, h4, h5, _⟩ := h3 (by simp)
  exact ⟨r, ps, out, order, hrun, h4, h5, g7, g8⟩

end Copc
