import Verif.Lemmas.MpBounds
import Verif.Lemmas.WriterAny
import Verif.Lemmas.WriterHist
import Verif.Props.RoundTrip
/-!
# C49: transforms by worker processes
-/
namespace Copc
open Spec Mp VoxelKey

theorem compressVector_records {L : Lazperf} {hd : LasHeader} {eb : Nat} {recs : List Bytes}
    (he : hd.ebSize = .ok eb) (hr : ∀ x ∈ recs, x.length = hd.recLen.toNat) (h0 : 0 < hd.recLen.toNat)
    (hs : recs.length * hd.recLen.toNat ≤ 2147483647) :
    compressVector L hd recs.flatten = .ok (L.compress hd.fmt eb recs) := by
  have hp : pointByteSize hd.fmt eb = .ok hd.recLen.toNat := by
    cases h : pointByteSize hd.fmt eb with
    | ok s => rw [pointByteSize_ebSize he h]
    | throw e =>
      unfold LasHeader.ebSize ebByteSize at he
      unfold pointByteSize at h
      rcases hb : pointBaseByteSize hd.fmt with b | e | _ <;> rw [hb] at h he <;> cases h <;> cases he
    | ub =>
      unfold LasHeader.ebSize ebByteSize at he
      unfold pointByteSize at h
      rcases hb : pointBaseByteSize hd.fmt with b | e | _ <;> rw [hb] at h he <;> cases h <;> cases he
  have hl : recs.flatten.length = recs.length * hd.recLen.toNat := length_flatten_const hr
  have hdiv : recs.flatten.length / hd.recLen.toNat = recs.length := by rw [hl]; exact Nat.mul_div_cancel _ h0
  unfold compressVector
  rw [he, Res.okBind, hp, Res.okBind, if_neg (by omega), if_neg (by rw [hl, Nat.mul_mod_left]; simp),
    if_neg (by omega), hdiv]
  congr 2
  obtain ⟨c1, c2, c3⟩ := cut_flatten hd.recLen.toNat recs.length recs.flatten hl
  exact flatten_inj h0 c2 hr c1

theorem pool_steady {L : Lazperf} {r : Reader} {f : Node → List Point → Res (List Point)} {hd : LasHeader}
    {update : Bool} {n : Node} {qs : List Point} {blob : Bytes} (hr : r.h.str.fail = false)
    (hb : Becomes L r f hd n qs blob) :
    Steady r (transformNode L f hd update) n ⟨blob, n, qs.length, if update then bounds qs else none⟩ := by
  intro r' hf
  obtain ⟨ps, h1, h2⟩ := hb.read
  obtain ⟨r'', h3, h4⟩ := h1.again hr hf
  obtain ⟨bs, eb, recs, s1, s2, rfl, s4, rfl, s6⟩ := hb.stored
  have hlen : recs.length = qs.length := by omega
  refine ⟨r'', ?_, h4⟩
  unfold transformNode
  rw [Act.bind_ok h3, Act.bind_ok (a := qs) (by rw [Act.lift_apply, h2]),
    Act.bind_ok (a := recs.flatten) (by rw [Act.lift_apply, s1]),
    Act.bind_ok (a := L.compress hd.fmt eb recs) (by
      rw [Act.lift_apply, compressVector_records s2 s4 hb.small.2 (by rw [hlen]; exact hb.small.1.2)])]
  rfl

/-- The call by which the main process writes a node. -/
def mpCall (qs : Node → List Point) (blob : Node → Bytes) (n : Node) : Op :=
  .addCompressed n.entry.key (blob n) (qs n).length n.pageKey

theorem addCopc_run {L : Lazperf} {ord : Order} {t : TaskResult} {w w' : Writer} {node : Node}
    (h : (Op.addCompressed t.node.key t.data t.count t.node.pageKey).run L ord w = (.ok (some node), w')) :
    addCopc L t w = (.ok (), w') := by
  simp only [Op.run] at h
  obtain ⟨n, w1, h1, h2⟩ := Act.bind_eq_ok.1 h
  unfold addCopc
  rw [Act.bind_ok h1]
  injection h2 with _ h2
  rw [← h2]
  rfl

/-- The main process over the results in a given order. -/
theorem absorb_history {L : Lazperf} {ord : Order} {w0 : Writer} {otpd : Nat} (h1 : Writer.offsetToPointData w0.cfg = .ok otpd)
    (h2 : BInv (otpd + 8) w0.base []) {qs : Node → List Point} {blob : Node → Bytes} {update : Bool} :
    ∀ (order : List Node) (w : Writer) (bl : List (Vec3 Dbl × Vec3 Dbl)) (h0 : List (Op × Res (Option Node))),
    History L ord w0 h0 w → Unclosed h0 →
    (∀ n ∈ order, Addable n.entry.key n.pageKey ∧ (blob n).length ≤ 2147483647) →
    ∃ (h : List (Op × Res (Option Node))) (w' : Writer), Act.forEach (fun n => absorb (addCopc L) ⟨blob n, n, (qs n).length, if update then bounds (qs n) else none⟩)
        order ⟨w, bl⟩ = (.ok (), ⟨w', bl ++ (order.filter fun n => decide (qs n ≠ [])).flatMap fun n =>
          (if update then bounds (qs n) else none).toList⟩) ∧
      History L ord w0 (h0 ++ h) w' ∧ Unclosed h ∧ w'.cfg = w.cfg ∧
      h.map (·.1) = (order.filter fun n => decide (qs n ≠ [])).map (mpCall qs blob) ∧
      ∀ x ∈ h, ∃ node, x.2 = .ok (some node)
  | [], w, bl, h0, hh, _, _ => ⟨[], w, by simp, by simpa using hh, by intro x hx; simp at hx, rfl, rfl, by simp⟩
  | n :: order, w, bl, h0, hh, hu, ha => by
    by_cases hq : qs n = []
    · obtain ⟨h, w', e1, e2, e3, e4, e5, e6⟩ := absorb_history h1 h2 (qs := qs) (blob := blob) (update := update) order w bl h0 hh hu
        fun m hm => ha m (by simp [hm])
      have hfl : (n :: order).filter (fun n => decide (qs n ≠ [])) = order.filter fun n => decide (qs n ≠ []) := by
        rw [List.filter_cons_of_neg (by simp [hq])]
      refine ⟨h, w', ?_, e2, e3, e4, by rw [hfl]; exact e5, e6⟩
      rw [Act.forEach_cons, hfl]
      refine (Act.bind_ok (a := ()) (s' := (⟨w, bl⟩ : Main Writer)) ?_).trans e1
      unfold absorb
      rw [if_neg (by simp [hq])]
      rfl
    · obtain ⟨⟨v1, v2, v3⟩, hs⟩ := ha n (by simp)
      obtain ⟨log, hi⟩ := wInv_history h1 h2 hh hu
      have hout := hi.base.out
      have ht0 : w.base.out.tellp = otpd + 8 + (chunkData log).length := by rw [hout.tellp]; simp
      have ht1 : (w.base.out.write (blob n)).tellp = otpd + 8 + (chunkData log).length + (blob n).length := by
        have := (hout.write (blob n)).tellp
        rw [this]; simp; omega
      have hspan : spanOf w.base.out (blob n) = (blob n).length := by
        unfold spanOf
        rw [ht0, ht1]
        omega
      have hcount : (((qs n).length : Nat) : Int) ≠ 0 := by
        have : (qs n).length ≠ 0 := fun e => hq (List.length_eq_zero_iff.1 e)
        omega
      have hrun := addCompressed_any L ord (w := w) (bs := blob n) (key := n.entry.key) (page := n.pageKey)
        (c := ((qs n).length : Nat)) ((isValid_iff _).2 v1) ((isValid_iff _).2 v2) ((childOf_iff _ _).2 ⟨v1, v3⟩)
        hcount (by rw [ht0]; omega) (by rw [hspan]; omega)
      generalize hnode : nodeAt w.base.out n.entry.key n.pageKey (blob n) ((qs n).length : Nat) = node at hrun
      generalize hw1 : nodeAdded w n.pageKey node (chunkAdded w.base (blob n) ((qs n).length : Nat)) = w1 at hrun
      have hcfg : w1.cfg = w.cfg := by rw [← hw1]; rfl
      have hh1 : History L ord w0 (h0 ++ [(mpCall qs blob n, .ok (some node))]) w1 := by
        have := History.call (ord := ord) (mpCall qs blob n) hh (by unfold mpCall; rw [hrun]; simp)
        unfold mpCall at this ⊢
        rw [hrun] at this
        exact this
      have hu1 : Unclosed (h0 ++ [(mpCall qs blob n, .ok (some node))]) := by
        intro x hx
        rcases List.mem_append.1 hx with hx | hx
        · exact hu x hx
        · obtain rfl := List.mem_singleton.1 hx
          simp [mpCall]
      obtain ⟨h, w', e1, e2, e3, e4, e5, e6⟩ := absorb_history h1 h2 (qs := qs) (blob := blob) (update := update) order w1
        (bl ++ (if update then bounds (qs n) else none).toList) _ hh1 hu1 fun m hm => ha m (by simp [hm])
      have hfl : (n :: order).filter (fun n => decide (qs n ≠ [])) = n :: order.filter fun n => decide (qs n ≠ []) := by
        rw [List.filter_cons_of_pos (by simp [hq])]
      refine ⟨(mpCall qs blob n, .ok (some node)) :: h, w', ?_, by simpa using e2, ?_, e4.trans hcfg, ?_, ?_⟩
      · rw [Act.forEach_cons, hfl, List.flatMap_cons, ← List.append_assoc]
        refine (Act.bind_ok (a := ()) (s' := (⟨w1, bl ++ (if update then bounds (qs n) else none).toList⟩ : Main Writer)) ?_).trans e1
        unfold absorb
        rw [if_pos (by simp; exact Nat.pos_of_ne_zero (by omega)), Act.bind_ok (Act.modify_apply _ _), Act.zoom_apply]
        rw [addCopc_run (ord := ord) hrun]
      · intro x hx
        rcases List.mem_cons.1 hx with rfl | hx
        · simp [mpCall]
        · exact e3 x hx
      · rw [hfl, List.map_cons, List.map_cons, e5]
      · intro x hx
        rcases List.mem_cons.1 hx with rfl | hx
        · exact ⟨node, rfl⟩
        · exact e6 x hx

/-- The bounds collected from the results in any order. -/
theorem order_bounds {order nodes : List Node} {qs : Node → List Point} (g1 : order.Perm nodes)
    (hnum : ∀ n ∈ nodes, Numbers (qs n)) (hne : (nodes.map qs).flatten ≠ []) :
    Bounds (nodes.map qs).flatten
      (globalBounds ((order.filter fun n => decide (qs n ≠ [])).flatMap fun n =>
        (if (true : Bool) then bounds (qs n) else none).toList)).1
      (globalBounds ((order.filter fun n => decide (qs n ≠ [])).flatMap fun n =>
        (if (true : Bool) then bounds (qs n) else none).toList)).2 := by
  have hnum' : ∀ n ∈ order, Numbers (qs n) := fun n hn => hnum n (g1.subset hn)
  have hP : (order.map qs).flatten.Perm (nodes.map qs).flatten := (g1.map qs).flatten
  let l := (order.filter fun n => decide (qs n ≠ [])).map fun n => ((bounds (qs n)).getD (Vec3.zero, Vec3.zero), qs n)
  have hl1 : (order.filter fun n => decide (qs n ≠ [])).flatMap (fun n =>
      (if (true : Bool) then bounds (qs n) else none).toList) = l.map (·.1) := by
    have : ∀ k : List Node, (∀ n ∈ k, qs n ≠ [] ∧ Numbers (qs n)) →
        k.flatMap (fun n => (if (true : Bool) then bounds (qs n) else none).toList) =
        (k.map fun n => ((bounds (qs n)).getD (Vec3.zero, Vec3.zero), qs n)).map (·.1) := by
      intro k
      induction k with
      | nil => intro _; rfl
      | cons a k ih =>
        intro hk
        obtain ⟨b, hb1, _⟩ := bounds_tight (hk a (by simp)).1 (hk a (by simp)).2
        rw [List.flatMap_cons, ih fun n hn => hk n (by simp [hn]), List.map_cons, List.map_cons, hb1]
        rfl
    refine this _ fun n hn => ?_
    have hf := List.mem_filter.1 hn
    exact ⟨by simpa using hf.2, hnum' n hf.1⟩
  have hl2 : (l.map (·.2)).flatten = (order.map qs).flatten := by
    have : ∀ k : List Node, (((k.filter fun n => decide (qs n ≠ [])).map fun n =>
        ((bounds (qs n)).getD (Vec3.zero, Vec3.zero), qs n)).map (·.2)).flatten = (k.map qs).flatten := by
      intro k
      induction k with
      | nil => rfl
      | cons a k ih =>
        by_cases hq : qs a = []
        · rw [List.filter_cons_of_neg (by simp [hq]), ih]; simp [hq]
        · rw [List.filter_cons_of_pos (by simp [hq]), List.map_cons, List.map_cons, List.flatten_cons, ih]
          simp
    exact this order
  have hlne : l ≠ [] := by
    intro e
    rw [e] at hl2
    have h3 := hP.symm
    rw [← hl2] at h3
    exact hne (List.perm_nil.1 h3)
  have ht := globalBounds_tight l hlne (by
    intro x hx
    obtain ⟨n, hn, rfl⟩ := List.mem_map.1 hx
    have hf := List.mem_filter.1 hn
    obtain ⟨b, hb1, hb2⟩ := bounds_tight (by simpa using hf.2) (hnum' n hf.1)
    simp only [hb1, Option.getD_some]
    exact hb2)
  rw [hl2, ← hl1] at ht
  exact (ht.perm hP).bounds

theorem order_none {order nodes : List Node} {qs : Node → List Point} (g1 : order.Perm nodes)
    (hnil : (nodes.map qs).flatten = []) : (order.filter fun n => decide (qs n ≠ [])) = [] := by
  rw [List.filter_eq_nil_iff]
  intro n hn
  have hz : qs n = [] := List.flatten_eq_nil_iff.1 hnil (qs n) (List.mem_map_of_mem (g1.subset hn))
  simp [hz]

/-- Whatever the schedule and the chunk size, a transform returns, and what it did with the writer is: one
`AddNodeCompressed` for every node that still has points, with the compressed transformed points, their number
and the page of the node, each of which returned, in some order; and, if asked for, an edit of the bounds in the
header. Nodes without points are not written. The writer may have been used before. -/
theorem C49_written {L : Lazperf} {ord : Order} {c : CopcConfig} {o : Writer.Overrides} {w0 w w' : Writer}
    {h0 : List (Op × Res (Option Node))} {r : Reader} {f : Node → List Point → Res (List Point)} {update : Bool}
    {nodes : List Node} {size : Int} {out : Res Unit} {qs : Node → List Point} {blob : Node → Bytes}
    (hm : Writer.make OStream.fresh c o = .ok w0) (hh : History L ord w0 h0 w) (hu : Unclosed h0)
    (hr : r.h.str.fail = false) (hb : ∀ n ∈ nodes, Becomes L r f w.cfg.header n (qs n) (blob n))
    (ha : ∀ n ∈ nodes, Addable n.entry.key n.pageKey) (hs : 0 < size)
    (ht : Transform L f update r nodes size w out w') :
    out = .ok () ∧ ∃ h, History L ord w0 (h0 ++ h) w' ∧
      (h.map (·.1)).Perm ((nodes.filter fun n => decide (qs n ≠ [])).map fun n =>
        Op.addCompressed n.entry.key (blob n) (qs n).length n.pageKey) ∧
      (∀ x ∈ h, ∃ node, x.2 = .ok (some node)) ∧
      w'.cfg = { w.cfg with header := { w.cfg.header with
        min := w'.cfg.header.min
        max := w'.cfg.header.max } } ∧
      (update = false → w'.cfg = w.cfg) ∧
      (update = true → (∀ n ∈ nodes, Numbers (qs n)) → (nodes.map qs).flatten ≠ [] →
        Bounds (nodes.map qs).flatten w'.cfg.header.min w'.cfg.header.max) ∧
      (update = true → (nodes.map qs).flatten = [] → w'.cfg.header.min = Vec3.zero ∧ w'.cfg.header.max = Vec3.zero) := by
  obtain ⟨otpd, h1, h2⟩ := bInv_of_make hm
  have main : ∀ cs (out : Res Unit × Main Writer), chunks nodes size = some cs →
      PoolRun (transformNode L f w.cfg.header update) (absorb (addCopc L)) (fun _ => r) cs ⟨w, []⟩ out →
      ∃ (order : List Node) (h : List (Op × Res (Option Node))) (w1 : Writer), order.Perm nodes ∧
        out = (.ok (), ⟨w1, (order.filter fun n => decide (qs n ≠ [])).flatMap fun n =>
          (if update then bounds (qs n) else none).toList⟩) ∧
        History L ord w0 (h0 ++ h) w1 ∧ w1.cfg = w.cfg ∧
        h.map (·.1) = (order.filter fun n => decide (qs n ≠ [])).map (mpCall qs blob) ∧
        ∀ x ∈ h, ∃ node, x.2 = .ok (some node) := by
    intro cs out hc hrun
    obtain ⟨cs', e1, e2⟩ := chunks_flatten nodes hs
    rw [e1] at hc
    obtain rfl := Option.some.inj hc
    obtain ⟨order, rest, o1, o2, o3⟩ := poolRun_order hrun (g := fun n =>
      (⟨blob n, n, (qs n).length, if update then bounds (qs n) else none⟩ : TaskResult))
      (fun n hn => pool_steady hr (hb n (by rw [← e2]; exact hn))) (fun _ => Fresh.refl hr)
    have hmem : ∀ n ∈ order, n ∈ nodes := by
      intro n hn
      rw [← e2]
      exact o1.subset (List.mem_append_left _ hn)
    obtain ⟨h, w1, a1, a2, _, a4, a5, a6⟩ := absorb_history (L := L) (ord := ord) h1 h2 (qs := qs) (blob := blob)
      (update := update) order w [] h0 hh hu fun n hn => ⟨ha n (hmem n hn), (hb n (hmem n hn)).small.1.1⟩
    have hout := a1.symm.trans o2
    have hrest := o3 (by rw [← hout])
    subst hrest
    rw [List.append_nil, e2] at o1
    exact ⟨order, h, w1, o1, by rw [← hout]; simp, a2, a4, a5, a6⟩
  have fin : ∀ cs s, chunks nodes size = some cs →
      PoolRun (transformNode L f w.cfg.header update) (absorb (addCopc L)) (fun _ => r) cs ⟨w, []⟩ (.ok (), s) →
      ∃ h, History L ord w0 (h0 ++ h) (setBounds update s) ∧
      (h.map (·.1)).Perm ((nodes.filter fun n => decide (qs n ≠ [])).map fun n =>
        Op.addCompressed n.entry.key (blob n) (qs n).length n.pageKey) ∧
      (∀ x ∈ h, ∃ node, x.2 = .ok (some node)) ∧
      (setBounds update s).cfg = { w.cfg with header := { w.cfg.header with
        min := (setBounds update s).cfg.header.min
        max := (setBounds update s).cfg.header.max } } ∧
      (update = false → (setBounds update s).cfg = w.cfg) ∧
      (update = true → (∀ n ∈ nodes, Numbers (qs n)) → (nodes.map qs).flatten ≠ [] →
        Bounds (nodes.map qs).flatten (setBounds update s).cfg.header.min (setBounds update s).cfg.header.max) ∧
      (update = true → (nodes.map qs).flatten = [] →
        (setBounds update s).cfg.header.min = Vec3.zero ∧ (setBounds update s).cfg.header.max = Vec3.zero) := by
    intro cs s hc hrun
    obtain ⟨order, h, w1, g1, g2, g3, g4, g5, g6⟩ := main cs _ hc hrun
    injection g2 with _ g2
    subst g2
    have hperm : (h.map (·.1)).Perm ((nodes.filter fun n => decide (qs n ≠ [])).map fun n =>
        Op.addCompressed n.entry.key (blob n) (qs n).length n.pageKey) := by
      rw [g5]
      exact (g1.filter _).map _
    cases update with
    | false =>
      refine ⟨h, g3, hperm, g6, ?_, fun _ => g4, (by intro h; cases h), (by intro h; cases h)⟩
      show w1.cfg = _
      show w1.cfg = { w.cfg with header := { w.cfg.header with
        min := w1.cfg.header.min
        max := w1.cfg.header.max } }
      rw [g4]
    | true =>
      have hedit : History L ord w0 (h0 ++ h) (setBounds true ⟨w1, (order.filter fun n => decide (qs n ≠ [])).flatMap fun n =>
          (if (true : Bool) then bounds (qs n) else none).toList⟩) :=
        .edit g3 ⟨rfl, rfl, rfl, rfl, rfl, rfl, rfl, rfl, rfl, rfl, rfl⟩
      refine ⟨h, hedit, hperm, g6, ?_, (by intro h; cases h), ?_, ?_⟩
      · unfold setBounds
        simp only [if_true]
        rw [g4]
      · intro _ hnum hne
        exact order_bounds g1 hnum hne
      · intro _ hnil
        have hall := order_none g1 hnil
        unfold setBounds
        simp only [if_true]
        rw [hall]
        exact ⟨rfl, rfl⟩
  cases ht with
  | ok hc hrun => exact ⟨rfl, fin _ _ hc hrun⟩
  | fail hc hrun hne =>
    obtain ⟨_, _, _, _, g2, _⟩ := main _ _ hc hrun
    injection g2 with g2 _
    exact absurd g2 hne

end Copc
