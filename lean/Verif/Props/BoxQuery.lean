import Verif.Lemmas.PointQuery
import Verif.Props.Resolution
import Verif.Props.Geometry
/-!
# C40, C42: points in a box, validation of the bounds

`Opened data ps r`, `Asked L r l r1`: see C36. The points of the nodes are given by a function `pts` with
`PointsOf L r n (pts n)`: the answer of `GetPoints` on the reader just opened.
-/
namespace Copc
open Spec VoxelKey

/-- The box of a node is the one `Box(key, header)` constructs. -/
theorem boxOf_eq (r : Reader) (n : Node) : boxOf r n = Box.ofNode n.key r.cfg.header.min r.cfg.header.max := by
  simp only [boxOf, Box.ofNode, Box.nodeStep, Box.nodeLow, span, max3, CxxNum.sub, CxxNum.add, CxxNum.mul, CxxNum.div,
    CxxNum.lt, CxxNum.ofInt, CxxNum.pow2]

theorem boxWithin_iff (r : Reader) (n : Node) (box : Box Dbl) :
    n.key.within r.cfg.header.min r.cfg.header.max box = true ↔ BoxWithin (boxOf r n) box := by
  rw [boxOf_eq]; exact within_iff _ _

theorem boxMeets_iff (r : Reader) (n : Node) (box : Box Dbl) :
    n.key.intersects r.cfg.header.min r.cfg.header.max box = true ↔ BoxMeets (boxOf r n) box := by
  rw [boxOf_eq]; exact intersects_iff _ _

theorem within_lies (b : Box Dbl) (p : Point) : p.within b = true ↔ Lies b p := C08_contains_point b _

theorem filter_within (b : Box Dbl) (l : List Point) : (l.filter fun p => p.within b) = within b l := by
  unfold Spec.within
  refine List.filter_congr fun p _ => ?_
  by_cases h : Lies b p
  · rw [(within_lies b p).2 h]; simp [h]
  · have : p.within b = false := by
      cases hc : p.within b with
      | false => rfl
      | true => exact absurd ((within_lies b p).1 hc) h
    rw [this]; simp [h]

theorem within_all {b : Box Dbl} {l : List Point} (h : ∀ p ∈ l, Lies b p) : within b l = l := by
  unfold Spec.within
  exact List.filter_eq_self.2 fun p hp => by simpa using h p hp

theorem within_none {b : Box Dbl} {l : List Point} (h : ∀ p ∈ l, ¬Lies b p) : within b l = [] := by
  unfold Spec.within
  exact List.filter_eq_nil_iff.2 fun p hp => by simpa using h p hp

theorem Spec.Lies.mono {b o : Box Dbl} {p : Point} (h : Lies b p) (hb : BoxWithin b o) : Lies o p := by
  obtain ⟨⟨a1, a2, a3, a4, a5⟩, ⟨b1, b2, b3, b4, b5⟩, ⟨c1, c2, c3, c4, c5⟩⟩ := h
  obtain ⟨⟨x1, x2⟩, ⟨y1, y2⟩, ⟨z1, z2⟩⟩ := hb
  exact ⟨⟨x1.1, a2, x2.2.1, x1.2.2.trans a4, a5.trans x2.2.2⟩, ⟨y1.1, b2, y2.2.1, y1.2.2.trans b4, b5.trans y2.2.2⟩,
    ⟨z1.1, c2, z2.2.1, z1.2.2.trans c4, c5.trans z2.2.2⟩⟩

/-- Boxes with a common point meet. -/
theorem Spec.Lies.meets {b o : Box Dbl} {p : Point} (h : Lies b p) (h' : Lies o p) : BoxMeets b o := by
  obtain ⟨⟨a1, a2, a3, a4, a5⟩, ⟨b1, b2, b3, b4, b5⟩, ⟨c1, c2, c3, c4, c5⟩⟩ := h
  obtain ⟨⟨x1, x2, x3, x4, x5⟩, ⟨y1, y2, y3, y4, y5⟩, ⟨z1, z2, z3, z4, z5⟩⟩ := h'
  exact ⟨⟨⟨a1, x3, a4.trans x5⟩, ⟨x1, a3, x4.trans a5⟩⟩, ⟨⟨b1, y3, b4.trans y5⟩, ⟨y1, b3, y4.trans b5⟩⟩,
    ⟨⟨c1, z3, c4.trans z5⟩, ⟨z1, c3, z4.trans c5⟩⟩⟩

section
variable {data : Bytes} {ps : List FPage} {r r1 : Reader} {L : Lazperf} {l : List Query}

/-- What a node contributes to `GetPointsWithinBox`. -/
noncomputable def share (r : Reader) (box : Box Dbl) (d : Int) (pts : Node → List Point) (n : Node) : List Point :=
  open Classical in
  if n.key.d ≤ d then
    if BoxWithin (boxOf r n) box then pts n else if BoxMeets (boxOf r n) box then within box (pts n) else []
  else []

theorem boxPoints_fresh (hr : r.h.str.fail = false) {box : Box Dbl} {d : Int} {pts : Node → List Point} {n : Node}
    (hp : PointsOf L r n (pts n)) (r' : Reader) (hf : Fresh r r') :
    ∃ r'', Reader.boxPoints L box d n r' = some (.ok (share r box d pts n), r'') ∧ Fresh r r'' := by
  obtain ⟨r2, e, f⟩ := hp.again hr hf
  unfold Reader.boxPoints share
  rw [Run.bind_ok (Run.gets_apply _ _), hf.cfg.2]
  by_cases h1 : n.key.d ≤ d
  · rw [if_pos h1, if_pos h1]
    by_cases h2 : BoxWithin (boxOf r n) box
    · have hw : n.key.within r.cfg.header.min r.cfg.header.max box = true := (boxWithin_iff r n box).2 h2
      rw [if_pos hw, if_pos h2]
      exact ⟨r2, congrArg some e, f⟩
    · have hw : ¬n.key.within r.cfg.header.min r.cfg.header.max box = true := fun h => h2 ((boxWithin_iff r n box).1 h)
      rw [if_neg hw, if_neg h2]
      by_cases h3 : BoxMeets (boxOf r n) box
      · have hm : n.key.intersects r.cfg.header.min r.cfg.header.max box = true := (boxMeets_iff r n box).2 h3
        rw [if_pos hm, if_pos h3, ← filter_within]
        exact ⟨r2, (Run.bind_ok (congrArg some e)).trans rfl, f⟩
      · have hm : ¬n.key.intersects r.cfg.header.min r.cfg.header.max box = true := fun h => h3 ((boxMeets_iff r n box).1 h)
        rw [if_neg hm, if_neg h3]
        exact ⟨r', rfl, hf⟩
  · rw [if_neg h1, if_neg h1]
    exact ⟨r', rfl, hf⟩

theorem RInv.fresh {data : Bytes} {ps : List FPage} {r r' : Reader} (h : RInv data ps r.h) (h' : RInv data ps r'.h)
    (hc : SameCfg r r') : Fresh r r' := ⟨h'.data.trans h.data.symm, h'.good, hc⟩

/-- A loop over all nodes that appends what it finds. -/
theorem collect_ends (hg : GoodHierarchy data ps) (ho : Opened data ps r) (ha : Asked L r l r1) (ord : ROrder)
    (res : Dbl) {f : Int → Node → Run Reader (List Point)} {g : Int → Node → List Point}
    (hf : ∀ d n, NodeOf ps n → ∀ r', Fresh r r' → ∃ r'', f d n r' = some (.ok (g d n), r'') ∧ Fresh r r'') :
    ∃ m d ns r2, Run.Ends (fun k => Reader.getDepthAtResolution ord k res >>= fun depth =>
        Reader.getAllNodes ord k >>= fun nodes => Run.collect (f depth) nodes) r1 (.ok (ns.flatMap (g d)), r2) ∧
      r2.h.str.fail = false ∧ MaxDepth ps m ∧ DepthFor m r.cfg.info.spacing res d ∧ ListsAll ps ns := by
  obtain ⟨hi, hc⟩ := ha.rInv hg (ho.rInv hg)
  obtain ⟨d, r2, e2, i2, c2, n1, hl1, rfl⟩ := (depth_gives hg hi ord res).ends
  obtain ⟨ns, r3, e3, i3, c3, hl⟩ := (allNodes_gives hg i2 ord).ends
  obtain ⟨r4, e4, f4⟩ := collect_fresh (r := r) ns (fun n hn => hf (Reader.depthAt n1 r1.cfg.info.spacing res) n ((hl.2 n).1 hn)) r3
    ((ho.rInv hg).fresh i3 (hc.trans (c2.trans c3)))
  refine ⟨_, _, ns, r4, e2.bind (f := fun k depth => Reader.getAllNodes ord k >>= fun nodes => Run.collect (f depth) nodes)
    (e3.bind (f := fun _ nodes => Run.collect (f _) nodes) (Run.Ends.const e4)), f4.good,
    maxDepth_spec hl1 fun n hn => nodeOf_depth hg hn, ?_, hl⟩
  rw [hc.2]
  exact depthAt_spec n1 _ res

/-- `GetAllPoints` returns the points of the nodes down to the depth for the resolution. -/
theorem C40_allPoints (hg : GoodHierarchy data ps) (ho : Opened data ps r) (ha : Asked L r l r1) (ord : ROrder)
    (res : Dbl) {pts : Node → List Point} (hp : ∀ n, NodeOf ps n → PointsOf L r n (pts n)) :
    ∃ m d ns r2, Run.Ends (fun k => Reader.getAllPoints L ord k res) r1 (.ok (ns.flatMap pts), r2) ∧
      r2.h.str.fail = false ∧ MaxDepth ps m ∧ DepthFor m r.cfg.info.spacing res d ∧
      ListsThose ps (fun n => n.key.d ≤ d) ns := by
  obtain ⟨m, d, ns, r2, h1, h2, h3, h4, h5⟩ := collect_ends hg ho ha ord res
    (f := fun depth n => if n.key.d ≤ depth then Run.ofAct (Reader.getPoints L n) else pure [])
    (g := fun d n => if n.key.d ≤ d then pts n else []) (fun d n hn r' hf => by
      by_cases h : n.key.d ≤ d
      · simp only [if_pos h]
        obtain ⟨r2, e, f⟩ := (hp n hn).again ho.good hf
        exact ⟨r2, congrArg some e, f⟩
      · simp only [if_neg h]
        exact ⟨r', rfl, hf⟩)
  refine ⟨m, d, ns.filter fun n => decide (n.key.d ≤ d), r2, ?_, h2, h3, h4, filter_lists h5 fun n => decide_eq_true_iff⟩
  have : ns.flatMap (fun n => if n.key.d ≤ d then pts n else []) =
      (ns.filter fun n => decide (n.key.d ≤ d)).flatMap pts := by
    clear h1 h5
    induction ns with
    | nil => rfl
    | cons a t ih =>
      rw [List.flatMap_cons, ih, List.filter_cons]
      by_cases h : a.key.d ≤ d <;> simp [h]
  rw [← this]
  exact h1

theorem pointsWithin_ends (hg : GoodHierarchy data ps) (ho : Opened data ps r) (ha : Asked L r l r1) (ord : ROrder)
    (box : Box Dbl) (res : Dbl) {pts : Node → List Point} (hp : ∀ n, NodeOf ps n → PointsOf L r n (pts n)) :
    ∃ m d ns r2, Run.Ends (fun k => Reader.getPointsWithinBox L ord k box res) r1
        (.ok (ns.flatMap (share r box d pts)), r2) ∧
      r2.h.str.fail = false ∧ MaxDepth ps m ∧ DepthFor m r.cfg.info.spacing res d ∧ ListsAll ps ns :=
  collect_ends hg ho ha ord res (f := fun d n => Reader.boxPoints L box d n) (g := fun d n => share r box d pts n)
    (fun _ n hn r' hf => boxPoints_fresh ho.good (hp n hn) r' hf)

/-- On a file whose points lie in the boxes of their nodes, `GetPointsWithinBox` returns exactly the points
in the box, node by node, of the nodes down to the depth for the resolution. -/
theorem C40_exact (hg : GoodHierarchy data ps) (ho : Opened data ps r) (ha : Asked L r l r1) (ord : ROrder)
    (box : Box Dbl) (res : Dbl) {pts : Node → List Point} (hp : ∀ n, NodeOf ps n → PointsOf L r n (pts n))
    (hin : ∀ n, NodeOf ps n → ∀ p ∈ pts n, Lies (boxOf r n) p) :
    ∃ m d ns r2, Run.Ends (fun k => Reader.getPointsWithinBox L ord k box res) r1
        (.ok (ns.flatMap fun n => within box (pts n)), r2) ∧ r2.h.str.fail = false ∧
      MaxDepth ps m ∧ DepthFor m r.cfg.info.spacing res d ∧ ListsThose ps (fun n => n.key.d ≤ d) ns := by
  obtain ⟨m, d, ns, r2, h1, h2, h3, h4, h5⟩ := pointsWithin_ends hg ho ha ord box res hp
  refine ⟨m, d, ns.filter fun n => decide (n.key.d ≤ d), r2, ?_, h2, h3, h4, filter_lists h5 fun n => decide_eq_true_iff⟩
  have : ns.flatMap (share r box d pts) =
      (ns.filter fun n => decide (n.key.d ≤ d)).flatMap fun n => within box (pts n) := by
    have hall : ∀ n ∈ ns, NodeOf ps n := fun n hn => (h5.2 n).1 hn
    clear h1 h5
    induction ns with
    | nil => rfl
    | cons a t ih =>
      rw [List.flatMap_cons, ih (fun n hn => hall n (by simp [hn])), List.filter_cons]
      have ha' := hin a (hall a (by simp))
      by_cases h : a.key.d ≤ d
      · have e : share r box d pts a = within box (pts a) := by
          unfold share
          rw [if_pos h]
          split
          · rename_i hw
            exact (within_all fun p hp => (ha' p hp).mono hw).symm
          · split
            · rfl
            · rename_i hm
              exact (within_none fun p hp hl => hm ((ha' p hp).meets hl)).symm
        simp [h, e]
      · have e : share r box d pts a = [] := by unfold share; rw [if_neg h]
        simp [h, e]
  rw [← this]
  exact h1

/-- Whatever the points: `GetPointsWithinBox` returns every point in the box of every node that meets the
box, in order and as often as it occurs; and every point returned lies in the box or belongs to a node
whose box lies in it. -/
theorem C40_never_misses (hg : GoodHierarchy data ps) (ho : Opened data ps r) (ha : Asked L r l r1) (ord : ROrder)
    (box : Box Dbl) (res : Dbl) {pts : Node → List Point} (hp : ∀ n, NodeOf ps n → PointsOf L r n (pts n)) :
    ∃ m d ns out r2, Run.Ends (fun k => Reader.getPointsWithinBox L ord k box res) r1 (.ok out, r2) ∧
      r2.h.str.fail = false ∧ MaxDepth ps m ∧ DepthFor m r.cfg.info.spacing res d ∧
      ListsThose ps (fun n => n.key.d ≤ d ∧ BoxMeets (boxOf r n) box) ns ∧
      (ns.flatMap fun n => within box (pts n)).Sublist out ∧
      ∀ p ∈ out, ∃ n, NodeOf ps n ∧ n.key.d ≤ d ∧ p ∈ pts n ∧ (Lies box p ∨ BoxWithin (boxOf r n) box) := by
  classical
  obtain ⟨m, d, ns, r2, h1, h2, h3, h4, h5⟩ := pointsWithin_ends hg ho ha ord box res hp
  refine ⟨m, d, ns.filter fun n => decide (n.key.d ≤ d ∧ BoxMeets (boxOf r n) box), _, r2, h1, h2, h3, h4,
    filter_lists h5 fun n => decide_eq_true_iff, ?_, ?_⟩
  · clear h1 h5
    induction ns with
    | nil => simp
    | cons a t ih =>
      rw [List.flatMap_cons, List.filter_cons]
      by_cases h : a.key.d ≤ d ∧ BoxMeets (boxOf r a) box
      · rw [if_pos (by simpa using h), List.flatMap_cons]
        refine List.Sublist.append ?_ ih
        unfold share
        rw [if_pos h.1]
        split
        · exact List.filter_sublist
        · rw [if_pos h.2]
      · rw [if_neg (by simpa using h)]
        exact ih.trans (List.sublist_append_right _ _)
  · intro p hp
    obtain ⟨n, hn, hpn⟩ := List.mem_flatMap.1 hp
    refine ⟨n, (h5.2 n).1 hn, ?_⟩
    unfold share at hpn
    split at hpn
    · rename_i hd
      split at hpn
      · rename_i hw; exact ⟨hd, hpn, .inr hw⟩
      · split at hpn
        · have := List.mem_filter.1 hpn
          exact ⟨hd, this.1, .inl (by simpa using this.2)⟩
        · cases hpn
    · cases hpn

/-! ### C42 -/

/-- What `ValidateSpatialBounds` is to check of a node: its box meets the bounds, and its points lie in the
bounds and in its box. -/
def NodeFine (r : Reader) (b : Box Dbl) (pts : Node → List Point) (n : Node) : Prop :=
  BoxMeets (boxOf r n) b ∧ ∀ p ∈ pts n, Lies b p ∧ Lies (boxOf r n) p

theorem meets_false {r : Reader} {n : Node} {b : Box Dbl} :
    (boxOf r n).intersects b = false ↔ ¬BoxMeets (boxOf r n) b := by
  rw [← intersects_iff]
  cases (boxOf r n).intersects b <;> simp

theorem all_within (b : Box Dbl) (l : List Point) : (l.all fun p => p.within b) = true ↔ ∀ p ∈ l, Lies b p := by
  rw [List.all_eq_true]
  exact forall_congr' fun p => imp_congr_right fun _ => within_lies b p

theorem points_fine {r : Reader} {n : Node} {b : Box Dbl} {l : List Point} :
    (((boxOf r n).within b || l.all fun p => p.within b) && l.all fun p => p.within (boxOf r n)) = true ↔
      ∀ p ∈ l, Lies b p ∧ Lies (boxOf r n) p := by
  rw [Bool.and_eq_true, Bool.or_eq_true, within_iff, all_within, all_within]
  constructor
  · rintro ⟨h | h, h'⟩ p hp
    · exact ⟨(h' p hp).mono h, h' p hp⟩
    · exact ⟨h p hp, h' p hp⟩
  · exact fun h => ⟨.inr fun p hp => (h p hp).1, fun p hp => (h p hp).2⟩

theorem nodeValid_fresh (hr : r.h.str.fail = false) {b : Box Dbl} (hb : r.cfg.header.bounds = .ok b)
    {pts : Node → List Point} {n : Node} (hp : PointsOf L r n (pts n)) (r' : Reader) (hf : Fresh r r') :
    ∃ v r'', Reader.nodeValid L n r' = (.ok v, r'') ∧ Fresh r r'' ∧ (v = true ↔ NodeFine r b pts n) := by
  obtain ⟨r2, e, f⟩ := hp.again hr hf
  unfold Reader.nodeValid
  have hg : Act.gets (fun r : Reader => r.cfg.header) r' = (.ok r.cfg.header, r') := by
    show ((Res.ok r'.cfg.header : Res LasHeader), r') = _
    rw [hf.cfg.2]
  have hl : Act.lift (σ := Reader) r.cfg.header.bounds r' = (.ok b, r') := by rw [hb]; rfl
  rw [Act.bind_ok hg, Act.bind_ok hl]
  have hbox : Box.ofNode n.key r.cfg.header.min r.cfg.header.max = boxOf r n := (boxOf_eq r n).symm
  rw [hbox]
  by_cases hm : BoxMeets (boxOf r n) b
  · have hc : ¬(boxOf r n).intersects b = false := fun h => meets_false.1 h hm
    rw [if_neg hc, Act.bind_ok e]
    have hfine : NodeFine r b pts n ↔ ∀ p ∈ pts n, Lies b p ∧ Lies (boxOf r n) p :=
      ⟨fun h => h.2, fun h => ⟨hm, h⟩⟩
    refine ⟨((boxOf r n).within b || (pts n).all fun p => p.within b) && (pts n).all fun p => p.within (boxOf r n),
      r2, rfl, f, ?_⟩
    rw [hfine]
    exact points_fine
  · rw [if_pos (meets_false.2 hm)]
    exact ⟨false, r', rfl, hf, ⟨fun h => (by cases h), fun h => absurd h.1 hm⟩⟩

theorem validateLoop_fresh (hr : r.h.str.fail = false) {b : Box Dbl} (hb : r.cfg.header.bounds = .ok b)
    {pts : Node → List Point} : ∀ (ns : List Node), (∀ n ∈ ns, PointsOf L r n (pts n)) → ∀ r', Fresh r r' →
    ∃ v r'', Reader.validateLoop L ns r' = (.ok v, r'') ∧ Fresh r r'' ∧ (v = true ↔ ∀ n ∈ ns, NodeFine r b pts n)
  | [], _, r', hf => ⟨true, r', rfl, hf, by simp⟩
  | n :: ns, hp, r', hf => by
    obtain ⟨v, r2, e, f, hv⟩ := nodeValid_fresh hr hb (hp n (by simp)) r' hf
    unfold Reader.validateLoop
    rw [Act.bind_ok e]
    cases v with
    | false =>
      refine ⟨false, r2, rfl, f, ?_⟩
      simp only [Bool.false_eq_true, false_iff] at hv ⊢
      exact fun h => hv (h n (by simp))
    | true =>
      obtain ⟨v2, r3, e3, f3, hv3⟩ := validateLoop_fresh hr hb ns (fun m hm => hp m (by simp [hm])) r2 f
      refine ⟨v2, r3, e3, f3, hv3.trans ?_⟩
      rw [List.forall_mem_cons]
      exact ⟨fun h => ⟨hv.1 rfl, h⟩, fun h => h.2⟩

/-- `ValidateSpatialBounds(false)` returns `true` exactly when the boxes of all nodes meet the bounds of the
header and all points lie in the bounds of the header and in the box of their node. -/
theorem C42_valid (hg : GoodHierarchy data ps) (ho : Opened data ps r) (ha : Asked L r l r1) (ord : ROrder)
    {b : Box Dbl} (hb : r.cfg.header.bounds = .ok b)
    {pts : Node → List Point} (hp : ∀ n, NodeOf ps n → PointsOf L r n (pts n)) :
    ∃ v r2, Run.Ends (fun k => Reader.validateSpatialBounds L ord k false) r1 (.ok v, r2) ∧
      r2.h.str.fail = false ∧ (v = true ↔ ∀ n, NodeOf ps n →
        BoxMeets (boxOf r n) b ∧ ∀ p ∈ pts n, Lies b p ∧ Lies (boxOf r n) p) := by
  obtain ⟨hi, hc⟩ := ha.rInv hg (ho.rInv hg)
  obtain ⟨ns, r3, e3, i3, c3, hl⟩ := (allNodes_gives hg hi ord).ends
  obtain ⟨v, r4, e4, f4, h4⟩ := validateLoop_fresh ho.good hb ns (fun n hn => hp n ((hl.2 n).1 hn)) r3
    ((ho.rInv hg).fresh i3 (hc.trans c3))
  refine ⟨v, r4, e3.bind (f := fun _ nodes => if false = true then Run.ofAct (Reader.verboseLoop L nodes (true, 0, 0))
      >>= fun t => pure t.1 else Run.ofAct (Reader.validateLoop L nodes)) (Run.Ends.const (congrArg some e4)), f4.good, ?_⟩
  rw [h4]
  exact forall_congr' fun n => by rw [hl.2 n]; rfl

/-! The verbose variant -/

theorem chk32_nat {a c : Int} (ha : 0 ≤ a) (hc : 0 ≤ c) (h : a + c < 2 ^ 31) : chk32 (a + c) = .ok (a + c) := by
  unfold chk32
  rw [if_pos]
  unfold InI32
  omega

theorem verboseNode_fresh (hr : r.h.str.fail = false) {b : Box Dbl} (hb : r.cfg.header.bounds = .ok b)
    {pts : Node → List Point} {n : Node} (hp : PointsOf L r n (pts n)) (hn : 0 ≤ n.entry.pointCount) {v : Bool}
    {x y s : Int} (hx : 0 ≤ x) (hy : 0 ≤ y) (hxs : x ≤ s) (hys : y ≤ s) (hs : s + n.entry.pointCount < 2 ^ 31)
    (r' : Reader) (hf : Fresh r r') :
    ∃ v' x' y' r'', Reader.verboseNode L n (v, x, y) r' = (.ok (v', x', y'), r'') ∧ Fresh r r'' ∧
      (v' = true ↔ v = true ∧ NodeFine r b pts n) ∧ 0 ≤ x' ∧ 0 ≤ y' ∧ x' ≤ s + n.entry.pointCount ∧
      y' ≤ s + n.entry.pointCount := by
  obtain ⟨r2, e, f⟩ := hp.again hr hf
  have hlen := hp.length
  unfold Reader.verboseNode
  have hg : Act.gets (fun r : Reader => r.cfg.header) r' = (.ok r.cfg.header, r') := by
    show ((Res.ok r'.cfg.header : Res LasHeader), r') = _
    rw [hf.cfg.2]
  have hl : Act.lift (σ := Reader) r.cfg.header.bounds r' = (.ok b, r') := by rw [hb]; rfl
  rw [Act.bind_ok hg, Act.bind_ok hl]
  have hbox : Box.ofNode n.key r.cfg.header.min r.cfg.header.max = boxOf r n := (boxOf_eq r n).symm
  rw [hbox]
  by_cases hm : BoxMeets (boxOf r n) b
  · have hc : ¬(boxOf r n).intersects b = false := fun h => meets_false.1 h hm
    rw [if_neg hc, Act.bind_ok e]
    simp only
    have hsub : ∀ q : Point → Bool, 0 ≤ (((pts n).filter q).length : Int) ∧
        (((pts n).filter q).length : Int) ≤ n.entry.pointCount := fun q => by
      have := List.length_filter_le q (pts n)
      omega
    have hout : 0 ≤ ((if (boxOf r n).within b = true then [] else (pts n).filter fun p => !p.within b).length : Int) ∧
        ((if (boxOf r n).within b = true then [] else (pts n).filter fun p => !p.within b).length : Int)
          ≤ n.entry.pointCount := by
      split
      · exact ⟨by simp, by simpa using hn⟩
      · exact hsub _
    have hnode := hsub fun p => !p.within (boxOf r n)
    have hempty : ∀ q : Box Dbl, ((pts n).filter fun p => !p.within q).isEmpty = true ↔
        ((pts n).all fun p => p.within q) = true := fun q => by
      rw [List.isEmpty_iff, List.filter_eq_nil_iff, List.all_eq_true]
      simp
    have hfine : ((if (boxOf r n).within b = true then [] else (pts n).filter fun p => !p.within b).isEmpty = true ∧
        ((pts n).filter fun p => !p.within (boxOf r n)).isEmpty = true) ↔ NodeFine r b pts n := by
      have : NodeFine r b pts n ↔ ∀ p ∈ pts n, Lies b p ∧ Lies (boxOf r n) p :=
        ⟨fun h => h.2, fun h => ⟨hm, h⟩⟩
      rw [this, ← points_fine, Bool.and_eq_true, Bool.or_eq_true, hempty]
      refine and_congr_left fun _ => ?_
      by_cases hw : (boxOf r n).within b = true
      · simp [hw]
      · rw [if_neg hw, hempty]; simp [hw]
    generalize (if (boxOf r n).within b = true then [] else (pts n).filter fun p => !p.within b) = out at *
    generalize ((pts n).filter fun p => !p.within (boxOf r n)) = outNode at *
    have l1 : Act.lift (σ := Reader) (chk32 (x + (out.length : Int))) r2 = (.ok (x + out.length), r2) := by
      rw [chk32_nat hx hout.1 (by omega)]; rfl
    have l2 : Act.lift (σ := Reader) (chk32 (y + (outNode.length : Int))) r2 = (.ok (y + outNode.length), r2) := by
      rw [chk32_nat hy hnode.1 (by omega)]; rfl
    rw [Act.bind_ok l1, Act.bind_ok l2]
    refine ⟨v && out.isEmpty && outNode.isEmpty, x + out.length, y + outNode.length, r2, rfl, f, ?_, by omega,
      by omega, by omega, by omega⟩
    rw [Bool.and_eq_true, Bool.and_eq_true, and_assoc, hfine]
  · rw [if_pos (meets_false.2 hm)]
    have c1 := chk32_nat hx hn (by omega)
    have l1 : Act.lift (σ := Reader) (chk32 (x + n.entry.pointCount)) r' = (.ok (x + n.entry.pointCount), r') := by
      rw [c1]; rfl
    refine ⟨_, _, _, r', (Act.bind_ok l1).trans rfl, hf, ⟨fun h => (by cases h), fun h => absurd h.2.1 hm⟩, by omega, by omega, by omega,
      by simp only; omega⟩

theorem verboseLoop_fresh (hr : r.h.str.fail = false) {b : Box Dbl} (hb : r.cfg.header.bounds = .ok b)
    {pts : Node → List Point} : ∀ (ns : List Node), (∀ n ∈ ns, PointsOf L r n (pts n)) →
    (∀ n ∈ ns, 0 ≤ n.entry.pointCount) → ∀ (v : Bool) (x y s : Int), 0 ≤ x → 0 ≤ y → x ≤ s → y ≤ s →
    s + (ns.map (·.entry.pointCount)).sum < 2 ^ 31 → ∀ r', Fresh r r' →
    ∃ t r'', Reader.verboseLoop L ns (v, x, y) r' = (.ok t, r'') ∧ Fresh r r'' ∧
      (t.1 = true ↔ v = true ∧ ∀ n ∈ ns, NodeFine r b pts n)
  | [], _, _, v, x, y, s, _, _, _, _, _, r', hf => ⟨(v, x, y), r', rfl, hf, by simp⟩
  | n :: ns, hp, hn, v, x, y, s, hx, hy, hxs, hys, hs, r', hf => by
    rw [List.map_cons, List.sum_cons] at hs
    have hsum : 0 ≤ (ns.map (·.entry.pointCount)).sum := List.sum_nonneg (by
      intro c hc
      obtain ⟨m, hm, rfl⟩ := List.mem_map.1 hc
      exact hn m (by simp [hm]))
    obtain ⟨v', x', y', r2, e, f, hv, g1, g2, g3, g4⟩ := verboseNode_fresh hr hb (hp n (by simp)) (hn n (by simp))
      (v := v) hx hy hxs hys (by omega) r' hf
    obtain ⟨t, r3, e3, f3, hv3⟩ := verboseLoop_fresh hr hb ns (fun m hm => hp m (by simp [hm]))
      (fun m hm => hn m (by simp [hm])) v' x' y' _ g1 g2 g3 g4 (by omega) r2 f
    unfold Reader.verboseLoop
    rw [Act.bind_ok e]
    refine ⟨t, r3, e3, f3, ?_⟩
    rw [hv3, hv, List.forall_mem_cons, and_assoc]

/-- `ValidateSpatialBounds(true)` gives the same verdict, on files whose nodes have fewer than `2^31` points
in all. -/
theorem C42_verbose_partial (hg : GoodHierarchy data ps) (ho : Opened data ps r) (ha : Asked L r l r1) (ord : ROrder)
    {b : Box Dbl} (hb : r.cfg.header.bounds = .ok b)
    {pts : Node → List Point} (hp : ∀ n, NodeOf ps n → PointsOf L r n (pts n))
    (hn : ∀ n, NodeOf ps n → 0 ≤ n.entry.pointCount) {all : List Node} (hall : ListsAll ps all)
    (htot : (all.map (·.entry.pointCount)).sum < 2 ^ 31) :
    ∃ v r2, Run.Ends (fun k => Reader.validateSpatialBounds L ord k true) r1 (.ok v, r2) ∧
      r2.h.str.fail = false ∧ (v = true ↔ ∀ n, NodeOf ps n →
        BoxMeets (boxOf r n) b ∧ ∀ p ∈ pts n, Lies b p ∧ Lies (boxOf r n) p) := by
  obtain ⟨hi, hc⟩ := ha.rInv hg (ho.rInv hg)
  obtain ⟨ns, r3, e3, i3, c3, hl⟩ := (allNodes_gives hg hi ord).ends
  have hperm : ns.Perm all := (List.perm_ext_iff_of_nodup hl.1 hall.1).2 fun n => by rw [hl.2, hall.2]
  have hsum : (ns.map (·.entry.pointCount)).sum < 2 ^ 31 := by
    rw [(hperm.map (·.entry.pointCount)).sum_eq]; exact htot
  obtain ⟨t, r4, e4, f4, h4⟩ := verboseLoop_fresh ho.good hb ns (fun n hn => hp n ((hl.2 n).1 hn))
    (fun n h => hn n ((hl.2 n).1 h)) true 0 0 0 (by omega) (by omega) (by omega) (by omega) (by omega) r3
    ((ho.rInv hg).fresh i3 (hc.trans c3))
  refine ⟨t.1, r4, e3.bind (f := fun _ nodes => if true = true then Run.ofAct (Reader.verboseLoop L nodes (true, 0, 0))
      >>= fun t => pure t.1 else Run.ofAct (Reader.validateLoop L nodes))
      (Run.Ends.const ((Run.bind_ok (congrArg some e4)).trans rfl)), f4.good, ?_⟩
  rw [h4]
  simp only [true_and]
  exact forall_congr' fun n => by rw [hl.2 n]; rfl

end
end Copc
