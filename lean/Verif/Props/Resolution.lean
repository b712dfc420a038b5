import Verif.Spec.Resolution
import Verif.Lemmas.ReaderCalls
import Verif.Lemmas.FltOrder
import Verif.Lemmas.FltExact
import Verif.Lemmas.NodeBox
import Verif.Props.ReaderHier
/-!
# C39, C41: depth for a resolution, node queries

`Opened data ps r`, `Asked L r l r1`: see C36.
-/
namespace Copc
open Spec VoxelKey

theorem le'_iff_Le {a b : Dbl} : Flt.le' a b = true ↔ Le a b := Flt.le'_iff_ext

theorem Spec.Le.trans {a b c : Dbl} (h1 : Le a b) (h2 : Le b c) : Le a c :=
  ⟨h1.1, h2.2.1, h1.2.2.trans h2.2.2⟩

/-! ### The maximum -/

theorem maxDepth_fold (l : List Node) : ∀ m0 : Int,
    (∀ n ∈ l, n.key.d ≤ l.foldl (fun m n => if n.key.d > m then n.key.d else m) m0) ∧
    m0 ≤ l.foldl (fun m n => if n.key.d > m then n.key.d else m) m0 ∧
    (l.foldl (fun m n => if n.key.d > m then n.key.d else m) m0 = m0 ∨
      ∃ n ∈ l, n.key.d = l.foldl (fun m n => if n.key.d > m then n.key.d else m) m0) := by
  induction l with
  | nil => intro m0; exact ⟨by simp, Int.le_refl _, .inl rfl⟩
  | cons a l ih =>
    intro m0
    rw [List.foldl_cons]
    obtain ⟨h1, h2, h3⟩ := ih (if a.key.d > m0 then a.key.d else m0)
    have ha : a.key.d ≤ (if a.key.d > m0 then a.key.d else m0) ∧ m0 ≤ (if a.key.d > m0 then a.key.d else m0) := by
      split <;> omega
    refine ⟨fun n hn => ?_, ha.2.trans h2, ?_⟩
    · rcases List.mem_cons.1 hn with rfl | hn
      · exact ha.1.trans h2
      · exact h1 n hn
    · rcases h3 with h3 | ⟨n, hn, h3⟩
      · rw [h3]
        split
        · exact .inr ⟨a, by simp, rfl⟩
        · exact .inl rfl
      · exact .inr ⟨n, by simp [hn], h3⟩

theorem maxDepth_spec {ps : List FPage} {l : List Node} (hl : ListsAll ps l) (hv : ∀ n, NodeOf ps n → 0 ≤ n.key.d) :
    MaxDepth ps (Reader.maxDepth l) := by
  obtain ⟨h1, h2, h3⟩ := maxDepth_fold l (-1)
  refine ⟨fun n hn => h1 n ((hl.2 n).2 hn), ?_⟩
  rcases h3 with h3 | ⟨n, hn, h3⟩
  · refine .inr ⟨fun n hn => ?_, h3⟩
    have := h1 n ((hl.2 n).2 hn)
    have := hv n hn
    omega
  · exact .inl ⟨n, (hl.2 n).1 hn, h3⟩

theorem maxDepth_ge (l : List Node) : -1 ≤ Reader.maxDepth l := (maxDepth_fold l (-1)).2.1

theorem Spec.MaxDepth.unique {ps : List FPage} {a b : Int} (h1 : MaxDepth ps a) (h2 : MaxDepth ps b) : a = b := by
  rcases h1.2 with ⟨n, hn, e1⟩ | ⟨hn, e1⟩ <;> rcases h2.2 with ⟨n', hn', e2⟩ | ⟨hn', e2⟩
  · have := h1.1 n' hn'; have := h2.1 n hn; omega
  · exact absurd hn (hn' n)
  · exact absurd hn' (hn n')
  · omega

/-! ### The loop -/

theorem depthLoop_spec (spacing r : Dbl) : ∀ (n i : Nat),
    (∃ k : Nat, k < n ∧ Reader.depthLoop r n i (halved spacing i) = some ((i + k : Nat) : Int) ∧
      Le (halved spacing (i + k)) r ∧ ∀ j < k, ¬Le (halved spacing (i + j)) r) ∨
    (Reader.depthLoop r n i (halved spacing i) = none ∧ ∀ j < n, ¬Le (halved spacing (i + j)) r)
  | 0, i => .inr ⟨rfl, by omega⟩
  | n + 1, i => by
    rw [Reader.depthLoop]
    by_cases hc : Le (halved spacing i) r
    · rw [if_pos (le'_iff_Le.2 hc)]
      exact .inl ⟨0, by omega, rfl, hc, by omega⟩
    · rw [if_neg (fun h => hc (le'_iff_Le.1 h))]
      have := depthLoop_spec spacing r n (i + 1)
      have e : ∀ j, i + 1 + j = i + (j + 1) := fun j => by omega
      have ec : ((i : Int) + 1) = ((i + 1 : Nat) : Int) := by simp
      rw [ec]
      have hz : ∀ k : Nat, (∀ j < k, ¬Le (halved spacing (i + 1 + j)) r) → ∀ j < k + 1, ¬Le (halved spacing (i + j)) r := by
        intro k hk j hj
        cases j with
        | zero => exact hc
        | succ j => rw [← e]; exact hk j (by omega)
      rcases this with ⟨k, h1, h2, h3, h4⟩ | ⟨h1, h2⟩
      · exact .inl ⟨k + 1, by omega, by rw [← e k]; exact h2, by rw [← e]; exact h3, hz k h4⟩
      · exact .inr ⟨h1, hz n h2⟩

theorem depthAt_spec (l : List Node) (spacing r : Dbl) :
    DepthFor (Reader.maxDepth l) spacing r (Reader.depthAt l spacing r) := by
  have hm := maxDepth_ge l
  unfold Reader.depthAt
  simp only
  generalize Reader.maxDepth l = m at *
  refine ⟨fun h => by rw [if_pos (le'_iff_Le.2 h)], fun h => ?_⟩
  rw [if_neg (fun h' => h (le'_iff_Le.1 h'))]
  have := depthLoop_spec spacing r (m + 1).toNat 0
  simp only [Nat.zero_add] at this
  rcases this with ⟨k, h1, h2, h3, h4⟩ | ⟨h1, h2⟩
  · have h2' : Reader.depthLoop r (m + 1).toNat 0 spacing = some (k : Int) := h2
    rw [h2']
    exact .inl ⟨k, by omega, rfl, h3, h4⟩
  · have h1' : Reader.depthLoop r (m + 1).toNat 0 spacing = none := h1
    rw [h1']
    exact .inr ⟨rfl, fun j hj => h2 j (by omega)⟩

theorem Spec.DepthFor.unique {m : Int} {s r : Dbl} {d d' : Int} (h : DepthFor m s r d) (h' : DepthFor m s r d') :
    d = d' := by
  by_cases hc : Le r Flt.zero
  · rw [h.1 hc, h'.1 hc]
  · rcases h.2 hc with ⟨i, a1, a2, a3, a4⟩ | ⟨a1, a2⟩ <;> rcases h'.2 hc with ⟨i', b1, b2, b3, b4⟩ | ⟨b1, b2⟩
    · have : ¬i < i' := fun hl => b4 i hl a3
      have : ¬i' < i := fun hl => a4 i' hl b3
      omega
    · exact absurd a3 (b2 i a1)
    · exact absurd b3 (a2 i' b1)
    · omega

theorem Spec.DepthFor.le_max {m : Int} {s r : Dbl} {d : Int} (h : DepthFor m s r d) : d ≤ m := by
  by_cases hc : Le r Flt.zero
  · exact (h.1 hc).le
  · rcases h.2 hc with ⟨i, a1, a2, _⟩ | ⟨a1, _⟩
    · omega
    · omega

/-- A coarser resolution does not go deeper. -/
theorem Spec.DepthFor.antitone {m : Int} {s r r' : Dbl} {d d' : Int} (h : DepthFor m s r d)
    (h' : DepthFor m s r' d') (hr : Le r r') : d' ≤ d := by
  by_cases hc : Le r Flt.zero
  · rw [h.1 hc]; exact h'.le_max
  · have hc' : ¬Le r' Flt.zero := fun hx => hc (hr.trans hx)
    rcases h.2 hc with ⟨i, a1, a2, a3, a4⟩ | ⟨a1, a2⟩
    · rcases h'.2 hc' with ⟨i', b1, b2, b3, b4⟩ | ⟨b1, b2⟩
      · have : ¬i < i' := fun hl => b4 i hl (a3.trans hr)
        omega
      · exact absurd (a3.trans hr) (b2 i a1)
    · rw [a1]; exact h'.le_max

section
variable {data : Bytes} {ps : List FPage} {r r1 r2 : Reader} {L : Lazperf} {l l1 l2 : List Query}

theorem nodeOf_depth (hg : GoodHierarchy data ps) {n : Node} (hn : NodeOf ps n) : 0 ≤ n.key.d := by
  obtain ⟨p, hp, hm⟩ := hn
  obtain ⟨e, he, rfl⟩ := List.mem_map.1 hm
  exact (hg.entries p hp e he).2.1.1

/-- What the depth of the model is on a list of all nodes. -/
theorem depthAt_lists (hg : GoodHierarchy data ps) {ns : List Node} (hl : ListsAll ps ns) {m : Int}
    (hm : MaxDepth ps m) (s res : Dbl) : DepthFor m s res (Reader.depthAt ns s res) := by
  rw [hm.unique (maxDepth_spec hl fun n hn => nodeOf_depth hg hn)]
  exact depthAt_spec ns s res

/-- `GetDepthAtResolution` returns the right depth, whatever was asked before. -/
theorem C39_depth (hg : GoodHierarchy data ps) (ho : Opened data ps r) (ha : Asked L r l r1) (ord : ROrder)
    (res : Dbl) : ∃ m d r2, Run.Ends (fun k => Reader.getDepthAtResolution ord k res) r1 (.ok d, r2) ∧
      MaxDepth ps m ∧ DepthFor m r.cfg.info.spacing res d := by
  obtain ⟨hi, hc⟩ := ha.rInv hg (ho.rInv hg)
  obtain ⟨d, r2, h1, _, _, ns, h2, rfl⟩ := (depth_gives hg hi ord res).ends
  refine ⟨_, _, r2, h1, maxDepth_spec h2 fun n hn => nodeOf_depth hg hn, ?_⟩
  rw [hc.2]
  exact depthAt_spec ns _ res

/-- `GetMaxDepth` is the depth of the deepest node. -/
theorem C39_maxDepth (hg : GoodHierarchy data ps) (ho : Opened data ps r) (ha : Asked L r l r1) (ord : ROrder) :
    ∃ m r2, Run.Ends (fun k => Reader.getMaxDepth ord k) r1 (.ok m, r2) ∧ MaxDepth ps m := by
  obtain ⟨m, d, r2, h1, h2, h3⟩ := C39_depth hg ho ha ord (Flt.ofInt (-1))
  have : Flt.le' (Flt.ofInt (-1) : Dbl) Flt.zero = true := by decide +kernel
  have hd := h3.1 (le'_iff_Le.1 this)
  rw [hd] at h1
  exact ⟨m, r2, h1, h2⟩

/-- A smaller number as resolution never gives a smaller depth, whatever was asked before either call. -/
theorem C39_antitone (hg : GoodHierarchy data ps) (ho : Opened data ps r) (h1 : Asked L r l1 r1)
    (h2 : Asked L r l2 r2) {o1 o2 : ROrder} {res res' : Dbl} (hres : Le res res') {d d' : Int} {s s' : Reader}
    (e1 : Run.Ends (fun k => Reader.getDepthAtResolution o1 k res) r1 (.ok d, s))
    (e2 : Run.Ends (fun k => Reader.getDepthAtResolution o2 k res') r2 (.ok d', s')) : d' ≤ d := by
  obtain ⟨m, x, t, f1, f2, f3⟩ := C39_depth hg ho h1 o1 res
  obtain ⟨m', x', t', g1, g2, g3⟩ := C39_depth hg ho h2 o2 res'
  cases e1.unique f1
  cases e2.unique g1
  rw [g2.unique f2] at g3
  exact f3.antitone g3 hres

theorem filter_lists {ns : List Node} (hl : ListsAll ps ns) {keep : Node → Bool} {P : Node → Prop}
    (hk : ∀ n, keep n = true ↔ P n) : ListsThose ps P (ns.filter keep) :=
  ⟨hl.1.filter _, fun n => by rw [List.mem_filter, hl.2, hk]⟩

/-- The answers of the node queries. -/
theorem filter_ends (hg : GoodHierarchy data ps) (ho : Opened data ps r) (ha : Asked L r l r1) (ord : ROrder)
    (res : Dbl) (keep : LasHeader → Int → Node → Bool) {P : Int → Node → Prop}
    (hk : ∀ d n, keep r.cfg.header d n = true ↔ P d n) :
    ∃ m d ns r2, Run.Ends (fun k => Reader.filterNodes ord k res keep) r1 (.ok ns, r2) ∧
      MaxDepth ps m ∧ DepthFor m r.cfg.info.spacing res d ∧ ListsThose ps (P d) ns := by
  obtain ⟨hi, hc⟩ := ha.rInv hg (ho.rInv hg)
  obtain ⟨ns, r2, h1, _, _, n1, n2, h2, h3, rfl⟩ := (filter_gives hg hi ord res keep).ends
  refine ⟨_, Reader.depthAt n1 r.cfg.info.spacing res, _, r2, h1,
    maxDepth_spec h2 fun n hn => nodeOf_depth hg hn, depthAt_spec n1 _ res, ?_⟩
  rw [hc.2]
  exact filter_lists h3 (hk _)

/-- `GetNodesAtResolution` lists the nodes at the depth for the resolution. -/
theorem C39_nodesAt (hg : GoodHierarchy data ps) (ho : Opened data ps r) (ha : Asked L r l r1) (ord : ROrder)
    (res : Dbl) : ∃ m d ns r2, Run.Ends (fun k => Reader.getNodesAtResolution ord k res) r1 (.ok ns, r2) ∧
      MaxDepth ps m ∧ DepthFor m r.cfg.info.spacing res d ∧ ListsThose ps (fun n => n.key.d = d) ns :=
  filter_ends hg ho ha ord res _ fun _ _ => decide_eq_true_iff

/-- `GetNodesWithinResolution` lists the nodes down to the depth for the resolution. -/
theorem C39_nodesWithin (hg : GoodHierarchy data ps) (ho : Opened data ps r) (ha : Asked L r l r1) (ord : ROrder)
    (res : Dbl) : ∃ m d ns r2, Run.Ends (fun k => Reader.getNodesWithinResolution ord k res) r1 (.ok ns, r2) ∧
      MaxDepth ps m ∧ DepthFor m r.cfg.info.spacing res d ∧ ListsThose ps (fun n => n.key.d ≤ d) ns :=
  filter_ends hg ho ha ord res _ fun _ _ => decide_eq_true_iff

/-! ### C41 -/

theorem within_iff (b o : Box Dbl) : b.within o = true ↔ BoxWithin b o := by
  unfold Box.within Box.containsBox BoxWithin
  simp only [CxxNum.le, Bool.and_eq_true, ← le'_iff_Le]
  tauto

theorem intersects_iff (b o : Box Dbl) : b.intersects o = true ↔ BoxMeets b o := by
  unfold Box.intersects BoxMeets
  simp only [CxxNum.le, Bool.and_eq_true, ← le'_iff_Le]
  tauto

/-- `GetNodesWithinBox` lists the nodes down to the depth for the resolution whose box lies in the given one. -/
theorem C41_within (hg : GoodHierarchy data ps) (ho : Opened data ps r) (ha : Asked L r l r1) (ord : ROrder)
    (box : Box Dbl) (res : Dbl) :
    ∃ m d ns r2, Run.Ends (fun k => Reader.getNodesWithinBox ord k box res) r1 (.ok ns, r2) ∧
      MaxDepth ps m ∧ DepthFor m r.cfg.info.spacing res d ∧
      ListsThose ps (fun n => BoxWithin (Box.ofNode n.key r.cfg.header.min r.cfg.header.max) box ∧ n.key.d ≤ d) ns :=
  filter_ends hg ho ha ord res _ fun d n => by
    rw [Bool.and_eq_true, decide_eq_true_iff, ← within_iff]
    rfl

/-- `GetNodesIntersectBox` lists the nodes down to the depth for the resolution whose box meets the given one. -/
theorem C41_intersect (hg : GoodHierarchy data ps) (ho : Opened data ps r) (ha : Asked L r l r1) (ord : ROrder)
    (box : Box Dbl) (res : Dbl) :
    ∃ m d ns r2, Run.Ends (fun k => Reader.getNodesIntersectBox ord k box res) r1 (.ok ns, r2) ∧
      MaxDepth ps m ∧ DepthFor m r.cfg.info.spacing res d ∧
      ListsThose ps (fun n => BoxMeets (Box.ofNode n.key r.cfg.header.min r.cfg.header.max) box ∧ n.key.d ≤ d) ns :=
  filter_ends hg ho ha ord res _ fun d n => by
    rw [Bool.and_eq_true, decide_eq_true_iff, ← intersects_iff]
    rfl

theorem Spec.BoxWithin.trans {a b c : Box Dbl} (h1 : BoxWithin a b) (h2 : BoxWithin b c) : BoxWithin a c :=
  ⟨⟨h2.1.1.trans h1.1.1, h1.1.2.trans h2.1.2⟩, ⟨h2.2.1.1.trans h1.2.1.1, h1.2.1.2.trans h2.2.1.2⟩,
    ⟨h2.2.2.1.trans h1.2.2.1, h1.2.2.2.trans h2.2.2.2⟩⟩

theorem Spec.BoxMeets.mono {a b c : Box Dbl} (h1 : BoxMeets a b) (h2 : BoxWithin b c) : BoxMeets a c :=
  ⟨⟨h1.1.1.trans h2.1.2, h2.1.1.trans h1.1.2⟩, ⟨h1.2.1.1.trans h2.2.1.2, h2.2.1.1.trans h1.2.1.2⟩,
    ⟨h1.2.2.1.trans h2.2.2.2, h2.2.2.1.trans h1.2.2.2⟩⟩

/-- A larger box and a finer resolution never lose a node: `GetNodesWithinBox`. -/
theorem C41_within_grows (hg : GoodHierarchy data ps) (ho : Opened data ps r) (h1 : Asked L r l1 r1)
    (h2 : Asked L r l2 r2) {o1 o2 : ROrder} {b b' : Box Dbl} (hb : BoxWithin b b') {res res' : Dbl}
    (hres : Le res' res) {ns ns' : List Node} {s s' : Reader}
    (e1 : Run.Ends (fun k => Reader.getNodesWithinBox o1 k b res) r1 (.ok ns, s))
    (e2 : Run.Ends (fun k => Reader.getNodesWithinBox o2 k b' res') r2 (.ok ns', s')) : ∀ n ∈ ns, n ∈ ns' := by
  obtain ⟨m, d, x, t, f1, f2, f3, f4⟩ := C41_within hg ho h1 o1 b res
  obtain ⟨m', d', x', t', g1, g2, g3, g4⟩ := C41_within hg ho h2 o2 b' res'
  cases e1.unique f1
  cases e2.unique g1
  rw [g2.unique f2] at g3
  have := g3.antitone f3 hres
  intro n hn
  obtain ⟨a1, a2, a3⟩ := (f4.2 n).1 hn
  exact (g4.2 n).2 ⟨a1, a2.trans hb, by omega⟩

/-- A larger box and a finer resolution never lose a node: `GetNodesIntersectBox`. -/
theorem C41_intersect_grows (hg : GoodHierarchy data ps) (ho : Opened data ps r) (h1 : Asked L r l1 r1)
    (h2 : Asked L r l2 r2) {o1 o2 : ROrder} {b b' : Box Dbl} (hb : BoxWithin b b') {res res' : Dbl}
    (hres : Le res' res) {ns ns' : List Node} {s s' : Reader}
    (e1 : Run.Ends (fun k => Reader.getNodesIntersectBox o1 k b res) r1 (.ok ns, s))
    (e2 : Run.Ends (fun k => Reader.getNodesIntersectBox o2 k b' res') r2 (.ok ns', s')) : ∀ n ∈ ns, n ∈ ns' := by
  obtain ⟨m, d, x, t, f1, f2, f3, f4⟩ := C41_intersect hg ho h1 o1 b res
  obtain ⟨m', d', x', t', g1, g2, g3, g4⟩ := C41_intersect hg ho h2 o2 b' res'
  cases e1.unique f1
  cases e2.unique g1
  rw [g2.unique f2] at g3
  have := g3.antitone f3 hres
  intro n hn
  obtain ⟨a1, a2, a3⟩ := (f4.2 n).1 hn
  exact (g4.2 n).2 ⟨a1, a2.mono hb, by omega⟩

/-- The corners of a box are finite numbers. -/
def FiniteBox (b : Box Dbl) : Prop := b.xMin.isFinite = true ∧ b.yMin.isFinite = true ∧ b.zMin.isFinite = true ∧
  b.xMax.isFinite = true ∧ b.yMax.isFinite = true ∧ b.zMax.isFinite = true

theorem finite_between {x : Dbl} (hx : x.isFinite = true) :
    Le (Flt.maxFinite true) x ∧ Le x (Flt.maxFinite false) := by
  rw [← le'_iff_Le, ← le'_iff_Le]
  have hx' : x.mag < Flt.infMag 52 11 := by simpa [Flt.isFinite] using hx
  have h1 : (Flt.maxFinite true : Dbl).isNaN = false := by decide
  have h2 : (Flt.maxFinite false : Dbl).isNaN = false := by decide
  have h3 : x.isNaN = false := by simp only [Flt.isNaN, decide_eq_false_iff_not]; omega
  have k1 : (Flt.maxFinite true : Dbl).key = -((Flt.infMag 52 11 - 1 : Nat) : Int) := by decide
  have k2 : (Flt.maxFinite false : Dbl).key = ((Flt.infMag 52 11 - 1 : Nat) : Int) := by decide
  have k3 : x.key = if x.neg then -(x.mag : Int) else x.mag := rfl
  unfold Flt.le'
  rw [h1, h2, h3, k1, k2, k3]
  generalize Flt.infMag 52 11 = M at *
  simp only [Bool.not_false, Bool.true_and, decide_eq_true_iff]
  constructor <;> split <;> omega

/-- With `Box::MaxBox` and no resolution both queries return every node whose box is finite. -/
theorem C41_maxBox (hg : GoodHierarchy data ps) (ho : Opened data ps r) (ha : Asked L r l r1) (ord : ROrder)
    (res : Dbl) (hres : Le res Flt.zero) :
    ∃ mb ns r2, Box.maxBox = .ok mb ∧ Run.Ends (fun k => Reader.getNodesWithinBox ord k mb res) r1 (.ok ns, r2) ∧
      ∀ n, NodeOf ps n → FiniteBox (Box.ofNode n.key r.cfg.header.min r.cfg.header.max) → n ∈ ns := by
  refine ⟨⟨Flt.maxFinite true, Flt.maxFinite true, Flt.maxFinite true, Flt.maxFinite false, Flt.maxFinite false,
    Flt.maxFinite false⟩, ?_⟩
  obtain ⟨m, d, ns, r2, h1, h2, h3, h4⟩ := C41_within hg ho ha ord ⟨Flt.maxFinite true, Flt.maxFinite true,
    Flt.maxFinite true, Flt.maxFinite false, Flt.maxFinite false, Flt.maxFinite false⟩ res
  refine ⟨ns, r2, by decide +kernel, h1, fun n hn hf => (h4.2 n).2 ⟨hn, ?_, ?_⟩⟩
  · obtain ⟨f1, f2, f3, f4, f5, f6⟩ := hf
    exact ⟨⟨(finite_between f1).1, (finite_between f4).2⟩, ⟨(finite_between f2).1, (finite_between f5).2⟩,
      ⟨(finite_between f3).1, (finite_between f6).2⟩⟩
  · rw [h3.1 hres]
    exact h2.1 n hn

end

/-! ### The resolutions are exact halves -/

theorem two_eq : (Flt.ofInt 2 : Dbl) = Flt.pow2 1 := by decide +kernel

/-- Unless the spacing is tiny, the resolution at depth `i` is the spacing divided by `2^i`. -/
theorem C39_halving {s : Dbl} (hs : s.isFinite = true) : ∀ (i : Nat), (2 : ℚ) ^ ((i : ℤ) - 1022) ≤ |s.val| →
    (halved s i).isFinite = true ∧ (halved s i).val = s.val / 2 ^ i
  | 0, _ => ⟨hs, by simp [halved]⟩
  | i + 1, h => by
    have h0 : (2 : ℚ) ^ ((i : ℤ) - 1022) ≤ |s.val| := by
      refine le_trans (zpow_le_zpow_right₀ (by norm_num) ?_) h
      push_cast; omega
    obtain ⟨f, v⟩ := C39_halving hs i h0
    have hstep : (2 : ℚ) ^ ((1 : ℤ) - 1022) ≤ |(halved s i).val| := by
      rw [v, abs_div, abs_of_pos (by positivity : (0 : ℚ) < 2 ^ i), le_div_iff₀ (by positivity), ← zpow_natCast,
        ← zpow_add₀ (by norm_num)]
      refine le_trans (le_of_eq ?_) h
      congr 1
      push_cast; omega
    have := Flt.div_pow2_val f 1 (by norm_num) (by norm_num) hstep
    rw [← two_eq] at this
    refine ⟨this.1, ?_⟩
    show (Flt.div (halved s i) (Flt.ofInt 2)).val = _
    rw [this.2, v, div_div, pow_succ]
    norm_num

/-- `VoxelKey::Resolution` and `GetResolutionAtDepth`: unless the spacing is tiny, the resolution of a key is the
spacing divided by `2^d` (the same numbers `GetDepthAtResolution` compares with, `C39_halving`). -/
theorem C39_key_resolution {s : Dbl} (hs : s.isFinite = true) (k : VoxelKey) (h0 : 0 ≤ k.d) (h1 : k.d ≤ 971)
    (hb : (2 : ℚ) ^ (k.d - 1022) ≤ |s.val|) :
    (k.resolution s).isFinite = true ∧ (k.resolution s).val = s.val / 2 ^ k.d :=
  Flt.div_pow2_val hs k.d h0 h1 hb

/-- Non-vacuity: spacing 12 at depth 3. -/
example : ((⟨3, 5, 0, 1⟩ : VoxelKey).resolution (Flt.ofInt 12 : Dbl)).val = 12 / 2 ^ (3 : ℤ) := by
  have h := Flt.ofInt_val 12 (by decide)
  have := (C39_key_resolution (s := Flt.ofInt 12) h.1 ⟨3, 5, 0, 1⟩ (by norm_num) (by norm_num)
    (by rw [h.2]; exact (zpow_le_zpow_right₀ (by norm_num) (by norm_num : (3 : ℤ) - 1022 ≤ 0)).trans (by norm_num))).2
  rw [this, h.2]; norm_num

theorem Le_finite {a b : Dbl} (ha : a.isFinite = true) (hb : b.isFinite = true) : Le a b ↔ a.val ≤ b.val := by
  have key : ∀ x : Dbl, x.isFinite = true → x.isNaN = false ∧ x.isInf = false := by
    intro x hx
    simp only [Flt.isFinite, decide_eq_true_iff] at hx
    simp only [Flt.isNaN, Flt.isInf, decide_eq_false_iff_not]
    omega
  unfold Le ext
  rw [(key a ha).1, (key b hb).1, (key a ha).2, (key b hb).2]
  simp

/-- In numbers: for a positive finite resolution, and a spacing that is not tiny, the depth is the smallest
`i` with `spacing / 2^i ≤ resolution`, at most the depth of the deepest node. -/
theorem C39_exact {data : Bytes} {ps : List FPage} {r r1 : Reader} {L : Lazperf} {l : List Query}
    (hg : GoodHierarchy data ps) (ho : Opened data ps r) (ha : Asked L r l r1) (ord : ROrder) {res : Dbl}
    (hr : res.isFinite = true) (hpos : 0 < res.val) (hs : r.cfg.info.spacing.isFinite = true)
    (hbig : (2 : ℚ) ^ (-900 : ℤ) ≤ |r.cfg.info.spacing.val|) {m : Int} (hm : MaxDepth ps m) (hm' : m ≤ 100) :
    ∃ d r2, Run.Ends (fun k => Reader.getDepthAtResolution ord k res) r1 (.ok d, r2) ∧
      ((∃ i : Nat, (i : Int) ≤ m ∧ d = i ∧ r.cfg.info.spacing.val / 2 ^ i ≤ res.val ∧
          ∀ j < i, res.val < r.cfg.info.spacing.val / 2 ^ j) ∨
        (d = m ∧ ∀ j : Nat, (j : Int) ≤ m → res.val < r.cfg.info.spacing.val / 2 ^ j)) := by
  obtain ⟨m', d, r2, h1, h2, h3⟩ := C39_depth hg ho ha ord res
  obtain rfl := h2.unique hm
  have hz : (Flt.zero : Dbl).isFinite = true ∧ (Flt.zero : Dbl).val = 0 := by
    refine ⟨by decide, ?_⟩
    have := Flt.ofInt_val 0 (by decide)
    have e : (Flt.ofInt 0 : Dbl) = Flt.zero := by decide +kernel
    rw [e] at this
    simpa using this.2
  have hnot : ¬Le res Flt.zero := by
    rw [Le_finite hr hz.1, hz.2]
    exact not_le.2 hpos
  have hle : ∀ j : Nat, (j : Int) ≤ m' → (Le (halved r.cfg.info.spacing j) res ↔
      r.cfg.info.spacing.val / 2 ^ j ≤ res.val) := by
    intro j hj
    obtain ⟨f, v⟩ := C39_halving hs j (le_trans (zpow_le_zpow_right₀ (by norm_num) (by omega)) hbig)
    rw [Le_finite f hr, v]
  refine ⟨d, r2, h1, ?_⟩
  rcases h3.2 hnot with ⟨i, a1, a2, a3, a4⟩ | ⟨a1, a2⟩
  · exact .inl ⟨i, a1, a2, (hle i a1).1 a3, fun j hj => not_le.1 fun h => a4 j hj ((hle j (by omega)).2 h)⟩
  · exact .inr ⟨a1, fun j hj => not_le.1 fun h => a2 j hj ((hle j hj).2 h)⟩

/-- Spacing 8, resolution 3, deepest node at depth 3: depth 2. -/
example : DepthFor 3 (Flt.ofInt 8) (Flt.ofInt 3) 2 := by
  have key : ∀ a b : Dbl, Flt.le' a b = false → ¬Le a b := fun a b h h' => by
    rw [le'_iff_Le.2 h'] at h; cases h
  refine ⟨fun h => absurd h (key _ _ (by decide +kernel)), fun _ => .inl ⟨2, by decide, rfl,
    le'_iff_Le.1 (by decide +kernel), fun j hj => ?_⟩⟩
  match j, hj with
  | 0, _ => exact key _ _ (by decide +kernel)
  | 1, _ => exact key _ _ (by decide +kernel)

/-- The hypotheses of C39 and C41 hold for the sample file, which has nodes at depths 0, 1 and 2. -/
example : ∃ ps r, GoodHierarchy (Writer.close Sample.L Sample.ord Sample.w).2.base.out.data ps ∧
    Opened (Writer.close Sample.L Sample.ord Sample.w).2.base.out.data ps r ∧ MaxDepth ps 2 := by
  obtain ⟨ps, r, h1, h2, _, h4, _⟩ := sample_written.facts
  refine ⟨ps, r, h1, h4, fun n hn => ?_, .inl ?_⟩
  · obtain ⟨x, hx, rfl⟩ := (h2 n).1 hn
    rw [sample_added] at hx
    simp only [List.mem_cons, List.not_mem_nil, or_false] at hx
    rcases hx with rfl | rfl | rfl <;> simp [reported, Node.key, Sample.kA, Sample.kB, VoxelKey.root]
  · refine ⟨_, (h2 _).2 ⟨⟨⟨Sample.kB, 1596, 2, 1⟩, VoxelKey.root⟩, ?_, rfl⟩, rfl⟩
    rw [sample_added]
    simp

end Copc
