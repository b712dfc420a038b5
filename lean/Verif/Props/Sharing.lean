import Verif.Lemmas.Sharing
import Verif.Lemmas.ReaderFuel
import Verif.Props.CutFile
import Verif.Props.FailedRead
import Verif.Props.RoundTrip
import Verif.Props.BoxSample
import Verif.Props.BoxBytes
/-! # C87: readers on one stream -/
namespace Copc
open Spec

/-- The calls made on reader number `i` (the latest first). -/
def callsOf (i : Nat) (l : List SharedUse) : List Query :=
  l.filterMap fun u => match u with
    | .call j q => if j = i then some q else none
    | _ => none

section
variable {L : Lazperf} {α : Type} {d : Bytes}

/-! ### More nested calls allowed -/

theorem hierarchy_succ {x : Nat → Run Reader α} (hx : HierarchyCall x) (n : Nat) : Run.Le (x n) (x (n + 1)) := by
  have hall : ∀ ord, Run.Le (Reader.getAllNodes ord n) (Reader.getAllNodes ord (n + 1)) := fun ord =>
    (HReader.children_succ ord _ n).onHier
  have hdep : ∀ ord res, Run.Le (Reader.getDepthAtResolution ord n res) (Reader.getDepthAtResolution ord (n + 1) res) :=
    fun ord res => (hall ord).bind fun _ => Run.Le.refl _
  have hfil : ∀ ord res keep, Run.Le (Reader.filterNodes ord n res keep) (Reader.filterNodes ord (n + 1) res keep) :=
    fun ord res keep => (hdep ord res).bind fun _ => (hall ord).bind fun _ => Run.Le.refl _
  cases hx with
  | findNode key => exact (HReader.findNode_succ key n).onHier
  | children ord key => exact (HReader.children_succ ord key n).onHier
  | allNodes ord => exact hall ord
  | pageList ord => exact Run.Le.onHier ((HReader.children_succ ord _ n).bind fun _ => Run.Le.refl _)
  | depth ord res => exact hdep ord res
  | maxDepth ord => exact hdep ord _
  | nodesAt ord res => exact hfil ord res _
  | nodesUpTo ord res => exact hfil ord res _
  | nodesWithin ord box res => exact hfil ord res _
  | nodesIntersect ord box res => exact hfil ord res _

theorem call_succ {x : Nat → Run Reader α} (hx : ReaderCall L x) (n : Nat) : Run.Le (x n) (x (n + 1)) := by
  have hall : ∀ ord, Run.Le (Reader.getAllNodes ord n) (Reader.getAllNodes ord (n + 1)) := fun ord =>
    (HReader.children_succ ord _ n).onHier
  have hdep : ∀ ord res, Run.Le (Reader.getDepthAtResolution ord n res) (Reader.getDepthAtResolution ord (n + 1) res) :=
    fun ord res => (hall ord).bind fun _ => Run.Le.refl _
  have hfind : ∀ key, Run.Le (Reader.findNode n key) (Reader.findNode (n + 1) key) := fun key =>
    (HReader.findNode_succ key n).onHier
  have hdat : ∀ key, Run.Le (Reader.getPointDataAt L n key) (Reader.getPointDataAt L (n + 1) key) := by
    intro key
    unfold Reader.getPointDataAt
    split
    · exact Run.Le.refl _
    · exact (hfind key).bind fun _ => Run.Le.refl _
  cases hx with
  | hierarchy h => exact hierarchy_succ h n
  | point h =>
    cases h with
    | pointData m => exact Run.Le.refl _
    | pointDataAt key => exact hdat key
    | points m => exact Run.Le.refl _
    | pointsAt key => exact (hdat key).bind fun _ => Run.Le.refl _
    | allPoints ord res => exact (hdep ord res).bind fun _ => (hall ord).bind fun _ => Run.Le.refl _
    | pointsWithin ord box res => exact (hdep ord res).bind fun _ => (hall ord).bind fun _ => Run.Le.refl _
    | validate ord v => exact (hall ord).bind fun _ => Run.Le.refl _
  | compressed m => exact Run.Le.refl _
  | compressedAt key =>
    show Run.Le (Reader.getPointDataCompressedAt n key) (Reader.getPointDataCompressedAt (n + 1) key)
    unfold Reader.getPointDataCompressedAt
    split
    · exact Run.Le.refl _
    · exact (hfind key).bind fun _ => Run.Le.refl _

/-- A call on readers that are the same but for the position of the stream. -/
theorem ends_like {x : Nat → Run Reader α} (hs : ∀ n, Run.Le (x n) (x (n + 1))) (hc : ∀ n, Carries (RLike d) (RLike d) (x n))
    {r r' v : Reader} (h : RLike d r r') {res : Res α} (he : Run.Ends x r (res, v)) :
    ∃ v', Run.Ends x r' (res, v') ∧ RLike d v v' := by
  obtain ⟨n, hn⟩ := he
  have e := hn n (Nat.le_refl n)
  rcases hc n r r' h with ⟨h1, _⟩ | ⟨a, t, t', h1, h2, h3⟩
  · rw [h1] at e; cases e
  · rw [h1] at e
    injection e with e
    injection e with e1 e2
    subst e1; subst e2
    exact ⟨t', Run.ends_of hs h2, h3⟩

theorem like_symm {r r' : Reader} (h : RLike d r r') : RLike d r' r :=
  ⟨⟨⟨h.1.1.2.1, h.1.1.1, h.1.1.2.2.symm⟩, h.1.2.symm⟩, h.2.1.symm, h.2.2.symm⟩

theorem void_succ {x y : Run Reader α} (h : Run.Le x y) : Run.Le x.void y.void := h.bind fun _ => Run.Le.refl _

/-- Opening a file does not depend on where the stream is. -/
theorem init_at (d : Bytes) (p : Nat) : Reader.init ⟨d, p, false⟩ = Reader.init ⟨d, 0, false⟩ := by
  have h : ∀ (h14 : Header14), BaseReader.readVlrHeaders h14 ⟨d, p, false⟩ = BaseReader.readVlrHeaders h14 ⟨d, 0, false⟩ := by
    intro h14
    have hs : IStream.seekg ⟨d, p, false⟩ h14.headerSize.toNat = IStream.seekg ⟨d, 0, false⟩ h14.headerSize.toNat := by
      have : h14.headerSize.toNat < 2 ^ 63 := by have := h14.headerSize.toNat_lt; omega
      unfold IStream.seekg
      simp only [Bool.false_eq_true, if_false, if_pos this]
    unfold BaseReader.readVlrHeaders
    rw [hs]
  unfold Reader.init BaseReader.init
  simp only [h]
  rfl

/-- The state of a program on a shared stream. -/
theorem used_inv {d : Bytes} {p : Nat} {l : List SharedUse} {s : Sharing}
    (hu : Sharing.Used L ⟨⟨d, p, false⟩, []⟩ l s) : s.str.data = d ∧ s.str.fail = false ∧
    (∀ i q, SharedUse.call i q ∈ l → i < s.readers.length) ∧
    ∀ (i : Nat) (r : Reader), s.readers[i]? = some r → ∃ r0 r1, Reader.init ⟨d, 0, false⟩ = .ok r0 ∧ r0.h.str.fail = false ∧
      Asked L r0 (callsOf i l) r1 ∧ RLike d (r.on s.str) r1 := by
  induction hu with
  | none => exact ⟨rfl, rfl, (by intro i q h; cases h), (by intro i r h; cases h)⟩
  | @new l s r hu hi hg ih =>
    obtain ⟨i1, i2, i3, i4⟩ := ih
    have hd : s.str = ⟨d, s.str.pos, false⟩ := by
      rw [← i1, ← i2]
    rw [hd, init_at] at hi
    have hrd : r.h.str.data = d := (init_facts hi).1
    refine ⟨hrd, hg, ?_, ?_⟩
    · intro i q h
      rcases List.mem_cons.1 h with h | h
      · cases h
      · have := i3 i q h
        rw [List.length_append]; omega
    · intro i r' h
      have hc : callsOf i (.new :: l) = callsOf i l := rfl
      rw [hc]
      rcases Nat.lt_trichotomy i s.readers.length with h1 | h1 | h1
      · rw [List.getElem?_append_left h1] at h
        obtain ⟨r0, r1, a1, a2, a3, a4⟩ := i4 i r' h
        exact ⟨r0, r1, a1, a2, a3, ⟨⟨⟨hrd, a4.1.1.2.1, (hg.trans i2.symm).trans a4.1.1.2.2⟩, a4.1.2⟩, a4.2⟩⟩
      · subst h1
        rw [List.getElem?_append_right (Nat.le_refl _), Nat.sub_self] at h
        injection h with h
        subst h
        have hnil : callsOf s.readers.length l = [] := by
          unfold callsOf
          rw [List.filterMap_eq_nil_iff]
          intro u hu'
          cases u with
          | call j q =>
            have := i3 j q hu'
            exact if_neg (by omega)
          | new => rfl
          | seek p => rfl
        rw [hnil]
        exact ⟨r, r, hi, hg, .none, ⟨⟨⟨hrd, hrd, rfl⟩, rfl⟩, rfl, rfl⟩⟩
      · rw [List.getElem?_eq_none (by rw [List.length_append, List.length_singleton]; omega)] at h
        cases h
  | @call l s i r v q res hu hr he hg ih =>
    obtain ⟨i1, i2, i3, i4⟩ := ih
    obtain ⟨α, x, hx, hxq⟩ := query_call (L := L) q
    have hs : ∀ n, Run.Le (q.run L n) (q.run L (n + 1)) := fun n => by
      rw [hxq, hxq]; exact void_succ (call_succ hx n)
    have hc : ∀ n, Carries (RLike d) (RLike d) (q.run L n) := fun n => by
      rw [hxq]; exact carries_then (carries_call hx n) fun _ => carries_pure _
    obtain ⟨r0, r1, a1, a2, a3, a4⟩ := i4 i r hr
    obtain ⟨v', b1, b2⟩ := ends_like hs hc a4 he
    have hlt : i < s.readers.length := (List.getElem?_eq_some_iff.1 hr).1
    have hvd : v.h.str.data = d := b2.1.1.1
    refine ⟨hvd, hg, ?_, ?_⟩
    · intro j q' h
      show j < (s.readers.set i v).length
      rw [List.length_set]
      rcases List.mem_cons.1 h with h | h
      · cases h; exact hlt
      · exact i3 j q' h
    · intro j r' h
      by_cases hj : i = j
      · subst hj
        have : (s.readers.set i v)[i]? = some v := by rw [List.getElem?_set_self hlt]
        change (s.readers.set i v)[i]? = some r' at h
        rw [this] at h
        injection h with h
        subst h
        have : callsOf i (.call i q :: l) = q :: callsOf i l := by
          unfold callsOf
          rw [List.filterMap_cons]
          simp
        rw [this]
        refine ⟨r0, v', a1, a2, .ask a3 b1 (b2.1.1.2.2 ▸ hg), b2⟩
      · have hne : (s.readers.set i v)[j]? = s.readers[j]? := List.getElem?_set_ne hj
        change (s.readers.set i v)[j]? = some r' at h
        rw [hne] at h
        have : callsOf j (.call i q :: l) = callsOf j l := by
          unfold callsOf
          rw [List.filterMap_cons]
          simp [hj]
        rw [this]
        obtain ⟨r0, r1, c1, c2, c3, c4⟩ := i4 j r' h
        exact ⟨r0, r1, c1, c2, c3, ⟨⟨⟨hvd, c4.1.1.2.1, (hg.trans i2.symm).trans c4.1.1.2.2⟩, c4.1.2⟩, c4.2⟩⟩
  | @seek l s p hu ih =>
    obtain ⟨i1, i2, i3, i4⟩ := ih
    refine ⟨i1, i2, ?_, ?_⟩
    · intro i q h
      rcases List.mem_cons.1 h with h | h
      · cases h
      · exact i3 i q h
    · intro i r h
      exact i4 i r h

/-- While no call leaves the stream failed: whatever the other readers on the stream were asked, whatever moved its
position, and wherever it was when the reader was made, reader number `i` has the configuration that a reader alone on the
file has, and every call on it gives what it would give there after the same calls on that reader. -/
theorem C87_alone_partial {p : Nat} {l : List SharedUse} {s : Sharing} (hu : Sharing.Used L ⟨⟨d, p, false⟩, []⟩ l s)
    {i : Nat} {r : Reader} (hi : s.readers[i]? = some r) :
    ∃ r0 r1, Reader.init ⟨d, 0, false⟩ = .ok r0 ∧ Asked L r0 (callsOf i l) r1 ∧ r.cfg = r1.cfg ∧
      ∀ {α : Type} {x : Nat → Run Reader α}, ReaderCall L x →
        (∀ res, (∃ v, Run.Ends x (r.on s.str) (res, v)) ↔ ∃ v, Run.Ends x r1 (res, v)) ∧
        (Run.Diverges x (r.on s.str) ↔ Run.Diverges x r1) := by
  obtain ⟨_, _, _, h⟩ := used_inv hu
  obtain ⟨r0, r1, h1, _, h3, h4⟩ := h i r hi
  refine ⟨r0, r1, h1, h3, h4.2.2, fun {α} {x} hx => ⟨fun res => ⟨?_, ?_⟩, ?_⟩⟩
  · rintro ⟨v, hv⟩
    obtain ⟨v', e, _⟩ := ends_like (call_succ hx) (carries_call hx) h4 hv
    exact ⟨v', e⟩
  · rintro ⟨v, hv⟩
    obtain ⟨v', e, _⟩ := ends_like (call_succ hx) (carries_call hx) (like_symm h4) hv
    exact ⟨v', e⟩
  · constructor
    · intro hd n
      rcases carries_call hx n _ _ h4 with ⟨_, e⟩ | ⟨a, t, t', e, _⟩
      · exact e
      · rw [hd n] at e; cases e
    · intro hd n
      rcases carries_call hx n _ _ (like_symm h4) with ⟨_, e⟩ | ⟨a, t, t', e, _⟩
      · exact e
      · rw [hd n] at e; cases e

variable {ord : Order} {w0 w : Writer} {h : List (Op × Res (Option Node))} {data : Bytes}

/-- So every reader on a shared stream with a file of the library finds every node. -/
theorem C87_findNode_partial (hw : Written L ord w0 w h data) {p : Nat} {l : List SharedUse} {s : Sharing}
    (hu : Sharing.Used L ⟨⟨data, p, false⟩, []⟩ l s) {i : Nat} {r : Reader} (hi : s.readers[i]? = some r) {n : Node}
    (hn : n ∈ addedNodes h) :
    ∃ v, Run.Ends (fun k => Reader.findNode k n.entry.key) (r.on s.str) (.ok ⟨n.entry, finalPage h n⟩, v) := by
  obtain ⟨r0, r1, h1, h2, _, h4⟩ := C87_alone_partial hu hi
  exact ((h4 (.hierarchy (.findNode _))).1 _).2 (C33_findNode hw h1 h2 hn)

/-- And gives the points that were added. -/
theorem C87_points_partial (hw : Written L ord w0 w h data) (hs : w0.cfg.header.recLen.toNat ≤ 255)
    {p : Nat} {l : List SharedUse} {s : Sharing}
    (hu : Sharing.Used L ⟨⟨data, p, false⟩, []⟩ l s) {i : Nat} {r : Reader} (hi : s.readers[i]? = some r)
    {key page : VoxelKey} {fmt : Int} {len : Nat} {ps : List Point} {n : Node}
    (hn : (Op.addPoints key fmt len ps page, Res.ok (some n)) ∈ h)
    (hp : ∀ p ∈ ps, Reach p ∧ p.fmt = w0.cfg.header.fmt ∧ p.recLen = w0.cfg.header.recLen.toNat) :
    ∃ qs v, Run.Ends (fun k => Reader.getPointsAt L k key) (r.on s.str) (.ok qs, v) ∧
      List.Forall₂ (ReadBack w0.cfg.header.scale w0.cfg.header.offset) ps qs := by
  obtain ⟨r0, r1, h1, h2, _, h4⟩ := C87_alone_partial hu hi
  obtain ⟨qs, v, e1, _, e2⟩ := C34_points hw hs h1 h2 hn hp
  obtain ⟨v', e⟩ := ((h4 (.point (.pointsAt key))).1 _).2 ⟨v, e1⟩
  exact ⟨qs, v', e, e2⟩

end

/-- A node past the end of the file. -/
def farNode : Node := ⟨⟨VoxelKey.root, 1000000, 1, 1⟩, VoxelKey.root⟩

/-- What a reader of `data` gives, alone and when the other reader was asked for the far node. -/
def farFacts (data : Bytes) : Option ((Option (List (Vec3 Dbl)) × Option Exc) × (Bool × Bool)) :=
  match Reader.init ⟨data, 0, false⟩ with
  | .ok r =>
    let v := Reader.getPointDataCompressed farNode r
    let q := Reader.getPoints Sample.L BoxFile.root r
    some ((BoxFile.coords q, thrown (Reader.getPoints Sample.L BoxFile.root (r.on v.2.h.str)).1),
      (decide (v.1 = .ok [0]) && !r.h.str.fail, q.2.h.str.fail))
  | _ => none

theorem farFacts_box : farFacts boxBytes =
    some ((some [BoxFile.at' 1 2 3, BoxFile.at' 7 0 8], some .lazperf), (true, false)) := by decide +kernel

theorem farFacts_some {data : Bytes} {l : List (Vec3 Dbl)} {e : Exc} (h : farFacts data = some ((some l, some e), (true, false))) :
    ∃ r ps, Reader.init ⟨data, 0, false⟩ = .ok r ∧ r.h.str.fail = false ∧ Reader.init r.h.str = .ok r ∧
      (Reader.getPointDataCompressed farNode r).1 = .ok [0] ∧
      Reader.getPoints Sample.L BoxFile.root r = (.ok ps, (Reader.getPoints Sample.L BoxFile.root r).2) ∧
      (Reader.getPoints Sample.L BoxFile.root r).2.h.str.fail = false ∧
      ps.map (fun p => (⟨p.x, p.y, p.z⟩ : Vec3 Dbl)) = l ∧
      (Reader.getPoints Sample.L BoxFile.root (r.on (Reader.getPointDataCompressed farNode r).2.h.str)).1 = .throw e := by
  unfold farFacts at h
  cases hi : Reader.init ⟨data, 0, false⟩ with
  | throw e => rw [hi] at h; cases h
  | ub => rw [hi] at h; cases h
  | ok r =>
    rw [hi] at h
    dsimp only at h
    have h := Option.some.inj h
    injection h with h1 h2
    injection h1 with e1 e2
    injection h2 with e3 e4
    rw [Bool.and_eq_true] at e3
    have hg : r.h.str.fail = false := by
      cases hf : r.h.str.fail with
      | false => rfl
      | true => rw [hf] at e3; exact absurd e3.2 (by decide)
    obtain ⟨ps, p1, p2⟩ := BoxFile.coords_some e1
    have hd : r.h.str.data = data := (init_facts hi).1
    have hstr : r.h.str = ⟨data, r.h.str.pos, false⟩ := by rw [← hd, ← hg]
    refine ⟨r, ps, rfl, hg, ?_, of_decide_eq_true e3.1, p1, e4, p2, ?_⟩
    · rw [hstr, init_at]; exact hi
    · generalize (Reader.getPoints Sample.L BoxFile.root (r.on (Reader.getPointDataCompressed farNode r).2.h.str)).1 = x at e2
      cases x with
      | ok a => cases e2
      | throw e' => injection e2 with e2; rw [e2]
      | ub => cases e2

/-- A program of two readers on the file, with a call that returns on one, can be run. -/
example : ∃ s r, Sharing.Used Sample.L ⟨⟨boxBytes, 5, false⟩, []⟩ [.call 0 (.points BoxFile.root), .new, .new] s ∧
    s.readers[1]? = some r := by
  obtain ⟨r, ps, h1, h2, h3, _, h5, h6, _⟩ := farFacts_some farFacts_box
  have key : ∀ (d : Bytes), Reader.init ⟨d, 0, false⟩ = .ok r → ∃ s r, Sharing.Used Sample.L ⟨⟨d, 5, false⟩, []⟩
      [.call 0 (.points BoxFile.root), .new, .new] s ∧ s.readers[1]? = some r := by
    intro d h1
    have u0 : Sharing.Used Sample.L ⟨⟨d, 5, false⟩, []⟩ [.new] ⟨r.h.str, [] ++ [r]⟩ :=
      .new .none ((init_at d 5).trans h1) h2
    have u1 : Sharing.Used Sample.L ⟨⟨d, 5, false⟩, []⟩ [.new, .new] ⟨r.h.str, [r, r]⟩ := .new u0 h3 h2
    have hrun : (Query.points BoxFile.root).run Sample.L 0 r = some (.ok (), (Reader.getPoints Sample.L BoxFile.root r).2) := by
      show (Run.ofAct (Reader.getPoints Sample.L BoxFile.root) >>= fun _ => pure ()) r = _
      rw [Run.bind_ok (a := ps) (s' := (Reader.getPoints Sample.L BoxFile.root r).2) (by rw [Run.ofAct_apply, ← h5])]
      rfl
    exact ⟨_, r, .call u1 (i := 0) (q := .points BoxFile.root) rfl (res := .ok ()) ⟨0, fun m _ => hrun⟩ h6, rfl⟩
  exact key _ h1

theorem two_readers {L : Lazperf} {d : Bytes} {r : Reader} (h1 : Reader.init ⟨d, 0, false⟩ = .ok r)
    (h2 : r.h.str.fail = false) (h3 : Reader.init r.h.str = .ok r) :
    Sharing.Used L ⟨⟨d, 0, false⟩, []⟩ [.new, .new] ⟨r.h.str, [r, r]⟩ := by
  have u0 : Sharing.Used L ⟨⟨d, 0, false⟩, []⟩ [.new] ⟨r.h.str, [] ++ [r]⟩ := .new .none h1 h2
  exact .new u0 h3 h2

/-- The full claim is false: a call on one reader that runs past the end of the file returns normally and leaves the stream
failed, and the other reader on the stream, which can read its points before, cannot afterwards. -/
theorem C87_violated : ∃ (L : Lazperf) (ord : Order) (w0 w : Writer) (h : List (Op × Res (Option Node))) (data : Bytes)
    (r v : Reader) (n m : Node) (bs : Bytes) (ps : List Point), Written L ord w0 w h data ∧
    Sharing.Used L ⟨⟨data, 0, false⟩, []⟩ [.new, .new] ⟨r.h.str, [r, r]⟩ ∧
    Reader.getPointDataCompressed n r = (.ok bs, v) ∧ (Reader.getPoints L m r).1 = .ok ps ∧ ps.length = 2 ∧
    (Reader.getPoints L m (r.on v.h.str)).1 = .throw .lazperf := by
  obtain ⟨r, ps, h1, h2, h3, h4, h5, h6, h7, h8⟩ := farFacts_some farFacts_box
  refine ⟨Sample.L, Sample.ord, BoxFile.w0, BoxFile.w, BoxFile.hist, boxBytes, r,
    (Reader.getPointDataCompressed farNode r).2, farNode, BoxFile.root, [0], ps, ?_, ?_, ?_, ?_, ?_, h8⟩
  · rw [← boxBytes_eq]; exact BoxFile.written.1
  · exact two_readers h1 h2 h3
  · rw [← h4]
  · rw [h5]
  · have := congrArg List.length h7
    simpa using this

end Copc
