import Verif.Props.Filter
import Verif.Props.BoxBytes
/-! # C68, C69: a file to which the theorems apply -/
namespace Copc
open Spec VoxelKey

namespace FilterSample

/-- The box of the node below the root. -/
def box : Box Dbl := ⟨Flt.ofInt 4, Flt.ofInt 0, Flt.ofInt 4, Flt.ofInt 8, Flt.ofInt 4, Flt.ofInt 8⟩

/-- Points with x = 1. -/
def one (p : Point) : Bool := p.x == Flt.ofInt 1

/-- A loop over the nodes and `Close` return. -/
def runs (f : LasHeader → List Node → Act Copier Unit) : Bool :=
  match Reader.init ⟨boxBytes, 0, false⟩ with
  | .ok r => match Reader.getAllNodes ROrder.plain 10 r with
    | some (.ok all, r2) => match f r.cfg.header all (r2, BoxFile.w0) with
      | (.ok (), (_, v)) => match Writer.close Sample.L Sample.ord v with
        | (.ok (), v') => decide (v'.base.out.data.length < 2 ^ 63) && decide (v.pages.length + 1 < 2 ^ 31)
        | _ => false
      | _ => false
    | _ => false
  | _ => false

theorem trim_runs : runs (fun hd all => trimNodes Sample.L Sample.ord hd box all) = true := by decide +kernel
theorem filter_runs : runs (fun _ all => filterNodes Sample.L Sample.ord one all) = true := by decide +kernel

/-- The unchecked loop of the example, from the file to the writer: what it throws. -/
def unchecked (b : Box Dbl) : Option (Res Unit) :=
  match Reader.init ⟨boxBytes, 0, false⟩ with
  | .ok r => match Reader.getAllNodes ROrder.plain 10 r with
    | some (.ok all, r2) => some (Act.forEach (trimNodeUnchecked Sample.L Sample.ord r.cfg.header b) all (r2, BoxFile.w0)).1
    | _ => none
  | _ => none

/-- A box between the points of the root. -/
def gap : Box Dbl := ⟨Flt.ofInt 2, Flt.ofInt 2, Flt.ofInt 2, Flt.ofInt 3, Flt.ofInt 3, Flt.ofInt 3⟩

theorem unchecked_throws : unchecked gap = some (.throw .emptyData) := by decide +kernel

def recsOf (n : Node) : List Bytes :=
  if n.entry.key = VoxelKey.root then [recAt 1 2 3, recAt 7 0 8] else [recAt 5 1 6, recAt 6 4 4, recAt 8 0 8]

theorem root_bytes : slice BoxFile.data 1531 62 = recAt 1 2 3 ++ recAt 7 0 8 := by rw [boxBytes_eq]; decide +kernel

theorem good_one : Spec.GoodScale (Flt.ofInt 1) (Flt.ofInt 0) := by
  have h1 : (Flt.ofInt 1 : Dbl).val = 1 := by simpa using (Flt.ofInt_val 1 (by decide)).2
  have h0 : (Flt.ofInt 0 : Dbl).val = 0 := by simpa using (Flt.ofInt_val 0 (by decide)).2
  refine ⟨by decide +kernel, by decide +kernel, ?_, ?_, ?_⟩
  · rw [h1, abs_one]
    exact zpow_le_one_of_nonpos₀ (by norm_num) (by norm_num)
  · rw [h1, abs_one]
    exact one_le_zpow₀ (by norm_num) (by norm_num)
  · rw [h1, h0]; norm_num

/-- The coordinates of the records lie in the box of the node. -/
def inNode (k : VoxelKey) (x : Bytes) : Bool :=
  match Point.unpack 6 ⟨Flt.ofInt 1, Flt.ofInt 1, Flt.ofInt 1⟩ ⟨Flt.ofInt 0, Flt.ofInt 0, Flt.ofInt 0⟩ 1 x with
  | .ok (p, _) => p.within (Box.ofNode k Sample.zero eight)
  | _ => true

theorem in_nodes : (∀ x ∈ recsOf BoxFile.root, inNode BoxFile.root.entry.key x = true) ∧
    ∀ x ∈ recsOf BoxFile.child, inNode BoxFile.child.entry.key x = true := by decide +kernel

theorem header : BoxFile.w0.cfg.header.fmt = 6 ∧ BoxFile.w0.cfg.header.recLen.toNat = 31 ∧
    BoxFile.w0.cfg.header.ebSize = .ok 1 ∧
    BoxFile.w0.cfg.header.scale = ⟨Flt.ofInt 1, Flt.ofInt 1, Flt.ofInt 1⟩ ∧
    BoxFile.w0.cfg.header.offset = ⟨Flt.ofInt 0, Flt.ofInt 0, Flt.ofInt 0⟩ := by decide +kernel

/-- What is known of the file. -/
theorem facts : ∃ r all r2, Written Sample.L Sample.ord BoxFile.w0 BoxFile.w BoxFile.hist BoxFile.data ∧
    Reader.init ⟨BoxFile.data, 0, false⟩ = .ok r ∧ r.cfg.header.recLen.toNat = 31 ∧
    Run.Ends (fun k => Reader.getAllNodes ROrder.plain k) r (.ok all, r2) ∧ all.Perm [BoxFile.root, BoxFile.child] ∧
    r.cfg.header.fmt = BoxFile.w0.cfg.header.fmt ∧ r.cfg.header.recLen = BoxFile.w0.cfg.header.recLen ∧
    r.cfg.header.scale = BoxFile.w0.cfg.header.scale ∧ r.cfg.header.offset = BoxFile.w0.cfg.header.offset ∧
    (∀ n ∈ all, HoldsRecords Sample.L r.cfg.header BoxFile.data n (recsOf n)) ∧
    (∀ n ∈ all, ∀ ps r4, Run.Ends (fun k => Reader.getPointsAt Sample.L k n.entry.key) r (.ok ps, r4) →
      ∀ p ∈ ps, Lies (boxOf r n) p) := by
  have hw := BoxFile.written.1
  obtain ⟨r, hr, _⟩ := C33_opens hw
  obtain ⟨all, r2, hall, _⟩ := C33_allNodes hw hr .none ROrder.plain
  obtain ⟨hp, hd, hf⟩ := copy_nodes hw hr .none hall
  obtain ⟨_, _, _, _, _, f1, f2, f3, f4⟩ := hw.asked hr (Asked.none (L := Sample.L))
  obtain ⟨h1, h2, h3, h4, h5⟩ := header
  rw [BoxFile.written.2.1, show reported BoxFile.hist = fun n => ⟨n.entry, n.pageKey⟩ from funext CopySample.reported_eq] at hp
  have hp' : all.Perm [BoxFile.root, BoxFile.child] := hp
  have heb : r.cfg.header.ebSize = .ok 1 := by
    rw [← h3]; unfold LasHeader.ebSize; rw [f1, f2]
  have hold : ∀ n ∈ all, HoldsRecords Sample.L r.cfg.header BoxFile.data n (recsOf n) := by
    intro n hn
    have := hp'.subset hn
    rcases List.mem_cons.1 this with rfl | this
    · refine ⟨1, heb, ?_, ?_, rfl⟩
      · rw [f2, h2]; decide
      · rw [f1, h1]; exact root_bytes
    · obtain rfl := List.mem_singleton.1 this
      refine ⟨1, heb, ?_, ?_, rfl⟩
      · rw [f2, h2]; decide
      · rw [f1, h1]; exact CopySample.child_bytes
  refine ⟨r, all, r2, hw, hr, by rw [f2]; exact h2, hall, hp', f1, f2, f3, f4, hold, ?_⟩
  intro n hn ps r4 hps p hpm
  have hb : BoxFile.reader = some r := by unfold BoxFile.reader; rw [hr]
  have hbd := BoxFile.bounds
  rw [hb] at hbd
  obtain ⟨hmn, hmx⟩ := Prod.mk.inj (Option.some.inj hbd)
  have hnh : n ∈ (addedNodes BoxFile.hist).map (reported BoxFile.hist) := by
    rw [BoxFile.written.2.1, show reported BoxFile.hist = fun n => ⟨n.entry, n.pageKey⟩ from funext CopySample.reported_eq]
    exact hp.subset hn
  obtain ⟨m, hm, rfl⟩ := List.mem_map.1 hnh
  obtain ⟨_, _, ps', hcount, ⟨r5, hps'⟩, hh⟩ := hw.node_points hr Asked.none (by rw [f2, h2]; decide) hm (hold _ hn)
  have e := Run.Ends.unique hps hps'
  injection e with e _
  injection e with e
  subst e
  have hin : ∀ x ∈ recsOf (reported BoxFile.hist m), inNode (reported BoxFile.hist m).entry.key x = true := by
    have := hp'.subset hn
    rcases List.mem_cons.1 this with this | this
    · rw [this]; exact in_nodes.1
    · rw [List.mem_singleton.1 this]; exact in_nodes.2
  have hsub : r.cfg.header.recLen.toNat - lasBaseSize r.cfg.header.fmt = 1 := by
    rw [f1, f2, h1, h2]; decide
  rw [f1, f3, f4, h1, h4, h5] at hh
  rw [boxOf_eq, hmn, hmx, ← within_lies]
  generalize recsOf (reported BoxFile.hist m) = recs at hh hin
  clear hps hps' hcount
  have hsub2 : r.cfg.header.recLen.toNat - lasBaseSize 6 = 1 := by rw [← h1, ← f1]; exact hsub
  rw [hsub2] at hh
  induction hh with
  | nil => cases hpm
  | @cons x p' xs ps hx _ ih =>
    rcases List.mem_cons.1 hpm with rfl | hpm
    · have := hin x (by simp)
      unfold inNode at this
      rw [hx] at this
      exact this
    · exact ih hpm (fun y hy => hin y (by simp [hy]))

/-- From the computed runs. -/
theorem run_of {f : LasHeader → List Node → Act Copier Unit} (h : runs f = true) : ∃ r all r2 r3 v v',
    Reader.init ⟨BoxFile.data, 0, false⟩ = .ok r ∧ Reader.getAllNodes ROrder.plain 10 r = some (.ok all, r2) ∧
    f r.cfg.header all (r2, BoxFile.w0) = (.ok (), (r3, v)) ∧
    Writer.close Sample.L Sample.ord v = (.ok (), v') ∧ v'.base.out.data.length < 2 ^ 63 ∧ v.pages.length + 1 < 2 ^ 31 := by
  unfold runs at h
  rw [← boxBytes_eq] at h
  split at h
  · rename_i r hr
    split at h
    · rename_i all r2 ha
      split at h
      · rename_i r3 v hf
        split at h
        · rename_i v' hc
          rw [Bool.and_eq_true, decide_eq_true_eq, decide_eq_true_eq] at h
          exact ⟨r, all, r2, r3, v, v', hr, ha, hf, hc, h.1, h.2⟩
        · cases h
      · cases h
    · cases h
  · cases h

end FilterSample

open FilterSample in
/-- Trimming the sample file to the box of the node below the root, which is copied as it is; of the two points of
the root one is kept. -/
example : ∃ r all r2 r3 v v' s, Written Sample.L Sample.ord BoxFile.w0 BoxFile.w BoxFile.hist BoxFile.data ∧
    Reader.init ⟨BoxFile.data, 0, false⟩ = .ok r ∧ r.cfg.header.recLen.toNat = 31 ∧
    Run.Ends (fun k => Reader.getAllNodes ROrder.plain k) r (.ok all, r2) ∧ all.Perm [BoxFile.root, BoxFile.child] ∧
    trimNodes Sample.L Sample.ord r.cfg.header box all (r2, BoxFile.w0) = (.ok (), (r3, v)) ∧
    Writer.close Sample.L Sample.ord v = (.ok (), v') ∧ Reader.init ⟨v'.base.out.data, 0, false⟩ = .ok s ∧
    ∀ n ∈ all, ∃ ps r4, Run.Ends (fun k => Reader.getPointsAt Sample.L k n.entry.key) r (.ok ps, r4) ∧
      ∃ s2, Run.Ends (fun k => Reader.getPointsAt Sample.L k n.entry.key) s (.ok (Spec.within box ps), s2) := by
  obtain ⟨r, all, r2, hw, hr, h31, hall, hp, f1, f2, f3, f4, hold, hbox⟩ := facts
  obtain ⟨r', all', r2', r3, v, v', a1, a2, a3, a4, a5, a6⟩ := run_of trim_runs
  obtain rfl := Res.ok.inj (hr.symm.trans a1)
  have e := Run.Ends.unique hall (Reader.children_ends a2)
  injection e with e1 e2
  injection e1 with e1
  subst e1 e2
  obtain ⟨_, _, _, h4, h5⟩ := header
  have hx : GoodScale r.cfg.header.scale.x r.cfg.header.offset.x ∧ GoodScale r.cfg.header.scale.y r.cfg.header.offset.y ∧
      GoodScale r.cfg.header.scale.z r.cfg.header.offset.z := by
    rw [f3, f4, h4, h5]; exact ⟨good_one, good_one, good_one⟩
  obtain ⟨⟨s, hs⟩, hrest⟩ := C69_trim_partial hw hr .none hall (by rw [h31]; decide) (fun n hn => ⟨_, hold n hn⟩) hx.1 hx.2.1 hx.2.2
    hbox BoxFile.made f1.symm f2.symm f3.symm f4.symm box a3 a4 CopySample.storable0 a5 a6
  refine ⟨r, all, r2, r3, v, v', s, hw, hr, h31, hall, hp, a3, a4, hs, fun n hn => ?_⟩
  obtain ⟨ps, r4, g1, g2, _⟩ := (hrest s s [] hs .none).1 n hn
  exact ⟨ps, r4, g1, g2⟩

open FilterSample in
/-- Keeping the points with x = 1: one of the root, none of the other node. -/
example : ∃ r all r2 r3 v v' s, Written Sample.L Sample.ord BoxFile.w0 BoxFile.w BoxFile.hist BoxFile.data ∧
    Reader.init ⟨BoxFile.data, 0, false⟩ = .ok r ∧
    Run.Ends (fun k => Reader.getAllNodes ROrder.plain k) r (.ok all, r2) ∧ all.Perm [BoxFile.root, BoxFile.child] ∧
    filterNodes Sample.L Sample.ord one all (r2, BoxFile.w0) = (.ok (), (r3, v)) ∧
    Writer.close Sample.L Sample.ord v = (.ok (), v') ∧ Reader.init ⟨v'.base.out.data, 0, false⟩ = .ok s ∧
    ∀ n ∈ all, ∃ ps r4, Run.Ends (fun k => Reader.getPointsAt Sample.L k n.entry.key) r (.ok ps, r4) ∧
      ∃ s2, Run.Ends (fun k => Reader.getPointsAt Sample.L k n.entry.key) s (.ok (ps.filter one), s2) := by
  obtain ⟨r, all, r2, hw, hr, h31, hall, hp, f1, f2, f3, f4, hold, hbox⟩ := facts
  obtain ⟨r', all', r2', r3, v, v', a1, a2, a3, a4, a5, a6⟩ := run_of filter_runs
  obtain rfl := Res.ok.inj (hr.symm.trans a1)
  have e := Run.Ends.unique hall (Reader.children_ends a2)
  injection e with e1 e2
  injection e1 with e1
  subst e1 e2
  obtain ⟨_, _, _, h4, h5⟩ := header
  have hx : GoodScale r.cfg.header.scale.x r.cfg.header.offset.x ∧ GoodScale r.cfg.header.scale.y r.cfg.header.offset.y ∧
      GoodScale r.cfg.header.scale.z r.cfg.header.offset.z := by
    rw [f3, f4, h4, h5]; exact ⟨good_one, good_one, good_one⟩
  obtain ⟨⟨s, hs⟩, hrest⟩ := C68_filter hw hr .none hall (by rw [h31]; decide) (fun n hn => ⟨_, hold n hn⟩) hx.1 hx.2.1 hx.2.2
    BoxFile.made f1.symm f2.symm f3.symm f4.symm one a3 a4 CopySample.storable0 a5 a6
  refine ⟨r, all, r2, r3, v, v', s, hw, hr, hall, hp, a3, a4, hs, fun n hn => ?_⟩
  obtain ⟨ps, r4, g1, g2, _⟩ := (hrest s s [] hs .none).1 n hn
  exact ⟨ps, r4, g1, g2⟩

open FilterSample in
/-- The loop of the example as it is written stops with an exception on a node whose box meets the box of the trim
when no point of the node is in it: on the sample file with a box between its points. -/
theorem C69_example_violated : ∃ r all r2, Reader.init ⟨BoxFile.data, 0, false⟩ = .ok r ∧
    Run.Ends (fun k => Reader.getAllNodes ROrder.plain k) r (.ok all, r2) ∧
    (Act.forEach (trimNodeUnchecked Sample.L Sample.ord r.cfg.header gap) all (r2, BoxFile.w0)).1 = .throw .emptyData := by
  have h := unchecked_throws
  unfold unchecked at h
  rw [← boxBytes_eq] at h
  split at h
  · rename_i r hr
    split at h
    · rename_i all r2 ha
      exact ⟨r, all, r2, hr, Reader.children_ends ha, Option.some.inj h⟩
    · cases h
  · cases h

end Copc
