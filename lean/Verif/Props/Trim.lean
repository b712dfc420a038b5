import Verif.Props.Copy
import Verif.Props.Resolution
import Verif.Props.RoundTripMeta
/-! # C78: trimming a file to a resolution -/
namespace Copc
open Spec VoxelKey

/-- What a node says apart from where its bytes begin. -/
def outlineOf (n : Node) : VoxelKey × Int × Int × VoxelKey := (n.entry.key, n.entry.byteSize, n.entry.pointCount, n.pageKey)

section
variable {L : Lazperf} {ord ord' : Order} {w0 w : Writer} {h : List (Op × Res (Option Node))} {data : Bytes}
  {r r1 r2 : Reader} {q : List Query} {rord rord' : ROrder} {all : List Node} {keep : Node → Bool}
  {c : CopcConfig} {o : Writer.Overrides} {v0 : Writer}

theorem Written.keys_nodup (hw : Written L ord w0 w h data) {ns : List Node}
    (hp : ns.Perm ((addedNodes h).map (reported h))) : (ns.map (·.entry.key)).Nodup := by
  have hd : ((addedNodes h).map (·.entry.key)).Nodup := hw.distinct
  refine (hp.map _).nodup_iff.2 ?_
  rw [List.map_map]
  exact hd

theorem outlines_nodup {ns : List Node} (h : (ns.map (·.entry.key)).Nodup) : (ns.map outlineOf).Nodup := by
  refine List.Nodup.of_map (fun x => x.1) ?_
  rw [List.map_map]
  exact h

theorem copied_iff (hw : Written L ord w0 w h data) (hr : Reader.init ⟨data, 0, false⟩ = .ok r) (ha : Asked L r q r1)
    (hall : Run.Ends (fun k => Reader.getAllNodes rord k) r1 (.ok all, r2))
    (hm : Writer.make OStream.fresh c o = .ok v0) {r3 : Reader} {v v' : Writer}
    (hcopy : copyNodes L ord' (all.filter keep) (r2, v0) = (.ok (), (r3, v)))
    (hc : Writer.close L ord' v = (.ok (), v')) (hst : Storable v.cfg) (hsize : v'.base.out.data.length < 2 ^ 63)
    (hfew : v.pages.length + 1 < 2 ^ 31) :
    ∃ t, Written L ord' v0 v t v'.base.out.data ∧
      ∀ x, (∃ m ∈ addedNodes t, outlineOf (reported t m) = x) ↔ ∃ n ∈ all, keep n = true ∧ outlineOf n = x := by
  obtain ⟨t, hw', hkeep, hnone⟩ := copy_written hw hr ha hall hm hcopy hc hst hsize hfew
  have fwd : ∀ n ∈ all, keep n = true → ∃ m ∈ addedNodes t, outlineOf (reported t m) = outlineOf n := by
    intro n hn hk
    obtain ⟨_, _, _, off, hx', hpg, _⟩ := hkeep n hn hk
    refine ⟨_, (hw'.node hx').1, ?_⟩
    unfold outlineOf reported
    rw [hpg]
  refine ⟨t, hw', fun x => ⟨?_, ?_⟩⟩
  · rintro ⟨m, hm, rfl⟩
    obtain ⟨n, hn, hk, he⟩ := hnone m hm
    obtain ⟨m', hm', he'⟩ := fwd n hn hk
    have hd : ((addedNodes t).map (·.entry.key)).Nodup := hw'.distinct
    have : m = m' := List.inj_on_of_nodup_map hd hm hm' (he.trans (congrArg Prod.fst he').symm)
    subst this
    exact ⟨n, hn, hk, he'.symm⟩
  · rintro ⟨n, hn, hk, rfl⟩
    exact fwd n hn hk

/-- The new file lists the selected nodes and no others, each once, with the sizes, counts and pages they had. -/
theorem C62_listing (hw : Written L ord w0 w h data) (hr : Reader.init ⟨data, 0, false⟩ = .ok r) (ha : Asked L r q r1)
    (hall : Run.Ends (fun k => Reader.getAllNodes rord k) r1 (.ok all, r2))
    (hm : Writer.make OStream.fresh c o = .ok v0) {r3 : Reader} {v v' : Writer}
    (hcopy : copyNodes L ord' (all.filter keep) (r2, v0) = (.ok (), (r3, v)))
    (hc : Writer.close L ord' v = (.ok (), v')) (hst : Storable v.cfg) (hsize : v'.base.out.data.length < 2 ^ 63)
    (hfew : v.pages.length + 1 < 2 ^ 31)
    {s s1 : Reader} {q' : List Query} (hs : Reader.init ⟨v'.base.out.data, 0, false⟩ = .ok s) (hq : Asked L s q' s1) :
    ∃ ns s2, Run.Ends (fun k => Reader.getAllNodes rord' k) s1 (.ok ns, s2) ∧
      (ns.map fun n => (n.entry.key, n.entry.byteSize, n.entry.pointCount, n.pageKey)).Perm
        ((all.filter keep).map fun n => (n.entry.key, n.entry.byteSize, n.entry.pointCount, n.pageKey)) := by
  obtain ⟨t, hw', hiff⟩ := copied_iff hw hr ha hall hm hcopy hc hst hsize hfew
  obtain ⟨ns, s2, he, hp⟩ := C33_allNodes hw' hs hq rord'
  obtain ⟨hp0, _, _⟩ := copy_nodes hw hr ha hall
  refine ⟨ns, s2, he, (List.perm_ext_iff_of_nodup (outlines_nodup (hw'.keys_nodup hp)) ?_).2 ?_⟩
  · exact outlines_nodup (((hw.keys_nodup hp0).sublist ((List.filter_sublist).map _)))
  · intro x
    have h1 : x ∈ ns.map outlineOf ↔ ∃ m ∈ addedNodes t, outlineOf (reported t m) = x := by
      rw [(hp.map outlineOf).mem_iff, List.map_map, List.mem_map]
      rfl
    have h2 : x ∈ (all.filter keep).map outlineOf ↔ ∃ n ∈ all, keep n = true ∧ outlineOf n = x := by
      simp only [List.mem_map, List.mem_filter, and_assoc]
    exact h1.trans ((hiff x).trans h2.symm)

theorem asked_depth {r0 : Reader} {l : List Query} {res : Dbl} {d : Int} (hw : Written L ord w0 w h data)
    (hr : Reader.init ⟨data, 0, false⟩ = .ok r) (ha : Asked L r l r0)
    (hd : Run.Ends (fun k => Reader.getDepthAtResolution rord k res) r0 (.ok d, r1)) :
    Asked L r (.depthAtResolution rord res :: l) r1 := by
  refine .ask (res := .ok ()) ha ?_ ?_
  · obtain ⟨k, hk⟩ := hd
    exact ⟨k, fun m hm => Run.bind_ok (hk m hm)⟩
  · obtain ⟨ps, g1, hi, _⟩ := hw.asked hr ha
    obtain ⟨d', r', h1, h2, _⟩ := (depth_gives g1 hi rord res).ends
    cases hd.unique h1
    exact h2.good

/-- The depth a reader of a written file gives for a resolution. -/
theorem written_depth {r0 : Reader} {l : List Query} {res : Dbl} (hw : Written L ord w0 w h data)
    (hr : Reader.init ⟨data, 0, false⟩ = .ok r) (ha : Asked L r l r0) (rord : ROrder) :
    ∃ m d r1, Run.Ends (fun k => Reader.getDepthAtResolution rord k res) r0 (.ok d, r1) ∧
      DepthFor m r.cfg.info.spacing res d ∧ (∀ n ∈ addedNodes h, n.entry.key.d ≤ m) ∧
      ((∃ n ∈ addedNodes h, n.entry.key.d = m) ∨ addedNodes h = [] ∧ m = -1) := by
  obtain ⟨ps, r', g1, g2, _, g4, _⟩ := hw.facts
  obtain rfl : r' = r := Res.ok.inj (g4.init.symm.trans hr)
  obtain ⟨m, d, r1, h1, h2, h3⟩ := C39_depth g1 g4 ha rord res
  refine ⟨m, d, r1, h1, h3, fun n hn => h2.1 (reported h n) ((g2 _).2 ⟨n, hn, rfl⟩), ?_⟩
  rcases h2.2 with ⟨n, hn, he⟩ | ⟨hn, he⟩
  · obtain ⟨n', hn', rfl⟩ := (g2 _).1 hn
    exact .inl ⟨n', hn', he⟩
  · refine .inr ⟨List.eq_nil_iff_forall_not_mem.2 fun n hn' => hn (reported h n) ((g2 _).2 ⟨n, hn', rfl⟩), he⟩

variable {r0 : Reader} {res : Dbl} {d : Int} {dord : ROrder}

/-- The new file has exactly the nodes down to the depth for the resolution; its own depth, asked with `GetMaxDepth`
or as the depth for a resolution of zero or less, is that of the deepest such node, -1 if there is none. -/
theorem C78_depth (hw : Written L ord w0 w h data) (hr : Reader.init ⟨data, 0, false⟩ = .ok r) (ha : Asked L r q r0)
    (hd : Run.Ends (fun k => Reader.getDepthAtResolution dord k res) r0 (.ok d, r1))
    (hall : Run.Ends (fun k => Reader.getAllNodes rord k) r1 (.ok all, r2))
    (hm : Writer.make OStream.fresh c o = .ok v0) {r3 : Reader} {v v' : Writer}
    (hcopy : copyNodes L ord' (all.filter fun n => decide (n.entry.key.d ≤ d)) (r2, v0) = (.ok (), (r3, v)))
    (hc : Writer.close L ord' v = (.ok (), v')) (hst : Storable v.cfg) (hsize : v'.base.out.data.length < 2 ^ 63)
    (hfew : v.pages.length + 1 < 2 ^ 31)
    {s s1 : Reader} {q' : List Query} (hs : Reader.init ⟨v'.base.out.data, 0, false⟩ = .ok s) (hq : Asked L s q' s1)
    {res' : Dbl} (hres : Le res' Flt.zero) :
    (∃ ns s2, Run.Ends (fun k => Reader.getAllNodes rord' k) s1 (.ok ns, s2) ∧ (∀ n ∈ ns, n.entry.key.d ≤ d) ∧
      (ns.map fun n => (n.entry.key, n.entry.byteSize, n.entry.pointCount, n.pageKey)).Perm
        ((all.filter fun n => decide (n.entry.key.d ≤ d)).map
          fun n => (n.entry.key, n.entry.byteSize, n.entry.pointCount, n.pageKey))) ∧
    ∃ m s2 s3, Run.Ends (fun k => Reader.getMaxDepth rord' k) s1 (.ok m, s2) ∧
      Run.Ends (fun k => Reader.getDepthAtResolution rord' k res') s1 (.ok m, s3) ∧ m ≤ d ∧
      (∀ n ∈ all, n.entry.key.d ≤ d → n.entry.key.d ≤ m) ∧
      ((∃ n ∈ all, n.entry.key.d = m) ∨ (∀ n ∈ all, d < n.entry.key.d) ∧ m = -1) := by
  have ha1 := asked_depth hw hr ha hd
  obtain ⟨ns, s2, e1, e2⟩ := C62_listing (rord' := rord') hw hr ha1 hall hm hcopy hc hst hsize hfew hs hq
  obtain ⟨t, hw', hiff⟩ := copied_iff hw hr ha1 hall hm hcopy hc hst hsize hfew
  obtain ⟨m, d1, s3, f1, f2, f3, f4⟩ := written_depth (res := res') hw' hs hq rord'
  obtain ⟨m', d2, s4, k1, k2, k3, k4⟩ := written_depth (res := Flt.ofInt (-1)) hw' hs hq rord'
  have hneg : Flt.le' (Flt.ofInt (-1) : Dbl) Flt.zero = true := by decide +kernel
  obtain rfl := f2.1 hres
  obtain rfl := k2.1 (le'_iff_Le.1 hneg)
  have hback : ∀ a ∈ addedNodes t, ∃ n ∈ all, n.entry.key.d ≤ d ∧ n.entry.key.d = a.entry.key.d := by
    intro a hx
    obtain ⟨n, hn, hk, he⟩ := (hiff _).1 ⟨a, hx, rfl⟩
    exact ⟨n, hn, of_decide_eq_true hk, congrArg (fun x => x.1.d) he⟩
  have hforth : ∀ n ∈ all, n.entry.key.d ≤ d → ∃ a ∈ addedNodes t, a.entry.key.d = n.entry.key.d := by
    intro n hn hk
    obtain ⟨a, hx, he⟩ := (hiff _).2 ⟨n, hn, decide_eq_true hk, rfl⟩
    exact ⟨a, hx, congrArg (fun x => x.1.d) he⟩
  have hd0 : -1 ≤ d := by
    obtain ⟨ps, g1, hi, _⟩ := hw.asked hr ha
    obtain ⟨d', r', h1, _, _, l, h2, h3⟩ := (depth_gives g1 hi dord res).ends
    cases hd.unique h1
    have hs := depthAt_spec l r0.cfg.info.spacing res
    have hg := maxDepth_ge l
    rw [← h3] at hs
    by_cases hz : Le res Flt.zero
    · rw [hs.1 hz]; exact hg
    · rcases hs.2 hz with ⟨i, _, e, _⟩ | ⟨e, _⟩
      · rw [e]; omega
      · rw [e]; exact hg
  have hle : d1 ≤ d := by
    rcases f4 with ⟨a, hx, rfl⟩ | ⟨_, rfl⟩
    · obtain ⟨n, _, g1, g2⟩ := hback a hx
      omega
    · exact hd0
  have heq : d2 = d1 := by
    rcases f4 with ⟨a, hx, rfl⟩ | ⟨he, rfl⟩
    · rcases k4 with ⟨b, hb, rfl⟩ | ⟨he, _⟩
      · have := f3 b hb; have := k3 a hx; omega
      · rw [he] at hx; cases hx
    · rcases k4 with ⟨b, hb, _⟩ | ⟨_, hh⟩
      · rw [he] at hb; cases hb
      · exact hh
  subst heq
  refine ⟨⟨ns, s2, e1, ?_, e2⟩, d2, s4, s3, k1, f1, hle, ?_, ?_⟩
  · intro n hn
    have : (n.entry.key, n.entry.byteSize, n.entry.pointCount, n.pageKey) ∈ (all.filter fun n => decide (n.entry.key.d ≤ d)).map
        fun n => (n.entry.key, n.entry.byteSize, n.entry.pointCount, n.pageKey) :=
      e2.subset (List.mem_map_of_mem hn)
    obtain ⟨n', h1, h2⟩ := List.mem_map.1 this
    have h3 := of_decide_eq_true (List.mem_filter.1 h1).2
    have h4 : n'.entry.key = n.entry.key := congrArg Prod.fst h2
    rwa [h4] at h3
  · intro n hn hk
    obtain ⟨a, hx, he⟩ := hforth n hn hk
    rw [← he]
    exact f3 a hx
  · rcases f4 with ⟨a, hx, he⟩ | ⟨he, hh⟩
    · obtain ⟨n, hn, _, g2⟩ := hback a hx
      exact .inl ⟨n, hn, g2.trans he⟩
    · refine .inr ⟨fun n hn => ?_, hh⟩
      by_contra hk
      obtain ⟨a, hx, _⟩ := hforth n hn (by omega)
      rw [he] at hx
      cases hx

/-- Asked about the same resolution, the new file gives the depth the old one gave, if the old file has a node at
that depth and the new one the same spacing: a second trim keeps every node. -/
theorem C78_again_partial (hw : Written L ord w0 w h data) (hr : Reader.init ⟨data, 0, false⟩ = .ok r)
    (ha : Asked L r q r0)
    (hd : Run.Ends (fun k => Reader.getDepthAtResolution dord k res) r0 (.ok d, r1))
    (hall : Run.Ends (fun k => Reader.getAllNodes rord k) r1 (.ok all, r2))
    (hm : Writer.make OStream.fresh c o = .ok v0) {r3 : Reader} {v v' : Writer}
    (hcopy : copyNodes L ord' (all.filter fun n => decide (n.entry.key.d ≤ d)) (r2, v0) = (.ok (), (r3, v)))
    (hc : Writer.close L ord' v = (.ok (), v')) (hst : Storable v.cfg) (hsize : v'.base.out.data.length < 2 ^ 63)
    (hfew : v.pages.length + 1 < 2 ^ 31) (hspc : v0.cfg.info.spacing = r.cfg.info.spacing)
    (hat : ∃ n ∈ all, n.entry.key.d = d)
    {s s1 : Reader} {q' : List Query} (hs : Reader.init ⟨v'.base.out.data, 0, false⟩ = .ok s) (hq : Asked L s q' s1) :
    s.cfg.info.spacing = r.cfg.info.spacing ∧
    (∃ s2, Run.Ends (fun k => Reader.getDepthAtResolution rord' k res) s1 (.ok d, s2)) ∧
    ∃ s2, Run.Ends (fun k => Reader.getMaxDepth rord' k) s1 (.ok d, s2) := by
  have ha1 := asked_depth hw hr ha hd
  obtain ⟨t, hw', hiff⟩ := copied_iff hw hr ha1 hall hm hcopy hc hst hsize hfew
  have hcfg : v.cfg = v0.cfg := by
    obtain ⟨_, _, g1, g2, _⟩ := C62_copies (ord' := ord') hw hr ha1 hall (fun n => decide (n.entry.key.d ≤ d)) hm
    rw [hcopy] at g1
    cases g1
    exact g2
  have hsp : s.cfg.info.spacing = r.cfg.info.spacing := by
    obtain ⟨s', g1, _, g2⟩ := C35_metadata_partial hm hw'.history hw'.unclosed hst hc hsize hfew
    obtain rfl := Res.ok.inj (g1.symm.trans hs)
    rw [g2.spacing, hcfg, hspc]
  obtain ⟨_, m, s2, _, e1, e2, e3, e4, e5⟩ := C78_depth (rord' := rord') hw hr ha hd hall hm hcopy hc hst hsize hfew hs hq
    (res' := Flt.ofInt (-1)) (le'_iff_Le.1 (by decide +kernel))
  obtain ⟨n, hn, hnd⟩ := hat
  have hmd : m = d := le_antisymm e3 (hnd ▸ e4 n hn hnd.le)
  subst hmd
  refine ⟨hsp, ?_, s2, e1⟩
  obtain ⟨m0, d0, _, f1, f2, _⟩ := written_depth (res := res) hw hr ha dord
  cases hd.unique f1
  obtain ⟨m1, d1, s3, k1, k2, k3, k4⟩ := written_depth (res := res) hw' hs hq rord'
  obtain ⟨a, hx, hax⟩ := (hiff _).2 ⟨n, hn, decide_eq_true hnd.le, rfl⟩
  have hm1 : m1 = m := by
    have h1 := k3 a hx
    have h2 : a.entry.key.d = n.entry.key.d := congrArg (fun x => x.1.d) hax
    rcases k4 with ⟨b, hb, hbm⟩ | ⟨he, _⟩
    · obtain ⟨n', hn', hk', he'⟩ := (hiff _).1 ⟨b, hb, rfl⟩
      have h3 : n'.entry.key.d = b.entry.key.d := congrArg (fun x => x.1.d) he'
      have h4 := of_decide_eq_true hk'
      omega
    · rw [he] at hx; cases hx
  subst hm1
  rw [hsp] at k2
  have : DepthFor m1 r.cfg.info.spacing res m1 := by
    refine ⟨fun _ => rfl, fun hz => ?_⟩
    rcases f2.2 hz with ⟨i, _, g2, g3⟩ | ⟨g1, g2⟩
    · exact .inl ⟨i, g2.ge, g2, g3⟩
    · exact .inr ⟨rfl, g1 ▸ g2⟩
  rw [k2.unique this] at k1
  exact ⟨s3, k1⟩

/-- With a node at the depth for the resolution, and a resolution the old file reaches (at that depth), the resolution
at the depth of the new file is no coarser than asked for. -/
theorem C78_reached_partial (hw : Written L ord w0 w h data) (hr : Reader.init ⟨data, 0, false⟩ = .ok r)
    (ha : Asked L r q r0)
    (hd : Run.Ends (fun k => Reader.getDepthAtResolution dord k res) r0 (.ok d, r1))
    (hall : Run.Ends (fun k => Reader.getAllNodes rord k) r1 (.ok all, r2))
    (hm : Writer.make OStream.fresh c o = .ok v0) {r3 : Reader} {v v' : Writer}
    (hcopy : copyNodes L ord' (all.filter fun n => decide (n.entry.key.d ≤ d)) (r2, v0) = (.ok (), (r3, v)))
    (hc : Writer.close L ord' v = (.ok (), v')) (hst : Storable v.cfg) (hsize : v'.base.out.data.length < 2 ^ 63)
    (hfew : v.pages.length + 1 < 2 ^ 31) (hspc : v0.cfg.info.spacing = r.cfg.info.spacing)
    (hat : ∃ n ∈ all, n.entry.key.d = d) (hpos : ¬Le res Flt.zero)
    (hreach : ∃ n ∈ all, Le (halved r.cfg.info.spacing n.entry.key.d.toNat) res)
    {s s1 : Reader} {q' : List Query} (hs : Reader.init ⟨v'.base.out.data, 0, false⟩ = .ok s) (hq : Asked L s q' s1) :
    ∃ m s2, Run.Ends (fun k => Reader.getMaxDepth rord' k) s1 (.ok m, s2) ∧ 0 ≤ m ∧
      Le (halved s.cfg.info.spacing m.toNat) res := by
  obtain ⟨e1, _, s2, e2⟩ := C78_again_partial (rord' := rord') hw hr ha hd hall hm hcopy hc hst hsize hfew hspc hat hs hq
  refine ⟨d, s2, e2, ?_⟩
  rw [e1]
  obtain ⟨m0, d0, _, f1, f2, f3, _⟩ := written_depth (res := res) hw hr ha dord
  cases hd.unique f1
  rcases f2.2 hpos with ⟨i, _, rfl, g3, _⟩ | ⟨_, g2⟩
  · exact ⟨by omega, g3⟩
  · exfalso
    obtain ⟨n, hn, hle⟩ := hreach
    obtain ⟨hp0, _, _⟩ := copy_nodes hw hr (asked_depth hw hr ha hd) hall
    obtain ⟨n', hn', rfl⟩ := List.mem_map.1 (hp0.subset hn)
    have h1 := f3 n' hn'
    have h2 : 0 ≤ n'.entry.key.d := by
      have := (hw.copyable hn').valid
      exact (hw.copyable hn').add.1.1
    exact g2 _ (by show ((n'.entry.key.d.toNat : Nat) : Int) ≤ m0; omega) hle

end

/-! ### The hypotheses can be met, and matter -/

namespace TrimSample

/-- Spacing 8. -/
def cfg : CopcConfig := { boxCfg eight with info := { (boxCfg eight).info with spacing := Flt.ofInt 8 } }
def w0 : Writer := Sample.getOk (Writer.make OStream.fresh cfg {})
/-- A node at the root and one two levels below it, none between them. -/
def ops : List Op := [.addCompressed VoxelKey.root [1, 2, 3] 2 VoxelKey.root,
  .addCompressed ⟨2, 0, 0, 0⟩ [4, 5] 1 VoxelKey.root]
def outs : List (Res (Option Node)) := [.ok (some ⟨⟨VoxelKey.root, 1531, 3, 2⟩, VoxelKey.root⟩),
  .ok (some ⟨⟨⟨2, 0, 0, 0⟩, 1534, 2, 1⟩, VoxelKey.root⟩)]
def hist : List (Op × Res (Option Node)) := (Sample.run Sample.L Sample.ord ops w0 []).1
def w : Writer := (Sample.run Sample.L Sample.ord ops w0 []).2
def data : Bytes := (Writer.close Sample.L Sample.ord w).2.base.out.data

theorem hist_eq : (Sample.run Sample.L Sample.ord ops w0 []).1 = hist := by rw [hist]
theorem w_eq : (Sample.run Sample.L Sample.ord ops w0 []).2 = w := by rw [w]
theorem data_eq : (Writer.close Sample.L Sample.ord w).2.base.out.data = data := by rw [data]

theorem made : Writer.make OStream.fresh cfg {} = .ok w0 := make_of_ok (by decide +kernel)
theorem outcomes : hist.map (·.2) = outs := by decide +kernel
theorem closes : (Writer.close Sample.L Sample.ord w).1 = .ok () := by decide +kernel

theorem cfg_eq : w.cfg = { BoxFile.w0.cfg with info := w.cfg.info } := by decide +kernel
theorem cfg_eq0 : w0.cfg = w.cfg := by decide +kernel
theorem storable : Storable w.cfg := by
  obtain ⟨⟨a1, a2, a3, a4⟩, b, c, d, e, f, g⟩ := CopySample.storable0
  rw [cfg_eq]
  exact ⟨⟨a1, a2, a3, a4⟩, b, c, d, e, f, g⟩

theorem adds : ∀ op ∈ ops, op.isAdd = true := by
  intro op h
  simp only [ops, List.mem_cons, List.not_mem_nil, or_false] at h
  rcases h with rfl | rfl <;> rfl
theorem oks : ∀ x ∈ outs, x.isOk = true := by decide
theorem distinct : ((gotNodes outs).map (·.entry.key)).Nodup := by decide
theorem counted : ∀ n ∈ gotNodes outs, n.entry.key.InRange ∧ 0 < n.entry.pointCount ∧ n.entry.pointCount < 2 ^ 31 := by
  decide
theorem size : data.length < 2 ^ 63 := by decide +kernel
theorem few : w.pages.length + 1 < 2 ^ 31 := by decide +kernel

theorem written : Written Sample.L Sample.ord w0 w hist data ∧ addedNodes hist = gotNodes outs ∧
    ∀ k, movedTo hist k = [] :=
  written_of made adds hist_eq w_eq data_eq outcomes oks closes distinct counted storable size few

def w1 : Writer := ((Op.addCompressed VoxelKey.root [1, 2, 3] 2 VoxelKey.root).run Sample.L Sample.ord w0).2

def good : Bool :=
  match Writer.close Sample.L Sample.ord w1 with
  | (.ok (), v') => decide (v'.base.out.data.length < 2 ^ 63) && decide (w1.pages.length + 1 < 2 ^ 31)
  | _ => false

theorem good_eq : good = true := by decide +kernel
theorem root_bytes : slice data 1531 3 = [1, 2, 3] := by decide +kernel
theorem spacing_eq : w0.cfg.info.spacing = Flt.ofInt 8 := by decide +kernel

theorem reported_eq (n : Node) : reported hist n = ⟨n.entry, n.pageKey⟩ := by
  unfold reported finalPage
  rw [written.2.2]
  rfl

def rootNode : Node := ⟨⟨VoxelKey.root, 1531, 3, 2⟩, VoxelKey.root⟩
def deepNode : Node := ⟨⟨⟨2, 0, 0, 0⟩, 1534, 2, 1⟩, VoxelKey.root⟩

theorem perm_all {all : List Node} (hp : all.Perm ((addedNodes hist).map (reported hist))) :
    all.Perm [rootNode, deepNode] := by
  rw [written.2.1, show reported hist = fun n => ⟨n.entry, n.pageKey⟩ from funext reported_eq] at hp
  exact hp

/-- The trim of the file to a resolution with depth 0 or 1. -/
theorem trims {res : Dbl} {d : Int} (hd : DepthFor 2 (Flt.ofInt 8) res d) (h01 : d = 0 ∨ d = 1) :
    ∃ r r1 all r2 r3 v v' s, Written Sample.L Sample.ord w0 w hist data ∧
    Reader.init ⟨data, 0, false⟩ = .ok r ∧
    Run.Ends (fun k => Reader.getDepthAtResolution ROrder.plain k res) r (.ok d, r1) ∧
    Run.Ends (fun k => Reader.getAllNodes ROrder.plain k) r1 (.ok all, r2) ∧ all.Perm [rootNode, deepNode] ∧
    Writer.make OStream.fresh cfg {} = .ok w0 ∧
    copyNodes Sample.L Sample.ord (all.filter fun n => decide (n.entry.key.d ≤ d)) (r2, w0) = (.ok (), (r3, v)) ∧
    Writer.close Sample.L Sample.ord v = (.ok (), v') ∧ Storable v.cfg ∧ v'.base.out.data.length < 2 ^ 63 ∧
    v.pages.length + 1 < 2 ^ 31 ∧ Reader.init ⟨v'.base.out.data, 0, false⟩ = .ok s ∧
    w0.cfg.info.spacing = r.cfg.info.spacing ∧ r.cfg.info.spacing = Flt.ofInt 8 := by
  have hw := written.1
  obtain ⟨r, hr, _⟩ := C33_opens hw
  have hsp : r.cfg.info.spacing = Flt.ofInt 8 := by
    obtain ⟨w', hc, hdata⟩ := hw.closed
    obtain ⟨s', g1, _, g2⟩ := C35_metadata_partial made hw.history hw.unclosed hw.storable hc (hdata ▸ hw.size) hw.few
    rw [hdata] at g1
    obtain rfl := Res.ok.inj (g1.symm.trans hr)
    rw [g2.spacing, ← cfg_eq0, spacing_eq]
  obtain ⟨m, d', r1, e1, e2, e3, e4⟩ := written_depth (res := res) hw hr .none ROrder.plain
  rw [written.2.1] at e3 e4
  have hm : m = 2 := by
    have h3 := e3 deepNode (by decide)
    rcases e4 with ⟨n, hn, he⟩ | ⟨he, _⟩
    · have : ∀ n ∈ gotNodes outs, n.entry.key.d ≤ 2 := by decide
      have := this n hn
      have h4 : (2 : Int) ≤ m := h3
      omega
    · cases he
  subst hm
  rw [hsp] at e2
  obtain rfl := e2.unique hd
  have ha := asked_depth hw hr .none e1
  obtain ⟨all, r2, hall, _⟩ := C33_allNodes hw hr ha ROrder.plain
  obtain ⟨hp, hdt, hf⟩ := copy_nodes hw hr ha hall
  obtain ⟨r3, v, t, g1, _, _, _, g5, _, _, g8⟩ := copy_run (L := Sample.L) (ord := Sample.ord) hw.size made
    (all.filter fun n => decide (n.entry.key.d ≤ d')) (by
      intro n hn
      obtain ⟨m, hm, rfl⟩ := List.mem_map.1 (hp.subset (List.mem_filter.1 hn).1)
      exact hw.copyable hm) r2 w0 [] hdt hf .start (by intro x hx; cases hx)
  have hfil : (all.filter fun n => decide (n.entry.key.d ≤ d')) = [rootNode] := by
    have := (perm_all hp).filter fun n => decide (n.entry.key.d ≤ d')
    refine List.perm_singleton.1 (this.trans ?_)
    rcases h01 with rfl | rfl <;> decide
  have hv : v = w1 := by
    rw [g8, hfil, List.foldl_cons, List.foldl_nil]
    unfold w1 blobOp rootNode
    rw [← root_bytes]
    rfl
  have hg := good_eq
  unfold good at hg
  rw [← hv] at hg
  match hc : Writer.close Sample.L Sample.ord v with
  | (.throw e, v') => rw [hc] at hg; cases hg
  | (.ub, v') => rw [hc] at hg; cases hg
  | (.ok (), v') =>
    rw [hc] at hg
    dsimp only at hg
    rw [Bool.and_eq_true, decide_eq_true_eq, decide_eq_true_eq] at hg
    have hst : Storable v.cfg := by rw [g5, cfg_eq0]; exact storable
    obtain ⟨t, hw', _⟩ := copy_written hw hr ha hall made g1 hc hst hg.1 hg.2
    obtain ⟨s, hs, _⟩ := C33_opens hw'
    exact ⟨r, r1, all, r2, r3, v, v', s, hw, hr, e1, hall, perm_all hp, made, g1, hc, hst, hg.1, hg.2, hs,
      by rw [spacing_eq, hsp], hsp⟩

/-- The depth for a resolution of 8 is 0. -/
theorem for_eight : DepthFor 2 (Flt.ofInt 8) (Flt.ofInt 8) 0 := by
  have h1 : Flt.le' (Flt.ofInt 8 : Dbl) Flt.zero = false := by decide +kernel
  have h2 : Flt.le' (Flt.ofInt 8 : Dbl) (Flt.ofInt 8) = true := by decide +kernel
  refine ⟨fun h => ?_, fun _ => .inl ⟨0, by decide, rfl, le'_iff_Le.1 h2, fun j hj => absurd hj (by omega)⟩⟩
  rw [le'_iff_Le.2 h] at h1
  cases h1

/-- The depth for a resolution of 4 is 1, where the file has no node. -/
theorem for_four : DepthFor 2 (Flt.ofInt 8) (Flt.ofInt 4) 1 := by
  have h1 : Flt.le' (Flt.ofInt 4 : Dbl) Flt.zero = false := by decide +kernel
  have h2 : Flt.le' (halved (Flt.ofInt 8) 1 : Dbl) (Flt.ofInt 4) = true := by decide +kernel
  have h3 : Flt.le' (halved (Flt.ofInt 8) 0 : Dbl) (Flt.ofInt 4) = false := by decide +kernel
  refine ⟨fun h => ?_, fun _ => .inl ⟨1, by decide, rfl, le'_iff_Le.1 h2, fun j hj h => ?_⟩⟩
  · rw [le'_iff_Le.2 h] at h1
    cases h1
  · obtain rfl : j = 0 := by omega
    rw [le'_iff_Le.2 h] at h3
    cases h3

/-- Non-vacuity: the trim to resolution 8 keeps the root, at the depth for that resolution, which the file reaches. -/
example : ∃ r r1 all r2 r3 v v' s, Written Sample.L Sample.ord w0 w hist data ∧
    Reader.init ⟨data, 0, false⟩ = .ok r ∧
    Run.Ends (fun k => Reader.getDepthAtResolution ROrder.plain k (Flt.ofInt 8)) r (.ok 0, r1) ∧
    Run.Ends (fun k => Reader.getAllNodes ROrder.plain k) r1 (.ok all, r2) ∧
    copyNodes Sample.L Sample.ord (all.filter fun n => decide (n.entry.key.d ≤ 0)) (r2, w0) = (.ok (), (r3, v)) ∧
    Writer.close Sample.L Sample.ord v = (.ok (), v') ∧ Storable v.cfg ∧ v'.base.out.data.length < 2 ^ 63 ∧
    v.pages.length + 1 < 2 ^ 31 ∧ w0.cfg.info.spacing = r.cfg.info.spacing ∧ (∃ n ∈ all, n.entry.key.d = 0) ∧
    (∃ n ∈ all, ¬n.entry.key.d ≤ 0) ∧ ¬Le (Flt.ofInt 8 : Dbl) Flt.zero ∧
    (∃ n ∈ all, Le (halved r.cfg.info.spacing n.entry.key.d.toNat) (Flt.ofInt 8)) ∧
    Reader.init ⟨v'.base.out.data, 0, false⟩ = .ok s := by
  obtain ⟨r, r1, all, r2, r3, v, v', s, h1, h2, h3, h4, h5, _, h7, h8, h9, h10, h11, h12, h13, h14⟩ :=
    trims for_eight (.inl rfl)
  have hz : Flt.le' (Flt.ofInt 8 : Dbl) Flt.zero = false := by decide +kernel
  have hr : Flt.le' (Flt.ofInt 8 : Dbl) (Flt.ofInt 8) = true := by decide +kernel
  have m1 : rootNode ∈ all := h5.symm.subset (by decide)
  have m2 : deepNode ∈ all := h5.symm.subset (by decide)
  refine ⟨r, r1, all, r2, r3, v, v', s, h1, h2, h3, h4, h7, h8, h9, h10, h11, h13, ⟨_, m1, rfl⟩, ⟨_, m2, by decide⟩, ?_,
    ⟨_, m1, ?_⟩, h12⟩
  · intro h
    rw [le'_iff_Le.2 h] at hz
    cases hz
  · rw [h14]
    exact le'_iff_Le.1 hr

end TrimSample

/-- Without a node at the depth for the resolution the trimmed file falls short of it, although the old file does
not: a file with spacing 8, a node at the root and one two levels below, trimmed to resolution 4, keeps the root
alone, and the new file's own finest resolution is 8; asked about 4, it gives depth 0. -/
theorem C78_violated : ∃ (r r1 r2 r3 s : Reader) (all : List Node) (v v' : Writer) (res : Dbl) (d : Int),
    Written Sample.L Sample.ord TrimSample.w0 TrimSample.w TrimSample.hist TrimSample.data ∧
    Reader.init ⟨TrimSample.data, 0, false⟩ = .ok r ∧
    Run.Ends (fun k => Reader.getDepthAtResolution ROrder.plain k res) r (.ok d, r1) ∧
    Run.Ends (fun k => Reader.getAllNodes ROrder.plain k) r1 (.ok all, r2) ∧
    (∃ n ∈ all, Le (halved r.cfg.info.spacing n.entry.key.d.toNat) res) ∧
    copyNodes Sample.L Sample.ord (all.filter fun n => decide (n.entry.key.d ≤ d)) (r2, TrimSample.w0) = (.ok (), (r3, v)) ∧
    Writer.close Sample.L Sample.ord v = (.ok (), v') ∧ Reader.init ⟨v'.base.out.data, 0, false⟩ = .ok s ∧
    s.cfg.info.spacing = r.cfg.info.spacing ∧
    ∃ m s1 s2, Run.Ends (fun k => Reader.getMaxDepth ROrder.plain k) s (.ok m, s1) ∧ 0 ≤ m ∧
      ¬Le (halved s.cfg.info.spacing m.toNat) res ∧
      Run.Ends (fun k => Reader.getDepthAtResolution ROrder.plain k res) s (.ok m, s2) ∧ m < d := by
  obtain ⟨r, r1, all, r2, r3, v, v', s, h1, h2, h3, h4, h5, h6, h7, h8, h9, h10, h11, h12, h13, h14⟩ :=
    TrimSample.trims TrimSample.for_four (.inr rfl)
  have m1 : TrimSample.rootNode ∈ all := h5.symm.subset (by decide)
  have m2 : TrimSample.deepNode ∈ all := h5.symm.subset (by decide)
  have hr : Flt.le' (halved (Flt.ofInt 8) 2 : Dbl) (Flt.ofInt 4) = true := by decide +kernel
  have hn : Flt.le' (halved (Flt.ofInt 8) 0 : Dbl) (Flt.ofInt 4) = false := by decide +kernel
  have ha1 := asked_depth h1 h2 .none h3
  obtain ⟨t, hw', hiff⟩ := copied_iff h1 h2 ha1 h4 h6 h7 h8 h9 h10 h11
  have hcfg : v.cfg = TrimSample.w0.cfg := by
    obtain ⟨_, _, g1, g2, _⟩ := C62_copies (ord' := Sample.ord) h1 h2 ha1 h4 (fun n => decide (n.entry.key.d ≤ 1)) h6
    rw [h7] at g1
    cases g1
    exact g2
  have hsp : s.cfg.info.spacing = r.cfg.info.spacing := by
    obtain ⟨s', g1, _, g2⟩ := C35_metadata_partial h6 hw'.history hw'.unclosed h9 h8 h10 h11
    obtain rfl := Res.ok.inj (g1.symm.trans h12)
    rw [g2.spacing, hcfg, h13]
  obtain ⟨_, m, s1, _, e1, _, e3, e4, e5⟩ := C78_depth (rord' := ROrder.plain) h1 h2 .none h3 h4 h6 h7 h8 h9 h10 h11 h12
    .none (res' := Flt.ofInt (-1)) (le'_iff_Le.1 (by decide +kernel))
  have hm : m = 0 := by
    have := e4 _ m1 (by decide)
    rcases e5 with ⟨n, hn, he⟩ | ⟨he, _⟩
    · have hn' := h5.subset hn
      simp only [List.mem_cons, List.not_mem_nil, or_false] at hn'
      rcases hn' with rfl | rfl
      · exact he.symm
      · have : (2 : Int) = m := he
        omega
    · exact absurd (he _ m1) (by decide)
  subst hm
  refine ⟨r, r1, r2, r3, s, all, v, v', Flt.ofInt 4, 1, h1, h2, h3, h4, ⟨_, m2, ?_⟩, h7, h8, h12, hsp, 0, s1, ?_⟩
  · rw [h14]; exact le'_iff_Le.1 hr
  have hno : ¬Le (halved (Flt.ofInt 8) 0 : Dbl) (Flt.ofInt 4) := by
    intro h
    rw [le'_iff_Le.2 h] at hn
    cases hn
  obtain ⟨m', d', s2, k1, k2, k3, k4⟩ := written_depth (res := Flt.ofInt 4) hw' h12 .none ROrder.plain
  have hd' : d' = 0 := by
    have hz : Flt.le' (Flt.ofInt 4 : Dbl) Flt.zero = false := by decide +kernel
    have hm' : m' = 0 := by
      obtain ⟨a, hx, hax⟩ := (hiff _).2 ⟨_, m1, by decide, rfl⟩
      have q1 := k3 a hx
      have q2 : a.entry.key.d = 0 := congrArg (fun x => x.1.d) hax
      rcases k4 with ⟨b, hb, hbm⟩ | ⟨he, _⟩
      · obtain ⟨n', hn', hk', he'⟩ := (hiff _).1 ⟨b, hb, rfl⟩
        have q3 : n'.entry.key.d = b.entry.key.d := congrArg (fun x => x.1.d) he'
        have q4 := of_decide_eq_true hk'
        have hn'' := h5.subset hn'
        simp only [List.mem_cons, List.not_mem_nil, or_false] at hn''
        rcases hn'' with rfl | rfl
        · have : (0 : Int) = b.entry.key.d := q3
          omega
        · exact absurd q4 (by decide)
      · rw [he] at hx; cases hx
    subst hm'
    rcases k2.2 (fun h => by rw [le'_iff_Le.2 h] at hz; cases hz) with ⟨i, q1, q2, _⟩ | ⟨q, _⟩
    · omega
    · exact q
  subst hd'
  exact ⟨s2, e1, le_rfl, by rw [hsp, h14]; exact hno, k1, by decide⟩

end Copc
