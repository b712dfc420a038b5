import Verif.Props.Mp
import Verif.Props.LazWriter
/-!
# C49: transforms into a LAZ file
-/
namespace Copc
open Spec Mp VoxelKey

theorem compressed_run {L : Lazperf} {w : LazWriter} {n0 : Nat} {log : List (Nat × Bytes)} {bs : Bytes} {c : Int}
    (hi : BInv n0 w.base log) (hn : 0 < n0) (hc : c ≠ 0) (hs : bs.length ≤ 2147483647) :
    LazWriter.writePointsCompressed L bs c w = (.ok (), { w with base := chunkAdded w.base bs c }) := by
  have hp : w.base.out.tellp = n0 + (chunkData log).length := by rw [hi.out.tellp]; simp
  have h0 : ¬ w.base.out.tellp ≤ 0 := by omega
  have hl : ¬ bs.length % 2 ^ 64 > 2147483647 := by omega
  have hw : ∃ a, BaseW.writeChunk L w.cfg.header bs c true w.base = (.ok a, chunkAdded w.base bs c) := by
    refine ⟨(n0 + (chunkData log).length, ((bs.length % 2 ^ 64 : Nat) : Int), c), ?_⟩
    unfold BaseW.writeChunk
    rw [Act.bind_ok (Act.gets_apply _ _), Act.bind_ok (Act.throwIf_neg h0 _ _)]
    have := finishChunk_spec hi hn bs c
    rw [if_neg hl] at this
    rw [← this]
    rfl
  obtain ⟨a, ha⟩ := hw
  unfold LazWriter.writePointsCompressed
  rw [Act.bind_ok (Act.gets_apply _ _), Act.bind_ok (Act.throwIf_neg hc _ _)]
  have hz : LazWriter.onBase (BaseW.writeChunk L w.cfg.header bs c true) w =
      (.ok a, { w with base := chunkAdded w.base bs c }) := by
    simp only [LazWriter.onBase, Act.zoom_apply, ha]
  rw [Act.bind_ok hz]
  rfl

/-- The call by which the main process writes a node. -/
def lazCall (qs : Node → List Point) (blob : Node → Bytes) (n : Node) : LazOp :=
  .compressed (blob n) (qs n).length

/-- The main process over the results in a given order. -/
theorem absorbLaz_history {L : Lazperf} {w0 : LazWriter} {otpd : Nat} (h1 : BaseW.offsetToPointData w0.cfg = .ok otpd)
    (h2 : BInv (otpd + 8) w0.base []) {qs : Node → List Point} {blob : Node → Bytes} {update : Bool} :
    ∀ (order : List Node) (w : LazWriter) (bl : List (Vec3 Dbl × Vec3 Dbl)) (h0 : List (LazOp × Res Unit)),
    LazHistory L w0 h0 w → LazUnclosed h0 →
    (∀ n ∈ order, (blob n).length ≤ 2147483647) →
    ∃ (w' : LazWriter), Act.forEach (fun n => absorb (addLaz L) ⟨blob n, n, (qs n).length, if update then bounds (qs n) else none⟩)
        order ⟨w, bl⟩ = (.ok (), ⟨w', bl ++ (order.filter fun n => decide (qs n ≠ [])).flatMap fun n =>
          (if update then bounds (qs n) else none).toList⟩) ∧
      LazHistory L w0 (h0 ++ (order.filter fun n => decide (qs n ≠ [])).map fun n => (lazCall qs blob n, .ok ())) w' ∧
      w'.cfg = w.cfg
  | [], w, bl, h0, hh, _, _ => ⟨w, by simp, by simpa using hh, rfl⟩
  | n :: order, w, bl, h0, hh, hu, ha => by
    by_cases hq : qs n = []
    · obtain ⟨w', e1, e2, e3⟩ := absorbLaz_history h1 h2 (qs := qs) (blob := blob) (update := update) order w bl h0 hh hu
        fun m hm => ha m (by simp [hm])
      have hfl : (n :: order).filter (fun n => decide (qs n ≠ [])) = order.filter fun n => decide (qs n ≠ []) := by
        rw [List.filter_cons_of_neg (by simp [hq])]
      refine ⟨w', ?_, by rw [hfl]; exact e2, e3⟩
      rw [Act.forEach_cons, hfl]
      refine (Act.bind_ok (a := ()) (s' := (⟨w, bl⟩ : Main LazWriter)) ?_).trans e1
      unfold absorb
      rw [if_neg (by simp [hq])]
      rfl
    · have hs := ha n (by simp)
      obtain ⟨log, hi⟩ := lInv_history h1 h2 hh hu
      have hcount : (((qs n).length : Nat) : Int) ≠ 0 := by
        have : (qs n).length ≠ 0 := fun e => hq (List.length_eq_zero_iff.1 e)
        omega
      have hrun := compressed_run (L := L) (bs := blob n) hi.base (by omega) hcount hs
      generalize hw1 : ({ w with base := chunkAdded w.base (blob n) ((qs n).length : Nat) } : LazWriter) = w1 at hrun
      have hcfg : w1.cfg = w.cfg := by rw [← hw1]
      have hh1 : LazHistory L w0 (h0 ++ [(lazCall qs blob n, .ok ())]) w1 := by
        have := LazHistory.call (lazCall qs blob n) hh (by
          show (LazWriter.writePointsCompressed L (blob n) _ w).1 ≠ _
          rw [hrun]; simp)
        rw [show (lazCall qs blob n).run L w = (.ok (), w1) from hrun] at this
        exact this
      have hu1 : LazUnclosed (h0 ++ [(lazCall qs blob n, .ok ())]) := by
        intro x hx
        rcases List.mem_append.1 hx with hx | hx
        · exact hu x hx
        · obtain rfl := List.mem_singleton.1 hx
          simp [lazCall]
      obtain ⟨w', e1, e2, e4⟩ := absorbLaz_history h1 h2 (qs := qs) (blob := blob) (update := update) order w1
        (bl ++ (if update then bounds (qs n) else none).toList) _ hh1 hu1 fun m hm => ha m (by simp [hm])
      have hfl : (n :: order).filter (fun n => decide (qs n ≠ [])) = n :: order.filter fun n => decide (qs n ≠ []) := by
        rw [List.filter_cons_of_pos (by simp [hq])]
      refine ⟨w', ?_, by rw [hfl]; simpa using e2, e4.trans hcfg⟩
      rw [Act.forEach_cons, hfl, List.flatMap_cons, ← List.append_assoc]
      refine (Act.bind_ok (a := ()) (s' := (⟨w1, bl ++ (if update then bounds (qs n) else none).toList⟩ : Main LazWriter)) ?_).trans e1
      unfold absorb
      rw [if_pos (by simp; exact Nat.pos_of_ne_zero (by omega)), Act.bind_ok (Act.modify_apply _ _), Act.zoom_apply]
      unfold addLaz
      simp only [hrun]

theorem chunkCalls_lazCall (qs : Node → List Point) (blob : Node → Bytes) (o : List Node) :
    chunkCalls (o.map fun n => (lazCall qs blob n, Res.ok ())) = o.map (lazCall qs blob) := by
  induction o with
  | nil => rfl
  | cons n o ih =>
    rw [List.map_cons, List.map_cons, ← ih]
    rfl

theorem chunks_of_calls {L : Lazperf} {hd : LasHeader} {qs : Node → List Point} {blob : Node → Bytes} :
    ∀ (o : List Node) {chs : List (Int × Bytes)},
    List.Forall₂ (fun op x => LazOp.Stores L hd op x) (chunkCalls (o.map fun n => (lazCall qs blob n, Res.ok ()))) chs →
    chs = o.map fun n => (((qs n).length : Int), blob n)
  | o, chs, h => by
    rw [chunkCalls_lazCall] at h
    induction o generalizing chs with
    | nil => cases h; rfl
    | cons n o ih =>
      rw [List.map_cons] at h
      obtain ⟨⟨k, b⟩, chs', hk, h', rfl⟩ := List.forall₂_cons_left_iff.1 h
      obtain ⟨rfl, rfl⟩ := hk
      rw [List.map_cons, ← ih _ h']

/-- Whatever the schedule and the chunk size, a transform into a new LAZ writer returns, and after `Close` the
points of the file are: one chunk for every node that still has points, the compressed transformed points, in
some order, with their numbers in the chunk table and their sum in the header. -/
theorem C49_laz {L : Lazperf} {c : LazConfig} {w0 w w' : LazWriter} {r : Reader}
    {f : Node → List Point → Res (List Point)} {update : Bool}
    {nodes : List Node} {size : Int} {out : Res Unit} {qs : Node → List Point} {blob : Node → Bytes}
    (hm : LazWriter.make OStream.fresh c = .ok w0) (hret : c.header.pointsByReturn.length = 15)
    (hl : c.eb.length ≤ 341)
    (hr : r.h.str.fail = false) (hb : ∀ n ∈ nodes, Becomes L r f w0.cfg.header n (qs n) (blob n)) (hs : 0 < size)
    (ht : TransformLaz L f update r nodes size w0 out w)
    (hc : LazWriter.close L w = (.ok (), w')) (hsz : w'.base.out.data.length < 2 ^ 63) :
    out = .ok () ∧ ∃ order : List Node, order.Perm (nodes.filter fun n => decide (qs n ≠ [])) ∧
      (w'.base.out.data.drop (Header14.decode w'.base.out.data).pointOffset.toNat =
        leN 8 ((Header14.decode w'.base.out.data).pointOffset.toNat + 8 + ((order.map blob).flatten).length) ++
        ((order.map blob).flatten ++ (leN 4 0 ++ leN 4 order.length ++
          L.table (order.map fun n => ((qs n).length % 2 ^ 64, (blob n).length)) ++
        (if c.wkt = [] then [] else BaseW.wktEvlr c.wkt)))) ∧
      (Header14.decode w'.base.out.data).pointCount14.toNat = (order.map fun n => (qs n).length % 2 ^ 64).sum % 2 ^ 64 ∧
      (update = false → w.cfg = w0.cfg) ∧
      (update = true → (∀ n ∈ nodes, Numbers (qs n)) → (nodes.map qs).flatten ≠ [] →
        Bounds (nodes.map qs).flatten w.cfg.header.min w.cfg.header.max) := by
  obtain ⟨otpd, h1, h2, hcfg0⟩ := lazMake_ok hm
  have main : ∀ cs (out : Res Unit × Main LazWriter), chunks nodes size = some cs →
      PoolRun (transformNode L f w0.cfg.header update) (absorb (addLaz L)) (fun _ => r) cs ⟨w0, []⟩ out →
      ∃ (order : List Node) (w1 : LazWriter), order.Perm nodes ∧
        out = (.ok (), ⟨w1, (order.filter fun n => decide (qs n ≠ [])).flatMap fun n =>
          (if update then bounds (qs n) else none).toList⟩) ∧
        LazHistory L w0 ((order.filter fun n => decide (qs n ≠ [])).map fun n => (lazCall qs blob n, .ok ())) w1 ∧
        w1.cfg = w0.cfg := by
    intro cs out hc hrun
    obtain ⟨cs', e1, e2⟩ := chunks_flatten nodes hs
    rw [e1] at hc
    obtain rfl := Option.some.inj hc
    obtain ⟨order, rest, o1, o2, o3⟩ := poolRun_order hrun (g := fun n =>
      (⟨blob n, n, (qs n).length, if update then bounds (qs n) else none⟩ : TaskResult))
      (fun n hn => pool_steady hr (hb n (by rw [← e2]; exact hn))) (fun _ => Fresh.refl hr)
    have hmem : ∀ n ∈ order, n ∈ nodes := by
      intro n hn
      rw [← e2]
      exact o1.subset (List.mem_append_left _ hn)
    obtain ⟨w1, a1, a2, a3⟩ := absorbLaz_history (L := L) h1 h2 (qs := qs) (blob := blob)
      (update := update) order w0 [] [] .start (by intro x hx; simp at hx) fun n hn => (hb n (hmem n hn)).small.1.1
    have hout := a1.symm.trans o2
    have hrest := o3 (by rw [← hout])
    subst hrest
    rw [List.append_nil, e2] at o1
    exact ⟨order, w1, o1, by rw [← hout]; simp, by simpa using a2, a3⟩
  cases ht with
  | fail hcs hrun hne =>
    obtain ⟨_, _, _, g2, _⟩ := main _ _ hcs hrun
    injection g2 with g2 _
    exact absurd g2 hne
  | @ok cs s hcs hrun =>
    refine ⟨rfl, ?_⟩
    obtain ⟨order, w1, g1, g2, g3, g4⟩ := main cs _ hcs hrun
    injection g2 with _ g2
    subst g2
    generalize hord : (order.filter fun n => decide (qs n ≠ [])) = o at *
    have hhist : LazHistory L w0 (o.map fun n => (lazCall qs blob n, .ok ())) (setBoundsLaz update
        ⟨w1, o.flatMap fun n => (if update then bounds (qs n) else none).toList⟩) := by
      cases update with
      | false => exact g3
      | true => exact .edit g3 ⟨rfl, rfl, rfl, rfl, rfl, rfl, rfl, rfl⟩
    obtain ⟨chs, c1, _, _, _, c5, c6, _⟩ := C46_closed hm hret hl hhist (by
        intro x hx
        obtain ⟨n, _, rfl⟩ := List.mem_map.1 hx
        simp [lazCall]) (by
        intro x hx
        obtain ⟨n, _, rfl⟩ := List.mem_map.1 hx
        simp) hc hsz
    have hch := chunks_of_calls o c1
    subst hch
    have hmod : ∀ n : Node, ((((qs n).length : Nat) : Int) % 2 ^ 64).toNat = (qs n).length % 2 ^ 64 := by
      intro n; omega
    refine ⟨o, by rw [← hord]; exact g1.filter _, ?_, ?_, ?_, ?_⟩
    · simp only [List.map_map, Function.comp_def, List.length_map, hmod] at c5
      exact c5
    · simp only [List.map_map, Function.comp_def, hmod] at c6
      exact c6
    · intro hu
      subst hu
      exact g4
    · intro hu hnum hne
      subst hu
      rw [← hord]
      exact order_bounds g1 hnum hne

end Copc
