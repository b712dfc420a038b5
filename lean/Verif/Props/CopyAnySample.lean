import Verif.Props.CopyAny
import Verif.Props.ConformingSample
/-! # C90: copies of the file of another program -/
namespace Copc
open Spec VoxelKey
namespace Foreign

/-- The file with a further node without points, as the COPC format allows. -/
def bytes4 : Bytes := file guid1 64 16 (1 :: List.replicate 31 0)
/-- The file without an extents VLR (the VLR has another id). -/
def bytes5 : Bytes := file guid1 32 18 []

def page4 : FPage := ⟨VoxelKey.root, 1463, 64, [⟨VoxelKey.root, 1258, 64, 2⟩, ⟨⟨1, 0, 0, 0⟩, 0, 0, 0⟩]⟩
def node : Node := ⟨⟨VoxelKey.root, 1258, 64, 2⟩, VoxelKey.root⟩
def emptyNode : Node := ⟨⟨⟨1, 0, 0, 0⟩, 0, 0, 0⟩, VoxelKey.root⟩

theorem conforms4 : Format.Conforms bytes4 := Format.conforms_of (by decide +kernel)
theorem suits4 : Format.Suits bytes4 := Format.suits_of (by decide +kernel)
theorem conforms5 : Format.Conforms bytes5 := Format.conforms_of (by decide +kernel)
theorem suits5 : Format.Suits bytes5 := Format.suits_of (by decide +kernel)

/-- A file whose only page is the root page. -/
theorem good_one {data : Bytes} {p : FPage} (h1 : p.key = VoxelKey.root) (h2 : HasEntries data p.offset p.size p.nodes)
    (h3 : p.offset < 2 ^ 63 ∧ p.size < 2 ^ 31)
    (h4 : ∀ e ∈ p.nodes, e.InRange ∧ Valid e.key ∧ 0 ≤ e.byteSize ∧ e.pointCount ≠ -1 ∧ Below e.key VoxelKey.root)
    (h5 : (p.nodes.map (·.key)).Nodup) : GoodHierarchy data [p] where
  distinct := by simp
  root := by simp [h1]
  inTree := by
    intro q hq
    rw [List.mem_singleton.1 hq, h1]
    exact ⟨by decide, by decide, by decide, by decide, by decide, by decide, by decide⟩
  stored := by
    intro q hq
    rw [List.mem_singleton.1 hq]
    refine ⟨[], List.nodup_nil, ?_, p.nodes, by simp, h2⟩
    intro q
    constructor
    · intro h; cases h
    · rintro ⟨hq, _, _, hne, _⟩
      rw [List.mem_singleton.1 hq] at hne
      exact absurd rfl hne
  pageRange := by
    intro q hq
    rw [List.mem_singleton.1 hq, h1]
    exact ⟨by decide, h3⟩
  entries := by
    intro q hq e he
    rw [List.mem_singleton.1 hq] at he ⊢
    rw [h1]
    exact h4 e he
  nodesDistinct := by simpa using h5

theorem good4 : GoodHierarchy bytes4 [page4] := by
  refine good_one rfl ⟨by decide, by decide +kernel⟩ (by decide) ?_ (by decide)
  intro e he
  rcases List.mem_cons.1 he with rfl | he
  · exact ⟨⟨by decide, by decide, by decide, by decide⟩, by decide, by decide, by decide, ⟨0, by decide, by decide⟩⟩
  · rw [List.mem_singleton.1 he]
    exact ⟨⟨by decide, by decide, by decide, by decide⟩, by decide, by decide, by decide, ⟨1, by decide, by decide⟩⟩

theorem good5 : GoodHierarchy bytes5 [page] := by
  refine good_one rfl ⟨by decide, by decide +kernel⟩ (by decide) ?_ (by decide)
  intro e he
  rw [List.mem_singleton.1 he]
  exact ⟨⟨by decide, by decide, by decide, by decide⟩, by decide, by decide, by decide, ⟨0, by decide, by decide⟩⟩

theorem opened4 : ∃ r, Opened bytes4 [page4] r ∧ Format.ReadAs bytes4 r.cfg :=
  C88_opened_partial conforms4 suits4 ⟨page4, by simp, rfl, by decide +kernel, by decide +kernel⟩
theorem opened5 : ∃ r, Opened bytes5 [page] r ∧ Format.ReadAs bytes5 r.cfg :=
  C88_opened_partial conforms5 suits5 ⟨page, by simp, rfl, by decide +kernel, by decide +kernel⟩
theorem opened1 : ∃ r, Opened bytes1 [page] r ∧ Format.ReadAs bytes1 r.cfg :=
  C88_opened_partial conforms1 suits1 ⟨page, by simp, rfl, by decide +kernel, by decide +kernel⟩

/-- Conditions on the configuration, as a computation. -/
def itemsB (c : CopcConfig) : Bool :=
  decide (∀ f ∈ c.eb, f.dataType ≤ 30 ∧ 0 < lasItemSize f) && decide (∀ f ∈ c.eb, NoNul f.name ∧ NoNul f.description) &&
  decide (c.header.recLen.toNat = lasBaseSize c.header.fmt + (c.eb.map lasItemSize).sum) &&
  decide (Flt.lt' c.header.max.x c.header.min.x = false ∧ Flt.lt' c.header.max.y c.header.min.y = false ∧
    Flt.lt' c.header.max.z c.header.min.z = false)

theorem items_of {c : CopcConfig} (h : itemsB c = true) : ItemsFit c ∧ BoundsInOrder c.header := by
  unfold itemsB at h
  simp only [Bool.and_eq_true, decide_eq_true_eq] at h
  exact ⟨⟨h.1.1.1, h.1.1.2, h.1.2⟩, h.2⟩

theorem items_opened {data : Bytes} {ps : List FPage} {r : Reader} (ho : Opened data ps r)
    (h : (match Reader.init ⟨data, 0, false⟩ with | .ok r => itemsB r.cfg | _ => false) = true) :
    ItemsFit r.cfg ∧ BoundsInOrder r.cfg.header := by
  rw [ho.init] at h
  exact items_of h

/-- The writer after the copy, given the file: the additions, `Close`, opening the result. -/
def remade (data blob : Bytes) (n : Node) : Option (Option Exc) :=
  match Reader.init ⟨data, 0, false⟩ with
  | .ok r =>
    match Writer.make OStream.fresh r.cfg {} with
    | .ok v0 =>
      match Writer.close Lazperf.plain Order.plain ((blobOp (fun _ => blob) n).run Lazperf.plain Order.plain v0).2 with
      | (.ok (), v') => some (thrown (Reader.init ⟨v'.base.out.data, 0, false⟩))
      | _ => none
    | _ => none
  | _ => none

theorem remade5 : remade bytes5 (rec1 ++ rec2) node = some (some .extentsSize) := by decide +kernel

theorem all_one {all : List Node} (h : ListsAll [page] all) : all = [node] := by
  obtain ⟨h1, h2⟩ := h
  have hm : ∀ m, m ∈ all ↔ m = node := by
    intro m
    rw [h2]
    constructor
    · rintro ⟨p, hp, hn⟩
      rw [List.mem_singleton.1 hp] at hn
      exact List.mem_singleton.1 hn
    · rintro rfl
      exact ⟨page, List.mem_singleton.2 rfl, List.mem_singleton.2 rfl⟩
  cases all with
  | nil => exact absurd ((hm node).2 rfl) (by simp)
  | cons a l =>
    obtain rfl := (hm a).1 (by simp)
    cases l with
    | nil => rfl
    | cons b l =>
      obtain rfl := (hm b).1 (by simp)
      simp at h1

end Foreign

/-- The conditions of `C90_copy_partial` hold for a file that this library does not write. -/
example (L : Lazperf) : ∃ r, Opened Foreign.bytes1 [Foreign.page] r ∧ Format.ReadAs Foreign.bytes1 r.cfg ∧ ItemsFit r.cfg ∧
    BoundsInOrder r.cfg.header ∧ (Format.found Foreign.bytes1 Format.uCopc 10000).isSome = true ∧
    (∀ n, NodeOf [Foreign.page] n → 0 < n.entry.pointCount ∧ n.entry.offset + n.entry.byteSize.toNat ≤ Foreign.bytes1.length) ∧
    ∃ all r2, Run.Ends (fun k => Reader.getAllNodes .plain k) r (.ok all, r2) ∧ (all.filter fun _ => true).length < 2 ^ 25 := by
  obtain ⟨r, ho, hr⟩ := Foreign.opened1
  obtain ⟨h1, h2⟩ := Foreign.items_opened ho (by decide +kernel)
  obtain ⟨all, _, r2, _, h3, _, h4, _⟩ := C36_allNodes Foreign.good1 ho (Asked.none (L := L)) (Asked.none (L := L)) .plain .plain
  refine ⟨r, ho, hr, h1, h2, by decide +kernel, ?_, all, r2, h3, ?_⟩
  · rintro n ⟨p, hp, hn⟩
    rw [List.mem_singleton.1 hp] at hn
    obtain rfl : n = Foreign.node := List.mem_singleton.1 hn
    exact ⟨by decide, by decide +kernel⟩
  · rw [Foreign.all_one h4]; decide

/-- The conditions of `C90_empty_violated` hold for a file that follows the formats. -/
example : Format.Conforms Foreign.bytes4 ∧ Format.Suits Foreign.bytes4 ∧ GoodHierarchy Foreign.bytes4 [Foreign.page4] ∧
    (∃ r, Opened Foreign.bytes4 [Foreign.page4] r) ∧
    (∀ n, NodeOf [Foreign.page4] n → 0 ≤ n.entry.pointCount ∧ n.entry.offset + n.entry.byteSize.toNat ≤ Foreign.bytes4.length) ∧
    ∃ n, NodeOf [Foreign.page4] n ∧ n.entry.pointCount = 0 := by
  refine ⟨Foreign.conforms4, Foreign.suits4, Foreign.good4, ?_, ?_, Foreign.emptyNode, ⟨Foreign.page4, List.mem_singleton.2 rfl, ?_⟩, rfl⟩
  · obtain ⟨r, h, _⟩ := Foreign.opened4
    exact ⟨r, h⟩
  · rintro n ⟨p, hp, hn⟩
    rw [List.mem_singleton.1 hp] at hn
    rcases List.mem_cons.1 hn with rfl | hn
    · exact ⟨by decide, by decide +kernel⟩
    · rw [List.mem_singleton.1 hn]
      exact ⟨by decide, by decide +kernel⟩
  · exact List.mem_cons_of_mem _ (List.mem_singleton.2 rfl)

theorem fold_one {L : Lazperf} {ord : Order} {n : Node} {blob data : Bytes} {v0 w v : Writer}
    (h : blob = slice data n.entry.offset n.entry.byteSize.toNat)
    (g8 : w = [n].foldl (fun v n => ((blobOp (fun n => slice data n.entry.offset n.entry.byteSize.toNat) n).run L ord v).2) v0)
    (hv : ((blobOp (fun _ => blob) n).run L ord v0).2 = v) : w = v := by
  subst h
  exact g8.trans hv

/-- The whole claim fails also for files with extra bytes and without an extents VLR (which is optional): every call returns, but
the copy cannot be opened. -/
theorem C90_extents_violated : ∃ data ps r, Format.Conforms data ∧ Format.Suits data ∧ GoodHierarchy data ps ∧ Opened data ps r ∧
    Format.ReadAs data r.cfg ∧ ItemsFit r.cfg ∧ BoundsInOrder r.cfg.header ∧
    (∀ n, NodeOf ps n → 0 < n.entry.pointCount ∧ n.entry.offset + n.entry.byteSize.toNat ≤ data.length) ∧
    ∃ v0 v v', Writer.make OStream.fresh r.cfg {} = .ok v0 ∧
      (∀ rord all r2, Run.Ends (fun k => Reader.getAllNodes rord k) r (.ok all, r2) →
        ∃ r3, copyNodes Lazperf.plain Order.plain all (r2, v0) = (.ok (), (r3, v))) ∧
      Writer.close Lazperf.plain Order.plain v = (.ok (), v') ∧
      thrown (Reader.init ⟨v'.base.out.data, 0, false⟩) = some .extentsSize := by
  obtain ⟨r, ho, hr⟩ := Foreign.opened5
  obtain ⟨h1, h2⟩ := Foreign.items_opened ho (by decide +kernel)
  have hn : ∀ n, NodeOf [Foreign.page] n → n = Foreign.node := by
    rintro n ⟨p, hp, hn⟩
    rw [List.mem_singleton.1 hp] at hn
    exact List.mem_singleton.1 hn
  have hin : ∀ n, NodeOf [Foreign.page] n → 0 < n.entry.pointCount ∧
      n.entry.offset + n.entry.byteSize.toNat ≤ Foreign.bytes5.length := by
    intro n h
    rw [hn n h]
    exact ⟨by decide, by decide +kernel⟩
  have hre := Foreign.remade5
  unfold Foreign.remade at hre
  rw [ho.init] at hre
  dsimp only at hre
  cases hm : Writer.make OStream.fresh r.cfg {} with
  | throw e => rw [hm] at hre; cases hre
  | ub => rw [hm] at hre; cases hre
  | ok v0 =>
    rw [hm] at hre
    dsimp only at hre
    have hblob : Foreign.rec1 ++ Foreign.rec2 = slice Foreign.bytes5 Foreign.node.entry.offset Foreign.node.entry.byteSize.toNat := by
      decide +kernel
    generalize hv : ((blobOp (fun _ => Foreign.rec1 ++ Foreign.rec2) Foreign.node).run Lazperf.plain Order.plain v0).2 = v at hre
    generalize hcl : Writer.close Lazperf.plain Order.plain v = x at hre
    obtain ⟨x1, v'⟩ := x
    cases x1 with
    | throw e => cases hre
    | ub => cases hre
    | ok u =>
      refine ⟨Foreign.bytes5, [Foreign.page], r, Foreign.conforms5, Foreign.suits5, Foreign.good5, ho, hr, h1, h2, hin, v0, v, v',
        hm, ?_, hcl, Option.some.inj hre⟩
      intro rord all r2 hall
      obtain ⟨hA, _, hd, hf⟩ := all_listed Foreign.good5 ho (Asked.none (L := Lazperf.plain)) hall
      rw [Foreign.all_one hA]
      have hN : NodeOf [Foreign.page] Foreign.node := ⟨Foreign.page, List.mem_singleton.2 rfl, List.mem_singleton.2 rfl⟩
      obtain ⟨r3, w, t, g1, _, _, _, _, _, _, g8⟩ := copy_run (L := Lazperf.plain) (ord := Order.plain) Foreign.conforms5.fits hm
        [Foreign.node] (fun n h => by
          rw [List.mem_singleton.1 h]
          exact (NodeOf.copyable Foreign.good5 hN (hin _ hN).1 (hin _ hN).2).1) r2 v0 [] hd hf .start (by intro x hx; cases hx)
      refine ⟨r3, ?_⟩
      rw [g1, fold_one hblob g8 hv]

end Copc
