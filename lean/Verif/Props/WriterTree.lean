import Verif.Lemmas.WriterTree
import Verif.Lemmas.Sample
/-!
# C30: the page tree written at `Close`
-/
namespace Copc
open Spec VoxelKey

/-- A page other than the root has exactly one parent page. -/
theorem exists_parent {ks : List VoxelKey} (hr : VoxelKey.root ∈ ks) (ht : ∀ k ∈ ks, InOctree k)
    {k : VoxelKey} (hk : k ∈ ks) (hne : k ≠ VoxelKey.root) : ∃ p, IsParentPage ks k p := by
  have hv : ∀ q ∈ ks, Valid q := fun q hq => ((inOctree_iff_below q).1 (ht q hq)).1
  have hkeys : AList.keys (ks.map fun k => (k, ([] : WPage))) = ks := by
    unfold AList.keys; rw [List.map_map]; simp [Function.comp_def]
  rcases parentPage_spec (pages := ks.map fun k => (k, ([] : WPage))) (hv k hk) (by rw [hkeys]; exact hv) with
    ⟨p, _, h2⟩ | ⟨_, h2⟩
  · rw [hkeys] at h2; exact ⟨p, h2⟩
  · rw [hkeys] at h2
    exact absurd (h2 _ hr ((inOctree_iff_below k).1 (ht k hk)).2).symm hne

theorem reached_of_tree {ks : List VoxelKey} (hr : VoxelKey.root ∈ ks) (ht : ∀ k ∈ ks, InOctree k) :
    ∀ (n : Nat) (k : VoxelKey), k ∈ ks → k.d.toNat ≤ n → Reached ks k := by
  intro n
  induction n with
  | zero =>
    intro k hk hd
    by_cases he : k = VoxelKey.root
    · subst he; exact .root
    · obtain ⟨p, hp⟩ := exists_parent hr ht hk he
      have := isParentPage_depth hp
      have := (ht p hp.1).1
      omega
  | succ n ih =>
    intro k hk hd
    by_cases he : k = VoxelKey.root
    · subst he; exact .root
    · obtain ⟨p, hp⟩ := exists_parent hr ht hk he
      have := isParentPage_depth hp
      have := (ht p hp.1).1
      exact .sub (ih p hp.1 (by omega)) hk hp

/-- The pages of a file closed after any history: one for each page of the writer, with the nodes listed
there; they form a tree (each page other than the root has an entry in its nearest existing ancestor
page and in no other, `PageTree`), every page is reached from the root page, no two pages overlap,
sub-pages come before the page that refers to them, and the configuration has the place of the root
page. -/
theorem C30_tree {L : Lazperf} {ord : Order} {c : CopcConfig} {o : Writer.Overrides} {w0 w w' : Writer}
    {h : List (Op × Res (Option Node))} (hm : Writer.make OStream.fresh c o = .ok w0)
    (hh : History L ord w0 h w) (hu : Unclosed h) (hc : Writer.close L ord w = (.ok (), w')) :
    ∃ ps : List FPage, ps.map (·.key) = AList.keys w.pages ∧
      (∀ p ∈ ps, ∀ e, e ∈ p.nodes ↔ ∃ n, w.listing p.key e.key = some n ∧ n.entry = e) ∧
      PageTree w'.base.out.data ps ∧
      (∀ p ∈ ps, Reached (ps.map (·.key)) p.key) ∧
      (∀ p ∈ ps, ∀ q ∈ ps, p.key ≠ q.key → p.Before q ∨ q.Before p) ∧
      (∀ p ∈ ps, ∀ q ∈ ps, IsParentPage (ps.map (·.key)) q.key p.key → q.Before p) ∧
      (∀ p ∈ ps, p.key = VoxelKey.root → w'.cfg.info.rootHierOffset = UInt64.ofNat p.offset ∧
        w'.cfg.info.rootHierSize = UInt64.ofNat p.size) := by
  obtain ⟨otpd, h1, h2⟩ := bInv_of_make hm
  obtain ⟨log, hi⟩ := wInv_history h1 h2 hh hu
  have hp := pageInv_history (pageInv_make hm) hh
  obtain ⟨hier, eb, h14, gps, hco⟩ := close_ok hi.offset hi.base hc
  obtain ⟨t1, t2, t3, t4⟩ := hco.pageTree hp
  obtain ⟨_, _, _, _, _, _, hcfg, _⟩ := hco.closed
  have hkeys : (w.pages.map (filePage (closeLayout L ord otpd log hier w).2)).map (·.key) =
      AList.keys w.pages := by rw [List.map_map]; rfl
  refine ⟨w.pages.map (filePage (closeLayout L ord otpd log hier w).2), hkeys, ?_, t1, ?_, t3, ?_, ?_⟩
  · intro p hpm e
    obtain ⟨x, hx, rfl⟩ := List.mem_map.1 hpm
    have hpg := hp.page x hx
    have hg : AList.get x.1 w.pages = some x.2 := (AList.get_iff_mem hp.nodup).2 hx
    unfold Writer.listing
    change e ∈ x.2.map (fun y => y.2.entry) ↔
      ∃ n, (AList.get x.1 w.pages).bind (AList.get e.key) = some n ∧ n.entry = e
    rw [hg, List.mem_map]
    constructor
    · rintro ⟨y, hy, rfl⟩
      refine ⟨y.2, ?_, rfl⟩
      have := (hpg.2.2 y hy).1
      rw [Option.bind_some, this]
      exact (AList.get_iff_mem hpg.2.1).2 hy
    · rintro ⟨n, hn, rfl⟩
      exact ⟨_, AList.mem_of_get hn, rfl⟩
  · intro p hpm
    refine reached_of_tree t1.root ?_ _ p.key (List.mem_map_of_mem hpm) (Nat.le_refl _)
    intro k hk
    obtain ⟨q, hq, rfl⟩ := List.mem_map.1 hk
    exact t1.inTree q hq
  · intro p hpm q hqm hpp
    rw [hkeys] at hpp
    exact t4 p hpm q hqm hpp
  · intro p hpm hr
    obtain ⟨po, s, a1, a2, a3, _⟩ := t2 p hpm
    rw [hr] at a1
    rw [hcfg, closedCfg]
    unfold setRoot
    rw [a1, a2, a3]
    exact ⟨rfl, rfl⟩

/-- A call never throws `e`. -/
def Avoids {σ α : Type} (e : Exc) (x : Act σ α) : Prop := ∀ s, (x s).1 ≠ .throw e

theorem avoids_bind {σ α β : Type} {e : Exc} {x : Act σ α} {f : α → Act σ β} (hx : Avoids e x)
    (hf : ∀ a, Avoids e (f a)) : Avoids e (x >>= f) := by
  intro s
  rw [Act.bind_apply]
  have := hx s
  generalize x s = p at this
  obtain ⟨r, s'⟩ := p
  cases r with
  | ok a => exact hf a s'
  | throw e' => simpa using this
  | ub => simp

theorem avoids_ok {σ α : Type} {e : Exc} {x : Act σ α} (h : ∀ s, ∃ a, (x s).1 = .ok a) : Avoids e x := by
  intro s
  obtain ⟨a, ha⟩ := h s
  rw [ha]; simp

theorem avoids_lift {σ α : Type} {e : Exc} {r : Res α} (h : r ≠ .throw e) : Avoids e (Act.lift r : Act σ α) :=
  fun _ => h

theorem avoids_zoom {α : Type} {e : Exc} {x : Act BaseW α} (h : Avoids e x) : Avoids e (Writer.onBase x) :=
  fun w => h w.base

theorem resBind_ne {α β : Type} {e : Exc} {x : Res α} {f : α → Res β} (hx : x ≠ .throw e)
    (hf : ∀ a, f a ≠ .throw e) : x.bind f ≠ .throw e := by
  cases x with
  | ok a => exact hf a
  | throw e' => exact fun h => hx (by simpa [Res.bind] using h)
  | ub => simp [Res.bind]

theorem ebSize_avoids (h : LasHeader) : h.ebSize ≠ .throw .noParentPage := by
  unfold LasHeader.ebSize ebByteSize
  refine resBind_ne ?_ fun a => by simp
  unfold pointBaseByteSize
  split <;> [simp; split <;> [simp; split <;> simp]]

theorem offset_avoids (c : CopcConfig) : Writer.offsetToPointData c ≠ .throw .noParentPage := by
  unfold Writer.offsetToPointData BaseW.offsetToPointData
  refine resBind_ne (resBind_ne (ebSize_avoids _) fun a => by simp) fun a => resBind_ne ?_ fun a => by simp
  unfold Extents.byteSize
  refine resBind_ne ?_ fun a => by simp
  unfold Extents.make
  split
  · simp
  refine resBind_ne ?_ fun a => by simp
  unfold Extents.number
  refine resBind_ne ?_ fun a => by simp
  unfold pointBaseNumberDimensions
  split <;> [simp; split <;> [simp; split <;> simp]]

theorem avoids_header (L : Lazperf) (s : Writer) :
    ((do
      Writer.writeHeader L
      Writer.onBase (Act.modify fun b => { b with open_ := false }) : Act Writer Unit) s).1
      ≠ .throw .noParentPage := by
  have emit : ∀ bs, Avoids .noParentPage (Writer.onBase (BaseW.emit bs)) :=
    fun bs => avoids_zoom (avoids_ok fun s => ⟨(), rfl⟩)
  have bounds : ∀ h, Writer.boundsExtents h ≠ .throw .noParentPage := by
    intro h
    unfold Writer.boundsExtents
    have m : ∀ a b, Extent.make2 a b ≠ .throw .noParentPage := by
      intro a b
      unfold Extent.make2 Extent.make
      split
      · simp
      · split <;> simp
    exact resBind_ne (m _ _) fun _ => resBind_ne (m _ _) fun _ => resBind_ne (m _ _) fun _ => by simp
  refine avoids_bind ?_ (fun _ => avoids_ok fun s => ⟨(), rfl⟩) s
  unfold Writer.writeHeader
  refine avoids_bind (avoids_ok fun s => ⟨_, rfl⟩) fun c => avoids_bind (avoids_lift (offset_avoids c)) fun otpd => ?_
  refine avoids_bind (avoids_zoom ?_) fun _ => ?_
  · unfold BaseW.writeLasHeader
    refine avoids_bind (avoids_lift (ebSize_avoids _)) fun eb => avoids_bind (avoids_ok fun s => ⟨_, rfl⟩) fun b => ?_
    refine avoids_bind (avoids_lift ?_) fun _ => avoids_bind (avoids_ok fun s => ⟨(), rfl⟩) fun _ =>
      avoids_ok fun s => ⟨(), rfl⟩
    unfold LasHeader.toLazPerf
    split <;> simp
  refine avoids_bind (avoids_lift ?_) fun gps => ?_
  · unfold Extents.getGpsTime Extents.at'
    split <;> simp
  refine avoids_bind (emit _) fun _ => avoids_bind (avoids_lift (bounds _)) fun _ => avoids_bind (emit _) fun _ => ?_
  have last : Avoids .noParentPage (do
      Writer.onBase (BaseW.writeLazAndEbVlrs L c.toLazConfig)
      Writer.onBase (BaseW.checkHeaderSize otpd) : Act Writer Unit) := by
    refine avoids_bind (avoids_zoom ?_) fun _ => avoids_zoom ?_
    · unfold BaseW.writeLazAndEbVlrs
      refine avoids_bind (avoids_lift (ebSize_avoids _)) fun eb => ?_
      have e : ∀ bs, Avoids .noParentPage (BaseW.emit bs) := fun bs => avoids_ok fun s => ⟨(), rfl⟩
      split
      · exact avoids_bind (e _) fun _ => e _
      · exact e _
    · unfold BaseW.checkHeaderSize
      refine avoids_bind (avoids_ok fun s => ⟨_, rfl⟩) fun p => ?_
      intro s
      rw [Act.throwIf_apply]
      split <;> simp
  split
  · exact avoids_bind (emit _) fun _ => last
  · exact last

/-- `Close` throws "no parent page" exactly when some page key lies outside the octree (unless there are
so many chunks that it fails earlier). -/
theorem C30_throws {L : Lazperf} {ord : Order} {c : CopcConfig} {o : Writer.Overrides} {w0 w : Writer}
    {h : List (Op × Res (Option Node))} (hm : Writer.make OStream.fresh c o = .ok w0)
    (hh : History L ord w0 h w) (hu : Unclosed h) (hl : w.base.chunks.length ≤ 4294967295) :
    (Writer.close L ord w).1 = .throw .noParentPage ↔ ∃ k ∈ AList.keys w.pages, ¬ InOctree k := by
  obtain ⟨otpd, h1, h2⟩ := bInv_of_make hm
  obtain ⟨log, hi⟩ := wInv_history h1 h2 hh hu
  have hp := pageInv_history (pageInv_make hm) hh
  have hl' : log.length ≤ 4294967295 := by
    rw [hi.base.chunks, length_chunkEnds] at hl; exact hl
  obtain ⟨p1, p2, p3⟩ := close_pages (L := L) (ord := ord) hi.offset hi.base hl'
  constructor
  · intro he
    refine Decidable.byContradiction fun hn => ?_
    have hall : ∀ k ∈ AList.keys w.pages, InOctree k := fun k hk =>
      Decidable.byContradiction fun h3 => hn ⟨k, hk, h3⟩
    obtain ⟨hier, hhier⟩ := (hierarchy_iff hp).2 hall
    by_cases hsz : ∃ k ∈ Writer.visit ord hier (Writer.levels w.pages) VoxelKey.root,
        pageSize w.pages hier k > 2147483647
    · rw [p3 hier hhier hsz] at he; cases he
    · have hsz' : ∀ k ∈ Writer.visit ord hier (Writer.levels w.pages) VoxelKey.root,
          pageSize w.pages hier k ≤ 2147483647 := fun k hk => by
        refine Decidable.byContradiction fun h3 => hsz ⟨k, hk, by omega⟩
      rw [close_eq L ord hi.offset hi.base hl' hhier hsz'] at he
      exact avoids_header L _ he
  · rintro ⟨k, hk, hn⟩
    exact p1 _ (hierarchy_throws hp hk hn)

/-- The history of `Sample` closes with two pages; a page outside the octree makes `Close` throw. -/
example : AList.keys Sample.w.pages = [VoxelKey.root, Sample.kA] ∧
    Sample.w.base.chunks.length ≤ 4294967295 := by decide +kernel

def strayOps : List Op := [.addCompressed ⟨1, 2, 0, 0⟩ [4, 5] 1 ⟨1, 2, 0, 0⟩]

example : (Sample.run Sample.L Sample.ord strayOps Sample.w0 []).1.map (·.2) =
      [.ok (some ⟨⟨⟨1, 2, 0, 0⟩, 1531, 2, 1⟩, ⟨1, 2, 0, 0⟩⟩)] ∧
    (Writer.close Sample.L Sample.ord (Sample.run Sample.L Sample.ord strayOps Sample.w0 []).2).1 =
      .throw .noParentPage := by decide +kernel

end Copc
