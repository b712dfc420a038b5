import Verif.Lemmas.ReaderEnds
import Verif.Props.ReaderHier
/-!
# C37: every query ends

`Called L r l r'`: the state after any list of earlier calls, successful or not, whatever became of the
stream.
-/
namespace Copc
open Spec VoxelKey

/-- Calls made one after the other, each of which returned or threw. -/
inductive Called (L : Lazperf) (r : Reader) : List Query → Reader → Prop
  | none : Called L r [] r
  | call {l : List Query} {r1 r2 : Reader} {q : Query} {res : Res Unit} : Called L r l r1 →
    Run.Ends (fun n => q.run L n) r1 (res, r2) → Called L r (q :: l) r2

/-- Where the COPC info of an opened file says the root page is; the size is cut to 32 bits. -/
def rootPlace (r : Reader) : Place :=
  (r.cfg.info.rootHierOffset.toNat, signed 4 (r.cfg.info.rootHierSize.toNat % 256 ^ 4))

theorem init_fit {s : IStream} {r : Reader} (h : Reader.init s = .ok r) (rank : Place → Nat) :
    Fit s.data (rootPlace r) rank r.h := by
  obtain ⟨h1, h2⟩ := init_facts h
  refine ⟨h1, ?_⟩
  rw [h2]
  refine ⟨fun id p hp => ?_, fun id p hp j hj => ?_⟩
  · cases id with
    | zero => cases hp; exact .root
    | succ i => simp [RHier.make] at hp
  · cases id with
    | zero => cases hp; cases hj
    | succ i => simp [RHier.make] at hp

/-- On every file, damaged or not, without a cycle of pages: every call of the interface ends, after any
calls. -/
theorem C37_ends {s : IStream} {r r1 : Reader} {L : Lazperf} {l : List Query} (hr : Reader.init s = .ok r)
    (hn : NoCycle s.data (rootPlace r)) (hc : Called L r l r1) (q : Query) :
    ∃ res, Run.Ends (fun k => q.run L k) r1 res := by
  obtain ⟨rank, hk⟩ := exists_rank hn
  have : Fit s.data (rootPlace r) rank r1.h := by
    clear q
    induction hc with
    | none => exact init_fit hr rank
    | call hl he ih =>
      obtain ⟨res, r', h1, h2⟩ := query_stops hk ih L _
      cases he.unique h1
      exact h2
  obtain ⟨res, r', h1, _⟩ := query_stops hk this L q
  exact ⟨_, h1⟩

/-! ### Good files have no cycle -/

theorem slice_pack : ∀ (es : List Entry) (i : Nat) (h : i < es.length),
    slice (es.flatMap Entry.pack) (32 * i) 32 = es[i].pack
  | [], i, h => by simp at h
  | e :: es, 0, _ => by
    unfold slice
    rw [List.flatMap_cons, Nat.mul_zero, List.drop_zero, List.take_append_of_le_length (by simp),
      List.take_of_length_le (by simp)]
    rfl
  | e :: es, i + 1, h => by
    have := slice_pack es i (by simpa using h)
    unfold slice at this ⊢
    rw [List.flatMap_cons, List.drop_append, List.drop_of_length_le (by rw [Entry.length_pack]; omega),
      Entry.length_pack, List.nil_append, show 32 * (i + 1) - 32 = 32 * i by omega, this]
    rfl

theorem pack_inj {a b : Entry} (ha : a.InRange) (hb : b.InRange) (h : a.pack = b.pack) : a = b := by
  have h1 := Entry.unpack_pack ha [] []
  have h2 := Entry.unpack_pack hb [] []
  rw [h, h2] at h1
  cases h1
  rfl

/-- The pages a page of a good file refers to are pages of the file, and deeper. -/
theorem refers_good {data : Bytes} {ps : List FPage} (hg : GoodHierarchy data ps) {p : FPage} (hp : p ∈ ps)
    {q : Place} (h : PageRefers data (p.offset, p.size) q) :
    ∃ p' ∈ ps, q = (p'.offset, (p'.size : Int)) ∧ p.key.d < p'.key.d := by
  obtain ⟨i, e, h1, h2, h3, _, _, h6, rfl⟩ := h
  obtain ⟨subs, _, hs, es, hperm, hz, hsl⟩ := hg.stored p hp
  simp only at h1 h2
  have hi : i < es.length := by omega
  have he : e = es[i] := by
    have hmem : es[i] ∈ p.nodes ++ subs.map FPage.entry := hperm.mem_iff.1 (List.getElem_mem hi)
    refine pack_inj h3 ?_ ?_
    · rcases List.mem_append.1 hmem with hm | hm
      · exact (hg.entries p hp _ hm).1
      · obtain ⟨q, hq, he⟩ := List.mem_map.1 hm
        obtain ⟨r1, r2, r3⟩ := hg.pageRange q ((hs q).1 hq).1
        rw [← he]
        refine ⟨r1, show q.offset < 2 ^ 64 by omega, show InI32 (q.size : Int) from ?_, show InI32 (-1) by decide⟩
        unfold InI32
        omega
    · rw [← h2, ← slice_pack es i hi, ← hsl, slice_add (by omega)]
  have hmem : e ∈ p.nodes ++ subs.map FPage.entry := by
    rw [he]
    exact hperm.mem_iff.1 (List.getElem_mem hi)
  rcases List.mem_append.1 hmem with hm | hm
  · exact absurd h6 (hg.entries p hp _ hm).2.2.2.1
  · obtain ⟨q, hq, rfl⟩ := List.mem_map.1 hm
    obtain ⟨hq1, hq2⟩ := (hs q).1 hq
    exact ⟨q, hq1, rfl, isParentPage_depth hq2⟩

theorem trans_good {data : Bytes} {ps : List FPage} (hg : GoodHierarchy data ps) {a b : Place}
    (h : Relation.TransGen (PageRefers data) a b) : ∀ p ∈ ps, a = (p.offset, (p.size : Int)) →
    ∃ p' ∈ ps, b = (p'.offset, (p'.size : Int)) ∧ p.key.d < p'.key.d := by
  intro p hp ha
  subst ha
  induction h with
  | single h => exact refers_good hg hp h
  | tail _ h ih =>
    obtain ⟨p1, h1, h2, h3⟩ := ih
    rw [h2] at h
    obtain ⟨p2, g1, g2, g3⟩ := refers_good hg h1 h
    exact ⟨p2, g1, g2, by omega⟩

theorem good_noCycle {data : Bytes} {ps : List FPage} (hg : GoodHierarchy data ps) {p0 : FPage} (hp0 : p0 ∈ ps) :
    NoCycle data (p0.offset, (p0.size : Int)) := by
  intro a ha hcyc
  have hin : ∃ p ∈ ps, a = (p.offset, (p.size : Int)) := by
    clear hcyc
    induction ha with
    | root => exact ⟨p0, hp0, rfl⟩
    | sub _ h ih =>
      obtain ⟨p, hp, rfl⟩ := ih
      obtain ⟨p', h1, h2, _⟩ := refers_good hg hp h
      exact ⟨p', h1, h2⟩
  have hup : ∀ n : Nat, ∃ p ∈ ps, a = (p.offset, (p.size : Int)) ∧ (n : Int) ≤ p.key.d := by
    intro n
    induction n with
    | zero =>
      obtain ⟨p, hp, rfl⟩ := hin
      exact ⟨p, hp, rfl, (hg.inTree p hp).1⟩
    | succ n ih =>
      obtain ⟨p, hp, h1, h2⟩ := ih
      obtain ⟨p', g1, g2, g3⟩ := trans_good hg hcyc p hp h1
      exact ⟨p', g1, g2, by omega⟩
  obtain ⟨p, hp, _, h⟩ := hup (2 ^ 31)
  have := (hg.pageRange p hp).1
  unfold VoxelKey.InRange InI32 at this
  omega

/-- The sample file has no cycle, so every call on it ends, even on a failed stream. -/
example : ∃ r, Reader.init ⟨(Writer.close Sample.L Sample.ord Sample.w).2.base.out.data, 0, false⟩ = .ok r ∧
    NoCycle (Writer.close Sample.L Sample.ord Sample.w).2.base.out.data (rootPlace r) := by
  obtain ⟨ps, r, h1, _, _, h4, _⟩ := sample_written.facts
  refine ⟨r, h4.init, ?_⟩
  obtain ⟨q, hq, _, ho, hz⟩ := h4.root
  have hr := (h1.pageRange q hq).2.2
  have : rootPlace r = (q.offset, (q.size : Int)) := by
    unfold rootPlace
    rw [ho, hz]
    congr 1
    unfold signed
    rw [Nat.mod_eq_of_lt (by omega), if_pos (by omega)]
  rw [this]
  exact good_noCycle h1 hq

end Copc
