import Verif.Props.MpFile
import Verif.Props.MpLaz
import Verif.Props.BoxSample
/-!
# C49: runs exist, and the hypotheses can be met
-/
namespace Copc
open Spec Mp VoxelKey

/-- Under the hypotheses of `C49_written`, there are runs for every chunk size. -/
theorem C49_runs {L : Lazperf} {ord : Order} {c : CopcConfig} {o : Writer.Overrides} {w0 w : Writer}
    {h0 : List (Op × Res (Option Node))} {r : Reader} {f : Node → List Point → Res (List Point)} (update : Bool)
    {nodes : List Node} {size : Int} {qs : Node → List Point} {blob : Node → Bytes}
    (hm : Writer.make OStream.fresh c o = .ok w0) (hh : History L ord w0 h0 w) (hu : Unclosed h0)
    (hr : r.h.str.fail = false) (hb : ∀ n ∈ nodes, Becomes L r f w.cfg.header n (qs n) (blob n))
    (ha : ∀ n ∈ nodes, Addable n.entry.key n.pageKey) (hs : 0 < size) :
    ∃ w', Transform L f update r nodes size w (.ok ()) w' := by
  obtain ⟨otpd, h1, h2⟩ := bInv_of_make hm
  obtain ⟨cs, e1, e2⟩ := chunks_flatten nodes hs
  obtain ⟨h, w1, a1, _⟩ := absorb_history (L := L) (ord := ord) h1 h2 (qs := qs) (blob := blob)
    (update := update) nodes w [] h0 hh hu fun n hn => ⟨ha n hn, (hb n hn).small.1.1⟩
  exact ⟨_, .ok e1 (poolRun_exists (r := r) (g := fun n =>
    (⟨blob n, n, (qs n).length, if update then bounds (qs n) else none⟩ : TaskResult)) cs _ _ _
    (fun n hn => pool_steady hr (hb n (by rw [← e2]; exact hn))) (fun _ => Fresh.refl hr) (by rw [e2]; exact a1))⟩

/-- A chunk size of zero raises an exception, and a negative one processes no node at all. -/
theorem C49_chunk_size (nodes : List Node) {size : Int} (h : size ≤ 0) :
    chunks nodes size = if size = 0 then none else some [] := by
  unfold chunks
  split
  · rfl
  · rw [if_pos (by omega)]

/-- A computation of what becomes of a node. -/
def becomes (L : Lazperf) (f : Node → List Point → Res (List Point)) (hd : LasHeader) (n : Node) (r : Reader) :
    Option (List Point × Bytes) :=
  match (Reader.getPoints L n r).1 with
  | .ok ps => match f n ps with
    | .ok qs => match packPoints qs hd.scale hd.offset, hd.ebSize with
      | .ok bs, .ok eb =>
        let recs := BaseW.cut hd.recLen.toNat qs.length bs
        let blob := L.compress hd.fmt eb recs
        if bs.length = qs.length * hd.recLen.toNat ∧ blob.length ≤ 2147483647 ∧
            qs.length * hd.recLen.toNat ≤ 2147483647 ∧ 0 < hd.recLen.toNat then some (qs, blob)
        else none
      | _, _ => none
    | _ => none
  | _ => none

theorem becomes_sound {L : Lazperf} {f : Node → List Point → Res (List Point)} {hd : LasHeader} {n : Node} {r : Reader}
    {qs : List Point} {blob : Bytes} (h : becomes L f hd n r = some (qs, blob)) : Becomes L r f hd n qs blob := by
  unfold becomes at h
  split at h
  · rename_i ps hps
    split at h
    · rename_i qs' hqs
      split at h
      · rename_i bs eb hbs heb
        simp only at h
        split at h
        · rename_i hc
          obtain ⟨hl, h1, h2, h3⟩ := hc
          obtain ⟨rfl, rfl⟩ := Prod.mk.inj (Option.some.inj h)
          refine ⟨⟨ps, ⟨(Reader.getPoints L n r).2, Prod.ext hps rfl⟩, hqs⟩, ?_, ⟨⟨h1, h2⟩, h3⟩⟩
          obtain ⟨c1, c2, c3⟩ := cut_flatten hd.recLen.toNat qs'.length bs hl
          exact ⟨bs, eb, _, hbs, heb, c1, c2, rfl, by rw [c3]⟩
        · cases h
      · cases h
    · cases h
  · cases h

namespace MpSample

/-- Leaves the points of all nodes but the root, which loses all its points. -/
def f (n : Node) (ps : List Point) : Res (List Point) := .ok (if n = BoxFile.root then [] else ps)

theorem becomes_root : BoxFile.reader.map (fun r => (becomes Sample.L f BoxFile.w0.cfg.header BoxFile.root r).map
    fun x => (x.1.length, x.2.length)) = some (some (0, 0)) := by decide +kernel

theorem becomes_child : BoxFile.reader.map (fun r => (becomes Sample.L f BoxFile.w0.cfg.header BoxFile.child r).map
    fun x => (x.1.length, x.2.length)) = some (some (3, 93)) := by decide +kernel

theorem valid : (∀ n ∈ [BoxFile.root, BoxFile.child], n.entry.key.isValid = true ∧ n.pageKey.isValid = true ∧
    n.entry.key.childOf n.pageKey = true) := by decide

end MpSample

/-- A transform of the sample file that removes all points of the root: the hypotheses are met, there are runs, and
each writes the child only. -/
example : ∃ (r : Reader) (qs : Node → List Point) (blob : Node → Bytes) (w' : Writer), BoxFile.reader = some r ∧
    (qs BoxFile.root).length = 0 ∧ (qs BoxFile.child).length = 3 ∧
    Transform Sample.L MpSample.f true r [BoxFile.root, BoxFile.child] 1 BoxFile.w0 (.ok ()) w' ∧
    ∃ h, History Sample.L Sample.ord BoxFile.w0 h w' ∧
      h.map (·.1) = [Op.addCompressed BoxFile.child.entry.key (blob BoxFile.child) 3 BoxFile.child.pageKey] := by
  obtain ⟨ps, r, _, _, g4, _⟩ := boxFile_ok
  have hr : BoxFile.reader = some r := by unfold BoxFile.reader; rw [g4.init]
  have a1 := MpSample.becomes_root
  have a2 := MpSample.becomes_child
  rw [hr] at a1 a2
  obtain ⟨⟨q1, b1⟩, h1, l1⟩ := Option.map_eq_some_iff.1 (Option.some.inj a1)
  obtain ⟨⟨q2, b2⟩, h2, l2⟩ := Option.map_eq_some_iff.1 (Option.some.inj a2)
  obtain ⟨l1, _⟩ := Prod.mk.inj l1
  obtain ⟨l2, _⟩ := Prod.mk.inj l2
  simp only at l1 l2
  obtain rfl := List.length_eq_zero_iff.1 l1
  let qs : Node → List Point := fun n => if n = BoxFile.root then [] else q2
  let blob : Node → Bytes := fun n => if n = BoxFile.root then b1 else b2
  have hne : BoxFile.child ≠ BoxFile.root := by decide
  have hb : ∀ n ∈ [BoxFile.root, BoxFile.child], Becomes Sample.L r MpSample.f BoxFile.w0.cfg.header n (qs n) (blob n) := by
    intro n hn
    rcases List.mem_cons.1 hn with rfl | hn
    · simp only [qs, blob, if_true]
      exact becomes_sound h1
    · obtain rfl := List.mem_singleton.1 hn
      simp only [qs, blob, if_neg hne]
      exact becomes_sound h2
  have ha : ∀ n ∈ [BoxFile.root, BoxFile.child], Addable n.entry.key n.pageKey := by
    intro n hn
    obtain ⟨v1, v2, v3⟩ := MpSample.valid n hn
    exact ⟨(isValid_iff _).1 v1, (isValid_iff _).1 v2, ((childOf_iff _ _).1 v3).2⟩
  obtain ⟨w', ht⟩ := C49_runs (ord := Sample.ord) (size := 1) true BoxFile.made .start (by intro x hx; simp at hx) g4.good hb ha (by decide)
  obtain ⟨_, h, e1, e2, _⟩ := C49_written (ord := Sample.ord) BoxFile.made .start (by intro x hx; simp at hx) g4.good hb ha
    (by decide) ht
  refine ⟨r, qs, blob, w', hr, by simp [qs], by simp only [qs, if_neg hne]; exact l2, ht, h, by simpa using e1, ?_⟩
  have hf : [BoxFile.root, BoxFile.child].filter (fun n => decide (qs n ≠ [])) = [BoxFile.child] := by
    rw [List.filter_cons_of_neg (by simp [qs]), List.filter_cons_of_pos]
    · rfl
    · simp only [qs, if_neg hne, decide_eq_true_eq]
      intro e
      rw [e] at l2
      simp at l2
  rw [hf] at e2
  have hl : (qs BoxFile.child).length = 3 := by simp only [qs, if_neg hne]; exact l2
  have := List.perm_singleton.1 e2
  rw [this]
  show [Op.addCompressed _ _ (((qs BoxFile.child).length : Nat) : Int) _] = _
  rw [hl]
  rfl

end Copc
