import Verif.Props.OutputFail
import Verif.Props.WriterChunks
import Verif.Lemmas.Entry
import Verif.Lemmas.WriterTree
/-!
# C48: a node is never mistaken for a page
-/
namespace Copc
open Spec VoxelKey

/-- The 32 bytes that are stored for a node are read back as that entry and as a node, not a page, for every
node added by any history, unless it was added in compressed form with the point count -1 (see
`C48_count_violated`). The keys and the count are `int32_t`, the file is smaller than 2^63 bytes. -/
theorem C48_node_partial {L : Lazperf} {ord : Order} {c : CopcConfig} {o : Writer.Overrides} {w0 w : Writer}
    {h : List (Op × Res (Option Node))} (hm : Writer.make OStream.fresh c o = .ok w0)
    (hh : History L ord w0 h w) (hu : Unclosed h) (hlen : w.base.out.data.length < 2 ^ 63)
    {op : Op} {n : Node} (hn : (op, Res.ok (some n)) ∈ h) (hk : n.entry.key.InRange)
    (hc : InI32 n.entry.pointCount) (hone : ∀ k bs p, op ≠ .addCompressed k bs (-1) p) (pre rest : Bytes) :
    (Entry.unpackValid ⟨pre ++ (n.entry.pack ++ rest), pre.length, false⟩).1 = .ok n.entry ∧
    n.entry.isPage = false := by
  obtain ⟨otpd, h1, h2⟩ := bInv_of_make hm
  obtain ⟨log, hi⟩ := wInv_history h1 h2 hh hu
  have hst := (C27_stored hm hh hu hlen hn).1
  obtain ⟨l1, l2, blob, c, key, page, rfl, hs, ht, hb, rfl⟩ := hi.logged.node_in hn
  obtain ⟨_, blob', hs', hsz, hfit, _⟩ := hst
  have hv : key.isValid = true := by
    have hx := add_hier L ord ht
    have : ∀ {h log}, Logged L w0.cfg.header (otpd + 8) h log → ∀ op n, (op, Res.ok (some n)) ∈ h →
        n.entry.key.isValid = true := by
      intro h log hl
      induction hl with
      | nil => intro op n hm; cases hm
      | skip hl hr ih =>
        intro op n hm
        rcases List.mem_append.1 hm with hm | hm
        · exact ih op n hm
        · have he := List.mem_singleton.1 hm
          injection he with _ he
          exact absurd he.symm (hr n)
      | large hl hs hlen ih =>
        intro op n hm
        rcases List.mem_append.1 hm with hm | hm
        · exact ih op n hm
        · have he := List.mem_singleton.1 hm
          injection he with _ he
          cases he
      | node hl hs ht hk hp hcd hlen ih =>
        intro op n hm
        rcases List.mem_append.1 hm with hm | hm
        · exact ih op n hm
        · have he := List.mem_singleton.1 hm
          injection he with _ he
          injection he with he
          injection he with he
          rw [he]; exact hk
    exact this hi.logged _ _ hn
  have hvalid : (nodeOf key page (otpd + 8 + (chunkData l1).length) blob c).entry.isValid = true := by
    unfold Entry.isValid nodeOf
    simp only [hv, Bool.and_true, decide_eq_true_eq]
    omega
  have hrange : (nodeOf key page (otpd + 8 + (chunkData l1).length) blob c).entry.InRange := by
    refine ⟨hk, ?_, ?_, hc⟩
    · show otpd + 8 + (chunkData l1).length < 2 ^ 64
      have : (nodeOf key page (otpd + 8 + (chunkData l1).length) blob c).entry.offset =
        otpd + 8 + (chunkData l1).length := rfl
      rw [this] at hfit
      omega
    · unfold InI32 nodeOf
      simp only
      omega
  refine ⟨by rw [Entry.unpackValid_pack hrange hvalid], ?_⟩
  unfold Entry.isPage
  rw [hvalid, Bool.true_and, decide_eq_false_iff_not]
  show c ≠ -1
  cases op with
  | add k bs p =>
    obtain ⟨eb, recs, _, _, _, _, rfl⟩ := hs
    omega
  | addPoints k fmt len ps p =>
    obtain ⟨bs, eb, recs, _, _, _, _, _, rfl⟩ := hs
    omega
  | addCompressed k bs n p =>
    obtain ⟨_, rfl⟩ := hs
    rintro rfl
    exact hone _ _ _ rfl
  | _ => cases hs

/-- The entry written for a page is read back as a page. -/
theorem C48_page {k : VoxelKey} {off size : Nat} (hk : Valid k) (hr : k.InRange) (ho : off < 2 ^ 64)
    (hs : size ≤ 2147483647) {placed : List (VoxelKey × (Nat × Nat))}
    (hp : AList.get k placed = some (off, size)) (pre rest : Bytes) :
    (Entry.unpackValid ⟨pre ++ ((Writer.pageEntry placed k).pack ++ rest), pre.length, false⟩).1 =
      .ok ⟨k, off, size, -1⟩ ∧ (⟨k, off, size, -1⟩ : Entry).isPage = true := by
  have he : Writer.pageEntry placed k = ⟨k, off, size, -1⟩ := by unfold Writer.pageEntry; rw [hp]
  have hv : (⟨k, off, size, -1⟩ : Entry).isValid = true := by
    unfold Entry.isValid
    simp only [(isValid_iff k).2 hk, Bool.and_true, decide_eq_true_eq]
    omega
  have hrange : (⟨k, off, size, -1⟩ : Entry).InRange :=
    ⟨hr, ho, by unfold InI32; simp only; omega, by unfold InI32; simp only; omega⟩
  rw [he, Entry.unpackValid_pack hrange hv]
  refine ⟨rfl, ?_⟩
  unfold Entry.isPage
  rw [hv]; rfl

/-- The full claim is false: on a writer with any history, a compressed node with point count -1 is accepted
and its entry is that of a page. -/
theorem C48_count_violated {L : Lazperf} {ord : Order} {c : CopcConfig} {o : Writer.Overrides} {w0 w : Writer}
    {h : List (Op × Res (Option Node))} (hm : Writer.make OStream.fresh c o = .ok w0)
    (hh : History L ord w0 h w) (hu : Unclosed h) {key page : VoxelKey} {bs : Bytes}
    (hk : Valid key) (hp : Valid page) (hb : Below key page) (hs : bs.length ≤ 2147483647) :
    ∃ n, ((Op.addCompressed key bs (-1) page).run L ord w).1 = .ok (some n) ∧ n.entry.isPage = true := by
  obtain ⟨otpd, h1, h2⟩ := bInv_of_make hm
  obtain ⟨log, hi⟩ := wInv_history h1 h2 hh hu
  have hd := hi.base.out
  have ht : w.base.out.tellp = otpd + 8 + (chunkData log).length := by rw [hd.tellp]; simp
  have hsp : spanOf w.base.out bs = bs.length := by
    unfold spanOf
    rw [ht, (hd.write bs).tellp]
    simp only [List.length_append, List.length_replicate]
    omega
  have := addCompressed_any L ord (w := w) (bs := bs) ((isValid_iff key).2 hk) ((isValid_iff page).2 hp)
    ((childOf_iff _ _).2 ⟨hk, hb⟩) (by omega : (-1 : Int) ≠ 0) (by rw [ht]; omega) (by rw [hsp]; omega)
  rw [this]
  refine ⟨_, rfl, ?_⟩
  unfold nodeAt Entry.isPage Entry.isValid
  simp only [(isValid_iff key).2 hk, Bool.and_true, decide_true, decide_eq_true_eq]
  omega

/-- A node of the sample meets the premises. -/
example : ∃ op n, (op, Res.ok (some n)) ∈ Sample.hist ∧ n.entry.key.InRange ∧ InI32 n.entry.pointCount ∧
    ∀ k bs p, op ≠ .addCompressed k bs (-1) p := by
  refine ⟨.addCompressed Sample.kA [1, 2, 3] 5 Sample.kA, ⟨⟨Sample.kA, 1593, 3, 5⟩, Sample.kA⟩, ?_,
    by decide, by decide, by intro k bs p h; injection h with _ _ h; cases h⟩
  have h1 : Sample.hist.map (·.1) = Sample.ops := by rfl
  have h : Sample.hist = Sample.ops.zip (Sample.hist.map (·.2)) := by
    rw [← h1]
    generalize Sample.hist = l
    induction l with
    | nil => rfl
    | cons a l ih => simp only [List.map_cons, List.zip_cons_cons]; rw [← ih]
  rw [h, Sample.outcomes]
  exact List.mem_of_getElem? (i := 1) rfl

end Copc
