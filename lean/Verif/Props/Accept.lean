import Verif.Spec.Accept
import Verif.Props.Recompress
import Verif.Props.Filter
import Verif.Props.WriterReject
import Verif.Props.BoxSample
/-! # C74: a writer accepts exactly the good additions, and finds them -/
namespace Copc
open Spec VoxelKey

variable {L : Lazperf} {ord : Order}

theorem span_holds {o : OStream} {d blob : Bytes} (h : o.Holds d) : spanOf o blob = blob.length % 2 ^ 64 := by
  unfold spanOf
  rw [h.tellp, (h.write blob).tellp, List.length_append]
  generalize 2 ^ 64 = m
  rw [show d.length + blob.length + m - d.length = blob.length + m by omega, Nat.add_mod_right]

/-- On a writer whose stream is at the end of a file that is not empty. -/
theorem accept_any {w : Writer} {op : Op} {key page : VoxelKey} {blob d : Bytes} {n : Int}
    (ho : w.base.out.Holds d) (hd : 0 < d.length)
    (hf : w.cfg.header.fmt = 6 ∨ w.cfg.header.fmt = 7 ∨ w.cfg.header.fmt = 8)
    (hb : lasBaseSize w.cfg.header.fmt ≤ w.cfg.header.recLen.toNat)
    (hg : GoodAdd L w.cfg.header op key page blob n) :
    op.run L ord w = (.ok (some ⟨⟨key, d.length, blob.length, n⟩, page⟩),
      nodeAdded w page ⟨⟨key, d.length, blob.length, n⟩, page⟩ (chunkAdded w.base blob n)) := by
  have hsp : spanOf w.base.out blob = blob.length := by
    rw [span_holds ho, Nat.mod_eq_of_lt]
    have := hg.size
    omega
  have hcomp : (Op.addCompressed key blob n page).run L ord w =
      (.ok (some ⟨⟨key, d.length, blob.length, n⟩, page⟩),
      nodeAdded w page ⟨⟨key, d.length, blob.length, n⟩, page⟩ (chunkAdded w.base blob n)) := by
    have h := addCompressed_any L ord (key := key) (page := page) (bs := blob) (c := n) (w := w)
      ((isValid_iff _).2 hg.validKey) ((isValid_iff _).2 hg.validPage) ((childOf_iff _ _).2 ⟨hg.validKey, hg.below⟩) hg.points
      (by rw [ho.tellp]; omega) (by rw [hsp]; have := hg.size; omega)
    unfold nodeAt at h
    rw [hsp, ho.tellp] at h
    exact h
  have hpos : 0 < lasBaseSize w.cfg.header.fmt := by unfold lasBaseSize; split <;> [decide; split <;> decide]
  have raw : ∀ (bs : Bytes) eb (recs : List Bytes), w.cfg.header.ebSize = .ok eb → recs.flatten = bs →
      (∀ r ∈ recs, r.length = w.cfg.header.recLen.toNat) → blob = L.compress w.cfg.header.fmt eb recs →
      n = ((recs.length : Nat) : Int) → n * w.cfg.header.recLen.toNat ≤ 2147483647 →
      bs ≠ [] ∧ Writer.addNode L key bs page w = Writer.addNodeCompressed L key blob n page w := by
    intro bs eb recs h1 h2 h3 h4 h5 h6
    have hlen : recs.flatten.length = recs.length * w.cfg.header.recLen.toNat := by
      rw [List.length_flatten, List.map_congr_left h3, List.map_const', List.sum_replicate_nat]
    have hne : 0 < recs.length := by
      have := hg.points
      omega
    have hprod : 0 < recs.length * w.cfg.header.recLen.toNat := Nat.mul_pos hne (by omega)
    have hbs : bs ≠ [] := by
      rintro rfl
      rw [h2] at hlen
      simp only [List.length_nil] at hlen
      omega
    have hm : recs.flatten.length ≤ 2147483647 := by
      rw [hlen]
      rw [h5] at h6
      exact_mod_cast h6
    refine ⟨hbs, ?_⟩
    have hc := compress_records L hf hb h1 h3 hm
    subst h4 h5 h2
    exact (C56_same_as_add L hf hb hlen hbs hc key page).symm
  have ht := hg.target
  have hs := hg.stores
  have hfit := hg.fits
  cases op with
  | add k bs p =>
    obtain ⟨rfl, rfl⟩ : k = key ∧ p = page := by simpa [Op.target] using ht
    obtain ⟨eb, recs, h1, h2, h3, h4, h5⟩ := hs
    obtain ⟨_, he⟩ := raw bs eb recs h1 h2 h3 h4 h5 hfit
    rw [← hcomp]
    show (do let n ← Writer.addNode L k bs p; pure (some n) : Act Writer (Option Node)) w = _
    rw [Act.bind_apply, he, ← Act.bind_apply]
    rfl
  | addPoints k fmt len ps p =>
    obtain ⟨rfl, rfl⟩ : k = key ∧ p = page := by simpa [Op.target] using ht
    obtain ⟨bs, eb, recs, h0, h1, h2, h3, h4, h5⟩ := hs
    obtain ⟨f1, f2, f3⟩ := hfit
    obtain ⟨hbs, he⟩ := raw bs eb recs h1 h2 h3 h4 h5 f3
    have hps : ps ≠ [] := by
      rintro rfl
      exact hbs (Res.ok.inj h0).symm
    rw [← hcomp]
    show (do let n ← Writer.addNodePoints L k fmt len ps p; pure (some n) : Act Writer (Option Node)) w = _
    have hr : Writer.addNodePoints L k fmt len ps p w = Writer.addNode L k bs p w := by
      unfold Writer.addNodePoints
      rw [Act.bind_ok (Act.gets_apply _ _), Act.bind_ok (Act.throwIf_neg hps _ _),
        Act.bind_ok (Act.throwIf_neg (by rw [f1, f2]; simp) _ _), h0]
      exact Act.bind_ok (Act.lift_apply _ _)
    rw [Act.bind_apply, hr, he, ← Act.bind_apply]
    rfl
  | addCompressed k bs c p =>
    obtain ⟨rfl, rfl⟩ : k = key ∧ p = page := by simpa [Op.target] using ht
    obtain ⟨rfl, rfl⟩ := hs
    exact hcomp
  | move => simp [Op.target] at ht
  | close => simp [Op.target] at ht

section
variable {c : CopcConfig} {o : Writer.Overrides} {w0 w : Writer} {h : List (Op × Res (Option Node))}

theorem opened_base (hm : Writer.make OStream.fresh c o = .ok w0) (hh : History L ord w0 h w) (hu : Unclosed h) :
    w.base.out.Holds w.base.out.data ∧ 0 < w.base.out.data.length ∧ PublicEdit w0.cfg w.cfg := by
  obtain ⟨otpd, h1, h2⟩ := bInv_of_make hm
  obtain ⟨log, hi⟩ := wInv_history h1 h2 hh hu
  have hd := hi.base.out
  have he := hd.data
  refine ⟨by rw [he]; exact hd, by rw [he]; simp, hi.edit⟩

/-- C74. A good addition to a writer that was not closed returns the node, with its bytes at the end of the file as it
was, and `FindNode` then finds it. -/
theorem C74_accepted (hm : Writer.make OStream.fresh c o = .ok w0) (hc : Consistent w0.cfg)
    (hh : History L ord w0 h w) (hu : Unclosed h) {op : Op} {key page : VoxelKey} {blob : Bytes} {n : Int}
    (hg : GoodAdd L w.cfg.header op key page blob n) :
    ∃ w', op.run L ord w = (.ok (some ⟨⟨key, w.base.out.data.length, blob.length, n⟩, page⟩), w') ∧
      w'.base.out.data = w.base.out.data ++ blob ∧ w'.cfg = w.cfg ∧
      w'.findNode key = ⟨⟨key, w.base.out.data.length, blob.length, n⟩, page⟩ ∧
      w'.listing page key = some ⟨⟨key, w.base.out.data.length, blob.length, n⟩, page⟩ := by
  obtain ⟨ho, hp, hed⟩ := opened_base hm hh hu
  have hf : w.cfg.header.fmt = 6 ∨ w.cfg.header.fmt = 7 ∨ w.cfg.header.fmt = 8 := by rw [hed.fmt]; exact hc.fmt
  have hb : lasBaseSize w.cfg.header.fmt ≤ w.cfg.header.recLen.toNat := by rw [hed.fmt, hed.recLen, hc.len]; omega
  refine ⟨_, accept_any ho hp hf hb hg, (ho.write blob).data, rfl, ?_, ?_⟩
  · unfold Writer.findNode nodeAdded
    simp
  · unfold Writer.listing nodeAdded
    simp

/-- C74. Nothing else is accepted. -/
theorem C74_only (hm : Writer.make OStream.fresh c o = .ok w0) (hc : Consistent w0.cfg)
    (hh : History L ord w0 h w) (hu : Unclosed h) {op : Op} {node : Node} (hop : (op.run L ord w).1 = .ok (some node))
    (hl : (op.run L ord w).2.base.out.data.length < 2 ^ 63) :
    ∃ blob, GoodAdd L w.cfg.header op node.entry.key node.pageKey blob node.entry.pointCount := by
  obtain ⟨ho, hp, hed⟩ := opened_base hm hh hu
  have hf : w.cfg.header.fmt = 6 ∨ w.cfg.header.fmt = 7 ∨ w.cfg.header.fmt = 8 := by rw [hed.fmt]; exact hc.fmt
  have hb : lasBaseSize w.cfg.header.fmt ≤ w.cfg.header.recLen.toNat := by rw [hed.fmt, hed.recLen, hc.len]; omega
  have hpos : 0 < lasBaseSize w.cfg.header.fmt := by unfold lasBaseSize; split <;> [decide; split <;> decide]
  cases ht : op.target with
  | none =>
    exfalso
    cases op with
    | move k p =>
      obtain ⟨_, _, _, e⟩ := Act.bind_eq_ok.1 (show (do Writer.changeNodePage k p; pure none : Act Writer (Option Node)) w = (.ok (some node), _) from
        Prod.ext hop rfl)
      cases e
    | close =>
      obtain ⟨_, _, _, e⟩ := Act.bind_eq_ok.1 (show (do Writer.close L ord; pure none : Act Writer (Option Node)) w = (.ok (some node), _) from
        Prod.ext hop rfl)
      cases e
    | _ => cases ht
  | some kp =>
    obtain ⟨key, page⟩ := kp
    rcases add_any L ord ht w with ⟨_, h2⟩ | ⟨blob, n, hst, ⟨_, h2⟩ | ⟨hs, h2⟩⟩
    · exact absurd hop (h2 _)
    · rw [h2] at hop; cases hop
    · have hgood : ¬ BadAdd w.cfg.header op := by
        intro hbad
        obtain ⟨e, he⟩ := C28_rejected L ord op w hbad (by rw [hop]; simp)
        rw [he] at hop; cases hop
      rw [h2] at hop hl
      injection hop with hop
      injection hop with hop
      subst hop
      have hlen : blob.length < 2 ^ 63 := by
        change (w.base.out.write blob).data.length < 2 ^ 63 at hl
        rw [(ho.write blob).data, List.length_append] at hl
        omega
      rw [span_holds ho, Nat.mod_eq_of_lt (by omega)] at hs
      have hkey : Valid key ∧ Valid page := by
        by_contra hx
        exact hgood (.invalid ht (by tauto))
      have hbel : Below key page := by
        by_contra hx
        exact hgood (.outside ht hx)
      have recs_len : ∀ recs : List Bytes, (∀ r ∈ recs, r.length = w.cfg.header.recLen.toNat) →
          recs.flatten.length = recs.length * w.cfg.header.recLen.toNat := by
        intro recs h3
        rw [List.length_flatten, List.map_congr_left h3, List.map_const', List.sum_replicate_nat]
      refine ⟨blob, ht, hkey.1, hkey.2, hbel, hst, ?_, ?_, by omega⟩
      · change n ≠ 0
        rintro rfl
        cases op with
        | add k bs p =>
          obtain ⟨eb, recs, _, g2, _, _, g5⟩ := hst
          have : recs = [] := List.length_eq_zero_iff.1 (by omega)
          subst this
          subst g2
          exact hgood .noData
        | addPoints k fmt len ps p =>
          obtain ⟨bs, eb, recs, g0, _, g2, _, _, g5⟩ := hst
          have : recs = [] := List.length_eq_zero_iff.1 (by omega)
          subst this
          subst g2
          rcases addNodePoints_reduce L k fmt len ps p w with ⟨r, k1, k2⟩ | ⟨bs, k1, k2⟩
          · have : (Op.addPoints k fmt len ps p).run L ord w = (do let n ← Writer.addNodePoints L k fmt len ps p; pure (some n) : Act Writer (Option Node)) w := rfl
            rw [this] at h2
            obtain ⟨a, _, e1, _⟩ := Act.bind_eq_ok.1 h2
            rw [k1] at e1
            injection e1 with e1 _
            exact k2 a e1
          · have hbs : bs = [] := (Res.ok.inj (g0.symm.trans k1)).symm
            subst hbs
            have : (Op.addPoints k fmt len ps p).run L ord w = (do let n ← Writer.addNodePoints L k fmt len ps p; pure (some n) : Act Writer (Option Node)) w := rfl
            rw [this] at h2
            obtain ⟨a, _, e1, _⟩ := Act.bind_eq_ok.1 h2
            rw [k2] at e1
            unfold Writer.addNode at e1
            rw [Act.bind_ok (Act.gets_apply _ _), Act.bind_throw (Act.throwIf_pos rfl _ _)] at e1
            cases e1
        | addCompressed k bs c p =>
          obtain ⟨_, rfl⟩ := hst
          exact hgood .noCount
        | move => cases ht
        | close => cases ht
      · change op.Fits w.cfg.header n
        cases op with
        | add k bs p =>
          obtain ⟨eb, recs, _, g2, g3, _, g5⟩ := hst
          have : (Op.add k bs p).run L ord w = (do let n ← Writer.addNode L k bs p; pure (some n) : Act Writer (Option Node)) w := rfl
          rw [this] at h2
          obtain ⟨a, _, e1, _⟩ := Act.bind_eq_ok.1 h2
          have := addNode_small hf hb e1
          rw [← g2, recs_len recs g3] at this
          show n * _ ≤ _
          rw [g5]
          exact_mod_cast this
        | addPoints k fmt len ps p =>
          obtain ⟨bs, eb, recs, g0, _, g2, g3, _, g5⟩ := hst
          have : (Op.addPoints k fmt len ps p).run L ord w = (do let n ← Writer.addNodePoints L k fmt len ps p; pure (some n) : Act Writer (Option Node)) w := rfl
          rw [this] at h2
          obtain ⟨a, w1, e1, _⟩ := Act.bind_eq_ok.1 h2
          have hfl : fmt = w.cfg.header.fmt ∧ len = w.cfg.header.recLen.toNat := by
            by_contra hx
            exact hgood (.mismatch (by tauto))
          refine ⟨hfl.1, hfl.2, ?_⟩
          rcases addNodePoints_reduce L k fmt len ps p w with ⟨r, k1, k2⟩ | ⟨bs', k1, k2⟩
          · rw [k1] at e1
            injection e1 with e1 _
            exact absurd e1 (k2 a)
          · obtain rfl : bs = bs' := Res.ok.inj (g0.symm.trans k1)
            rw [k2] at e1
            have := addNode_small hf hb e1
            rw [← g2, recs_len recs g3] at this
            rw [g5]
            exact_mod_cast this
        | addCompressed k bs c p => trivial
        | move => cases ht
        | close => cases ht

/-- C74. At any time, also after `Close` and whatever the stream, `FindNode` of the writer returns the node that was
last added with the key. -/
theorem C74_find {out : OStream} (hm : Writer.make out c o = .ok w0) (hh : History L ord w0 h w) (k : VoxelKey) :
    w.findNode k = lastAdded h k := by
  have h0 : w0.findNode k = Node.empty := by
    unfold Writer.make at hm
    obtain ⟨c', _, hm⟩ := Res.bind_ok_iff.1 hm
    obtain ⟨n, _, hm⟩ := Res.bind_ok_iff.1 hm
    injection hm with hm
    subst hm
    rfl
  have same : ∀ {l : List (Op × Res (Option Node))} {op : Op} {r : Res (Option Node)}, (∀ n, r ≠ .ok (some n)) →
      lastAdded (l ++ [(op, r)]) k = lastAdded l k := by
    intro l op r hr
    unfold lastAdded
    rw [addedNodes_append', addedNodes_none hr, List.append_nil]
  induction hh with
  | start => rw [h0]; rfl
  | @call l u op _ _ ih =>
    cases ht : op.target with
    | none =>
      have hn : (op.run L ord u).2.nodes = u.nodes := by
        cases op with
        | move a b => rw [run_move]; exact (changeNodePage_frame a b u).2.2
        | close =>
          rw [run_close]
          exact congrArg (fun x => x.1.1) (keeps_close L ord u)
        | _ => cases ht
      have hr : ∀ n, (op.run L ord u).1 ≠ .ok (some n) := by
        intro n hn
        cases op with
        | move a b => rw [run_move] at hn; dsimp only at hn; cases hq : (Writer.changeNodePage a b u).1 <;> rw [hq] at hn <;> cases hn
        | close => rw [run_close] at hn; dsimp only at hn; cases hq : (Writer.close L ord u).1 <;> rw [hq] at hn <;> cases hn
        | _ => cases ht
      rw [same hr, ← ih]
      unfold Writer.findNode
      rw [hn]
    | some kp =>
      rcases add_hier L ord ht u with ⟨e1, e2⟩ | ⟨n, e1, e2, _, _, _, _, e3, _⟩
      · rw [same e2, ← ih]
        unfold Writer.findNode
        rw [show (op.run L ord u).2.nodes = u.nodes from congrArg Prod.fst e1]
      · unfold Writer.findNode at ih ⊢
        rw [e1, e3, AList.get_put]
        unfold lastAdded
        rw [addedNodes_append', List.filter_append]
        have ha : addedNodes [(op, Res.ok (some n))] = [n] := rfl
        rw [ha]
        by_cases hk : k = kp.1
        · rw [if_pos hk, List.filter_cons_of_pos (by simp [e2, hk])]
          simp
        · rw [if_neg hk, List.filter_cons_of_neg (by simp [e2]; exact fun h => hk h.symm)]
          simp only [List.filter_nil, List.append_nil]
          exact ih
  | edit _ _ ih => exact ih

end

/-- Two records added to the sample, which has three nodes already. -/
theorem accept_sample : GoodAdd Sample.L Sample.w.cfg.header (.add ⟨2, 3, 1, 2⟩ (recAt 1 2 3 ++ recAt 7 0 8) Sample.kA)
    ⟨2, 3, 1, 2⟩ Sample.kA (Sample.L.compress 6 1 [recAt 1 2 3, recAt 7 0 8]) 2 where
  target := rfl
  validKey := by decide
  validPage := by decide
  below := (childOf_iff _ _).1 (by decide +kernel) |>.2
  stores := by
    have h1 : Sample.w.cfg.header.ebSize = .ok 1 := by decide +kernel
    have h2 : Sample.w.cfg.header.recLen = 31 := by decide +kernel
    have h3 : Sample.w.cfg.header.fmt = 6 := by decide +kernel
    refine ⟨1, [recAt 1 2 3, recAt 7 0 8], h1, by decide, ?_, by rw [h3], by decide⟩
    rw [h2]; decide
  points := by decide
  fits := by
    have h2 : Sample.w.cfg.header.recLen = 31 := by decide +kernel
    show (2 : Int) * _ ≤ _
    rw [h2]; decide
  size := by decide +kernel

example : Writer.make OStream.fresh Sample.cfg {} = .ok Sample.w0 ∧ History Sample.L Sample.ord Sample.w0 Sample.hist Sample.w ∧
    Unclosed Sample.hist := ⟨Sample.made, Sample.history, Sample.unclosed⟩

end Copc
