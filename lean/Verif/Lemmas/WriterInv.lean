import Verif.Lemmas.WriterHier
/-! # Invariants of nodes and pages -/
namespace Copc
open Spec VoxelKey

/-! ### What holds after any history -/

/-- Pages and nodes are well formed. -/
structure PageInv (w : Writer) : Prop where
  nodup : (AList.keys w.pages).Nodup
  root : VoxelKey.root ∈ AList.keys w.pages
  page : ∀ p ∈ w.pages, Valid p.1 ∧ (AList.keys p.2).Nodup ∧
    ∀ x ∈ p.2, x.2.entry.key = x.1 ∧ Valid x.1 ∧ Below x.1 p.1
  nodesNodup : (AList.keys w.nodes).Nodup
  node : ∀ x ∈ w.nodes, x.2.entry.key = x.1 ∧ Valid x.1

theorem PageInv.congr {w w' : Writer} (h : PageInv w) (e : hierOf w' = hierOf w) : PageInv w' := by
  unfold hierOf at e
  injection e with e1 e2
  constructor
  · rw [e2]; exact h.nodup
  · rw [e2]; exact h.root
  · rw [e2]; exact h.page
  · rw [e1]; exact h.nodesNodup
  · rw [e1]; exact h.node

theorem mem_of_getD {κ α : Type} [DecidableEq κ] {k : κ} {l : List (κ × List α)} {x : α}
    (h : x ∈ (AList.get k l).getD []) : ∃ v, (k, v) ∈ l ∧ x ∈ v := by
  cases hg : AList.get k l with
  | none => rw [hg] at h; cases h
  | some v => rw [hg] at h; exact ⟨v, AList.mem_of_get hg, h⟩

/-- The nodes of a page after a node has been put into it. -/
theorem pageOk_put {w : Writer} (h : PageInv w) {key page : VoxelKey} {n : Node} (hk : n.entry.key = key)
    (hv : Valid key) (hp : Valid page) (hb : Below key page) :
    ∀ p ∈ AList.put page (AList.put key n ((AList.get page w.pages).getD [])) w.pages,
      Valid p.1 ∧ (AList.keys p.2).Nodup ∧ ∀ x ∈ p.2, x.2.entry.key = x.1 ∧ Valid x.1 ∧ Below x.1 p.1 := by
  intro p hpm
  rcases (AList.mem_put h.nodup).1 hpm with rfl | ⟨hm, _⟩
  · have hns : (AList.keys ((AList.get page w.pages).getD [])).Nodup := by
      cases hg : AList.get page w.pages with
      | none => exact List.nodup_nil
      | some v => exact (h.page _ (AList.mem_of_get hg)).2.1
    refine ⟨hp, AList.nodup_put hns, ?_⟩
    intro x hx
    rcases (AList.mem_put hns).1 hx with rfl | ⟨hm, _⟩
    · exact ⟨hk, hv, hb⟩
    · obtain ⟨v, h1, h2⟩ := mem_of_getD hm
      exact (h.page _ h1).2.2 x h2
  · exact h.page p hm

theorem pageInv_make {c : CopcConfig} {o : Writer.Overrides} {out : OStream} {w : Writer}
    (h : Writer.make out c o = .ok w) : PageInv w := by
  unfold Writer.make at h
  cases h1 : Writer.initConfig c o with
  | throw e => rw [h1] at h; cases h
  | ub => rw [h1] at h; cases h
  | ok c' =>
    rw [h1, Res.okBind] at h
    cases h2 : Writer.offsetToPointData c' with
    | throw e => rw [h2] at h; cases h
    | ub => rw [h2] at h; cases h
    | ok n =>
      rw [h2, Res.okBind] at h
      injection h with h
      subst h
      refine ⟨by simp [AList.keys], by simp [AList.keys], ?_, by simp [AList.keys], by simp⟩
      intro p hp
      rw [List.mem_singleton] at hp
      subst hp
      exact ⟨by decide, List.nodup_nil, by simp⟩

/-- The move of a known node to another page. -/
theorem changeNodePage_eq {key page : VoxelKey} {w : Writer} {n : Node} (hk : Valid key) (hp : Valid page)
    (hg : AList.get key w.nodes = some n) (hb : Below key page) :
    Writer.changeNodePage key page w = if n.pageKey = page then (.ok (), w) else
      Writer.leavePage n.pageKey key { w with
        pages := AList.put page (AList.put key n ((AList.get page w.pages).getD [])) w.pages } := by
  unfold Writer.changeNodePage
  have h1 : ¬ key.isValid = false := by rw [isValid_false_iff]; exact not_not.2 hk
  have h2 : ¬ page.isValid = false := by rw [isValid_false_iff]; exact not_not.2 hp
  have h3 : ¬ key.childOf page = false := by
    rw [(childOf_iff key page).2 ⟨hk, hb⟩]; simp
  rw [Act.bind_ok (Act.throwIf_neg h1 _ _), Act.bind_ok (Act.throwIf_neg h2 _ _),
    Act.bind_ok (Act.gets_apply _ _)]
  simp only [id, hg]
  rw [Act.bind_ok (Act.throwIf_neg h3 _ _)]
  by_cases h4 : n.pageKey = page
  · rw [if_pos h4, if_pos h4]; rfl
  · rw [if_neg h4, if_neg h4]
    obtain ⟨_, w1, e1, e2⟩ := Act.bind_eq_ok.1 (ensure_add page key n w)
    rw [Act.bind_ok e1, Act.bind_ok e2]

/-- Moves that must be rejected. -/
theorem changeNodePage_rejects {key page : VoxelKey} {w : Writer}
    (h : ¬ Valid key ∨ ¬ Valid page ∨ AList.get key w.nodes = none ∨ ¬ Below key page) :
    ∃ e, Writer.changeNodePage key page w = (.throw e, w) := by
  unfold Writer.changeNodePage
  by_cases h1 : key.isValid = false
  · exact ⟨_, Act.bind_throw (Act.throwIf_pos h1 _ _)⟩
  rw [Act.bind_ok (Act.throwIf_neg h1 _ _)]
  by_cases h2 : page.isValid = false
  · exact ⟨_, Act.bind_throw (Act.throwIf_pos h2 _ _)⟩
  rw [Act.bind_ok (Act.throwIf_neg h2 _ _), Act.bind_ok (Act.gets_apply _ _)]
  cases hg : AList.get key w.nodes with
  | none => simp only [id, hg]; exact ⟨_, rfl⟩
  | some n =>
    simp only [id, hg]
    by_cases h3 : key.childOf page = false
    · exact ⟨_, Act.bind_throw (Act.throwIf_pos h3 _ _)⟩
    · exfalso
      rw [isValid_false_iff, not_not] at h1 h2
      rcases h with h | h | h | h
      · exact h h1
      · exact h h2
      · rw [hg] at h; cases h
      · exact h ((childOf_iff _ _).1 (by simpa using h3)).2

theorem changeNodePage_cases (key page : VoxelKey) (w : Writer) :
    (∃ e, Writer.changeNodePage key page w = (.throw e, w)) ∨
    ∃ n, Valid key ∧ Valid page ∧ Below key page ∧ AList.get key w.nodes = some n := by
  by_cases h : ¬ Valid key ∨ ¬ Valid page ∨ AList.get key w.nodes = none ∨ ¬ Below key page
  · exact .inl (changeNodePage_rejects h)
  · right
    rw [not_or, not_or, not_or, not_not, not_not, not_not] at h
    obtain ⟨h1, h2, h3, h4⟩ := h
    cases hg : AList.get key w.nodes with
    | none => exact absurd hg h3
    | some n => exact ⟨n, h1, h2, h4, rfl⟩

theorem pageInv_leave {w : Writer} (h : PageInv w) (old key : VoxelKey) : PageInv (Writer.leavePage old key w).2 := by
  unfold Writer.leavePage
  cases hg : AList.get old w.pages with
  | none => exact h
  | some ns =>
    dsimp only
    split
    · rename_i hc
      refine ⟨AList.nodup_del h.nodup, AList.mem_keys_del.2 ⟨h.root, Ne.symm hc.1⟩, ?_, h.nodesNodup, h.node⟩
      intro p hp
      exact h.page p (AList.mem_del.1 hp).1
    · refine ⟨AList.nodup_put h.nodup, AList.mem_keys_put.2 (.inr h.root), ?_, h.nodesNodup, h.node⟩
      intro p hp
      have ho := h.page _ (AList.mem_of_get hg)
      rcases (AList.mem_put h.nodup).1 hp with rfl | ⟨hm, _⟩
      · exact ⟨ho.1, AList.nodup_del ho.2.1, fun x hx => ho.2.2 x (AList.mem_del.1 hx).1⟩
      · exact h.page p hm

theorem run_move (L : Lazperf) (ord : Order) (k p : VoxelKey) (w : Writer) :
    (Op.move k p).run L ord w = ((Writer.changeNodePage k p w).1.bind fun _ => .ok none,
      (Writer.changeNodePage k p w).2) := by
  simp only [Op.run, Act.bind_apply]
  rcases Writer.changeNodePage k p w with ⟨r, s⟩
  cases r <;> rfl

theorem run_close (L : Lazperf) (ord : Order) (w : Writer) :
    Op.close.run L ord w = ((Writer.close L ord w).1.bind fun _ => .ok none, (Writer.close L ord w).2) := by
  simp only [Op.run, Act.bind_apply]
  rcases Writer.close L ord w with ⟨r, s⟩
  cases r <;> rfl

theorem pageInv_call {L : Lazperf} {ord : Order} {w : Writer} (h : PageInv w) (op : Op) :
    PageInv (op.run L ord w).2 := by
  cases ht : op.target with
  | some t =>
    obtain ⟨key, page⟩ := t
    rcases add_hier L ord ht w with ⟨e, _⟩ | ⟨n, _, hk, hpk, hv, hp, hb, e1, e2⟩
    · exact h.congr e
    · refine ⟨?_, ?_, ?_, ?_, ?_⟩
      · rw [e2]; exact AList.nodup_put h.nodup
      · rw [e2]; exact AList.mem_keys_put.2 (.inr h.root)
      · rw [e2]; exact pageOk_put h hk hv hp hb
      · rw [e1]; exact AList.nodup_put h.nodesNodup
      · rw [e1]
        intro x hx
        rcases (AList.mem_put h.nodesNodup).1 hx with rfl | ⟨hm, _⟩
        · exact ⟨hk, hv⟩
        · exact h.node x hm
  | none =>
    cases op with
    | move key page =>
      rw [run_move]
      dsimp only
      rcases changeNodePage_cases key page w with ⟨e, he⟩ | ⟨n, hk, hp, hb, hg⟩
      · rw [he]; exact h
      · rw [changeNodePage_eq hk hp hg hb]
        split
        · exact h
        · have hn := h.node _ (AList.mem_of_get hg)
          refine pageInv_leave (w := { w with
            pages := AList.put page (AList.put key n ((AList.get page w.pages).getD [])) w.pages }) ?_ _ _
          exact ⟨AList.nodup_put h.nodup, AList.mem_keys_put.2 (.inr h.root),
            pageOk_put h hn.1 hk hp hb, h.nodesNodup, h.node⟩
    | close =>
      rw [run_close]
      dsimp only
      have := keeps_close L ord w
      unfold keptParts at this
      injection this with h1 h2
      exact h.congr h1
    | _ => simp [Op.target] at ht

theorem pageInv_history {L : Lazperf} {ord : Order} {w0 w : Writer} {h} (hi : PageInv w0)
    (hh : History L ord w0 h w) : PageInv w := by
  induction hh with
  | start => exact hi
  | call op hh hub ih => exact pageInv_call ih op
  | edit hh he ih => exact ih.congr rfl

/-! ### Listings -/

theorem listing_put {w : Writer} (page key p k : VoxelKey) (n : Node) :
    ({ w with pages := AList.put page (AList.put key n ((AList.get page w.pages).getD [])) w.pages } : Writer).listing p k
      = if p = page ∧ k = key then some n else w.listing p k := by
  unfold Writer.listing
  dsimp only
  rw [AList.get_put]
  by_cases h : p = page
  · subst h
    simp only [if_true, Option.bind_some, AList.get_put, true_and]
    by_cases h2 : k = key
    · simp [h2]
    · simp only [if_neg h2]
      cases AList.get p w.pages <;> rfl
  · simp [h]

theorem leavePage_listing {w : Writer} {old key : VoxelKey} {ns : WPage}
    (hg : AList.get old w.pages = some ns) :
    (Writer.leavePage old key w).1 = .ok () ∧
    (∀ p k, (Writer.leavePage old key w).2.listing p k =
      if p = old ∧ k = key then none else w.listing p k) ∧
    (∀ p, p ∈ AList.keys (Writer.leavePage old key w).2.pages ↔
      p ∈ AList.keys w.pages ∧ ¬ (p = old ∧ old ≠ VoxelKey.root ∧ AList.del key ns = [])) := by
  unfold Writer.leavePage
  rw [hg]
  dsimp only
  have hdel : AList.del key ns = [] → ∀ k, k ≠ key → AList.get k ns = none := by
    intro he k hk
    have := AList.get_del key k ns
    rw [he, if_neg hk] at this
    exact this.symm
  split
  · rename_i hc
    refine ⟨rfl, ?_, ?_⟩
    · intro p k
      unfold Writer.listing
      dsimp only
      rw [AList.get_del]
      by_cases h : p = old
      · subst h
        simp only [if_true, Option.bind_none, true_and, hg, Option.bind_some]
        by_cases h2 : k = key
        · simp [h2]
        · rw [if_neg h2, hdel hc.2 k h2]
      · simp [h]
    · intro p
      rw [AList.mem_keys_del]
      constructor
      · rintro ⟨h1, h2⟩; exact ⟨h1, fun h => h2 h.1⟩
      · rintro ⟨h1, h2⟩; exact ⟨h1, fun h => h2 ⟨h, hc.1, hc.2⟩⟩
  · rename_i hc
    refine ⟨rfl, ?_, ?_⟩
    · intro p k
      unfold Writer.listing
      dsimp only
      rw [AList.get_put]
      by_cases h : p = old
      · subst h
        simp only [if_true, Option.bind_some, true_and, hg, AList.get_del]
      · simp [h]
    · intro p
      rw [AList.mem_keys_put]
      have hk : old ∈ AList.keys w.pages := AList.mem_keys (AList.mem_of_get hg)
      constructor
      · rintro (rfl | h1)
        · exact ⟨hk, fun h => hc h.2⟩
        · exact ⟨h1, fun h => hc h.2⟩
      · rintro ⟨h1, _⟩; exact .inr h1

/-- The writer's pages list exactly the nodes a history should have put there. -/
structure HInv (h : List (Op × Res (Option Node))) (w : Writer) : Prop where
  nodes : ∀ k n, AList.get k w.nodes = some n ↔ n ∈ addedNodes h ∧ n.entry.key = k
  listed : ∀ p k n, w.listing p k = some n ↔ n ∈ addedNodes h ∧ n.entry.key = k ∧ finalPage h n = p
  pages : ∀ p, p ∈ AList.keys w.pages ↔ p = VoxelKey.root ∨ ∃ n ∈ addedNodes h, finalPage h n = p
  moved : ∀ k, movedTo h k ≠ [] → ∃ n ∈ addedNodes h, n.entry.key = k

theorem movedTo_append (a b : List (Op × Res (Option Node))) (k : VoxelKey) :
    movedTo (a ++ b) k = movedTo a k ++ movedTo b k := by simp [movedTo]

theorem movedTo_other {op : Op} {r : Res (Option Node)} (h : (∀ k p, op ≠ .move k p) ∨ ∀ a, r ≠ .ok a)
    (k : VoxelKey) : movedTo [(op, r)] k = [] := by
  unfold movedTo
  rw [List.filterMap_cons, List.filterMap_nil]
  cases op with
  | move k' p =>
    cases r with
    | ok a => exact h.elim (fun h => absurd rfl (h k' p)) fun h => absurd rfl (h a)
    | throw e => rfl
    | ub => rfl
  | _ => rfl

theorem finalPage_same {a b : List (Op × Res (Option Node))} {n : Node} (h : movedTo b n.entry.key = []) :
    finalPage (a ++ b) n = finalPage a n := by
  unfold finalPage; rw [movedTo_append, h, List.append_nil]

theorem addedNodes_append' (a b : List (Op × Res (Option Node))) :
    addedNodes (a ++ b) = addedNodes a ++ addedNodes b := by simp [addedNodes]

theorem addedNodes_none {op : Op} {r : Res (Option Node)} (h : ∀ n, r ≠ .ok (some n)) :
    addedNodes [(op, r)] = [] := by
  cases r with
  | ok a => cases a with
    | none => rfl
    | some n => exact absurd rfl (h n)
  | throw e => rfl
  | ub => rfl

/-- Steps that leave nodes and pages alone and are neither additions nor moves that returned. -/
theorem HInv.idle {h : List (Op × Res (Option Node))} {w w' : Writer} (hi : HInv h w)
    (e : hierOf w' = hierOf w) {op : Op} {r : Res (Option Node)} (h1 : ∀ n, r ≠ .ok (some n))
    (h2 : (∀ k p, op ≠ .move k p) ∨ ∀ a, r ≠ .ok a) : HInv (h ++ [(op, r)]) w' := by
  unfold hierOf at e
  injection e with e1 e2
  have ha : addedNodes (h ++ [(op, r)]) = addedNodes h := by
    rw [addedNodes_append', addedNodes_none h1, List.append_nil]
  have hf : ∀ n, finalPage (h ++ [(op, r)]) n = finalPage h n := fun n => finalPage_same (movedTo_other h2 _)
  constructor
  · rw [e1, ha]; exact hi.nodes
  · intro p k n
    unfold Writer.listing
    rw [e2, ha, hf]; exact hi.listed p k n
  · intro p
    rw [e2, ha]
    simp only [hf]
    exact hi.pages p
  · intro k
    rw [movedTo_append, movedTo_other h2, List.append_nil, ha]
    exact hi.moved k

theorem DistinctKeys.left {a b : List (Op × Res (Option Node))} (h : DistinctKeys (a ++ b)) : DistinctKeys a := by
  unfold DistinctKeys at *
  rw [addedNodes_append', List.map_append] at h
  exact (List.nodup_append.1 h).1

theorem MovedOnce.left {a b : List (Op × Res (Option Node))} (h : MovedOnce (a ++ b)) : MovedOnce a := by
  intro k
  have := h k
  rw [movedTo_append, List.length_append] at this
  omega

theorem hInv_add {L : Lazperf} {ord : Order} {h} {w : Writer} (hi : HInv h w) {op : Op} {key page : VoxelKey}
    (ht : op.target = some (key, page)) (hd : DistinctKeys (h ++ [(op, (op.run L ord w).1)])) :
    HInv (h ++ [(op, (op.run L ord w).1)]) (op.run L ord w).2 := by
  have hnm : ∀ k p, op ≠ .move k p := by
    rintro k p rfl; cases ht
  rcases add_hier L ord ht w with ⟨e, e'⟩ | ⟨n, hr, hk, hpk, hv, hp, hb, e1, e2⟩
  · exact hi.idle e e' (.inl hnm)
  · rw [hr] at hd ⊢
    have hmt : ∀ k, movedTo [(op, Res.ok (some n))] k = [] := movedTo_other (.inl hnm)
    have ha : addedNodes (h ++ [(op, Res.ok (some n))]) = addedNodes h ++ [n] := by
      rw [addedNodes_append']; rfl
    have hf : ∀ m, finalPage (h ++ [(op, Res.ok (some n))]) m = finalPage h m :=
      fun m => finalPage_same (hmt _)
    have hnew : ∀ m ∈ addedNodes h, m.entry.key ≠ key := by
      unfold DistinctKeys at hd
      rw [ha, List.map_append] at hd
      intro m hm he
      exact (List.nodup_append.1 hd).2.2 _ (List.mem_map_of_mem hm) _ (List.mem_singleton.2 rfl) (he.trans hk.symm)
    have hfn : finalPage h n = page := by
      have : movedTo h n.entry.key = [] := by
        by_contra hne
        obtain ⟨m, hm, hm2⟩ := hi.moved _ hne
        exact hnew m hm (hm2.trans hk)
      unfold finalPage
      rw [this]
      exact hpk
    have hw : ∀ p k, (op.run L ord w).2.listing p k = if p = page ∧ k = key then some n else w.listing p k := by
      intro p k
      rw [← listing_put page key p k n]
      unfold Writer.listing
      rw [e2]
    constructor
    · intro k m
      rw [e1, AList.get_put, ha, List.mem_append, List.mem_singleton]
      by_cases hkk : k = key
      · rw [if_pos hkk]
        constructor
        · intro he
          injection he with he
          subst he
          exact ⟨.inr rfl, hk.trans hkk.symm⟩
        · rintro ⟨h1 | h1, h2⟩
          · exact absurd (h2.trans hkk) (hnew m h1)
          · rw [h1]
      · rw [if_neg hkk, hi.nodes]
        constructor
        · rintro ⟨h1, h2⟩; exact ⟨.inl h1, h2⟩
        · rintro ⟨h1 | h1, h2⟩
          · exact ⟨h1, h2⟩
          · subst h1; exact absurd (h2.symm.trans hk) hkk
    · intro p k m
      rw [hw, ha, hf, List.mem_append, List.mem_singleton]
      by_cases hpk' : p = page ∧ k = key
      · rw [if_pos hpk']
        constructor
        · intro he
          injection he with he
          subst he
          exact ⟨.inr rfl, hk.trans hpk'.2.symm, hfn.trans hpk'.1.symm⟩
        · rintro ⟨h1 | h1, h2, h3⟩
          · exact absurd (h2.trans hpk'.2) (hnew m h1)
          · rw [h1]
      · rw [if_neg hpk', hi.listed]
        constructor
        · rintro ⟨h1, h2⟩; exact ⟨.inl h1, h2⟩
        · rintro ⟨h1 | h1, h2, h3⟩
          · exact ⟨h1, h2, h3⟩
          · subst h1; exact absurd ⟨h3.symm.trans hfn, h2.symm.trans hk⟩ hpk'
    · intro p
      rw [e2, AList.mem_keys_put, hi.pages, ha]
      simp only [hf, List.mem_append, List.mem_singleton]
      constructor
      · rintro (rfl | h1 | ⟨m, h1, h2⟩)
        · exact .inr ⟨n, .inr rfl, hfn⟩
        · exact .inl h1
        · exact .inr ⟨m, .inl h1, h2⟩
      · rintro (h1 | ⟨m, h1 | h1, h2⟩)
        · exact .inr (.inl h1)
        · exact .inr (.inr ⟨m, h1, h2⟩)
        · subst h1; exact .inl (h2.symm.trans hfn)
    · intro k
      rw [movedTo_append, hmt, List.append_nil, ha]
      intro hne
      obtain ⟨m, h1, h2⟩ := hi.moved k hne
      exact ⟨m, List.mem_append_left _ h1, h2⟩

theorem hInv_move {L : Lazperf} {ord : Order} {h} {w : Writer} (hi : HInv h w) (key page : VoxelKey)
    (hu : ((Op.move key page).run L ord w).1 ≠ .ub)
    (hm : MovedOnce (h ++ [(.move key page, ((Op.move key page).run L ord w).1)])) :
    HInv (h ++ [(.move key page, ((Op.move key page).run L ord w).1)]) ((Op.move key page).run L ord w).2 := by
  rw [run_move] at hm hu ⊢
  dsimp only at hm hu ⊢
  rcases changeNodePage_cases key page w with ⟨e, he⟩ | ⟨n, hk, hp, hb, hg⟩
  · rw [he] at hm ⊢
    exact hi.idle rfl (by intro n; simp [Res.bind]) (.inr (by intro a; simp [Res.bind]))
  · obtain ⟨hna, hnk⟩ := (hi.nodes _ _).1 hg
    have huniq : ∀ m ∈ addedNodes h, m.entry.key = key → m = n := by
      intro m hm' he
      have := (hi.nodes key m).2 ⟨hm', he⟩
      rw [hg] at this
      injection this with this
      exact this.symm
    -- the page of the new history
    have hmt : ∀ k, movedTo [(.move key page, Res.ok none)] k = if key = k then [page] else [] := by
      intro k
      by_cases hkk : key = k
      · subst hkk; simp [movedTo]
      · simp [movedTo, hkk]
    have hfin : ∀ m, finalPage (h ++ [(.move key page, Res.ok none)]) m =
        if key = m.entry.key then page else finalPage h m := by
      intro m
      unfold finalPage
      rw [movedTo_append, hmt]
      by_cases hkk : key = m.entry.key
      · rw [if_pos hkk, if_pos hkk]; simp
      · rw [if_neg hkk, if_neg hkk, List.append_nil]
    have hadd : addedNodes (h ++ [(.move key page, Res.ok none)]) = addedNodes h := by
      rw [addedNodes_append', addedNodes_none (by simp), List.append_nil]
    have hmv : ∀ k, movedTo (h ++ [(.move key page, Res.ok none)]) k ≠ [] →
        ∃ m ∈ addedNodes h, m.entry.key = k := by
      intro k hne
      by_cases hkk : key = k
      · exact ⟨n, hna, hnk.trans hkk⟩
      · rw [movedTo_append, hmt, if_neg hkk, List.append_nil] at hne
        exact hi.moved k hne
    -- the node has not been moved before
    have hone : movedTo (h ++ [(.move key page, Res.ok none)]) key = movedTo h key ++ [page] := by
      rw [movedTo_append, hmt, if_pos rfl]
    have hfirst : MovedOnce (h ++ [(.move key page, Res.ok none)]) → finalPage h n = n.pageKey := by
      intro hmo
      have h1 := hmo key
      rw [hone, List.length_append, List.length_singleton] at h1
      have h2 : movedTo h key = [] := List.length_eq_zero_iff.1 (by omega)
      unfold finalPage
      rw [hnk, h2]; rfl
    rw [changeNodePage_eq hk hp hg hb] at hm hu ⊢
    by_cases hsame : n.pageKey = page
    · rw [if_pos hsame] at hm ⊢
      have hf := hfirst hm
      simp only [Res.bind] at hm ⊢
      have hfin' : ∀ m ∈ addedNodes h, finalPage (h ++ [(.move key page, Res.ok none)]) m = finalPage h m := by
        intro m hma
        rw [hfin]
        split
        · rename_i hkk
          rw [huniq m hma hkk.symm, hf, hsame]
        · rfl
      constructor
      · rw [hadd]; exact hi.nodes
      · intro p k m
        rw [hadd, hi.listed]
        constructor
        · rintro ⟨h1, h2, h3⟩; exact ⟨h1, h2, by rw [hfin' m h1]; exact h3⟩
        · rintro ⟨h1, h2, h3⟩; exact ⟨h1, h2, by rw [hfin' m h1] at h3; exact h3⟩
      · intro p
        rw [hadd, hi.pages]
        constructor
        · rintro (h1 | ⟨m, h1, h2⟩)
          · exact .inl h1
          · exact .inr ⟨m, h1, by rw [hfin' m h1]; exact h2⟩
        · rintro (h1 | ⟨m, h1, h2⟩)
          · exact .inl h1
          · exact .inr ⟨m, h1, by rw [hfin' m h1] at h2; exact h2⟩
      · rw [hadd]; exact hmv
    · rw [if_neg hsame] at hm hu ⊢
      generalize hw1 : ({ w with
        pages := AList.put page (AList.put key n ((AList.get page w.pages).getD [])) w.pages } : Writer) = w1 at *
      have hl1 : ∀ p k, w1.listing p k = if p = page ∧ k = key then some n else w.listing p k := by
        intro p k; rw [← hw1]; exact listing_put page key p k n
      have hk1 : ∀ p, p ∈ AList.keys w1.pages ↔ p = page ∨ p ∈ AList.keys w.pages := by
        intro p; rw [← hw1]; exact AList.mem_keys_put
      have hn1 : w1.nodes = w.nodes := by rw [← hw1]
      -- the old page exists
      cases hgo : AList.get n.pageKey w1.pages with
      | none =>
        exfalso
        apply hu
        have : Writer.leavePage n.pageKey key w1 = (.ub, w1) := by
          unfold Writer.leavePage; rw [hgo]
        rw [this]; rfl
      | some ns =>
        obtain ⟨g1, g2, g3⟩ := leavePage_listing (key := key) hgo
        rw [g1] at hm ⊢
        simp only [Res.bind] at hm ⊢
        have hf := hfirst hm
        have hnodes : (Writer.leavePage n.pageKey key w1).2.nodes = w.nodes :=
          (leavePage_frame _ _ _).2.2.trans hn1
        have hlist : ∀ p k m, (Writer.leavePage n.pageKey key w1).2.listing p k = some m ↔
            m ∈ addedNodes h ∧ m.entry.key = k ∧ finalPage (h ++ [(.move key page, Res.ok none)]) m = p := by
          intro p k m
          rw [g2, hl1]
          by_cases hkk : k = key
          · subst hkk
            by_cases hpo : p = n.pageKey
            · rw [if_pos ⟨hpo, rfl⟩]
              constructor
              · intro he; cases he
              · rintro ⟨h1, h2, h3⟩
                rw [hfin, if_pos h2.symm] at h3
                exact absurd (hpo.symm.trans h3.symm) hsame
            · rw [if_neg (fun hc => hpo hc.1)]
              by_cases hpp : p = page
              · rw [if_pos ⟨hpp, rfl⟩]
                constructor
                · intro he
                  injection he with he
                  subst he
                  exact ⟨hna, hnk, by rw [hfin, if_pos hnk.symm, hpp]⟩
                · rintro ⟨h1, h2, h3⟩
                  rw [huniq m h1 h2]
              · rw [if_neg (fun hc => hpp hc.1)]
                constructor
                · intro he
                  obtain ⟨h1, h2, h3⟩ := (hi.listed _ _ _).1 he
                  rw [huniq m h1 h2, hf] at h3
                  exact absurd h3.symm hpo
                · rintro ⟨h1, h2, h3⟩
                  rw [hfin, if_pos h2.symm] at h3
                  exact absurd h3.symm hpp
          · rw [if_neg (fun hc => hkk hc.2), if_neg (fun hc => hkk hc.2), hi.listed]
            constructor
            · rintro ⟨h1, h2, h3⟩
              exact ⟨h1, h2, by rw [hfin, if_neg (by rw [h2]; exact Ne.symm hkk)]; exact h3⟩
            · rintro ⟨h1, h2, h3⟩
              rw [hfin, if_neg (by rw [h2]; exact Ne.symm hkk)] at h3
              exact ⟨h1, h2, h3⟩
        constructor
        · rw [hadd, hnodes]; exact hi.nodes
        · rw [hadd]; exact hlist
        · intro p
          rw [hadd, g3, hk1, hi.pages]
          constructor
          · rintro ⟨h1, h2⟩
            rcases h1 with rfl | h1 | ⟨m, h1, h3⟩
            · exact .inr ⟨n, hna, by rw [hfin, if_pos hnk.symm]⟩
            · exact .inl h1
            · by_cases hkk : key = m.entry.key
              · have hmn := huniq m h1 hkk.symm
                subst hmn
                rw [hf] at h3
                by_cases hr : m.pageKey = VoxelKey.root
                · exact .inl (h3.symm.trans hr)
                · -- another node remains in the page
                  have hne : AList.del key ns ≠ [] := fun hd => h2 ⟨h3.symm, hr, hd⟩
                  obtain ⟨⟨k', m'⟩, hx⟩ := List.exists_mem_of_ne_nil _ hne
                  have hget : ∃ m'', AList.get k' (AList.del key ns) = some m'' := by
                    have := AList.get_isSome.2 (AList.mem_keys hx)
                    exact Option.isSome_iff_exists.1 this
                  obtain ⟨m'', hm''⟩ := hget
                  rw [AList.get_del] at hm''
                  have hk' : k' ≠ key := by
                    intro hc; rw [if_pos hc] at hm''; cases hm''
                  rw [if_neg hk'] at hm''
                  have hl : w1.listing m.pageKey k' = some m'' := by
                    unfold Writer.listing; rw [hgo]; exact hm''
                  rw [hl1, if_neg (fun hc => hk' hc.2)] at hl
                  obtain ⟨q1, q2, q3⟩ := (hi.listed _ _ _).1 hl
                  refine .inr ⟨m'', q1, ?_⟩
                  rw [hfin, if_neg (by rw [q2]; exact Ne.symm hk'), q3]
                  exact h3
              · exact .inr ⟨m, h1, by rw [hfin, if_neg hkk]; exact h3⟩
          · rintro (h1 | ⟨m, h1, h3⟩)
            · refine ⟨.inr (.inl h1), ?_⟩
              rintro ⟨q1, q2, _⟩
              exact q2 (q1.symm.trans h1)
            · rw [hfin] at h3
              split at h3
              · subst h3
                refine ⟨.inl rfl, ?_⟩
                rintro ⟨q1, _⟩
                exact hsame q1.symm
              · rename_i hkk
                refine ⟨.inr (.inr ⟨m, h1, h3⟩), ?_⟩
                rintro ⟨q1, _, q3⟩
                have hl : w.listing p m.entry.key = some m := (hi.listed _ _ _).2 ⟨h1, rfl, h3⟩
                have hl' : w1.listing p m.entry.key = some m := by
                  rw [hl1, if_neg (fun hc => hkk hc.2.symm)]; exact hl
                unfold Writer.listing at hl'
                rw [q1, hgo] at hl'
                have := AList.get_del key m.entry.key ns
                rw [q3, if_neg (Ne.symm hkk)] at this
                have hl'' : AList.get m.entry.key ns = some m := hl'
                rw [← this] at hl''
                cases hl''
        · rw [hadd]; exact hmv

theorem hInv_start {c : CopcConfig} {o : Writer.Overrides} {out : OStream} {w : Writer}
    (h : Writer.make out c o = .ok w) : HInv [] w := by
  have hw : w.nodes = [] ∧ w.pages = [(VoxelKey.root, [])] := by
    unfold Writer.make at h
    cases h1 : Writer.initConfig c o with
    | throw e => rw [h1] at h; cases h
    | ub => rw [h1] at h; cases h
    | ok c' =>
      rw [h1, Res.okBind] at h
      cases h2 : Writer.offsetToPointData c' with
      | throw e => rw [h2] at h; cases h
      | ub => rw [h2] at h; cases h
      | ok n =>
        rw [h2, Res.okBind] at h
        injection h with h
        subst h
        exact ⟨rfl, rfl⟩
  constructor
  · intro k n; rw [hw.1]; simp [addedNodes, AList.get]
  · intro p k n
    unfold Writer.listing
    rw [hw.2]
    simp only [addedNodes, AList.get, List.filterMap_nil, List.not_mem_nil, false_and, iff_false]
    split <;> simp [AList.get]
  · intro p; rw [hw.2]; simp [AList.keys, addedNodes]
  · intro k hk; exact absurd rfl hk

/-- After every history with distinct keys in which no node is moved twice, the pages list exactly
what they should. -/
theorem hInv_history {L : Lazperf} {ord : Order} {w0 w : Writer} {h} (hi : HInv [] w0)
    (hh : History L ord w0 h w) (hd : DistinctKeys h) (hm : MovedOnce h) : HInv h w := by
  induction hh with
  | start => exact hi
  | @call h w op hh hub ih =>
    have hi' := ih hd.left hm.left
    cases ht : op.target with
    | some t => exact hInv_add hi' ht hd
    | none =>
      cases op with
      | move key page => exact hInv_move hi' key page hub hm
      | close =>
        have := keeps_close L ord w
        unfold keptParts at this
        injection this with h1 h2
        refine hi'.idle (w' := (Op.close.run L ord w).2) ?_ ?_ (.inl (by simp))
        · rw [run_close]; exact h1
        · rw [run_close]
          intro n
          dsimp only
          cases (Writer.close L ord w).1 <;> simp [Res.bind]
      | _ => simp [Op.target] at ht
  | edit hh he ih =>
    have := ih hd hm
    exact ⟨this.nodes, this.listed, this.pages, this.moved⟩

end Copc
