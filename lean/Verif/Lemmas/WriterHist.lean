import Verif.Lemmas.WriterClose
/-! # Invariant of the histories of a writer -/
namespace Copc

theorem PublicEdit.refl (c : CopcConfig) : PublicEdit c c := ⟨rfl, rfl, rfl, rfl, rfl, rfl, rfl, rfl, rfl, rfl, rfl⟩

theorem PublicEdit.trans {a b c : CopcConfig} (h1 : PublicEdit a b) (h2 : PublicEdit b c) :
    PublicEdit a c :=
  ⟨h2.1.trans h1.1, h2.2.trans h1.2, h2.3.trans h1.3, h2.4.trans h1.4, h2.5.trans h1.5,
    h2.6.trans h1.6, h2.7.trans h1.7, h2.8.trans h1.8, h2.9.trans h1.9, h2.10.trans h1.10,
    h2.11.trans h1.11⟩

theorem PublicEdit.offset_eq {a b : CopcConfig} (h : PublicEdit a b) :
    Writer.offsetToPointData b = Writer.offsetToPointData a :=
  offsetToPointData_congr h.fmt h.recLen h.eb h.extStats

theorem PublicEdit.ebSize {a b : CopcConfig} (h : PublicEdit a b) :
    b.header.ebSize = a.header.ebSize := by
  unfold LasHeader.ebSize; rw [h.fmt, h.recLen]

theorem PublicEdit.stores {a b : CopcConfig} (h : PublicEdit a b) (L : Lazperf) (op : Op) (blob : Bytes)
    (c : Int) : op.Stores L b.header blob c ↔ op.Stores L a.header blob c := by
  cases op <;> simp only [Op.Stores, h.ebSize, h.fmt, h.recLen, h.scale, h.offset]

/-- The chunks written by a history: for every call, in order, nothing, an oversized chunk without
node, or the chunk of a node. -/
inductive Logged (L : Lazperf) (hd : LasHeader) (n0 : Nat) :
    List (Op × Res (Option Node)) → List (Nat × Bytes) → Prop
  | nil : Logged L hd n0 [] []
  | skip {h log op r} : Logged L hd n0 h log → (∀ n, r ≠ .ok (some n)) → Logged L hd n0 (h ++ [(op, r)]) log
  | large {h log op blob c} : Logged L hd n0 h log → op.Stores L hd blob c →
      blob.length % 2 ^ 64 > 2147483647 →
      Logged L hd n0 (h ++ [(op, .throw .chunkTooLarge)]) (log ++ [(u64 c, blob)])
  | node {h log op blob c key page} : Logged L hd n0 h log → op.Stores L hd blob c →
      op.target = some (key, page) → key.isValid = true → page.isValid = true →
      key.childOf page = true → ¬ blob.length % 2 ^ 64 > 2147483647 →
      Logged L hd n0 (h ++ [(op, .ok (some (nodeOf key page (n0 + (chunkData log).length) blob c)))])
        (log ++ [(u64 c, blob)])

structure WInv (L : Lazperf) (w0 : Writer) (otpd : Nat) (h : List (Op × Res (Option Node))) (w : Writer)
    (log : List (Nat × Bytes)) : Prop where
  base : BInv (otpd + 8) w.base log
  offset : Writer.offsetToPointData w.cfg = .ok otpd
  edit : PublicEdit w0.cfg w.cfg
  logged : Logged L w0.cfg.header (otpd + 8) h log

theorem make_ok {c : CopcConfig} {o : Writer.Overrides} {w : Writer}
    (h : Writer.make OStream.fresh c o = .ok w) :
    ∃ otpd, Writer.offsetToPointData w.cfg = .ok otpd ∧ Writer.initConfig c o = .ok w.cfg ∧
      w = ⟨BaseW.init OStream.fresh (otpd + 8), w.cfg, [], [(VoxelKey.root, [])]⟩ := by
  unfold Writer.make at h
  cases h1 : Writer.initConfig c o with
  | throw e => rw [h1] at h; cases h
  | ub => rw [h1] at h; cases h
  | ok c' =>
    rw [h1, Res.okBind] at h
    cases h2 : Writer.offsetToPointData c' with
    | throw e => rw [h2] at h; cases h
    | ub => rw [h2] at h; cases h
    | ok n =>
      rw [h2, Res.okBind] at h
      injection h with h
      subst h
      exact ⟨n, h2, rfl, rfl⟩

theorem target_none {op : Op} (h : op.target = none) (hc : op ≠ .close) : ∃ k p, op = .move k p := by
  cases op <;> simp_all [Op.target]

theorem wInv_start {L : Lazperf} {w0 : Writer} {otpd : Nat}
    (ho : Writer.offsetToPointData w0.cfg = .ok otpd) (hb : BInv (otpd + 8) w0.base []) :
    WInv L w0 otpd [] w0 [] :=
  ⟨hb, ho, PublicEdit.refl _, .nil⟩

theorem wInv_call {L : Lazperf} {ord : Order} {w0 w : Writer} {otpd : Nat} {h} {log}
    (hi : WInv L w0 otpd h w log) (op : Op) (hc : op ≠ .close) :
    ∃ log', WInv L w0 otpd (h ++ [(op, (op.run L ord w).1)]) (op.run L ord w).2 log' ∧ log <+: log' := by
  have hcfg : ∀ w' : Writer, w'.cfg = w.cfg → PublicEdit w0.cfg w'.cfg := fun w' e => e ▸ hi.edit
  cases ht : op.target with
  | none =>
    obtain ⟨k, p, rfl⟩ := target_none ht hc
    obtain ⟨f1, f2, f3⟩ := changeNodePage_frame k p w
    have hr2 : ((Op.move k p).run L ord w).2 = (Writer.changeNodePage k p w).2 := by
      simp only [Op.run, Act.bind_apply]
      rcases Writer.changeNodePage k p w with ⟨r, s⟩
      cases r <;> rfl
    have hr1 : ∀ n, ((Op.move k p).run L ord w).1 ≠ .ok (some n) := by
      intro n
      simp only [Op.run, Act.bind_apply]
      rcases Writer.changeNodePage k p w with ⟨r, s⟩
      cases r <;> simp
    refine ⟨log, ⟨?_, ?_, ?_, .skip hi.logged hr1⟩, List.prefix_refl _⟩
    · rw [hr2, f1]; exact hi.base
    · rw [hr2, f2]; exact hi.offset
    · rw [hr2, f2]; exact hi.edit
  | some t =>
    obtain ⟨key, page⟩ := t
    rcases add_effect L ord ht hi.base (by omega) with ⟨e1, e2⟩ | ⟨blob, c, hs, hk, hp, hcd, he⟩
    · refine ⟨log, ⟨?_, ?_, ?_, .skip hi.logged fun n => e2 _⟩, List.prefix_refl _⟩
      · rw [e1]; exact hi.base
      · rw [e1]; exact hi.offset
      · rw [e1]; exact hi.edit
    · have hs' := (hi.edit.stores L op blob c).1 hs
      rcases he with ⟨hl, e⟩ | ⟨hl, e⟩
      · refine ⟨log ++ [(u64 c, blob)], ⟨?_, ?_, ?_, ?_⟩, List.prefix_append _ _⟩
        · rw [e]; exact bInv_chunkAdded hi.base blob c
        · rw [e]; exact hi.offset
        · rw [e]; exact hi.edit
        · rw [e]; exact .large hi.logged hs' hl
      · refine ⟨log ++ [(u64 c, blob)], ⟨?_, ?_, ?_, ?_⟩, List.prefix_append _ _⟩
        · rw [e]; exact bInv_chunkAdded hi.base blob c
        · rw [e]; exact hi.offset
        · rw [e]; exact hi.edit
        · rw [e]; exact .node hi.logged hs' ht hk hp hcd hl

theorem wInv_more {L : Lazperf} {ord : Order} {w0 w w' : Writer} {otpd : Nat} {h t} {log}
    (hi : WInv L w0 otpd h w log) (hh : History L ord w t w') (hu : Unclosed t) :
    ∃ log', WInv L w0 otpd (h ++ t) w' log' ∧ log <+: log' := by
  induction hh with
  | start => exact ⟨log, by simpa using hi, List.prefix_refl _⟩
  | call op hh hub ih =>
    obtain ⟨log1, hi1, p1⟩ := ih fun x hx => hu x (by simp [hx])
    obtain ⟨log2, hi2, p2⟩ := wInv_call (ord := ord) hi1 op
      (hu _ (List.mem_append_right _ (List.mem_singleton.2 rfl)))
    exact ⟨log2, by rw [← List.append_assoc]; exact hi2, p1.trans p2⟩
  | edit hh he ih =>
    obtain ⟨log1, hi1, p1⟩ := ih hu
    exact ⟨log1, ⟨hi1.base, he.offset_eq.trans hi1.offset, hi1.edit.trans he, hi1.logged⟩, p1⟩

theorem wInv_history {L : Lazperf} {ord : Order} {w0 w : Writer} {otpd : Nat} {h}
    (ho : Writer.offsetToPointData w0.cfg = .ok otpd) (hb : BInv (otpd + 8) w0.base [])
    (hh : History L ord w0 h w) (hu : Unclosed h) : ∃ log, WInv L w0 otpd h w log := by
  obtain ⟨log, h1, _⟩ := wInv_more (wInv_start ho hb) hh hu
  exact ⟨log, h1⟩

theorem bInv_of_make {c : CopcConfig} {o : Writer.Overrides} {w : Writer}
    (h : Writer.make OStream.fresh c o = .ok w) :
    ∃ otpd, Writer.offsetToPointData w.cfg = .ok otpd ∧ BInv (otpd + 8) w.base [] := by
  obtain ⟨otpd, h1, _, h3⟩ := make_ok h
  refine ⟨otpd, h1, ?_⟩
  rw [h3]
  exact bInv_init _

/-! ### Nodes and chunks -/

/-- Every node returned by a call is a chunk of the log. -/
theorem Logged.node_in {L : Lazperf} {hd : LasHeader} {n0 : Nat} {h log}
    (hl : Logged L hd n0 h log) {op : Op} {n : Node} (hm : (op, Res.ok (some n)) ∈ h) :
    ∃ l1 l2 blob c key page, log = l1 ++ (u64 c, blob) :: l2 ∧ op.Stores L hd blob c ∧
      op.target = some (key, page) ∧ ¬ blob.length % 2 ^ 64 > 2147483647 ∧
      n = nodeOf key page (n0 + (chunkData l1).length) blob c := by
  induction hl with
  | nil => cases hm
  | skip hl hr ih =>
    rcases List.mem_append.1 hm with hm | hm
    · exact ih hm
    · have he := List.mem_singleton.1 hm
      injection he with h1 h2
      exact absurd h2.symm (hr n)
  | large hl hs hlen ih =>
    rcases List.mem_append.1 hm with hm | hm
    · obtain ⟨l1, l2, blob, c, key, page, rfl, g⟩ := ih hm
      exact ⟨l1, l2 ++ [_], blob, c, key, page, by rw [List.append_assoc]; rfl, g⟩
    · have he := List.mem_singleton.1 hm
      injection he with h1 h2
      cases h2
  | node hl hs ht hk hp hcd hlen ih =>
    rcases List.mem_append.1 hm with hm | hm
    · obtain ⟨l1, l2, blob, c, key, page, rfl, g⟩ := ih hm
      exact ⟨l1, l2 ++ [_], blob, c, key, page, by rw [List.append_assoc]; rfl, g⟩
    · have he := List.mem_singleton.1 hm
      injection he with h1 h2
      injection h2 with h2
      injection h2 with h2
      subst h1
      exact ⟨_, [], _, _, _, _, rfl, hs, ht, hlen, h2⟩

/-- Nodes returned by later calls are chunks further on. -/
theorem Logged.ordered {L : Lazperf} {hd : LasHeader} {n0 : Nat} {h log}
    (hl : Logged L hd n0 h log) : ∀ {h1 h2 : List (Op × Res (Option Node))} {x : Op × Res (Option Node)},
    h = h1 ++ x :: h2 → ∀ {op' n n'}, x.2 = .ok (some n) → (op', Res.ok (some n')) ∈ h2 →
      n.entry.offset + (n.entry.byteSize.toNat) ≤ n'.entry.offset := by
  have bound : ∀ {h log}, Logged L hd n0 h log → ∀ op n, (op, Res.ok (some n)) ∈ h →
      n.entry.offset + n.entry.byteSize.toNat ≤ n0 + (chunkData log).length := by
    intro h log hl op n hm
    obtain ⟨l1, l2, blob, c, key, page, rfl, _, _, _, rfl⟩ := hl.node_in hm
    simp only [nodeOf]
    have : (chunkData (l1 ++ (u64 c, blob) :: l2)).length =
        (chunkData l1).length + blob.length + (chunkData l2).length := by
      simp [chunkData, Nat.add_assoc]
    rw [this]
    have h2 : ((blob.length % 2 ^ 64 : Nat) : Int).toNat ≤ blob.length := by
      rw [Int.toNat_natCast]; exact Nat.mod_le _ _
    omega
  have last : ∀ {h h1 h2 : List (Op × Res (Option Node))} {x y : Op × Res (Option Node)},
      h ++ [y] = h1 ++ x :: h2 → (h2 = [] ∧ h = h1 ∧ x = y) ∨
        ∃ h2', h2 = h2' ++ [y] ∧ h = h1 ++ x :: h2' := by
    intro h h1 h2 x y e
    rcases List.eq_nil_or_concat h2 with rfl | ⟨t, z, rfl⟩
    · left
      have := List.append_inj' (s₁ := h) (s₂ := h1) (t₁ := [y]) (t₂ := [x]) e rfl
      refine ⟨rfl, this.1, ?_⟩
      simpa using this.2.symm
    · right
      have e' : h ++ [y] = (h1 ++ x :: t) ++ [z] := by rw [e]; simp
      have := List.append_inj' e' rfl
      refine ⟨t, ?_, this.1⟩
      have h2 : y = z := by simpa using this.2
      rw [h2]
      exact List.concat_eq_append
  induction hl with
  | nil => intro h1 h2 x e; simp at e
  | skip hl hr ih =>
    intro h1 h2 x e op' n n' hx hm
    rcases last e with ⟨rfl, _, _⟩ | ⟨h2', rfl, e'⟩
    · cases hm
    · rcases List.mem_append.1 hm with hm | hm
      · exact ih e' hx hm
      · have he := List.mem_singleton.1 hm
        injection he with _ he
        exact absurd he.symm (hr n')
  | large hl hs hlen ih =>
    intro h1 h2 x e op' n n' hx hm
    rcases last e with ⟨rfl, _, _⟩ | ⟨h2', rfl, e'⟩
    · cases hm
    · rcases List.mem_append.1 hm with hm | hm
      · exact ih e' hx hm
      · have he := List.mem_singleton.1 hm
        injection he with _ he
        cases he
  | node hl hs ht hk hp hcd hlen ih =>
    intro h1 h2 x e op' n n' hx hm
    rcases last e with ⟨rfl, _, _⟩ | ⟨h2', rfl, e'⟩
    · cases hm
    · rcases List.mem_append.1 hm with hm | hm
      · exact ih e' hx hm
      · have he := List.mem_singleton.1 hm
        injection he with _ he
        injection he with he
        injection he with he
        have hxm : (x.1, Res.ok (some n)) ∈ h1 ++ x :: h2' := by
          rw [← hx]; simp
        have := bound hl x.1 n (e' ▸ hxm)
        rw [he]
        exact this

end Copc
