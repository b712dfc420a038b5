import Verif.Spec.Readded
import Verif.Props.Accept
import Verif.Props.RoundTrip
/-! # C75: a key that is added again -/
namespace Copc
open Spec VoxelKey

theorem lastAdded_append {a : List (Op × Res (Option Node))} {op : Op} {n : Node} (k : VoxelKey) :
    lastAdded (a ++ [(op, .ok (some n))]) k = if n.entry.key = k then n else lastAdded a k := by
  unfold lastAdded
  rw [addedNodes_append', show addedNodes [(op, Res.ok (some n))] = [n] from rfl, List.filter_append]
  split
  · rename_i h
    rw [List.filter_cons_of_pos (by simp [h])]
    simp
  · rename_i h
    rw [List.filter_cons_of_neg (by simp [h]), List.filter_nil, List.append_nil]

theorem lastAdded_same {a : List (Op × Res (Option Node))} {op : Op} {r : Res (Option Node)} (hr : ∀ n, r ≠ .ok (some n))
    (k : VoxelKey) : lastAdded (a ++ [(op, r)]) k = lastAdded a k := by
  unfold lastAdded
  rw [addedNodes_append', addedNodes_none hr, List.append_nil]

/-- The last node added with a key that was added. -/
theorem lastAdded_mem {h : List (Op × Res (Option Node))} {k : VoxelKey} (hk : KeyOf h k) :
    lastAdded h k ∈ addedNodes h ∧ (lastAdded h k).entry.key = k := by
  obtain ⟨n, hn, rfl⟩ := hk
  have hne : ((addedNodes h).filter fun m => decide (m.entry.key = n.entry.key)) ≠ [] := by
    intro h0
    have : n ∈ (addedNodes h).filter fun m => decide (m.entry.key = n.entry.key) := List.mem_filter.2 ⟨hn, by simp⟩
    rw [h0] at this; cases this
  unfold lastAdded
  rw [List.getLast?_eq_some_getLast hne, Option.getD_some]
  have := List.mem_filter.1 (List.getLast_mem hne)
  exact ⟨this.1, of_decide_eq_true this.2⟩

theorem OnePage.left {a b : List (Op × Res (Option Node))} (h : OnePage (a ++ b)) : OnePage a := by
  refine ⟨fun n hn m hm => h.1 n ?_ m ?_, fun k => ?_⟩
  · rw [addedNodes_append']; exact List.mem_append_left _ hn
  · rw [addedNodes_append']; exact List.mem_append_left _ hm
  · have := h.2 k
    rw [movedTo_append] at this
    exact (List.append_eq_nil_iff.1 this).1

/-- What the pages list. -/
structure RWInv (h : List (Op × Res (Option Node))) (w : Writer) : Prop where
  listed : ∀ p k n, w.listing p k = some n ↔ KeyOf h k ∧ n = lastAdded h k ∧ n.pageKey = p
  pages : ∀ p, p ∈ AList.keys w.pages ↔ p = VoxelKey.root ∨ ∃ n ∈ addedNodes h, n.pageKey = p

theorem RWInv.same {a : List (Op × Res (Option Node))} {op : Op} {r : Res (Option Node)} {w w' : Writer} (hi : RWInv a w)
    (hr : ∀ n, r ≠ .ok (some n)) (hw : w'.pages = w.pages) : RWInv (a ++ [(op, r)]) w' := by
  have he : addedNodes (a ++ [(op, r)]) = addedNodes a := by rw [addedNodes_append', addedNodes_none hr, List.append_nil]
  constructor
  · intro p k n
    unfold KeyOf
    rw [lastAdded_same hr, he]
    have : w'.listing p k = w.listing p k := by unfold Writer.listing; rw [hw]
    rw [this]
    exact hi.listed p k n
  · intro p
    rw [he, hw]
    exact hi.pages p

variable {L : Lazperf} {ord : Order}

theorem rwInv_history {w0 w : Writer} {h : List (Op × Res (Option Node))} (hi : RWInv [] w0) (hh : History L ord w0 h w)
    (ho : OnePage h) : RWInv h w := by
  induction hh with
  | start => exact hi
  | @call a u op hh hub ih =>
    have hi' := ih ho.left
    cases ht : op.target with
    | none =>
      cases op with
      | move k p =>
        rcases hc : Writer.changeNodePage k p u with ⟨r, u'⟩
        cases r with
        | ok x =>
          exfalso
          have hr : ((Op.move k p).run L ord u).1 = .ok none := by rw [run_move, hc]; rfl
          have := ho.2 k
          rw [movedTo_append, hr] at this
          have := (List.append_eq_nil_iff.1 this).2
          simp [movedTo] at this
        | throw e =>
          have hsame : u' = u := by
            rcases changeNodePage_cases k p u with ⟨e', he'⟩ | ⟨n, g1, g2, g3, g4⟩
            · rw [hc] at he'; exact (Prod.ext_iff.1 he').2
            · exfalso
              rw [changeNodePage_eq g1 g2 g4 g3] at hc
              split at hc
              · cases hc
              · unfold Writer.leavePage at hc
                split at hc
                · cases hc
                · dsimp only at hc
                  split at hc <;> cases hc
          subst hsame
          exact hi'.same (by rw [run_move, hc]; intro n hn; cases hn) (by rw [run_move, hc])
        | ub => exact absurd (by rw [run_move, hc]; rfl) hub
      | close =>
        refine hi'.same ?_ ?_
        · rw [run_close]
          intro n hn
          dsimp only at hn
          cases hq : (Writer.close L ord u).1 <;> rw [hq] at hn <;> cases hn
        · rw [run_close]
          exact congrArg (fun x => x.1.2) (keeps_close L ord u)
      | _ => cases ht
    | some kp =>
      obtain ⟨key, page⟩ := kp
      rcases add_hier L ord ht u with ⟨e1, e2⟩ | ⟨n, e1, e2, e3, _, _, _, _, e4⟩
      · exact hi'.same e2 (congrArg Prod.snd e1)
      · have hadd : addedNodes (a ++ [(op, (op.run L ord u).1)]) = addedNodes a ++ [n] := by
          rw [e1, addedNodes_append']; rfl
        have hone : ∀ m ∈ addedNodes a, m.entry.key = key → m.pageKey = page := by
          intro m hm hk
          rw [← e3]
          refine ho.1 m ?_ n ?_ (hk.trans e2.symm)
          · rw [hadd]; exact List.mem_append_left _ hm
          · rw [hadd]; simp
        have hkey : ∀ k, KeyOf (a ++ [(op, (op.run L ord u).1)]) k ↔ KeyOf a k ∨ key = k := by
          intro k
          unfold KeyOf
          rw [hadd]
          simp [or_and_right, exists_or, e2]
        constructor
        · intro p k m
          have hl : (op.run L ord u).2.listing p k = if p = page ∧ k = key then some n else u.listing p k := by
            unfold Writer.listing
            rw [e4, AList.get_put]
            by_cases hp : p = page
            · subst hp
              rw [if_pos rfl, Option.bind_some, AList.get_put]
              by_cases hk : k = key
              · rw [if_pos hk, if_pos ⟨rfl, hk⟩]
              · rw [if_neg hk, if_neg (fun h => hk h.2)]
                cases AList.get p u.pages with
                | none => rfl
                | some v => rfl
            · rw [if_neg hp, if_neg (fun h => hp h.1)]
          rw [hl, hkey, e1, lastAdded_append, e2]
          by_cases hk : k = key
          · subst hk
            rw [if_pos rfl]
            by_cases hp : p = page
            · subst hp
              rw [if_pos ⟨rfl, rfl⟩]
              constructor
              · intro h; injection h with h; subst h; exact ⟨.inr rfl, rfl, e3⟩
              · rintro ⟨_, rfl, _⟩; rfl
            · rw [if_neg (fun h => hp h.1), hi'.listed]
              constructor
              · rintro ⟨h1, h2, h3⟩
                obtain ⟨m1, m2⟩ := lastAdded_mem h1
                rw [← h2] at m1 m2
                exact absurd (h3.symm.trans (hone m m1 m2)) hp
              · rintro ⟨_, rfl, h3⟩
                exact absurd (h3.symm.trans e3) hp
          · rw [if_neg (fun h => hk h.2), if_neg (fun h => hk h.symm), hi'.listed]
            constructor
            · rintro ⟨h1, h2⟩; exact ⟨.inl h1, h2⟩
            · rintro ⟨h1 | h1, h2⟩
              · exact ⟨h1, h2⟩
              · exact absurd h1.symm hk
        · intro p
          rw [e4, AList.mem_keys_put, hi'.pages, hadd]
          constructor
          · rintro (rfl | h | ⟨m, hm, rfl⟩)
            · exact .inr ⟨n, by simp, e3⟩
            · exact .inl h
            · exact .inr ⟨m, List.mem_append_left _ hm, rfl⟩
          · rintro (h | ⟨m, hm, rfl⟩)
            · exact .inr (.inl h)
            · rcases List.mem_append.1 hm with hm | hm
              · exact .inr (.inr ⟨m, hm, rfl⟩)
              · obtain rfl := List.mem_singleton.1 hm
                exact .inl e3
  | edit _ _ ih =>
    have := ih ho
    exact ⟨this.listed, this.pages⟩

theorem rwInv_start {c : CopcConfig} {o : Writer.Overrides} {out : OStream} {w : Writer}
    (h : Writer.make out c o = .ok w) : RWInv [] w := by
  have hv := hInv_start h
  refine ⟨fun p k n => (hv.listed p k n).trans ?_, fun p => (hv.pages p).trans ?_⟩
  · constructor
    · rintro ⟨h1, _⟩; cases h1
    · rintro ⟨⟨_, h1, _⟩, _⟩; cases h1
  · constructor
    · rintro (h1 | ⟨_, h1, _⟩)
      · exact .inl h1
      · cases h1
    · rintro (h1 | ⟨_, h1, _⟩)
      · exact .inl h1
      · cases h1

section
variable {w0 w : Writer} {h : List (Op × Res (Option Node))} {data : Bytes}

theorem Rewritten.facts (hw : Rewritten L ord w0 w h data) : ∃ ps r, GoodHierarchy data ps ∧
    (∀ m, NodeOf ps m ↔ ∃ k, KeyOf h k ∧ m = lastAdded h k) ∧ Opened data ps r := by
  obtain ⟨c, o, hm⟩ := hw.made
  obtain ⟨w', hc, rfl⟩ := hw.closed
  have hv := rwInv_history (rwInv_start hm) hw.history hw.onePage
  obtain ⟨ps, g1, g2, g3, g4, g5⟩ := closed_listing hm hw.history hw.unclosed
    (fun p k n hl => by
      obtain ⟨h1, rfl, _⟩ := (hv.listed p k n).1 hl
      exact (lastAdded_mem h1).1)
    (fun p p' k n n' hl hl' => by
      obtain ⟨_, rfl, h1⟩ := (hv.listed p k n).1 hl
      obtain ⟨_, rfl, h2⟩ := (hv.listed p' k n').1 hl'
      exact h1.symm.trans h2)
    (fun p hp => ((hv.pages p).1 hp).imp id fun ⟨n, hn, he⟩ => by
      have hk : KeyOf h n.entry.key := ⟨n, hn, rfl⟩
      obtain ⟨m1, m2⟩ := lastAdded_mem hk
      exact ⟨n.entry.key, _, (hv.listed _ _ _).2 ⟨hk, rfl, (hw.onePage.1 _ m1 n hn m2).trans he⟩⟩)
    hw.counted hc hw.size
  obtain ⟨r, r1, r2, r3, r4⟩ := closed_open hm hw.history hw.unclosed hw.storable hc hw.size hw.few
  refine ⟨ps, r, g1, fun m => (g3 m).trans ⟨?_, ?_⟩, ⟨r1, r2, ?_⟩⟩
  · rintro ⟨p, k, n, hl, rfl⟩
    obtain ⟨h1, rfl, rfl⟩ := (hv.listed p k n).1 hl
    exact ⟨k, h1, rfl⟩
  · rintro ⟨k, hk, rfl⟩
    exact ⟨_, k, _, (hv.listed _ _ _).2 ⟨hk, rfl, rfl⟩, rfl⟩
  · rw [r3]
    exact g5

/-- C75. The file opens. -/
theorem C75_opens_partial (hw : Rewritten L ord w0 w h data) :
    ∃ r, Reader.init ⟨data, 0, false⟩ = .ok r ∧ r.h.str.fail = false := by
  obtain ⟨_, r, _, _, h4⟩ := hw.facts
  exact ⟨r, h4.init, h4.good⟩

/-- C75. When keys are added again with the same page, a reader of the file finds for every key, whatever was asked before,
the node that was added last. -/
theorem C75_findNode_partial (hw : Rewritten L ord w0 w h data) {r r' : Reader}
    (hr : Reader.init ⟨data, 0, false⟩ = .ok r) {l : List Query} (ha : Asked L r l r') (key : VoxelKey) :
    ∃ r'', Run.Ends (fun k => Reader.findNode k key) r' (.ok (lastAdded h key), r'') := by
  obtain ⟨ps, r1, g1, g2, g4⟩ := hw.facts
  obtain rfl : r1 = r := Res.ok.inj (g4.init.symm.trans hr)
  obtain ⟨hi, _⟩ := ha.rInv g1 (g4.rInv g1)
  obtain ⟨m, r'', he, _, _, hA⟩ := (findNode_gives g1 hi key).ends
  have : m = lastAdded h key := by
    rcases hA with ⟨hm, hk⟩ | ⟨hno, hm⟩
    · obtain ⟨k, hk', rfl⟩ := (g2 m).1 hm
      obtain rfl : k = key := (lastAdded_mem hk').2.symm.trans hk
      rfl
    · by_cases hk : KeyOf h key
      · exact absurd (lastAdded_mem hk).2 (hno _ ((g2 _).2 ⟨key, hk, rfl⟩))
      · rw [hm]
        unfold lastAdded
        rw [List.filter_eq_nil_iff.2 (fun n hn hk' => hk ⟨n, hn, of_decide_eq_true hk'⟩)]
        rfl
  subst this
  exact ⟨r'', he⟩

/-- C75. `GetAllNodes` returns, each once, the nodes that were added last with their keys. -/
theorem C75_allNodes_partial (hw : Rewritten L ord w0 w h data) {r r' : Reader}
    (hr : Reader.init ⟨data, 0, false⟩ = .ok r) {l : List Query} (ha : Asked L r l r') (rord : ROrder) :
    ∃ ns r'', Run.Ends (fun k => Reader.getAllNodes rord k) r' (.ok ns, r'') ∧ ns.Nodup ∧
      ∀ m, m ∈ ns ↔ m ∈ addedNodes h ∧ m = lastAdded h m.entry.key := by
  obtain ⟨ps, r1, g1, g2, g4⟩ := hw.facts
  obtain rfl : r1 = r := Res.ok.inj (g4.init.symm.trans hr)
  obtain ⟨hi, _⟩ := ha.rInv g1 (g4.rInv g1)
  obtain ⟨ns, r'', he, _, _, hA⟩ := (allNodes_gives g1 hi rord).ends
  refine ⟨ns, r'', he, hA.1, fun m => ?_⟩
  rw [hA.2, g2]
  constructor
  · rintro ⟨k, hk, rfl⟩
    obtain ⟨h1, h2⟩ := lastAdded_mem hk
    rw [h2]
    exact ⟨h1, rfl⟩
  · rintro ⟨h1, h2⟩
    exact ⟨_, ⟨m, h1, rfl⟩, h2⟩

/-- C75. The compressed data of a key is what the last addition stored. -/
theorem C75_compressed_partial (hw : Rewritten L ord w0 w h data) {r r' : Reader}
    (hr : Reader.init ⟨data, 0, false⟩ = .ok r) {l : List Query} (ha : Asked L r l r') {key : VoxelKey} (hk : KeyOf h key) :
    ∃ op blob r'', (op, Res.ok (some (lastAdded h key))) ∈ h ∧
      op.Stores L w0.cfg.header blob (lastAdded h key).entry.pointCount ∧
      Run.Ends (fun k => Reader.getPointDataCompressedAt k key) r' (.ok blob, r'') ∧ r''.h.str.fail = false := by
  obtain ⟨m1, m2⟩ := lastAdded_mem hk
  obtain ⟨op, hop⟩ := mem_addedNodes m1
  obtain ⟨c, o, hm⟩ := hw.made
  obtain ⟨w', hc, hd⟩ := hw.closed
  obtain ⟨⟨_, blob, hst, hb, hin, hsl⟩, _⟩ := C27_closed hm hw.history hw.unclosed hc (by rw [hd]; exact hw.size) hop
  rw [hd] at hin hsl
  have hv : Valid key := by
    have hp := pageInv_history (pageInv_make hm) hw.history
    have hf := C74_find hm hw.history key
    unfold Writer.findNode at hf
    cases hg : AList.get key w.nodes with
    | none =>
      rw [hg] at hf
      exfalso
      have := (hw.counted _ m1).2.1
      rw [← hf] at this
      exact absurd this (by decide)
    | some n => exact (hp.node _ (AList.mem_of_get hg)).2
  obtain ⟨_, hfind⟩ := C75_findNode_partial hw hr ha key
  generalize lastAdded h key = n at *
  have hbn : n.entry.byteSize.toNat = blob.length := by rw [hb]; simp
  have hval : n.isValid = true := node_isValid (by rw [m2]; exact hv) (by rw [hb]; omega)
  obtain ⟨ps, r1, g1, g2, g4⟩ := hw.facts
  obtain rfl : r1 = r := Res.ok.inj (g4.init.symm.trans hr)
  obtain ⟨hi, _⟩ := ha.rInv g1 (g4.rInv g1)
  obtain ⟨m, r2, he, hi2, _, hA⟩ := (findNode_gives g1 hi key).ends
  have hmn : m = n := by
    have := he.unique hfind
    injection this with this _
    exact Res.ok.inj this
  subst hmn
  have hread := compressed_reads hi2.data hi2.good hw.size hval (by rw [hbn]; exact hin)
  rw [hbn, hsl] at hread
  refine ⟨op, blob, r2.withStr ⟨data, m.entry.offset + blob.length, false⟩, hop, hst, ?_, rfl⟩
  have hb2 := he.bind (f := fun _ m => Run.ofAct (if m.isValid = false then pure [] else Reader.getPointDataCompressed m))
    (r := (.ok blob, r2.withStr ⟨data, m.entry.offset + blob.length, false⟩)) ⟨0, fun _ _ => by
      show some ((if m.isValid = false then pure [] else Reader.getPointDataCompressed m : Act Reader Bytes) r2) = _
      rw [if_neg (by simp [hval]), hread]⟩
  obtain ⟨k0, hk0⟩ := hb2
  refine ⟨k0, fun k hle => ?_⟩
  rw [← hk0 k hle]
  have hfun : Reader.getPointDataCompressedAt k key = (Reader.findNode k key >>= fun m =>
      Run.ofAct (if m.isValid = false then pure [] else Reader.getPointDataCompressed m)) := by
    unfold Reader.getPointDataCompressedAt
    rw [if_neg (by rw [(isValid_iff _).2 hv]; simp)]
    congr 1
    funext m
    split <;> rfl
  exact congrFun hfun r'

end
end Copc
