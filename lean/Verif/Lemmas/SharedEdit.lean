import Verif.Lemmas.Shared
import Verif.Spec.Shared
/-! # Edits of shared objects -/
namespace Copc
open Spec VoxelKey

theorem keeps_cfg_adds (L : Lazperf) (key : VoxelKey) (bs : Bytes) (count : Int) (compressed : Bool) (page : VoxelKey) :
    Keeps cfgRest (Writer.doAddNode L key bs count compressed page) := by
  unfold Writer.doAddNode
  refine keeps_bind keeps_throwIf fun _ => keeps_bind keeps_throwIf fun _ => keeps_bind (keeps_gets _) fun c => ?_
  refine keeps_bind (fun _ => rfl) fun r => keeps_bind (keeps_modify fun _ => rfl) fun _ => ?_
  refine keeps_bind (keeps_modify fun w => ?_) fun _ => keeps_bind (keeps_modify fun _ => rfl) fun _ => keeps_pure _
  show cfgRest (if _ then _ else _) = _
  split <;> rfl

theorem keeps_cfg_add (L : Lazperf) (key : VoxelKey) (bs : Bytes) (page : VoxelKey) :
    Keeps cfgRest (Writer.addNode L key bs page) := by
  unfold Writer.addNode
  refine keeps_bind (keeps_gets _) fun c => keeps_bind keeps_throwIf fun _ => keeps_ite (fun _ => rfl) ?_
  exact keeps_bind keeps_throwIf fun _ => keeps_cfg_adds _ _ _ _ _ _

theorem keeps_cfg_run (L : Lazperf) (ord : Order) (op : Op) : Keeps cfgRest (op.run L ord) := by
  cases op with
  | add k bs p => exact keeps_bind (keeps_cfg_add _ _ _ _) fun _ => keeps_pure _
  | addPoints k fmt len ps p =>
    refine keeps_bind ?_ fun _ => keeps_pure _
    unfold Writer.addNodePoints
    refine keeps_bind (keeps_gets _) fun c => keeps_bind keeps_throwIf fun _ => keeps_bind keeps_throwIf fun _ => ?_
    exact keeps_bind (keeps_lift _) fun _ => keeps_cfg_add _ _ _ _
  | addCompressed k bs c p =>
    refine keeps_bind ?_ fun _ => keeps_pure _
    unfold Writer.addNodeCompressed
    exact keeps_bind keeps_throwIf fun _ => keeps_cfg_adds _ _ _ _ _ _
  | move k p =>
    refine keeps_bind ?_ fun _ => keeps_pure _
    unfold Writer.changeNodePage
    refine keeps_bind keeps_throwIf fun _ => keeps_bind keeps_throwIf fun _ => keeps_bind (keeps_gets _) fun w => ?_
    split
    · exact fun _ => rfl
    · refine keeps_bind keeps_throwIf fun _ => keeps_ite (keeps_pure _) ?_
      refine keeps_bind (keeps_modify fun w => ?_) fun _ => keeps_bind (keeps_modify fun _ => rfl) fun _ => ?_
      · show cfgRest (if _ then _ else _) = _
        split <;> rfl
      · intro w
        unfold Writer.leavePage
        split
        · rfl
        · dsimp only
          split <;> rfl
  | close =>
    refine keeps_bind ?_ fun _ => keeps_pure _
    intro w
    have := keeps_close L ord w
    unfold keptParts at this
    injection this

theorem keeps_laz_run (L : Lazperf) (op : LazOp) : Keeps (fun w : LazWriter => w.cfg) (op.run L) := by
  cases op with
  | points fmt len ps =>
    show Keeps _ (LazWriter.writePoints L fmt len ps)
    unfold LazWriter.writePoints
    refine keeps_bind (keeps_gets _) fun c => keeps_ite (keeps_pure _) ?_
    refine keeps_bind keeps_throwIf fun _ => keeps_bind (keeps_lift _) fun _ => ?_
    exact keeps_bind (fun _ => rfl) fun _ => keeps_pure _
  | compressed bs c =>
    show Keeps _ (LazWriter.writePointsCompressed L bs c)
    unfold LazWriter.writePointsCompressed
    refine keeps_bind (keeps_gets _) fun c => keeps_bind keeps_throwIf fun _ => ?_
    exact keeps_bind (fun _ => rfl) fun _ => keeps_pure _
  | close =>
    show Keeps _ (LazWriter.close L)
    unfold LazWriter.close
    exact keeps_bind (keeps_gets _) fun c => fun _ => rfl

/-! ### The values after an edit -/

theorem items_set {s : Store} {e : Extent} {a : Nat} (ha : a < s.length) : ∀ {l : List Nat} {es : List Extent} {k : Nat},
    l.Nodup → l[k]? = some a → s.items l = some es → Store.items (s.set a (.extent e)) l = some (es.set k e)
  | [], _, _, _, hk, _ => by simp at hk
  | b :: l, es, k, hn, hk, hi => by
    unfold Store.items at hi
    split at hi
    · rename_i e' es' he hes
      obtain rfl := Option.some.inj hi
      cases k with
      | zero =>
        obtain rfl : b = a := by simpa using hk
        unfold Store.items
        have h1 : Store.extent (s.set b (.extent e)) b = some e := by
          unfold Store.extent
          rw [List.getElem?_set_self ha]
        rw [h1, items_congr (s := s) (agree_set (List.nodup_cons.1 hn).1), hes]
        rfl
      | succ k =>
        have hk' : l[k]? = some a := by simpa using hk
        have hne : b ≠ a := by
          rintro rfl
          exact (List.nodup_cons.1 hn).1 (List.mem_of_getElem? hk')
        have ih := items_set ha (List.nodup_cons.1 hn).2 hk' hes (e := e)
        unfold Store.items
        rw [ih]
        have h1 : Store.extent (s.set a (.extent e)) b = s.extent b := by
          unfold Store.extent
          rw [List.getElem?_set_ne (Ne.symm hne)]
        rw [h1, he]
        rfl
    · cases hi

theorem items_put {s s' : Store} {e : Extent} {n : Nat} (hn : s'.extent n = some e) : ∀ {l : List Nat} {es : List Extent} {k : Nat},
    Agree s s' l → k < l.length → s.items l = some es → s'.items (l.set k n) = some (es.set k e)
  | [], _, _, _, hk, _ => by simp at hk
  | b :: l, es, k, ha, hk, hi => by
    have htail : Agree s s' l := fun a h => ha a (by simp [h])
    unfold Store.items at hi
    split at hi
    · rename_i e' es' he hes
      obtain rfl := Option.some.inj hi
      cases k with
      | zero =>
        rw [List.set_cons_zero]
        unfold Store.items
        rw [hn, items_congr htail, hes]
        rfl
      | succ k =>
        rw [List.set_cons_succ]
        unfold Store.items
        rw [items_put hn htail (by simpa using hk) hes]
        have h1 : s'.extent b = s.extent b := by
          unfold Store.extent
          rw [ha b (by simp)]
        rw [h1, he]
        rfl
    · cases hi

section
variable {s : Store} {c : CopcObj} {v : CopcConfig}

theorem foot_pointers (hv : c.value s = some v) : s[c.extents]? = some (.extents v.extents.fmt v.extents.extStats (s.pointers c.extents)) ∧
    s.items (s.pointers c.extents) = some v.extents.extents := by
  obtain ⟨l, h1, h2⟩ := extents_some (copcValue_some hv).2.2.2.2
  have : s.pointers c.extents = l := by unfold Store.pointers; rw [h1]
  rw [this]
  exact ⟨h1, h2⟩

theorem edit_header (hv : c.value s = some v) (hn : (c.foot s).Nodup) (h : LasHeader) :
    c.value (s.set c.header (.header h)) = some { v with header := h } ∧ c.foot (s.set c.header (.header h)) = c.foot s := by
  obtain ⟨h1, h2, h3, h4, h5⟩ := copcValue_some hv
  have hlt := lt_of_some (header_some h1)
  unfold CopcObj.foot at hn
  simp only [List.nodup_cons, List.mem_cons, not_or] at hn
  obtain ⟨⟨n1, n2, n3⟩, _⟩ := hn
  have hx : (s.set c.header (.header h))[c.extents]? = s[c.extents]? := List.getElem?_set_ne n2
  have hp := pointers_congr hx
  refine ⟨copcValue_of ?_ h2 h3 ?_ ?_, ?_⟩
  · unfold Store.header; rw [List.getElem?_set_self hlt]
  · unfold Store.info; rw [List.getElem?_set_ne n1]; exact h4
  · obtain ⟨f1, f2⟩ := foot_pointers hv
    unfold Store.extents
    rw [hx, f1]
    dsimp only
    rw [items_congr (s := s) (agree_set n3), f2]
  · unfold CopcObj.foot; rw [hp]

theorem edit_info (hv : c.value s = some v) (hn : (c.foot s).Nodup) (i : CopcInfo) :
    c.value (s.set c.info (.info i)) = some { v with info := i } ∧ c.foot (s.set c.info (.info i)) = c.foot s := by
  obtain ⟨h1, h2, h3, h4, h5⟩ := copcValue_some hv
  have hlt := lt_of_some (info_some h4)
  unfold CopcObj.foot at hn
  simp only [List.nodup_cons, List.mem_cons, not_or] at hn
  obtain ⟨⟨n1, n2, n3⟩, ⟨n4, n5⟩, _⟩ := hn
  have hx : (s.set c.info (.info i))[c.extents]? = s[c.extents]? := List.getElem?_set_ne n4
  have hp := pointers_congr hx
  refine ⟨copcValue_of ?_ h2 h3 ?_ ?_, ?_⟩
  · unfold Store.header; rw [List.getElem?_set_ne (Ne.symm n1)]; exact h1
  · unfold Store.info; rw [List.getElem?_set_self hlt]
  · obtain ⟨f1, f2⟩ := foot_pointers hv
    unfold Store.extents
    rw [hx, f1]
    dsimp only
    rw [items_congr (s := s) (agree_set n5), f2]
  · unfold CopcObj.foot; rw [hp]

theorem edit_extent (hv : c.value s = some v) (hn : (c.foot s).Nodup) {k a : Nat} (hk : (s.pointers c.extents)[k]? = some a)
    (e : Extent) : c.value (s.set a (.extent e)) = some (v.withExtent k e) ∧ c.foot (s.set a (.extent e)) = c.foot s := by
  obtain ⟨h1, h2, h3, h4, h5⟩ := copcValue_some hv
  have hm := List.mem_of_getElem? hk
  have hlt : a < s.length := copc_lt hv a (by simp [CopcObj.foot, hm])
  unfold CopcObj.foot at hn
  simp only [List.nodup_cons, List.mem_cons, not_or] at hn
  obtain ⟨⟨n1, n2, n3⟩, ⟨n4, n5⟩, n6, n7⟩ := hn
  have m1 : a ≠ c.header := fun h => n3 (h ▸ hm)
  have m2 : a ≠ c.info := fun h => n5 (h ▸ hm)
  have m3 : a ≠ c.extents := fun h => n6 (h ▸ hm)
  have hx : (s.set a (.extent e))[c.extents]? = s[c.extents]? := List.getElem?_set_ne m3
  have hp := pointers_congr hx
  refine ⟨copcValue_of ?_ h2 h3 ?_ ?_, ?_⟩
  · unfold Store.header; rw [List.getElem?_set_ne m1]; exact h1
  · unfold Store.info; rw [List.getElem?_set_ne m2]; exact h4
  · obtain ⟨f1, f2⟩ := foot_pointers hv
    unfold Store.extents
    rw [hx, f1]
    dsimp only
    rw [items_set hlt n7 hk f2]
    rfl
  · unfold CopcObj.foot; rw [hp]

/-- The store after an extent was set to a new object. -/
def Store.put (s : Store) (x : Nat) (f : Int) (b : Bool) (l : List Nat) (k : Nat) (e : Extent) : Store :=
  (s.set x (.extents f b (l.set k s.length))) ++ [.extent e]

theorem nodup_set_fresh {l : List Nat} {n : Nat} (hn : l.Nodup) (h : n ∉ l) (k : Nat) : (l.set k n).Nodup := by
  induction l generalizing k with
  | nil => exact hn
  | cons a l ih =>
    cases k with
    | zero =>
      rw [List.set_cons_zero]
      exact List.nodup_cons.2 ⟨fun hm => h (by simp [hm]), (List.nodup_cons.1 hn).2⟩
    | succ k =>
      rw [List.set_cons_succ]
      refine List.nodup_cons.2 ⟨fun hm => ?_, ih (List.nodup_cons.1 hn).2 (fun hm => h (by simp [hm])) k⟩
      rcases List.mem_or_eq_of_mem_set hm with hm | rfl
      · exact (List.nodup_cons.1 hn).1 hm
      · exact h (by simp)

theorem put_extent (hv : c.value s = some v) (hn : (c.foot s).Nodup) {k : Nat} {f : Int} {b : Bool} {l : List Nat}
    (hx : s[c.extents]? = some (.extents f b l)) (hk : k < l.length) (e : Extent) :
    c.value (s.put c.extents f b l k e) = some (v.withExtent k e) ∧
    (∀ a ∈ c.foot (s.put c.extents f b l k e), a ∈ c.foot s ∨ s.length ≤ a) ∧ (c.foot (s.put c.extents f b l k e)).Nodup := by
  obtain ⟨h1, h2, h3, h4, h5⟩ := copcValue_some hv
  have hlt := copc_lt hv
  obtain ⟨f1, f2⟩ := foot_pointers hv
  have hl : s.pointers c.extents = l := by unfold Store.pointers; rw [hx]
  rw [hl] at f1 f2
  rw [hx] at f1
  injection f1 with f1
  injection f1 with ff fb
  subst ff fb
  have hfoot : c.foot s = c.header :: c.info :: c.extents :: l := by unfold CopcObj.foot; rw [hl]
  rw [hfoot] at hn hlt
  simp only [List.nodup_cons, List.mem_cons, not_or] at hn
  obtain ⟨⟨n1, n2, n3⟩, ⟨n4, n5⟩, n6, n7⟩ := hn
  have l1 := hlt c.header (by simp)
  have l2 := hlt c.info (by simp)
  have l3 := hlt c.extents (by simp)
  have get : ∀ a, a < s.length → a ≠ c.extents → (s.put c.extents v.extents.fmt v.extents.extStats l k e)[a]? = s[a]? := by
    intro a ha hne
    unfold Store.put
    rw [List.getElem?_append_left (by simpa using ha), List.getElem?_set_ne (Ne.symm hne)]
  have gx : (s.put c.extents v.extents.fmt v.extents.extStats l k e)[c.extents]? =
      some (.extents v.extents.fmt v.extents.extStats (l.set k s.length)) := by
    unfold Store.put
    rw [List.getElem?_append_left (by simpa using l3), List.getElem?_set_self l3]
  have gn : (s.put c.extents v.extents.fmt v.extents.extStats l k e).extent s.length = some e := by
    unfold Store.put Store.extent
    rw [List.getElem?_append_right (by simp)]
    simp
  have hnl : s.length ∉ l := fun hm => by have := hlt s.length (by simp [hm]); omega
  have hf : c.foot (s.put c.extents v.extents.fmt v.extents.extStats l k e) =
      c.header :: c.info :: c.extents :: l.set k s.length := by
    unfold CopcObj.foot Store.pointers
    rw [gx]
  refine ⟨copcValue_of ?_ h2 h3 ?_ ?_, ?_, ?_⟩
  · unfold Store.header; rw [get _ l1 n2]; exact h1
  · unfold Store.info; rw [get _ l2 n4]; exact h4
  · unfold Store.extents
    rw [gx]
    dsimp only
    rw [items_put gn (s := s) (fun a ha => get a (hlt a (by simp [ha])) (fun h => n6 (h ▸ ha))) hk f2]
    rfl
  · rw [hf, hfoot]
    intro a ha
    simp only [List.mem_cons] at ha ⊢
    rcases ha with rfl | rfl | rfl | ha
    · exact .inl (.inl rfl)
    · exact .inl (.inr (.inl rfl))
    · exact .inl (.inr (.inr (.inl rfl)))
    · rcases List.mem_or_eq_of_mem_set ha with ha | rfl
      · exact .inl (.inr (.inr (.inr ha)))
      · exact .inr (Nat.le_refl _)
  · rw [hf]
    have hs : ∀ a, a < s.length → a ∉ l → a ∉ l.set k s.length := by
      intro a ha hal hm
      rcases List.mem_or_eq_of_mem_set hm with hm | rfl
      · exact hal hm
      · omega
    simp only [List.nodup_cons, List.mem_cons, not_or]
    exact ⟨⟨n1, n2, hs _ l1 n3⟩, ⟨n4, hs _ l2 n5⟩, hs _ l3 n6, nodup_set_fresh n7 hnl k⟩

end

end Copc
