import Verif.Lemmas.Sample
import Verif.Props.Header
/-!
# C31: counts and chunk table of a COPC file
-/
namespace Copc

theorem addedNodes_append (a b : List (Op × Res (Option Node))) :
    addedNodes (a ++ b) = addedNodes a ++ addedNodes b := by simp [addedNodes]

theorem addedNodes_skip {op : Op} {r : Res (Option Node)} (h : ∀ n, r ≠ .ok (some n)) :
    addedNodes [(op, r)] = [] := by
  cases r with
  | ok a => cases a with
    | none => rfl
    | some n => exact absurd rfl (h n)
  | throw e => rfl
  | ub => rfl

theorem NoneTooLarge.left {a b : List (Op × Res (Option Node))} (h : NoneTooLarge (a ++ b)) :
    NoneTooLarge a := fun x hx => h x (List.mem_append_left _ hx)

/-- The chunks of a history are those of its nodes. -/
theorem Logged.sizes_eq {L : Lazperf} {hd : LasHeader} {n0 : Nat} {h log} (hl : Logged L hd n0 h log)
    (hn : NoneTooLarge h) :
    sizes log = (addedNodes h).map fun n => (u64 n.entry.pointCount, n.entry.byteSize.toNat) := by
  induction hl with
  | nil => rfl
  | skip hl hr ih => rw [addedNodes_append, addedNodes_skip hr, List.append_nil]; exact ih hn.left
  | large hl hs hb ih => exact absurd rfl (hn _ (List.mem_append_right _ (List.mem_singleton.2 rfl)))
  | @node h log op blob c key page hl hs ht hk hp hc hb ih =>
    rw [addedNodes_append, List.map_append, ← ih hn.left]
    simp [sizes, addedNodes, nodeOf]
    omega

theorem chunkData_sum (log : List (Nat × Bytes)) (h : (chunkData log).length < 2 ^ 64) :
    (chunkData log).length = ((sizes log).map (·.2)).sum := by
  induction log with
  | nil => rfl
  | cons x l ih =>
    rw [chunkData_cons, List.length_append] at h ⊢
    rw [ih (by omega)]
    simp only [sizes, List.map_cons, List.sum_cons]
    rw [Nat.mod_eq_of_lt (by omega)]

theorem sizes_take (log : List (Nat × Bytes)) (i : Nat) : sizes (log.take i) = (sizes log).take i := by
  simp [sizes, List.map_take]

/-- The place of the nodes of a history. -/
theorem Logged.places {L : Lazperf} {hd : LasHeader} {n0 : Nat} {h log} (hl : Logged L hd n0 h log)
    (hn : NoneTooLarge h) {i : Nat} {n : Node} (hi : (addedNodes h)[i]? = some n) :
    n.entry.offset = n0 + (chunkData (log.take i)).length := by
  have len : ∀ {h log}, Logged L hd n0 h log → NoneTooLarge h → log.length = (addedNodes h).length := by
    intro h log hl hn
    have := congrArg List.length (hl.sizes_eq hn)
    simpa [sizes] using this
  induction hl with
  | nil => simp [addedNodes] at hi
  | skip hl hr ih =>
    rw [addedNodes_append, addedNodes_skip hr, List.append_nil] at hi
    exact ih hn.left hi
  | large hl hs hb ih => exact absurd rfl (hn _ (List.mem_append_right _ (List.mem_singleton.2 rfl)))
  | @node h log op blob c key page hl hs ht hk hp hc hb ih =>
    have hlen := len hl hn.left
    rw [addedNodes_append, List.getElem?_append] at hi
    split at hi
    · rename_i hlt
      rw [List.take_append_of_le_length (by omega)]
      exact ih hn.left hi
    · rename_i hge
      have hlt := (List.getElem?_eq_some_iff.1 hi).1
      have h1 : ∀ m, (addedNodes [(op, Res.ok (some m))]).length = 1 := fun m => rfl
      rw [h1] at hlt
      have hi0 : i - (addedNodes h).length = 0 := by omega
      rw [hi0] at hi
      have hn : nodeOf key page (n0 + (chunkData log).length) blob c = n := by
        simpa [addedNodes] using hi
      rw [List.take_left' (by omega), ← hn]
      rfl

theorem u64_sum (l : List Int) : (l.map u64).sum % 2 ^ 64 = u64 l.sum := by
  induction l with
  | nil => rfl
  | cons a l ih =>
    simp only [List.map_cons, List.sum_cons]
    rw [Nat.add_mod, ih]
    unfold u64
    omega

/-- At every moment the writer's point count is the sum of the counts of the nodes it returned, and it
has one chunk per node. -/
theorem C31_counts {L : Lazperf} {ord : Order} {c : CopcConfig} {o : Writer.Overrides} {w0 w : Writer}
    {h : List (Op × Res (Option Node))} (hm : Writer.make OStream.fresh c o = .ok w0)
    (hh : History L ord w0 h w) (hu : Unclosed h) (hn : NoneTooLarge h) :
    w.base.pointCount = u64 ((addedNodes h).map (·.entry.pointCount)).sum ∧
    w.base.chunks.length = (addedNodes h).length := by
  obtain ⟨otpd, h1, h2⟩ := bInv_of_make hm
  obtain ⟨log, hi⟩ := wInv_history h1 h2 hh hu
  have hs := hi.logged.sizes_eq hn
  constructor
  · rw [hi.base.count, ← u64_sum]
    have := congrArg (fun t => (t.map (·.1)).sum % 2 ^ 64) hs
    simpa [sizes, Function.comp_def, List.map_map] using this
  · rw [hi.base.chunks, length_chunkEnds]
    have := congrArg List.length hs
    simpa [sizes] using this

/-- What the chunk table of a file must say: the 8 bytes at the start of the point data give its place,
it has one entry per chunk with its number of points and size, the chunks lie one after the other from
the start of the point data up to the table. `base` is the offset to point data. -/
structure TableOk (L : Lazperf) (data : Bytes) (base : Nat) (nodes : List Node) : Prop where
  table : ∃ tab, getN 8 (data.drop base) = tab ∧
    tab = base + 8 + (nodes.map (·.entry.byteSize.toNat)).sum ∧
    slice data tab 8 = leN 4 0 ++ leN 4 nodes.length ∧
    ((∀ n ∈ nodes, 0 ≤ n.entry.pointCount ∧ n.entry.pointCount < 2 ^ 31) →
      L.readTable nodes.length (data.drop (tab + 8)) =
        nodes.map fun n => (n.entry.pointCount.toNat, n.entry.byteSize.toNat))
  places : ∀ i n, nodes[i]? = some n →
    n.entry.offset = base + 8 + ((nodes.take i).map (·.entry.byteSize.toNat)).sum

theorem Logged.small {L : Lazperf} {hd : LasHeader} {n0 : Nat} {h log} (hl : Logged L hd n0 h log)
    {op : Op} {n : Node} (hm : (op, Res.ok (some n)) ∈ h) : n.entry.byteSize.toNat ≤ 2147483647 := by
  obtain ⟨l1, l2, blob, c, key, page, rfl, _, _, hb, rfl⟩ := hl.node_in hm
  simp only [nodeOf, Int.toNat_natCast]
  omega

theorem mem_addedNodes {h : List (Op × Res (Option Node))} {n : Node} (hn : n ∈ addedNodes h) :
    ∃ op, (op, Res.ok (some n)) ∈ h := by
  obtain ⟨⟨op, r⟩, hx, he⟩ := List.mem_filterMap.1 hn
  cases r with
  | ok a => simp only at he; subst he; exact ⟨op, hx⟩
  | throw e => cases he
  | ub => cases he

theorem u64_small {v : Int} (h0 : 0 ≤ v) (h1 : v < 2 ^ 31) : u64 v = v.toNat ∧ u64 v < 2 ^ 32 := by
  unfold u64; omega

theorem CloseOk.headerDecoded {L : Lazperf} {ord : Order} {otpd : Nat} {log : List (Nat × Bytes)}
    {w w' : Writer} {hier : List (VoxelKey × VoxelKey)} {eb : Nat} {h14 : Header14} {gps : Extent}
    (h : CloseOk L ord otpd log w w' hier eb h14 gps) (hr : w.cfg.header.pointsByReturn.length = 15) :
    Header14.decode w'.base.out.data = h14 ∧ h14.encode.length = 375 := by
  obtain ⟨hf, hd, _⟩ := h.closed
  have hs := toLazPerf_sized hr h.header
  refine ⟨?_, Header14.length_encode hs⟩
  rw [hd]
  simp only [fileBytes, headArea, headBlock, List.append_assoc]
  exact Header14.decode_encode hs _

/-- The header and chunk table of a closed file. -/
theorem C31_closed {L : Lazperf} {ord : Order} {c : CopcConfig} {o : Writer.Overrides} {w0 w w' : Writer}
    {h : List (Op × Res (Option Node))} (hm : Writer.make OStream.fresh c o = .ok w0)
    (hr : w0.cfg.header.pointsByReturn.length = 15)
    (hh : History L ord w0 h w) (hu : Unclosed h) (hn : NoneTooLarge h)
    (hc : Writer.close L ord w = (.ok (), w')) (hlen : w'.base.out.data.length < 2 ^ 63) :
    let hd := Header14.decode w'.base.out.data
    hd.pointCount14.toNat = u64 ((addedNodes h).map (·.entry.pointCount)).sum ∧
    hd.pointOffset.toNat = (w0.base.out.data.length - 8) % 2 ^ 32 ∧
    TableOk L w'.base.out.data (w0.base.out.data.length - 8) (addedNodes h) := by
  obtain ⟨otpd, h1, h2⟩ := bInv_of_make hm
  obtain ⟨log, hi⟩ := wInv_history h1 h2 hh hu
  obtain ⟨hier, eb, h14, gps, hco⟩ := close_ok hi.offset hi.base hc
  have hd' := hco.headerDecoded (by rw [hi.edit.returns]; exact hr)
  have hcnt := (C31_counts hm hh hu hn).1
  have h0 : w0.base.out.data.length - 8 = otpd := by rw [h2.out.data]; simp [chunkData]
  have hsz := hi.logged.sizes_eq hn
  obtain ⟨hf, hd, _⟩ := hco.closed
  have hlt : w.base.pointCount < 2 ^ 64 := by rw [hcnt]; unfold u64; omega
  have hfields : h14.pointCount14 = UInt64.ofNat w.base.pointCount ∧ h14.pointOffset = UInt32.ofNat otpd := by
    have := hco.header
    unfold LasHeader.toLazPerf at this
    split at this
    · cases this
    · obtain rfl := Res.ok.inj this
      exact ⟨rfl, rfl⟩
  simp only
  rw [hd'.1, h0, hfields.1, hfields.2]
  have hHa := length_headArea (L := L) (c := closedCfg L ord otpd log hier w) (gps := gps) hf
  have hdata : w'.base.out.data.length = otpd + 8 + (chunkData log).length + (tableBytes L log).length +
      ((closeLayout L ord otpd log hier w).1.length + (wktBytes w.cfg.wkt).length) := by
    rw [hd]
    simp only [fileBytes, List.length_append, hHa, length_bodyBytes]
    omega
  have hsum : (chunkData log).length = ((addedNodes h).map (·.entry.byteSize.toNat)).sum := by
    rw [chunkData_sum log (by omega), hsz, List.map_map]
    rfl
  have hll : log.length = (addedNodes h).length := by
    have := congrArg List.length hsz
    simpa [sizes] using this
  refine ⟨?_, ?_, ⟨_, rfl, ?_, ?_, ?_⟩, ?_⟩
  · rw [UInt64.toNat_ofNat', Nat.mod_eq_of_lt hlt, hcnt]
  · rw [UInt32.toNat_ofNat']
  · rw [hd]
    simp only [fileBytes]
    rw [List.drop_left' hHa]
    simp only [bodyBytes, List.append_assoc]
    rw [getN_leN, Nat.mod_eq_of_lt (by omega), hsum]
  · have htab : getN 8 (w'.base.out.data.drop otpd) = otpd + 8 + (chunkData log).length := by
      rw [hd]
      simp only [fileBytes]
      rw [List.drop_left' hHa]
      simp only [bodyBytes, List.append_assoc]
      rw [getN_leN, Nat.mod_eq_of_lt (by omega)]
    rw [htab]
    refine slice_at (a := headArea L (closedCfg L ord otpd log hier w) eb gps h14 otpd ++
      leN 8 (otpd + 8 + (chunkData log).length) ++ chunkData log)
      (c := L.table (sizes log) ++ ((closeLayout L ord otpd log hier w).1 ++ wktBytes w.cfg.wkt)) ?_ ?_ ?_
    · rw [hd]
      simp only [fileBytes, bodyBytes, tableBytes, List.append_assoc, hll]
    · simp only [List.length_append, hHa, length_leN]
    · simp only [List.length_append, length_leN]
  · intro hpos
    have htab : getN 8 (w'.base.out.data.drop otpd) = otpd + 8 + (chunkData log).length := by
      rw [hd]
      simp only [fileBytes]
      rw [List.drop_left' hHa]
      simp only [bodyBytes, List.append_assoc]
      rw [getN_leN, Nat.mod_eq_of_lt (by omega)]
    rw [htab]
    have e : w'.base.out.data.drop (otpd + 8 + (chunkData log).length + 8) =
        L.table (sizes log) ++ ((closeLayout L ord otpd log hier w).1 ++ wktBytes w.cfg.wkt) := by
      rw [hd]
      simp only [fileBytes, bodyBytes, tableBytes, ← List.append_assoc]
      rw [List.append_assoc, List.append_assoc, List.drop_left' ?_, List.append_assoc]
      simp only [List.length_append, hHa, length_leN]
    rw [e]
    have hlen2 : (addedNodes h).length = (sizes log).length := by rw [← hll]; simp [sizes]
    rw [hlen2, L.table_lossless]
    · rw [hsz]
      apply List.map_congr_left
      intro n hn'
      rw [(u64_small (hpos n hn').1 (hpos n hn').2).1]
    · rw [hsz]
      intro x hx
      obtain ⟨n, hn', rfl⟩ := List.mem_map.1 hx
      obtain ⟨op, hop⟩ := mem_addedNodes hn'
      have := hi.logged.small hop
      refine ⟨(u64_small (hpos n hn').1 (hpos n hn').2).2, ?_⟩
      simp only
      omega
  · intro i n hin
    rw [hi.logged.places hn hin]
    congr 1
    have hle : (chunkData (log.take i)).length ≤ (chunkData log).length := by
      have : log = log.take i ++ log.drop i := (List.take_append_drop _ _).symm
      rw [this, chunkData_append, List.length_append]
      simp
    rw [chunkData_sum _ (by omega), sizes_take, hsz, ← List.map_take, List.map_map]
    rfl

/-- A chunk of more than 2^31 - 1 bytes is rejected by an exception, but is in the file and its points
are counted: the counts agree with the nodes only while no call failed this way. The hypotheses on the
arguments are met by the second call of `Sample.ops` with 2^31 bytes of data. -/
theorem C31_too_large {L : Lazperf} {ord : Order} {c : CopcConfig} {o : Writer.Overrides} {w0 w : Writer}
    {h : List (Op × Res (Option Node))} (hm : Writer.make OStream.fresh c o = .ok w0)
    (hh : History L ord w0 h w) (hu : Unclosed h) (key page : VoxelKey) (bs : Bytes) (count : Int)
    (hc : count ≠ 0) (hk : key.isValid = true) (hp : page.isValid = true) (hcd : key.childOf page = true)
    (hl : bs.length > 2147483647) (hl2 : bs.length < 2 ^ 64) :
    (Writer.addNodeCompressed L key bs count page w).1 = .throw .chunkTooLarge ∧
    (Writer.addNodeCompressed L key bs count page w).2.base.pointCount =
      (w.base.pointCount + u64 count) % 2 ^ 64 := by
  obtain ⟨n0, h1, h2⟩ := bInv_of_make hm
  obtain ⟨log, hw⟩ := wInv_history h1 h2 hh hu
  have hi := hw.base
  have hd := hi.out
  have htp : w.base.out.tellp = n0 + 8 + (chunkData log).length := by rw [hd.tellp]; simp
  have key' : BaseW.writeChunk L w.cfg.header bs count true w.base =
      (.throw .chunkTooLarge, chunkAdded w.base bs count) := by
    unfold BaseW.writeChunk
    rw [Act.bind_ok (Act.gets_apply _ _), Act.bind_ok (Act.throwIf_neg (by omega) _ _)]
    simp only [if_true]
    rw [Act.bind_ok (show BaseW.emit bs w.base = (.ok (), { w.base with out := w.base.out.write bs }) from rfl)]
    dsimp only
    rw [finishChunk_spec hi (by omega) bs count, if_pos (by rw [Nat.mod_eq_of_lt hl2]; exact hl)]
  have hx : Writer.addNodeCompressed L key bs count page w =
      (.throw .chunkTooLarge, { w with base := chunkAdded w.base bs count }) := by
    unfold Writer.addNodeCompressed
    rw [Act.bind_ok (Act.throwIf_neg hc _ _)]
    unfold Writer.doAddNode
    rw [Act.bind_ok (Act.throwIf_neg (by simp [hk, hp]) _ _), Act.bind_ok (Act.throwIf_neg (by simp [hcd]) _ _),
      Act.bind_ok (Act.gets_apply _ _)]
    refine Act.bind_throw ?_
    unfold Writer.onBase
    rw [Act.zoom_apply, key']
  rw [hx]
  exact ⟨rfl, rfl⟩

example : NoneTooLarge Sample.hist := by
  intro x hx
  have hm : x.2 ∈ Sample.hist.map (·.2) := List.mem_map_of_mem hx
  rw [Sample.outcomes] at hm
  intro he
  rw [he] at hm
  simp at hm

example : Sample.w0.cfg.header.pointsByReturn.length = 15 := by decide +kernel

example : Sample.w.base.pointCount = 8 ∧ Sample.w.base.chunks.length = 3 ∧
    (Header14.decode (Writer.close Sample.L Sample.ord Sample.w).2.base.out.data).pointCount14 = 8 ∧
    getN 8 ((Writer.close Sample.L Sample.ord Sample.w).2.base.out.data.drop 1523) = 1598 := by
  decide +kernel

end Copc
