import Verif.Lemmas.Sample
/-!
# C27: chunk data is never overwritten
-/
namespace Copc

theorem Logged.stored {L : Lazperf} {hd : LasHeader} {n0 : Nat} {h log}
    (hl : Logged L hd n0 h log) {op : Op} {n : Node} (hm : (op, Res.ok (some n)) ∈ h)
    {data H rest : Bytes} (hdata : data = H ++ (chunkData log ++ rest)) (hH : H.length = n0)
    (hlen : data.length < 2 ^ 63) : NodeStored L hd data op n ∧ n0 ≤ n.entry.offset := by
  obtain ⟨l1, l2, blob, c, key, page, rfl, hs, ht, hsz, rfl⟩ := hl.node_in hm
  have hle := chunkData_split_le (l1 := l1) (l2 := l2) (c := u64 c) (blob := blob)
  have hd2 : data.length = n0 + (chunkData (l1 ++ (u64 c, blob) :: l2)).length + rest.length := by
    rw [hdata]; simp [hH, Nat.add_assoc]
  have hmod : blob.length % 2 ^ 64 = blob.length := Nat.mod_eq_of_lt (by omega)
  refine ⟨⟨ht, blob, hs, ?_, ?_, ?_⟩, ?_⟩
  · simp only [nodeOf, hmod]
  · simp only [nodeOf]; omega
  · rw [hdata]; exact slice_chunk hH
  · simp only [nodeOf]; omega

/-- In every history without `Close`, the file holds the data of every node that was returned, where
the node says, after the area reserved for the header. -/
theorem C27_stored {L : Lazperf} {ord : Order} {c : CopcConfig} {o : Writer.Overrides} {w0 w : Writer}
    {h : List (Op × Res (Option Node))} (hm : Writer.make OStream.fresh c o = .ok w0)
    (hh : History L ord w0 h w) (hu : Unclosed h) (hlen : w.base.out.data.length < 2 ^ 63)
    {op : Op} {n : Node} (hn : (op, Res.ok (some n)) ∈ h) :
    NodeStored L w0.cfg.header w.base.out.data op n ∧ w0.base.out.data.length ≤ n.entry.offset := by
  obtain ⟨otpd, h1, h2⟩ := bInv_of_make hm
  obtain ⟨log, hi⟩ := wInv_history h1 h2 hh hu
  have hd := hi.base.out.data
  have h0 : w0.base.out.data.length = otpd + 8 := by rw [h2.out.data]; simp [chunkData]
  rw [h0]
  exact hi.logged.stored hn (by rw [hd, List.append_nil]) (List.length_replicate ..) hlen

/-- Nodes returned by later calls lie behind those returned earlier: byte ranges never overlap. -/
theorem C27_disjoint {L : Lazperf} {ord : Order} {c : CopcConfig} {o : Writer.Overrides} {w0 w : Writer}
    {h h1 h2 : List (Op × Res (Option Node))} (hm : Writer.make OStream.fresh c o = .ok w0)
    (hh : History L ord w0 h w) (hu : Unclosed h) {op op' : Op} {n n' : Node}
    (he : h = h1 ++ (op, Res.ok (some n)) :: h2) (hn : (op', Res.ok (some n')) ∈ h2) :
    n.entry.offset + n.entry.byteSize.toNat ≤ n'.entry.offset := by
  obtain ⟨otpd, g1, g2⟩ := bInv_of_make hm
  obtain ⟨log, hi⟩ := wInv_history g1 g2 hh hu
  exact hi.logged.ordered he rfl hn

/-- Calls other than `Close` only ever append to the file. -/
theorem C27_append_only {L : Lazperf} {ord : Order} {c : CopcConfig} {o : Writer.Overrides}
    {w0 w w' : Writer} {h t : List (Op × Res (Option Node))} (hm : Writer.make OStream.fresh c o = .ok w0)
    (hh : History L ord w0 h w) (hu : Unclosed h) (ht : History L ord w t w') (hu' : Unclosed t) :
    w.base.out.data <+: w'.base.out.data := by
  obtain ⟨otpd, g1, g2⟩ := bInv_of_make hm
  obtain ⟨log, hi⟩ := wInv_history g1 g2 hh hu
  obtain ⟨log', hi', l, rfl⟩ := wInv_more hi ht hu'
  rw [hi.base.out.data, hi'.base.out.data, chunkData_append, ← List.append_assoc]
  exact List.prefix_append _ _

/-- After `Close` the file still holds the data of every node, where the node says. -/
theorem C27_closed {L : Lazperf} {ord : Order} {c : CopcConfig} {o : Writer.Overrides} {w0 w w' : Writer}
    {h : List (Op × Res (Option Node))} (hm : Writer.make OStream.fresh c o = .ok w0)
    (hh : History L ord w0 h w) (hu : Unclosed h) (hc : Writer.close L ord w = (.ok (), w'))
    (hlen : w'.base.out.data.length < 2 ^ 63) {op : Op} {n : Node} (hn : (op, Res.ok (some n)) ∈ h) :
    NodeStored L w0.cfg.header w'.base.out.data op n ∧ w0.base.out.data.length ≤ n.entry.offset := by
  obtain ⟨otpd, h1, h2⟩ := bInv_of_make hm
  obtain ⟨log, hi⟩ := wInv_history h1 h2 hh hu
  obtain ⟨hier, eb, h14, gps, hco⟩ := close_ok hi.offset hi.base hc
  obtain ⟨hf, hd, _⟩ := hco.closed
  have h0 : w0.base.out.data.length = otpd + 8 := by rw [h2.out.data]; simp [chunkData]
  rw [h0]
  refine hi.logged.stored hn (H := headArea L (closedCfg L ord otpd log hier w) eb gps h14 otpd ++
    leN 8 (otpd + 8 + (chunkData log).length))
    (rest := tableBytes L log ++ ((closeLayout L ord otpd log hier w).1 ++ wktBytes w.cfg.wkt)) ?_ ?_ hlen
  · rw [hd]
    simp only [fileBytes, bodyBytes, List.append_assoc]
  · rw [List.length_append, length_headArea hf]
    simp

/-- The history of `Sample`: three nodes, a rejected call and a move. -/
example : (Op.addCompressed Sample.kA [1, 2, 3] 5 Sample.kA,
    Res.ok (some ⟨⟨Sample.kA, 1593, 3, 5⟩, Sample.kA⟩)) ∈ Sample.hist ∧
    Sample.w.base.out.data.length < 2 ^ 63 ∧
    (Writer.close Sample.L Sample.ord Sample.w).2.base.out.data.length < 2 ^ 63 ∧
    slice (Writer.close Sample.L Sample.ord Sample.w).2.base.out.data 1593 3 = [1, 2, 3] := by
  refine ⟨?_, ?_, ?_, ?_⟩
  · have h1 : Sample.hist[1]? = some (Op.addCompressed Sample.kA [1, 2, 3] 5 Sample.kA,
        Res.ok (some ⟨⟨Sample.kA, 1593, 3, 5⟩, Sample.kA⟩)) := by
      have h2 : Sample.hist[1]?.map (·.1) = some (Op.addCompressed Sample.kA [1, 2, 3] 5 Sample.kA) := rfl
      have h3 : Sample.hist[1]?.map (·.2) = some (Res.ok (some ⟨⟨Sample.kA, 1593, 3, 5⟩, Sample.kA⟩)) := by
        rw [← List.getElem?_map, Sample.outcomes]; rfl
      generalize Sample.hist[1]? = y at *
      cases y with
      | none => cases h2
      | some z =>
        obtain ⟨a, b⟩ := z
        simp only [Option.map_some, Option.some.injEq] at h2 h3
        rw [h2, h3]
    exact List.mem_of_getElem? h1
  · decide +kernel
  · decide +kernel
  · decide +kernel

example : Writer.make OStream.fresh Sample.cfg {} = .ok Sample.w0 ∧
    History Sample.L Sample.ord Sample.w0 Sample.hist Sample.w ∧ Unclosed Sample.hist ∧
    (Writer.close Sample.L Sample.ord Sample.w).1 = .ok () :=
  ⟨Sample.made, Sample.history, Sample.unclosed, Sample.closes⟩

end Copc
