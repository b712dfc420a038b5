import Verif.Lemmas.Cut
import Verif.Spec.Answered
import Verif.Props.CrashRead
/-!
# C72, C73: files that were cut, files with bytes after their end
-/
namespace Copc
open Spec

variable {L : Lazperf} {ord : Order} {w0 w : Writer} {h : List (Op × Res (Option Node))} {d t : Bytes}
variable {α : Type}

/-- The records of a file that was written. -/
theorem Written.records {data : Bytes} (hw : Written L ord w0 w h data) :
    ∃ h14 vs es, RecFile data h14 vs es ∧ (∀ v ∈ vs, ¬v.Is idCopc 1000) ∧ (∃ v ∈ vs, v.Is idCopc 10000) ∧ es ≠ [] ∧
      w.base.out.data.length ≤ h14.evlrOffset.toNat := by
  obtain ⟨c, o, hm⟩ := hw.made
  obtain ⟨w', hc, hdat⟩ := hw.closed
  subst hdat
  have hs := hw.storable
  obtain ⟨otpd, h1, h2⟩ := bInv_of_make hm
  obtain ⟨log, hi⟩ := wInv_history h1 h2 hw.history hw.unclosed
  obtain ⟨hier, eb, h14, gps, hco⟩ := close_ok hi.offset hi.base hc
  have hflag : w.cfg.header.copcFlag = true := by
    rw [hi.edit.copcFlag]
    obtain ⟨_, _, h3, _⟩ := make_ok hm
    exact initConfig_flag h3
  have hp := pageInv_history (pageInv_make hm) hw.history
  have hbase : baseDims w.cfg.header.fmt ≤ 18 := by rcases hs.fmt with e | e | e <;> rw [e] <;> decide
  have hfew2 := hs.few
  have hrf := hco.recFile hp hs.header.byReturn hs.few (by have := hs.extents; omega) hflag hw.size hw.few
  refine ⟨h14, _, _, hrf, ?_, ?_, ?_, ?_⟩
  · intro v hv
    unfold copcRecs statRecs lazRecs at hv
    simp only [List.mem_cons, List.mem_append] at hv
    have key : ∀ (u d p : Bytes) (i : UInt16), i ≠ 1000 → ¬(VRec.mk false u i d p).Is idCopc 1000 :=
      fun _ _ _ _ hi hc => hi hc.2
    rcases hv with rfl | rfl | hv | hv | hv | hv
    · exact key _ _ _ _ (by decide)
    · exact key _ _ _ _ (by decide)
    · split at hv
      · rw [List.mem_singleton.1 hv]; exact key _ _ _ _ (by decide)
      · cases hv
    · split at hv
      · rw [List.mem_singleton.1 hv]; exact key _ _ _ _ (by decide)
      · cases hv
    · rw [hv]; exact key _ _ _ _ (by decide)
    · cases hv
  · exact ⟨⟨false, idCopc, 10000, BaseW.descExtents, Extents.putItems w'.cfg.extents.toVlr⟩, by simp [copcRecs], rfl, rfl⟩
  · have hvl := hco.visit_length hp
    obtain ⟨hpl, _⟩ := pageRecs_facts ord w.pages hier
      (Writer.visit ord hier (Writer.levels w.pages) VoxelKey.root) (otpd + (bodyBytes L otpd log).length) []
    intro hnil
    have hlen := congrArg List.length hnil
    rw [evRecs, List.length_append, hpl, hvl, List.length_nil] at hlen
    have := hp.root
    unfold AList.keys at this
    obtain ⟨x, hx, _⟩ := List.mem_map.1 this
    have := List.length_pos_of_mem hx
    omega
  · obtain ⟨hfit, hdata, _, _, _, _, hcfg, _, _⟩ := hco.closed
    have hhead : h14.evlrOffset = UInt64.ofNat (preHeader L ord otpd log hier w).base.evlrOffset := by
      have hh := hco.header
      unfold LasHeader.toLazPerf at hh
      rw [hflag] at hh
      simp only [Bool.not_true, Bool.and_false, Bool.false_eq_true, if_false] at hh
      obtain rfl := Res.ok.inj hh
      rfl
    have hsum : otpd + (bodyBytes L otpd log).length ≤ w'.base.out.data.length := by
      rw [hdata, fileBytes, List.length_append, length_headArea hfit, List.length_append]; omega
    have hsz := hw.size
    have heo : h14.evlrOffset.toNat = otpd + (bodyBytes L otpd log).length := by
      rw [hhead, preHeader_eq]
      simp only
      exact UInt64.toNat_ofNat_of_lt' (by rw [UInt64.size]; omega)
    have hd0 := hi.base.out.data
    rw [heo, hd0, bodyBytes]
    simp only [List.length_append, List.length_replicate, length_leN]
    omega

/-- C72. If the constructor of `Reader` returns for the beginning of a file that was written, then the stream is
good, and header, COPC information, extents, WKT and extra bytes are those of the whole file. -/
theorem C72_opens_partial (hw : Written L ord w0 w h (d ++ t)) {r : Reader} (hr : Reader.init ⟨d, 0, false⟩ = .ok r) :
    r.h.str.fail = false ∧ ∃ r', Reader.init ⟨d ++ t, 0, false⟩ = .ok r' ∧ r'.cfg = r.cfg := by
  obtain ⟨h14, vs, es, hrf, hno, hex, _, _⟩ := hw.records
  have hg := (hrf.cut_good rfl hno hex hr).1
  exact ⟨hg, _, init_more hr hg, rfl⟩

theorem lasts_call (hL : L.Streams) {x : Nat → Run Reader α} (hx : ReaderCall L x) (k : Nat) {r : Reader} {a : α}
    {u : Reader} (e : x k r = some (.ok a, u)) (hg : u.h.str.fail = false) :
    x k (r.more t) = some (.ok a, u.more t) := by
  have comp : ∀ n (r : Reader) a u, Reader.getPointDataCompressed n r = (.ok a, u) → u.h.str.fail = false →
      Reader.getPointDataCompressed n (r.more t) = (.ok a, u.more t) := by
    intro n r a u e hg
    unfold Reader.getPointDataCompressed at e ⊢
    obtain ⟨_, r1, e1, e2⟩ := Act.bind_eq_ok.1 e
    obtain ⟨_, r2, e3, e4⟩ := Act.bind_eq_ok.1 e2
    refine Act.bind_eq_ok.2 ⟨(), _, aLasts_throwIf _ _ _ _ _ e1, Act.bind_eq_ok.2 ⟨(), r2.more t, ?_, ?_⟩⟩
    · refine aLasts_stream (x := Act.modify fun s => s.seekg n.entry.offset) ?_ _ _ _ e3
      intro s a s' h
      rw [Act.modify_apply] at h ⊢
      rw [seekg_more]
      cases h
      rfl
    · change (Res.ok (r2.h.str.readFilled n.entry.byteSize.toNat).1,
        { r2 with h := { r2.h with str := (r2.h.str.readFilled n.entry.byteSize.toNat).2 } }) = (Res.ok a, u) at e4
      injection e4 with e5 e6
      rw [← e6] at hg ⊢
      obtain ⟨_, f2⟩ := firm_filled (t := t) n.entry.byteSize.toNat r2.h.str hg
      dsimp only at f2
      show (Res.ok ((r2.h.str.more t).readFilled n.entry.byteSize.toNat).1,
        ({ r2 with h := { r2.h with str := ((r2.h.str.more t).readFilled n.entry.byteSize.toNat).2 } } : Reader)) = _
      rw [f2, e5]
      rfl
  cases hx with
  | hierarchy hx => exact lasts_hierarchy hx k _ _ _ e
  | point hx => exact lasts_points hL hx k _ _ _ e
  | compressed n =>
    change some (Reader.getPointDataCompressed n r) = _ at e
    show some (Reader.getPointDataCompressed n (r.more t)) = _
    injection e with e
    rw [comp _ _ _ _ e hg]
  | compressedAt key =>
    change Reader.getPointDataCompressedAt k key r = _ at e
    show Reader.getPointDataCompressedAt k key (r.more t) = _
    unfold Reader.getPointDataCompressedAt at e ⊢
    split at e
    · rename_i hk; rw [if_pos hk]; exact lasts_pure _ _ _ _ e
    · rename_i hk; rw [if_neg hk]
      cases e1 : Reader.findNode k key r with
      | none => rw [Run.bind_none e1] at e; cases e
      | some p =>
        obtain ⟨res, r1⟩ := p
        cases res with
        | throw x => rw [Run.bind_throw e1] at e; cases e
        | ub => rw [Run.bind_ub e1] at e; cases e
        | ok m =>
          rw [Run.bind_ok e1] at e
          rw [Run.bind_ok (lasts_hierarchy (.findNode key) k _ _ _ e1)]
          split at e
          · rename_i hv; rw [if_pos hv]; exact lasts_pure _ _ _ _ e
          · rename_i hv; rw [if_neg hv]
            rw [Run.ofAct_apply] at e ⊢
            injection e with e
            rw [comp _ _ _ _ e hg]

/-- Every call in a history is one of the calls. -/
theorem query_call (q : Query) : ∃ (α : Type) (x : Nat → Run Reader α), ReaderCall L x ∧ ∀ k, q.run L k = (x k).void := by
  cases q with
  | findNode key => exact ⟨_, _, .hierarchy (.findNode key), fun _ => rfl⟩
  | children o key => exact ⟨_, _, .hierarchy (.children o key), fun _ => rfl⟩
  | allNodes o => exact ⟨_, _, .hierarchy (.allNodes o), fun _ => rfl⟩
  | pageList o => exact ⟨_, _, .hierarchy (.pageList o), fun _ => rfl⟩
  | pointData n => exact ⟨_, _, .point (.pointData n), fun _ => rfl⟩
  | pointDataAt key => exact ⟨_, _, .point (.pointDataAt key), fun _ => rfl⟩
  | compressed n => exact ⟨_, _, .compressed n, fun _ => rfl⟩
  | compressedAt key => exact ⟨_, _, .compressedAt key, fun _ => rfl⟩
  | points n => exact ⟨_, _, .point (.points n), fun _ => rfl⟩
  | pointsAt key => exact ⟨_, _, .point (.pointsAt key), fun _ => rfl⟩
  | allPoints o res => exact ⟨_, _, .point (.allPoints o res), fun _ => rfl⟩
  | depthAtResolution o res => exact ⟨_, _, .hierarchy (.depth o res), fun _ => rfl⟩
  | maxDepth o => exact ⟨_, _, .hierarchy (.maxDepth o), fun _ => rfl⟩
  | nodesAt o res => exact ⟨_, _, .hierarchy (.nodesAt o res), fun _ => rfl⟩
  | nodesUpTo o res => exact ⟨_, _, .hierarchy (.nodesUpTo o res), fun _ => rfl⟩
  | nodesWithin o b res => exact ⟨_, _, .hierarchy (.nodesWithin o b res), fun _ => rfl⟩
  | nodesIntersect o b res => exact ⟨_, _, .hierarchy (.nodesIntersect o b res), fun _ => rfl⟩
  | pointsWithin o b res => exact ⟨_, _, .point (.pointsWithin o b res), fun _ => rfl⟩
  | validate o verbose => exact ⟨_, _, .point (.validate o verbose), fun _ => rfl⟩

theorem lasts_query (hL : L.Streams) (q : Query) (k : Nat) {r u : Reader} (e : q.run L k r = some (.ok (), u))
    (hg : u.h.str.fail = false) : q.run L k (r.more t) = some (.ok (), u.more t) := by
  obtain ⟨α, x, hx, hq⟩ := query_call (L := L) q
  rw [hq] at e ⊢
  unfold Run.void at e ⊢
  cases e1 : x k r with
  | none => rw [Run.bind_none e1] at e; cases e
  | some p =>
    obtain ⟨res, r1⟩ := p
    cases res with
    | throw ex => rw [Run.bind_throw e1] at e; cases e
    | ub => rw [Run.bind_ub e1] at e; cases e
    | ok a =>
      rw [Run.bind_ok e1] at e
      injection e with e
      injection e with _ e
      subst e
      rw [Run.bind_ok (lasts_call hL hx k e1 hg)]
      rfl

theorem answered_more (hL : L.Streams) {r u : Reader} {l : List Query} (ha : Answered L r l u) :
    Answered L (r.more t) l (u.more t) := by
  induction ha with
  | none => exact .none
  | @ask l q _ _ _ he hg ih =>
    obtain ⟨n, hn⟩ := he
    exact ih.ask ⟨n, fun m hm => lasts_query hL q m (hn m hm) hg⟩ hg

theorem Answered.asked {r u : Reader} {l : List Query} (ha : Answered L r l u) : Asked L r l u := by
  induction ha with
  | none => exact .none
  | ask _ he hg ih => exact ih.ask he hg

/-- C72. Whatever was asked before, every value a call returns that leaves the stream good is the value it returns for
the whole file, asked the same. -/
theorem C72_value (hL : L.Streams) (hw : Written L ord w0 w h (d ++ t)) {r r' u v : Reader}
    (hr : Reader.init ⟨d, 0, false⟩ = .ok r) (hr' : Reader.init ⟨d ++ t, 0, false⟩ = .ok r') {l : List Query}
    (ha : Answered L r l u) {x : Nat → Run Reader α} {a : α} (hx : ReaderCall L x) (he : Run.Ends x u (.ok a, v)) (hg : v.h.str.fail = false) :
    ∃ u' v', Answered L r' l u' ∧ Run.Ends x u' (.ok a, v') := by
  obtain ⟨hg0, _⟩ := C72_opens_partial hw hr
  obtain rfl := Res.ok.inj ((init_more hr hg0).symm.trans hr')
  obtain ⟨n, hn⟩ := he
  exact ⟨_, _, answered_more hL ha, n, fun m hm => lasts_call hL hx m (hn m hm) hg⟩

/-- C72. For the queries about the hierarchy, and the calls that return points, the stream need not be looked at. -/
theorem C72_points (hL : L.Streams) (hw : Written L ord w0 w h (d ++ t)) {r r' u v : Reader}
    (hr : Reader.init ⟨d, 0, false⟩ = .ok r) (hr' : Reader.init ⟨d ++ t, 0, false⟩ = .ok r') {l : List Query}
    (ha : Answered L r l u) {x : Nat → Run Reader α} {a : α} (hx : HierarchyCall x ∨ PointCall L x) (he : Run.Ends x u (.ok a, v)) :
    ∃ u' v', Answered L r' l u' ∧ Run.Ends x u' (.ok a, v') := by
  obtain ⟨hg0, _⟩ := C72_opens_partial hw hr
  obtain rfl := Res.ok.inj ((init_more hr hg0).symm.trans hr')
  obtain ⟨n, hn⟩ := he
  refine ⟨u.more t, v.more t, answered_more hL ha, n, fun m hm => ?_⟩
  rcases hx with hx | hx
  · exact lasts_hierarchy hx m _ _ _ (hn m hm)
  · exact lasts_points hL hx m _ _ _ (hn m hm)

/-- C72. `GetPointDataCompressed`, which does not notice a short read, returns the bytes of the whole file too: a file
cut before the end of its point data does not open. -/
theorem C72_compressed (hL : L.Streams) (hw : Written L ord w0 w h (d ++ t)) {r r' u v : Reader}
    (hr : Reader.init ⟨d, 0, false⟩ = .ok r) (hr' : Reader.init ⟨d ++ t, 0, false⟩ = .ok r') {l : List Query}
    (ha : Answered L r l u) {key : VoxelKey} {bs : Bytes}
    (he : Run.Ends (fun k => Reader.getPointDataCompressedAt k key) u (.ok bs, v)) :
    ∃ u' v', Answered L r' l u' ∧ Run.Ends (fun k => Reader.getPointDataCompressedAt k key) u' (.ok bs, v') := by
  refine C72_value hL hw hr hr' ha (.compressedAt key) he ?_
  obtain ⟨hg0, _⟩ := C72_opens_partial hw hr
  obtain rfl := Res.ok.inj ((init_more hr hg0).symm.trans hr')
  have ha' := answered_more (t := t) hL ha
  obtain ⟨ps, g1, g2, g3, _⟩ := hw.asked hr' ha'.asked
  have hgu : u.h.str.fail = false := by
    cases ha with
    | none => exact hg0
    | ask _ _ hg => exact hg
  obtain ⟨h14, vs, es, hrf, hno, hex, hes, hoff⟩ := hw.records
  have hlen := (hrf.cut_good rfl hno hex hr).2
  have hh : (Header14.decode (d.take 375)).evlrOffset = h14.evlrOffset ∧
      (Header14.decode (d.take 375)).evlrCount = h14.evlrCount := by
    have e2 := hrf.readHeader 0 false
    unfold BaseReader.readHeader at e2
    dsimp only at e2
    rw [if_neg (by rw [List.length_append]; omega), List.take_append_of_le_length (by omega)] at e2
    have e3 := Res.ok.inj e2
    exact ⟨by show (stripFormat (Header14.decode (d.take 375))).evlrOffset = (stripFormat h14).evlrOffset; rw [e3],
      by show (stripFormat (Header14.decode (d.take 375))).evlrCount = (stripFormat h14).evlrCount; rw [e3]⟩
  have hreach := cut_reach hr hg0 (by
    rw [hh.2]
    intro hc
    have := hrf.ecount
    rw [hc] at this
    exact hes (List.eq_nil_of_length_eq_zero this.symm))
  rw [hh.1] at hreach
  obtain ⟨k0, hk0⟩ := he
  obtain ⟨m', s', ⟨k1, hk1⟩, i1, _, a1⟩ := (findNode_gives g1 g2 key).ends
  have e := hk0 (max k0 k1) (by omega)
  have ef := hk1 (max k0 k1) (by omega)
  generalize max k0 k1 = k at e ef
  change Reader.getPointDataCompressedAt k key u = _ at e
  change Reader.findNode k key (u.more t) = _ at ef
  unfold Reader.getPointDataCompressedAt at e
  split at e
  · injection e with e
    injection e with _ e
    rw [← e]; exact hgu
  cases e1 : Reader.findNode k key u with
  | none => rw [Run.bind_none e1] at e; cases e
  | some p =>
    obtain ⟨res, r1⟩ := p
    cases res with
    | throw x => rw [Run.bind_throw e1] at e; cases e
    | ub => rw [Run.bind_ub e1] at e; cases e
    | ok m =>
      rw [Run.bind_ok e1] at e
      have hm := lasts_hierarchy (t := t) (.findNode key) k _ _ _ e1
      rw [ef] at hm
      injection hm with hm
      injection hm with hm hs
      injection hm with hm
      subst hm hs
      have hg1 : r1.h.str.fail = false := i1.good
      have hd1 : r1.h.str.data = d := List.append_cancel_right (show r1.h.str.data ++ t = d ++ t from i1.data)
      split at e
      · injection e with e
        injection e with _ e
        rw [← e]; exact hg1
      · rename_i hv
        have hv : m'.isValid = true := by simpa using hv
        rcases a1 with ⟨h1, _⟩ | ⟨_, h2⟩
        · obtain ⟨n, hn, rfl⟩ := (g3 m').1 h1
          obtain ⟨op, hop⟩ := mem_addedNodes hn
          obtain ⟨c, o, hmk⟩ := hw.made
          have hsz := hw.size
          have hol := hrf.offset_le
          obtain ⟨⟨_, blob, _, s2, s3, _⟩, s4⟩ := C27_stored hmk hw.history hw.unclosed (by omega) hop
          rw [Run.ofAct_apply, compressed_reads hd1 hg1 (by rw [List.length_append] at hsz; omega) hv (by
            show n.entry.offset + n.entry.byteSize.toNat ≤ d.length
            rw [s2]
            simp only [Int.toNat_natCast]
            omega)] at e
          injection e with e
          injection e with _ e
          rw [← e]
          rfl
        · rw [h2] at hv
          exact absurd hv (by decide)

/-! ### C73 -/

/-- C73. A file that opens opens as well with any bytes after its end, with the same header, COPC information,
extents, WKT and extra bytes. -/
theorem C73_opens {r : Reader} (hr : Reader.init ⟨d, 0, false⟩ = .ok r) (hg : r.h.str.fail = false) :
    ∃ r', Reader.init ⟨d ++ t, 0, false⟩ = .ok r' ∧ r'.h.str.fail = false ∧ r'.cfg = r.cfg :=
  ⟨_, init_more hr hg, hg, rfl⟩

/-- C73. Asked the same, it returns the same values. -/
theorem C73_value (hL : L.Streams) {r r' u v : Reader} (hr : Reader.init ⟨d, 0, false⟩ = .ok r)
    (hg : r.h.str.fail = false) (hr' : Reader.init ⟨d ++ t, 0, false⟩ = .ok r') {l : List Query} (ha : Answered L r l u)
    {x : Nat → Run Reader α} {a : α} (hx : ReaderCall L x) (he : Run.Ends x u (.ok a, v)) (hgv : v.h.str.fail = false) :
    ∃ u' v', Answered L r' l u' ∧ Run.Ends x u' (.ok a, v') ∧ v'.h.str.fail = false := by
  obtain rfl := Res.ok.inj ((init_more hr hg).symm.trans hr')
  obtain ⟨n, hn⟩ := he
  exact ⟨_, v.more t, answered_more hL ha, ⟨n, fun m hm => lasts_call hL hx m (hn m hm) hgv⟩, hgv⟩

/-- C73. In particular for a file that was written: it has the nodes that were added. -/
theorem C73_nodes {data : Bytes} (hw : Written L ord w0 w h data) (rord : ROrder) :
    ∃ r' ns v', Reader.init ⟨data ++ t, 0, false⟩ = .ok r' ∧ Run.Ends (fun k => Reader.getAllNodes rord k) r' (.ok ns, v') ∧
      ns.Perm ((addedNodes h).map fun n => ⟨n.entry, finalPage h n⟩) := by
  obtain ⟨r, hr, hg⟩ := C33_opens hw
  obtain ⟨ns, v, he, hp⟩ := C33_allNodes hw hr .none rord
  obtain ⟨r', hr', _⟩ := C73_opens (t := t) hr hg
  obtain rfl := Res.ok.inj ((init_more hr hg).symm.trans hr')
  obtain ⟨n, hn⟩ := he
  exact ⟨_, ns, v.more t, hr', ⟨n, fun m hm => lasts_hierarchy (.allNodes rord) m _ _ _ (hn m hm)⟩, hp⟩

end Copc
