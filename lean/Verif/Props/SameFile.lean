import Verif.Spec.SameFile
import Verif.Lemmas.Format
import Verif.Props.RoundTrip
import Verif.Props.WriterReject
import Verif.Props.LazReader
/-! # C97: the same calls give the same file -/
namespace Copc

theorem length_pageHeader (k : VoxelKey) (n : Nat) : (Writer.pageHeader k n).length = 60 := by
  unfold Writer.pageHeader VlrHeader.encodeE
  simp

theorem layoutPages_length (ord : Order) (pages : List (VoxelKey × WPage)) (hier : List (VoxelKey × VoxelKey)) :
    ∀ (ks : List VoxelKey) (pos : Nat) (placed : List (VoxelKey × (Nat × Nat))),
      (layoutPages ord pages hier pos placed ks).1.length = (ks.map fun k => 60 + pageSize pages hier k).sum
  | [], _, _ => rfl
  | k :: ks, pos, placed => by
    rw [layoutPages]
    dsimp only
    rw [List.length_append, layoutPages_length ord pages hier ks, List.length_append, length_pageBody, length_pageHeader,
      List.map_cons, List.sum_cons]

theorem layoutPages_last (ord : Order) (pages : List (VoxelKey × WPage)) (hier : List (VoxelKey × VoxelKey)) (r : VoxelKey) :
    ∀ (ks : List VoxelKey) (pos : Nat) (placed : List (VoxelKey × (Nat × Nat))),
      AList.get r (layoutPages ord pages hier pos placed (ks ++ [r])).2 =
        some (pos + (ks.map fun k => 60 + pageSize pages hier k).sum + 60, pageSize pages hier r)
  | [], pos, placed => by
    rw [List.nil_append, layoutPages, layoutPages]
    dsimp only
    rw [AList.get_put, if_pos rfl, length_pageHeader]
    rfl
  | k :: ks, pos, placed => by
    rw [List.cons_append, layoutPages]
    dsimp only
    rw [layoutPages_last ord pages hier r ks, List.length_append, length_pageBody, length_pageHeader, List.map_cons, List.sum_cons]
    congr 2
    omega

end Copc
namespace Copc

/-- The pages in the order of writing are the pages of the writer, the root page last. -/
theorem CloseOk.visit_perm {L : Lazperf} {ord : Order} {otpd : Nat} {log : List (Nat × Bytes)} {w w' : Writer}
    {hier : List (VoxelKey × VoxelKey)} {eb : Nat} {h14 : Header14} {gps : Extent}
    (h : CloseOk L ord otpd log w w' hier eb h14 gps) (hp : PageInv w) (ord' : Order) :
    (Writer.visit ord' hier (Writer.levels w.pages) VoxelKey.root).Perm (AList.keys w.pages) := by
  obtain ⟨hh, hv, _⟩ := h.tree hp
  have hf : (depthBound (AList.keys w.pages) : Int) ≤ VoxelKey.root.d + (Writer.levels w.pages : Nat) := by
    rw [levels_eq]; simp [VoxelKey.root]
  refine (List.perm_ext_iff_of_nodup (nodup_visit ord' hh hv hp.nodup _ _ hp.root hf) hp.nodup).2 fun m => ?_
  rw [mem_visit ord' hh hv _ _ hp.root hf]
  exact ⟨fun x => x.1, fun x => ⟨x, ((inOctree_iff_below m).1 ((hierarchy_iff hp).1 ⟨hier, h.hier_ok⟩ m x)).2⟩⟩

/-- `Close` with other orders of iteration: it returns, too, and only the pages differ. -/
theorem close_any {L : Lazperf} {ord : Order} {otpd : Nat} {w w' : Writer} {log : List (Nat × Bytes)}
    (ho : Writer.offsetToPointData w.cfg = .ok otpd) (hi : BInv (otpd + 8) w.base log) (hp : PageInv w)
    (hc : Writer.close L ord w = (.ok (), w')) (ord' : Order) :
    ∃ w'' pre p1 p2, Writer.close L ord' w = (.ok (), w'') ∧ w'.base.out.data = pre ++ (p1 ++ wktBytes w.cfg.wkt) ∧
      w''.base.out.data = pre ++ (p2 ++ wktBytes w.cfg.wkt) ∧ p1.length = p2.length ∧
      pre.length = otpd + (bodyBytes L otpd log).length ∧
      (w.cfg.header.pointsByReturn.length = 15 → w'.base.out.data.length < 2 ^ 63 →
        Format.num w'.base.out.data 8 235 = pre.length) := by
  obtain ⟨hier, eb, h14, gps, h⟩ := close_ok ho hi hc
  have q1 := h.visit_perm hp ord
  have q2 := h.visit_perm hp ord'
  have q := q1.trans q2.symm
  have hlen : (closeLayout L ord otpd log hier w).1.length = (closeLayout L ord' otpd log hier w).1.length := by
    unfold closeLayout
    rw [layoutPages_length, layoutPages_length]
    exact (q.map _).sum_eq
  have hroot : AList.get VoxelKey.root (closeLayout L ord otpd log hier w).2 =
      AList.get VoxelKey.root (closeLayout L ord' otpd log hier w).2 := by
    have hl : Writer.levels w.pages = (Writer.levels w.pages - 1) + 1 := by unfold Writer.levels; omega
    have hs := (q.map fun k => 60 + pageSize w.pages hier k).sum_eq
    unfold closeLayout
    rw [hl] at hs ⊢
    unfold Writer.visit at hs ⊢
    rw [layoutPages_last, layoutPages_last]
    rw [List.map_append, List.map_append, List.sum_append, List.sum_append] at hs
    congr 2
    omega
  have hcfg : closedCfg L ord otpd log hier w = closedCfg L ord' otpd log hier w := by
    unfold closedCfg setRoot
    rw [hroot]
  have hsz : ∀ k ∈ Writer.visit ord' hier (Writer.levels w.pages) VoxelKey.root, pageSize w.pages hier k ≤ 2147483647 :=
    fun k hk => h.small k (q.mem_iff.2 hk)
  obtain ⟨hfit, hdata, _, _, _, _, hc', _⟩ := h.closed
  obtain ⟨hc1, hc2⟩ := setRoot_header (closeLayout L ord otpd log hier w).2 w.cfg
  rw [show setRoot (closeLayout L ord otpd log hier w).2 w.cfg = closedCfg L ord otpd log hier w from rfl] at hc1 hc2
  have hcl := close_eq L ord' ho hi h.few h.hier_ok hsz
  have he := h.header
  rw [preHeader_eq] at he
  rw [preHeader_eq] at hcl
  have hd : ∀ d : Bytes, (endStream d).seekp 0 = midStream [] d := fun d => endStream_seek0 d
  have hH := writeHeader_eq L { w with
      base := { w.base with
        out := endStream (List.replicate otpd 0 ++ bodyBytes L otpd log ++
          (closeLayout L ord' otpd log hier w).1 ++ wktBytes w.cfg.wkt)
        chunks := sizes log
        evlrOffset := otpd + (bodyBytes L otpd log).length
        evlrCount := if w.cfg.wkt = [] then w.pages.length % 2 ^ 32
          else (w.pages.length % 2 ^ 32 + 1) % 2 ^ 32 }
      cfg := closedCfg L ord' otpd log hier w } _ (hd _) (otpd := otpd) (eb := eb) (h14 := h14) (gps := gps)
    (by
      show Writer.offsetToPointData (closedCfg L ord' otpd log hier w) = .ok otpd
      rw [← hcfg, offsetToPointData_congr (c := w.cfg) (by rw [hc1]) (by rw [hc1]) (by rw [hc1]) (by rw [hc2])]
      exact ho)
    (by
      show (closedCfg L ord' otpd log hier w).header.ebSize = .ok eb
      rw [← hcfg, hc1]; exact h.eb_ok)
    (by
      show (closedCfg L ord' otpd log hier w).header.toLazPerf _ _ _ _ _ (closedCfg L ord' otpd log hier w).extents.extStats = _
      rw [← hcfg, hc1, hc2]; exact he)
    (by
      show (closedCfg L ord' otpd log hier w).extents.getGpsTime = _
      rw [← hcfg, hc2]; exact h.gps_ok)
    (by
      show Writer.boundsExtents (closedCfg L ord' otpd log hier w).header = _
      rw [← hcfg, hc1]; exact h.bounds)
  rw [show (closedCfg L ord' otpd log hier w) = closedCfg L ord otpd log hier w from hcfg.symm] at hH hcl
  dsimp only at hH
  rw [if_neg (show ¬ (headBlock L (closedCfg L ord otpd log hier w) eb gps h14).length > otpd by omega)] at hH
  rw [Act.bind_ok hH] at hcl
  refine ⟨_, headArea L (closedCfg L ord otpd log hier w) eb gps h14 otpd ++ bodyBytes L otpd log, (closeLayout L ord otpd log hier w).1,
    (closeLayout L ord' otpd log hier w).1, hcl, ?_, ?_, hlen, ?_, ?_⟩
  · rw [hdata, fileBytes, List.append_assoc]
  · show (midStream _ _).data = _
    rw [midStream_data]
    unfold headArea
    generalize headBlock L (closedCfg L ord otpd log hier w) eb gps h14 = H at *
    have : List.replicate otpd (0 : UInt8) = List.replicate H.length 0 ++ List.replicate (otpd - H.length) 0 := by
      rw [List.replicate_append_replicate]; congr 1; omega
    rw [this]
    simp only [List.append_assoc]
    rw [List.drop_left' (by simp)]
  · rw [List.length_append, length_headArea hfit]
  · intro hr hl
    obtain ⟨hd1, _⟩ := h.headerDecoded hr
    obtain ⟨_, _, _, _, _, _, _, _, _, ho', _⟩ := header_raw2 hd1
    rw [← ho', List.length_append, length_headArea hfit]
    have hle : otpd + (bodyBytes L otpd log).length ≤ w'.base.out.data.length := by
      rw [hdata, fileBytes, List.length_append, length_headArea hfit, List.length_append]; omega
    have hh := h.header
    rw [preHeader_eq] at hh
    unfold LasHeader.toLazPerf at hh
    split at hh
    · cases hh
    · obtain rfl := Res.ok.inj hh
      exact UInt64.toNat_ofNat_of_lt' (show otpd + (bodyBytes L otpd log).length < UInt64.size by rw [UInt64.size]; omega)


/-- A history without `Close` does not depend on the orders of iteration. -/
theorem history_any {L : Lazperf} {ord : Order} {w0 w : Writer} {h : List (Op × Res (Option Node))}
    (hh : History L ord w0 h w) (hu : Unclosed h) (ord' : Order) : History L ord' w0 h w := by
  induction hh with
  | start => exact .start
  | @call h w op hh hub ih =>
    have e : op.run L ord = op.run L ord' := by
      cases op with
      | close => exact absurd rfl (hu (.close, (Op.run L ord .close w).1) (by simp))
      | _ => rfl
    rw [e] at hub ⊢
    exact .call op (ih fun x hx => hu x (by simp [hx])) hub
  | edit hh he ih => exact .edit (ih hu) he

/-- The same program run with other orders of iteration (of the nodes of a page in the hash table, of the sub-pages in a set
of pointers): the file is there, too, as long as the first, and has the same bytes but in the part of the hierarchy pages,
which begins where the header says that the extended VLRs begin and ends before the record of the WKT. -/
theorem C97_order {L : Lazperf} {ord : Order} {w0 w : Writer} {h : List (Op × Res (Option Node))} {data : Bytes}
    (hw : Written L ord w0 w h data) (ord' : Order) :
    ∃ data', Written L ord' w0 w h data' ∧ data'.length = data.length ∧
      ∀ i, i < Format.num data 8 235 ∨ data.length ≤ i + wktPart w.cfg.wkt → data'[i]? = data[i]? := by
  obtain ⟨c, o, hm⟩ := hw.made
  obtain ⟨w', hc, rfl⟩ := hw.closed
  obtain ⟨otpd, g1, g2⟩ := bInv_of_make hm
  obtain ⟨log, hi⟩ := wInv_history g1 g2 hw.history hw.unclosed
  obtain ⟨w'', pre, p1, p2, k1, k2, k3, k4, k5, k6⟩ := close_any hi.offset hi.base (pageInv_history (pageInv_make hm) hw.history) hc ord'
  have k6 := k6 hw.storable.header.byReturn hw.size
  have hwl : (wktBytes w.cfg.wkt).length = wktPart w.cfg.wkt := by
    unfold wktBytes wktPart
    split
    · rfl
    · unfold BaseW.wktEvlr VlrHeader.encodeE
      simp
      omega
  have hlen : w''.base.out.data.length = w'.base.out.data.length := by
    rw [k2, k3]; simp only [List.length_append, k4]
  refine ⟨w''.base.out.data, ⟨hw.made, history_any hw.history hw.unclosed ord', hw.unclosed, ⟨w'', k1, rfl⟩, hw.distinct, hw.once,
    hw.counted, hw.storable, by rw [hlen]; exact hw.size, hw.few⟩, hlen, ?_⟩
  intro i hii
  rw [k6] at hii
  rw [k2, List.length_append, List.length_append, hwl] at hii
  rw [k2, k3]
  rcases hii with hii | hii
  · rw [List.getElem?_append_left hii, List.getElem?_append_left hii]
  · rw [List.getElem?_append_right (by omega), List.getElem?_append_right (by omega),
      List.getElem?_append_right (by omega), List.getElem?_append_right (by omega), k4]

/-- Additions that were refused leave no trace: without them, the calls lead to the same writer with the same stream, so
everything after it and the file are the same. -/
theorem C97_refused {L : Lazperf} {ord : Order} {w0 w : Writer} {h : List (Op × Res (Option Node))}
    (hh : History L ord w0 h w) : History L ord w0 (h.filter fun x => !refused x) w := by
  induction hh with
  | start => exact .start
  | @call h w op hh hub ih =>
    rw [List.filter_append]
    by_cases hr : refused (op, (op.run L ord w).1) = true
    · have e : (op.run L ord w).2 = w := by
        cases hx : (op.run L ord w).1 with
        | throw e =>
          rw [hx] at hr
          simp only [refused, Bool.and_eq_true, decide_eq_true_eq] at hr
          exact C28_unchanged L ord op w e hr.1 hx hr.2.1 hr.2.2
        | ok a => rw [hx] at hr; cases hr
        | ub => exact absurd hx hub
      rw [e, List.filter_cons_of_neg (by simp [hr]), List.filter_nil, List.append_nil]
      exact ih
    · rw [List.filter_cons_of_pos (by simpa using hr), List.filter_nil]
      exact .call op ih hub
  | edit hh he ih => exact .edit ih he

/-- The same for `LazWriter`. -/
theorem C97_laz_refused {L : Lazperf} {w0 w : LazWriter} {h : List (LazOp × Res Unit)} (hh : LazHistory L w0 h w) :
    LazHistory L w0 (h.filter fun x => !lazRefused x) w := by
  have hb : ∀ {c : LasHeader} {bs : Bytes} {n : Int} {b : Bool} (w : LazWriter) (e : Exc),
      (LazWriter.onBase (BaseW.writeChunk L c bs n b) w).1 = .throw e → ¬ LateExc e →
      (LazWriter.onBase (BaseW.writeChunk L c bs n b) w).2 = w := by
    intro c bs n b w e h1 h2
    have := atomic_writeChunk L c bs n b w.base e
    simp only [LazWriter.onBase, Act.zoom_apply] at h1 ⊢
    rw [this h1 h2]
  have key : ∀ (op : LazOp) (w : LazWriter) (e : Exc), op ≠ .close → (op.run L w).1 = .throw e → ¬ LateExc e →
      (op.run L w).2 = w := by
    intro op w e hc
    cases op with
    | close => exact absurd rfl hc
    | points fmt len ps =>
      have : Atomic (LazWriter.writePoints L fmt len ps) := by
        unfold LazWriter.writePoints
        refine atomic_bind (pure_gets _) fun c => atomic_ite (onlyLate_pure _).atomic ?_
        exact atomic_bind pure_throwIf fun _ => atomic_bind (pure_lift _) fun bs => atomic_then hb fun _ => onlyLate_pure _
      exact this w e
    | compressed bs n =>
      have : Atomic (LazWriter.writePointsCompressed L bs n) := by
        unfold LazWriter.writePointsCompressed
        exact atomic_bind (pure_gets _) fun c => atomic_bind pure_throwIf fun _ => atomic_then hb fun _ => onlyLate_pure _
      exact this w e
  induction hh with
  | start => exact .start
  | @call h w op hh hub ih =>
    rw [List.filter_append]
    by_cases hr : lazRefused (op, (op.run L w).1) = true
    · have e : (op.run L w).2 = w := by
        cases hx : (op.run L w).1 with
        | throw e =>
          rw [hx] at hr
          have : op ≠ .close ∧ e ≠ .chunkTooLarge ∧ e ≠ .chunkError := by
            cases op with
            | close => cases hr
            | _ => exact ⟨by simp, of_decide_eq_true hr⟩
          exact key op w e this.1 hx fun hl => hl.elim this.2.1 this.2.2
        | ok a => rw [hx] at hr; cases op <;> cases hr
        | ub => exact absurd hx hub
      rw [e, List.filter_cons_of_neg (by simp [hr]), List.filter_nil, List.append_nil]
      exact ih
    · rw [List.filter_cons_of_pos (by simpa using hr), List.filter_nil]
      exact .call op ih hub
  | edit hh he ih => exact .edit ih he

end Copc
