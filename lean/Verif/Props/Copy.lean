import Verif.Spec.Copy
import Verif.Lemmas.BlobFile
import Verif.Props.BoxSample
/-! # C62: copying the nodes of a file -/
namespace Copc
open Spec VoxelKey

/-- What copying needs to know of a node. -/
structure Copyable (data : Bytes) (n : Node) : Prop where
  valid : n.isValid = true
  inside : n.entry.offset + n.entry.byteSize.toNat ≤ data.length
  size : n.entry.byteSize = n.entry.byteSize.toNat
  small : n.entry.byteSize.toNat ≤ 2147483647
  add : Addable n.entry.key n.pageKey
  range : n.entry.key.InRange
  count : 0 < n.entry.pointCount ∧ n.entry.pointCount < 2 ^ 31

section
variable {L : Lazperf} {ord ord' : Order} {w0 w : Writer} {h : List (Op × Res (Option Node))} {data : Bytes}

theorem Written.copyable (hw : Written L ord w0 w h data) {n : Node} (hn : n ∈ addedNodes h) :
    Copyable data (reported h n) := by
  obtain ⟨⟨op, res⟩, hx, he⟩ := List.mem_filterMap.1 hn
  obtain ⟨c, o, hm⟩ := hw.made
  have hres : res = .ok (some n) := by
    cases res with
    | ok a => exact congrArg Res.ok he
    | throw e => cases he
    | ub => cases he
  subst hres
  obtain ⟨hmem, hv, ht, blob, hst, hb, hin, hsl⟩ := hw.node hx
  obtain ⟨otpd, h1, h2⟩ := bInv_of_make hm
  obtain ⟨log, hi⟩ := wInv_history h1 h2 hw.history hw.unclosed
  obtain ⟨l1, l2, blob', c', key, page, _, _, _, hs, hno⟩ := hi.logged.node_in hx
  have hbl : blob'.length % 2 ^ 64 ≤ 2147483647 := by omega
  have hv' := hInv_history (hInv_start hm) hw.history hw.distinct hw.once
  have hp := pageInv_history (pageInv_make hm) hw.history
  have hlist := (hv'.listed (finalPage h n) n.entry.key n).2 ⟨hmem, rfl, rfl⟩
  have hbn : n.entry.byteSize.toNat = blob.length := by rw [hb]; simp
  have hsz := hw.size
  obtain ⟨pg, hg1, hg2⟩ : ∃ pg, AList.get (finalPage h n) w.pages = some pg ∧ AList.get n.entry.key pg = some n := by
    unfold Writer.listing at hlist
    cases hg : AList.get (finalPage h n) w.pages with
    | none => rw [hg] at hlist; simp at hlist
    | some pg => rw [hg] at hlist; exact ⟨pg, rfl, by simpa using hlist⟩
  obtain ⟨q1, q2, q3⟩ := hp.page _ (AList.mem_of_get hg1)
  obtain ⟨_, q4, q5⟩ := q3 _ (AList.mem_of_get hg2)
  obtain ⟨k1, k2, k3⟩ := hw.counted n hmem
  refine ⟨node_isValid hv (by rw [hb]; omega), by show n.entry.offset + n.entry.byteSize.toNat ≤ _; omega, ?_, ?_, ?_, k1, k2, k3⟩
  · show n.entry.byteSize = _
    rw [show (reported h n).entry.byteSize = n.entry.byteSize from rfl, hbn, hb]
  · show n.entry.byteSize.toNat ≤ _
    have e : n.entry.byteSize = ((blob'.length % 2 ^ 64 : Nat) : Int) := by rw [hno]; rfl
    rw [e]
    omega
  · exact ⟨hv, q1, q5⟩

end

/-- `GetPointDataCompressed` of a key returns the bytes of the file at the node. -/
theorem Written.compressed_slice {L : Lazperf} {ord : Order} {w0 w : Writer} {h : List (Op × Res (Option Node))}
    {data : Bytes} (hw : Written L ord w0 w h data) {r r' : Reader}
    (hr : Reader.init ⟨data, 0, false⟩ = .ok r) {l : List Query} (ha : Asked L r l r') {n : Node}
    (hn : n ∈ addedNodes h) :
    ∃ r'', Run.Ends (fun k => Reader.getPointDataCompressedAt k n.entry.key) r'
      (.ok (slice data n.entry.offset n.entry.byteSize.toNat), r'') := by
  obtain ⟨⟨op, res⟩, hx, he⟩ := List.mem_filterMap.1 hn
  have hres : res = .ok (some n) := by
    cases res with
    | ok a => exact congrArg Res.ok he
    | throw e => cases he
    | ub => cases he
  subst hres
  have cn := hw.copyable hn
  obtain ⟨_, hv, _⟩ := hw.node hx
  obtain ⟨r'', he, _⟩ := hw.findThen hr ha hn
    (fun m => if m.isValid = false then pure [] else Reader.getPointDataCompressed m)
    (a := slice data n.entry.offset n.entry.byteSize.toNat) (by
      intro r1 h1 h2 _
      have := compressed_reads h1 h2 hw.size cn.valid cn.inside
      refine ⟨r1.withStr ⟨data, n.entry.offset + n.entry.byteSize.toNat, false⟩, ?_, rfl, rfl, rfl⟩
      have hv2 := cn.valid
      rw [if_neg (by rw [show (Node.mk n.entry (finalPage h n)).isValid = true from hv2]; simp)]
      exact this)
  refine ⟨r'', ?_⟩
  obtain ⟨k0, hk⟩ := he
  refine ⟨k0, fun k hle => ?_⟩
  rw [← hk k hle]
  have hfun : Reader.getPointDataCompressedAt k n.entry.key = (Reader.findNode k n.entry.key >>= fun m =>
      Run.ofAct (if m.isValid = false then pure [] else Reader.getPointDataCompressed m)) := by
    unfold Reader.getPointDataCompressedAt
    rw [if_neg (by rw [(isValid_iff _).2 hv]; simp)]
    congr 1
    funext m
    split <;> rfl
  exact congrFun hfun r'

/-- Running the loop. -/
theorem copy_run {L : Lazperf} {ord : Order} {c : CopcConfig} {o : Writer.Overrides} {v0 : Writer} {data : Bytes}
    (hsize : data.length < 2 ^ 63) (hm : Writer.make OStream.fresh c o = .ok v0) :
    ∀ (ns : List Node), (∀ n ∈ ns, Copyable data n) → ∀ (r : Reader) (v : Writer) (h : List (Op × Res (Option Node))),
    r.h.str.data = data → r.h.str.fail = false → History L ord v0 h v → Unclosed h →
    ∃ r' v' t, copyNodes L ord ns (r, v) = (.ok (), (r', v')) ∧ History L ord v0 (h ++ t) v' ∧
      t.map (·.1) = ns.map (blobOp fun n => slice data n.entry.offset n.entry.byteSize.toNat) ∧
      (∀ x ∈ t, ∃ node, x.2 = .ok (some node)) ∧ v'.cfg = v.cfg ∧ r'.h.str.data = data ∧ r'.h.str.fail = false ∧
      v' = ns.foldl (fun v n => ((blobOp (fun n => slice data n.entry.offset n.entry.byteSize.toNat) n).run L ord v).2) v
  | [], _, r, v, h, h1, h2, hh, _ => ⟨r, v, [], rfl, by simpa using hh, rfl, by simp, rfl, h1, h2, rfl⟩
  | n :: ns, hn, r, v, h, h1, h2, hh, hu => by
    obtain ⟨otpd, ho, hb⟩ := bInv_of_make hm
    obtain ⟨log, hi⟩ := wInv_history ho hb hh hu
    have cn := hn n (by simp)
    have e1 := compressed_reads h1 h2 hsize cn.valid cn.inside
    have hlen : (slice data n.entry.offset n.entry.byteSize.toNat).length = n.entry.byteSize.toNat := by
      have := cn.inside
      unfold slice; simp; omega
    have hhold := hi.base.out
    have hfail : v.base.out.fail = false := by rw [holds_eq hhold]; rfl
    have htp : v.base.out.tellp = v.base.out.data.length := by
      rw [holds_eq hhold]; rfl
    have htp2 : ∀ bs : Bytes, (v.base.out.write bs).tellp = v.base.out.data.length + bs.length := by
      intro bs
      rw [holds_eq hhold, endStream_write]
      show (_ ++ bs).length = _
      rw [List.length_append]; rfl
    have hpos : 0 < v.base.out.data.length := by
      rw [hhold.data]; simp
    have e2 := addCompressed_any L ord (key := n.entry.key) (page := n.pageKey)
      (bs := slice data n.entry.offset n.entry.byteSize.toNat) (c := n.entry.pointCount) (w := v)
      ((isValid_iff _).2 cn.add.1) ((isValid_iff _).2 cn.add.2.1) ((childOf_iff _ _).2 ⟨cn.add.1, cn.add.2.2⟩)
      (by have := cn.count.1; omega) (by rw [htp]; omega) (by
        unfold spanOf
        rw [htp, htp2, hlen]
        have := cn.small
        omega)
    generalize hs : slice data n.entry.offset n.entry.byteSize.toNat = bs at e1 e2 hlen
    have e3 : copyNode L ord n (r, v) = (.ok (), (r.withStr ⟨data, n.entry.offset + n.entry.byteSize.toNat, false⟩,
        nodeAdded v n.pageKey (nodeAt v.base.out n.entry.key n.pageKey bs n.entry.pointCount)
          (chunkAdded v.base bs n.entry.pointCount))) := by
      unfold copyNode
      have a1 : Act.zoom Prod.fst (fun r s => (r, s.2)) (Reader.getPointDataCompressed n) ((r, v) : Copier) =
          (.ok bs, (r.withStr ⟨data, n.entry.offset + n.entry.byteSize.toNat, false⟩, v)) := by
        rw [Act.zoom_apply]; dsimp only; rw [e1]
      rw [Act.bind_ok a1]
      have a2 : ∀ q : Reader, Act.zoom Prod.snd (fun w s => (s.1, w))
          ((Op.addCompressed n.entry.key bs n.entry.pointCount n.pageKey).run L ord) ((q, v) : Copier) =
          (.ok (some (nodeAt v.base.out n.entry.key n.pageKey bs n.entry.pointCount)), (q,
            nodeAdded v n.pageKey (nodeAt v.base.out n.entry.key n.pageKey bs n.entry.pointCount)
              (chunkAdded v.base bs n.entry.pointCount))) := by
        intro q
        rw [Act.zoom_apply]; dsimp only; rw [e2]
      rw [Act.bind_ok (a2 _)]
      rfl
    have hcall := History.call (Op.addCompressed n.entry.key bs n.entry.pointCount n.pageKey) hh (by rw [e2]; simp)
    rw [e2] at hcall
    have hu2 : Unclosed (h ++ [(Op.addCompressed n.entry.key bs n.entry.pointCount n.pageKey,
        Res.ok (some (nodeAt v.base.out n.entry.key n.pageKey bs n.entry.pointCount)))]) := by
      intro x hx
      rcases List.mem_append.1 hx with hx | hx
      · exact hu x hx
      · rw [List.mem_singleton.1 hx]; simp
    obtain ⟨r', v', t, g1, g2, g3, g4, g5, g6, g7, g8⟩ := copy_run hsize hm ns (fun m hm => hn m (by simp [hm]))
      (r.withStr ⟨data, n.entry.offset + n.entry.byteSize.toNat, false⟩) _ _ rfl rfl hcall hu2
    refine ⟨r', v', _ :: t, ?_, by rw [List.append_assoc] at g2; exact g2, ?_, ?_, g5, g6, g7, ?_⟩
    · unfold copyNodes at g1 ⊢
      show (do copyNode L ord n; Act.forEach (copyNode L ord) ns) (r, v) = _
      rw [Act.bind_ok e3, g1]
    · rw [List.map_cons, List.map_cons, g3, ← hs]
      rfl
    · intro x hx
      rcases List.mem_cons.1 hx with rfl | hx
      · exact ⟨_, rfl⟩
      · exact g4 x hx
    · rw [g8, List.foldl_cons]
      congr 1
      show _ = ((Op.addCompressed n.entry.key (slice data n.entry.offset n.entry.byteSize.toNat) n.entry.pointCount
        n.pageKey).run L ord v).2
      rw [hs, e2]

section
variable {L : Lazperf} {ord ord' : Order} {w0 w : Writer} {h : List (Op × Res (Option Node))} {data : Bytes}
  {r r1 r2 : Reader} {q : List Query} {rord : ROrder} {all : List Node} {keep : Node → Bool}
  {c : CopcConfig} {o : Writer.Overrides} {v0 : Writer}

theorem copy_nodes (hw : Written L ord w0 w h data) (hr : Reader.init ⟨data, 0, false⟩ = .ok r) (ha : Asked L r q r1)
    (hall : Run.Ends (fun k => Reader.getAllNodes rord k) r1 (.ok all, r2)) :
    all.Perm ((addedNodes h).map (reported h)) ∧ r2.h.str.data = data ∧ r2.h.str.fail = false := by
  obtain ⟨ps, g1, hi, g2, _⟩ := hw.asked hr ha
  obtain ⟨ns, r'', he, hi2, _, hA⟩ := (allNodes_gives g1 hi rord).ends
  obtain ⟨ns', r3, he', hp⟩ := C33_allNodes hw hr ha rord
  have e1 := Run.Ends.unique hall he
  have e2 := Run.Ends.unique hall he'
  injection e1 with _ e1
  injection e2 with e2 _
  injection e2 with e2
  subst e1 e2
  exact ⟨hp, hi2.data, hi2.good⟩

/-- Copying any selection of the nodes of a file into a new writer: no call is rejected. -/
theorem C62_copies (hw : Written L ord w0 w h data) (hr : Reader.init ⟨data, 0, false⟩ = .ok r) (ha : Asked L r q r1)
    (hall : Run.Ends (fun k => Reader.getAllNodes rord k) r1 (.ok all, r2)) (keep : Node → Bool)
    (hm : Writer.make OStream.fresh c o = .ok v0) :
    ∃ r3 v, copyNodes L ord' (all.filter keep) (r2, v0) = (.ok (), (r3, v)) ∧ v.cfg = v0.cfg ∧
      r3.h.str.fail = false := by
  obtain ⟨hp, hd, hf⟩ := copy_nodes hw hr ha hall
  obtain ⟨r3, v, t, g1, _, _, _, g5, _, g7, _⟩ := copy_run (L := L) (ord := ord') hw.size hm (all.filter keep) (by
    intro n hn
    obtain ⟨m, hm, rfl⟩ := List.mem_map.1 (hp.subset (List.mem_filter.1 hn).1)
    exact hw.copyable hm) r2 v0 [] hd hf .start (by intro x hx; cases hx)
  exact ⟨r3, v, g1, g5, g7⟩

/-- The file of the copy. -/
theorem copy_written (hw : Written L ord w0 w h data) (hr : Reader.init ⟨data, 0, false⟩ = .ok r) (ha : Asked L r q r1)
    (hall : Run.Ends (fun k => Reader.getAllNodes rord k) r1 (.ok all, r2))
    (hm : Writer.make OStream.fresh c o = .ok v0) {r3 : Reader} {v v' : Writer}
    (hcopy : copyNodes L ord' (all.filter keep) (r2, v0) = (.ok (), (r3, v)))
    (hc : Writer.close L ord' v = (.ok (), v')) (hst : Storable v.cfg) (hsize : v'.base.out.data.length < 2 ^ 63)
    (hfew : v.pages.length + 1 < 2 ^ 31) :
    ∃ t, Written L ord' v0 v t v'.base.out.data ∧
    (∀ n ∈ all, keep n = true → ∃ m ∈ addedNodes h, n = reported h m ∧ ∃ off,
      (blobOp (fun n => slice data n.entry.offset n.entry.byteSize.toNat) n, Res.ok (some (Node.mk ⟨n.entry.key, off, n.entry.byteSize, n.entry.pointCount⟩ n.pageKey))) ∈ t ∧
      finalPage t (Node.mk ⟨n.entry.key, off, n.entry.byteSize, n.entry.pointCount⟩ n.pageKey) = n.pageKey ∧
      slice v'.base.out.data off n.entry.byteSize.toNat = slice data n.entry.offset n.entry.byteSize.toNat) ∧
    ∀ m ∈ addedNodes t, ∃ n ∈ all, keep n = true ∧ m.entry.key = n.entry.key := by
  obtain ⟨hp, hd, hf⟩ := copy_nodes hw hr ha hall
  have hcp : ∀ n ∈ all, Copyable data n := by
    intro n hn
    obtain ⟨m, hm, rfl⟩ := List.mem_map.1 (hp.subset hn)
    exact hw.copyable hm
  obtain ⟨r3', v1, t, g1, g2, g3, g4, _⟩ := copy_run (L := L) (ord := ord') hw.size hm (all.filter keep)
    (fun n hn => hcp n (List.mem_filter.1 hn).1) r2 v0 [] hd hf .start (by intro x hx; cases hx)
  rw [hcopy] at g1
  injection g1 with _ g1
  injection g1 with _ g1
  subst g1
  rw [List.nil_append] at g2
  have hnd : ((all.filter keep).map (·.entry.key)).Nodup := by
    refine List.Nodup.sublist (List.filter_sublist.map _) ?_
    refine ((hp.map (·.entry.key)).nodup_iff).2 ?_
    rw [List.map_map]
    exact hw.distinct
  obtain ⟨hw', hpg, hent, hmem⟩ := blobs_written hm g2 g3 g4 hnd (fun n hn => by
    have := hcp n (List.mem_filter.1 hn).1
    exact ⟨this.range, this.count⟩) hc hst hsize hfew
  have hlen : ∀ n ∈ all, ((slice data n.entry.offset n.entry.byteSize.toNat).length : Int) = n.entry.byteSize := by
    intro n hn
    have := (hcp n hn).inside
    have e := (hcp n hn).size
    rw [e]
    unfold slice; simp; omega
  refine ⟨t, hw', fun n hn hk => ?_, fun m hm' => ?_⟩
  · obtain ⟨m, hm', rfl⟩ := List.mem_map.1 (hp.subset hn)
    obtain ⟨off, hx⟩ := hmem _ (List.mem_filter.2 ⟨hn, hk⟩)
    rw [hlen _ hn] at hx
    refine ⟨m, hm', rfl, off, hx, hpg _, ?_⟩
    obtain ⟨_, _, _, b, hsb, hb1, hb2, hb3⟩ := hw'.node hx
    obtain ⟨hsb, _⟩ := hsb
    have e : (reported h m).entry.byteSize.toNat = b.length := by
      have : (reported h m).entry.byteSize = b.length := hb1
      rw [this]; simp
    rw [e]
    exact hb3.trans (hsb.trans (by rw [← e]))
  · obtain ⟨n, hn, off, rfl⟩ := hent m hm'
    exact ⟨n, (List.mem_filter.1 hn).1, (List.mem_filter.1 hn).2, rfl⟩

/-- The copy, once closed, has exactly the selected nodes, each with the number of points, the page and the
compressed bytes that the original file has for it. -/
theorem C62_same_nodes (hw : Written L ord w0 w h data) (hr : Reader.init ⟨data, 0, false⟩ = .ok r) (ha : Asked L r q r1)
    (hall : Run.Ends (fun k => Reader.getAllNodes rord k) r1 (.ok all, r2))
    (hm : Writer.make OStream.fresh c o = .ok v0) {r3 : Reader} {v v' : Writer}
    (hcopy : copyNodes L ord' (all.filter keep) (r2, v0) = (.ok (), (r3, v)))
    (hc : Writer.close L ord' v = (.ok (), v')) (hst : Storable v.cfg) (hsize : v'.base.out.data.length < 2 ^ 63)
    (hfew : v.pages.length + 1 < 2 ^ 31)
    {s s1 : Reader} {q' : List Query} (hs : Reader.init ⟨v'.base.out.data, 0, false⟩ = .ok s) (hq : Asked L s q' s1) :
    (∀ n ∈ all, keep n = true →
      (∃ off s2, Run.Ends (fun k => Reader.findNode k n.entry.key) s1
        (.ok ⟨⟨n.entry.key, off, n.entry.byteSize, n.entry.pointCount⟩, n.pageKey⟩, s2)) ∧
      ∃ bs r4 s2, Run.Ends (fun k => Reader.getPointDataCompressedAt k n.entry.key) r1 (.ok bs, r4) ∧
        Run.Ends (fun k => Reader.getPointDataCompressedAt k n.entry.key) s1 (.ok bs, s2)) ∧
    (∀ key, (∀ n ∈ all, keep n = true → n.entry.key ≠ key) →
      ∃ s2, Run.Ends (fun k => Reader.findNode k key) s1 (.ok Node.empty, s2)) := by
  obtain ⟨t, hw', hkeep, hnone⟩ := copy_written hw hr ha hall hm hcopy hc hst hsize hfew
  refine ⟨fun n hn hk => ?_, fun key hno => ?_⟩
  · obtain ⟨m, hx, rfl, off, hx', hpg, e2⟩ := hkeep n hn hk
    replace hx' := (hw'.node hx').1
    obtain ⟨s2, f1⟩ := C33_findNode hw' hs hq hx'
    rw [hpg] at f1
    obtain ⟨r4, c1⟩ := hw.compressed_slice hr ha hx
    obtain ⟨s3, c2⟩ := hw'.compressed_slice hs hq hx'
    exact ⟨⟨off, s2, f1⟩, _, r4, s3, c1, e2 ▸ c2⟩
  · obtain ⟨s2, f, _⟩ := C33_findNode_other hw' hs hq (key := key) (by
      intro m hm'
      obtain ⟨n, g1, g2, g3⟩ := hnone m hm'
      rw [g3]; exact hno n g1 g2)
    exact ⟨s2, f⟩

/-- From the bytes to the points. -/
theorem points_of_data {L : Lazperf} {r r' : Reader} {key : VoxelKey} {hd : LasHeader} {recs : List Bytes}
    (hf : hd.fmt = 6 ∨ hd.fmt = 7 ∨ hd.fmt = 8) (hl : lasBaseSize hd.fmt ≤ hd.recLen.toNat)
    (hrec : ∀ x ∈ recs, x.length = hd.recLen.toNat) (hpos : 0 < recs.length) (hmax : recs.length < 2147483648)
    (h : Run.Ends (fun k => Reader.getPointDataAt L k key) r (.ok recs.flatten, r'))
    (e1 : r'.cfg.header.fmt = hd.fmt) (e2 : r'.cfg.header.recLen = hd.recLen)
    (e3 : r'.cfg.header.scale = hd.scale) (e4 : r'.cfg.header.offset = hd.offset) :
    ∃ ps, ps.length = recs.length ∧ Reader.unpackWith hd recs.flatten = .ok ps ∧
      Run.Ends (fun k => Reader.getPointsAt L k key) r (.ok ps, r') := by
  obtain ⟨c1, c2, c3⟩ := ebSize_consistent hf hl
  have hbl : baseSize hd.fmt + (hd.recLen.toNat - lasBaseSize hd.fmt) = hd.recLen.toNat := c3
  have hb : 0 < lasBaseSize hd.fmt := by unfold lasBaseSize; split <;> [decide; split <;> decide]
  have hlen : recs.flatten.length = recs.length * hd.recLen.toNat := by
    rw [List.length_flatten, List.map_congr_left hrec, List.map_const', List.sum_replicate_nat]
  have hu := (C18_unpack recs.flatten hd.fmt hf (hd.recLen.toNat - lasBaseSize hd.fmt) hd.scale hd.offset
    (by rw [hbl]; have := hd.recLen.toNat_lt; omega)
    (by rw [hbl, hlen, Nat.mul_div_cancel _ (by omega)]; exact hmax)).2 (by rw [hbl, hlen]; simp)
  obtain ⟨ps, u1, u2, _⟩ := hu
  rw [hbl, hlen] at u2
  have hun : Reader.unpackWith hd recs.flatten = .ok ps := by
    unfold Reader.unpackWith
    rw [c1, Res.okBind]; exact u1
  have hun2 : Reader.unpackWith r'.cfg.header recs.flatten = .ok ps := by
    rw [← hun]
    unfold Reader.unpackWith LasHeader.ebSize
    rw [e1, e2, e3, e4]
  refine ⟨ps, Nat.eq_of_mul_eq_mul_right (by omega) u2, hun, ?_⟩
  refine h.bind (f := fun _ d => Run.gets (fun r : Reader => r.cfg.header) >>= fun hd =>
    if d = [] then Run.lift (hd.ebSize.bind fun eb => (Coll.make hd.fmt eb).bind fun _ => .ok [])
    else Run.lift (Reader.unpackWith hd d)) ⟨0, fun _ _ => ?_⟩
  show (if recs.flatten = [] then Run.lift (r'.cfg.header.ebSize.bind fun eb => (Coll.make r'.cfg.header.fmt eb).bind fun _ => .ok [])
    else Run.lift (Reader.unpackWith r'.cfg.header recs.flatten)) r' = _
  have hne : recs.flatten ≠ [] := by
    intro h0
    have := congrArg List.length h0
    rw [hlen] at this
    have h2 : 0 < recs.length * hd.recLen.toNat := Nat.mul_pos hpos (by omega)
    simp only [List.length_nil] at this
    omega
  rw [if_neg hne, hun2]
  rfl

theorem Written.header_consistent (hw : Written L ord w0 w h data) :
    (w0.cfg.header.fmt = 6 ∨ w0.cfg.header.fmt = 7 ∨ w0.cfg.header.fmt = 8) ∧
      lasBaseSize w0.cfg.header.fmt ≤ w0.cfg.header.recLen.toNat := by
  obtain ⟨c, o, hm⟩ := hw.made
  obtain ⟨otpd, h1, h2⟩ := bInv_of_make hm
  obtain ⟨log, hi⟩ := wInv_history h1 h2 hw.history hw.unclosed
  rw [← hi.edit.fmt, ← hi.edit.recLen]
  have := hw.storable.len
  exact ⟨hw.storable.fmt, by omega⟩

/-- A writer given the configuration of the reader has its point format, record length, scale and offset. -/
theorem C62_own_config {r : Reader} {out : OStream} {v0 : Writer} (hm : Writer.make out r.cfg {} = .ok v0) :
    v0.cfg.header.fmt = r.cfg.header.fmt ∧ v0.cfg.header.recLen = r.cfg.header.recLen ∧
    v0.cfg.header.scale = r.cfg.header.scale ∧ v0.cfg.header.offset = r.cfg.header.offset := by
  unfold Writer.make at hm
  obtain ⟨c', h1, h2⟩ := Res.bind_ok_iff.1 hm
  obtain ⟨n, _, h3⟩ := Res.bind_ok_iff.1 h2
  obtain rfl := Res.ok.inj h3
  unfold Writer.initConfig CopcConfig.copy CopcConfig.ofParts at h1
  rw [if_neg (by decide)] at h1
  obtain ⟨e, _, h4⟩ := Res.bind_ok_iff.1 h1
  obtain rfl := Res.ok.inj h4
  exact ⟨rfl, rfl, rfl, rfl⟩

/-- When the copy has the same point format, record length, scale and offset (at most 255 bytes a record, see
C47), `GetPoints` of a selected node whose bytes hold compressed records returns the very same points from both
files, as many as the node says. -/
theorem C62_same_points (hw : Written L ord w0 w h data) (hr : Reader.init ⟨data, 0, false⟩ = .ok r) (ha : Asked L r q r1)
    (hall : Run.Ends (fun k => Reader.getAllNodes rord k) r1 (.ok all, r2))
    (hm : Writer.make OStream.fresh c o = .ok v0) {r3 : Reader} {v v' : Writer}
    (hcopy : copyNodes L ord' (all.filter keep) (r2, v0) = (.ok (), (r3, v)))
    (hc : Writer.close L ord' v = (.ok (), v')) (hst : Storable v.cfg) (hsize : v'.base.out.data.length < 2 ^ 63)
    (hfew : v.pages.length + 1 < 2 ^ 31)
    (hfmt : v0.cfg.header.fmt = r.cfg.header.fmt) (hlen : v0.cfg.header.recLen = r.cfg.header.recLen)
    (hscale : v0.cfg.header.scale = r.cfg.header.scale) (hoff : v0.cfg.header.offset = r.cfg.header.offset)
    (h255 : r.cfg.header.recLen.toNat ≤ 255)
    {s s1 : Reader} {q' : List Query} (hs : Reader.init ⟨v'.base.out.data, 0, false⟩ = .ok s) (hq : Asked L s q' s1)
    {n : Node} (hn : n ∈ all) (hk : keep n = true) {recs : List Bytes} (hrecs : HoldsRecords L r.cfg.header data n recs) :
    ∃ ps r4 s2, (ps.length : Int) = n.entry.pointCount ∧
      Run.Ends (fun k => Reader.getPointsAt L k n.entry.key) r1 (.ok ps, r4) ∧
      Run.Ends (fun k => Reader.getPointsAt L k n.entry.key) s1 (.ok ps, s2) := by
  obtain ⟨t, hw', hkeep, _⟩ := copy_written hw hr ha hall hm hcopy hc hst hsize hfew
  obtain ⟨m, hx, rfl, off, hx', hpg, e2⟩ := hkeep n hn hk
  obtain ⟨⟨op, res⟩, hxh, he⟩ := List.mem_filterMap.1 hx
  have hres : res = .ok (some m) := by
    cases res with
    | ok a => exact congrArg Res.ok he
    | throw e => cases he
    | ub => cases he
  subst hres
  obtain ⟨eb, b1, b2, b3, b4⟩ := hrecs
  have cn := hw.copyable hx
  have hcnt := cn.count
  obtain ⟨_, _, _, _, _, f1, f2, f3, f4⟩ := hw.asked hr (Asked.none (L := L))
  obtain ⟨_, _, _, _, _, g1, g2, g3, g4⟩ := hw.asked hr ha
  obtain ⟨_, _, _, _, _, k1, k2, k3, k4⟩ := hw'.asked hs hq
  have heb : w0.cfg.header.ebSize = .ok eb := by
    rw [← b1]; unfold LasHeader.ebSize; rw [f1, f2]
  have heb' : v0.cfg.header.ebSize = .ok eb := by
    rw [← b1]; unfold LasHeader.ebSize; rw [hfmt, hlen]
  obtain ⟨r4, d1, _, d2⟩ := hw.data_slice (f2 ▸ h255) hr ha hxh heb (f2 ▸ b2) (f1 ▸ b3) b4
  obtain ⟨s2, d3, _, d4⟩ := hw'.data_slice (hlen ▸ h255) hs hq hx' heb' (hlen ▸ b2)
    (by dsimp only; rw [e2, hfmt]; exact b3) b4
  rw [← d2.2] at g1 g2 g3 g4
  rw [← d4.2] at k1 k2 k3 k4
  obtain ⟨c1, c2⟩ := hw.header_consistent
  rw [← f1] at c1 c2
  rw [← f2] at c2
  have hp : 0 < recs.length := by rw [b4] at hcnt; omega
  have hp2 : recs.length < 2147483648 := by rw [b4] at hcnt; omega
  obtain ⟨ps, p1, p2, p3⟩ := points_of_data (hd := r.cfg.header) c1 c2 b2 hp hp2 d1
    (g1.trans f1.symm) (g2.trans f2.symm) (g3.trans f3.symm) (g4.trans f4.symm)
  obtain ⟨ps', _, p5, p6⟩ := points_of_data (hd := r.cfg.header) c1 c2 b2 hp hp2 d3
    (k1.trans hfmt) (k2.trans hlen) (k3.trans hscale) (k4.trans hoff)
  obtain rfl : ps = ps' := Res.ok.inj (p2.symm.trans p5)
  exact ⟨ps, r4, s2, by rw [p1]; exact b4.symm, p3, p6⟩

end

/-! ### The hypotheses can be met -/

namespace CopySample

/-- The node below the root only. -/
def keep (n : Node) : Bool := decide (n.entry.key ≠ VoxelKey.root)

def w1 : Writer := ((Op.addCompressed Sample.kA (recAt 5 1 6 ++ (recAt 6 4 4 ++ recAt 8 0 8)) 3 Sample.kA).run
  Sample.L Sample.ord BoxFile.w0).2

def good : Bool :=
  match Writer.close Sample.L Sample.ord w1 with
  | (.ok (), v') => decide (v'.base.out.data.length < 2 ^ 63) && decide (w1.pages.length + 1 < 2 ^ 31)
  | _ => false

theorem good_eq : good = true := by decide +kernel

theorem child_bytes : slice BoxFile.data 1593 93 = recAt 5 1 6 ++ (recAt 6 4 4 ++ recAt 8 0 8) := by decide +kernel

theorem storable0 : Storable BoxFile.w0.cfg := by
  refine ⟨⟨by decide +kernel, by decide +kernel, by decide +kernel, by decide +kernel⟩, ⟨by decide +kernel,
    by decide +kernel, ⟨by decide +kernel, ?_⟩, ⟨by decide +kernel, ?_⟩, ⟨by decide +kernel, ?_⟩⟩,
    by decide +kernel, ?_, by decide +kernel, ?_, by decide +kernel⟩
  · have : BoxFile.w0.cfg.header.guid = [] := by decide +kernel
    rw [this]; decide
  · have : BoxFile.w0.cfg.header.systemIdentifier = [] := by decide +kernel
    rw [this]; decide
  · have : BoxFile.w0.cfg.header.generatingSoftware = [] := by decide +kernel
    rw [this]; decide
  · have : ∀ x ∈ BoxFile.w0.cfg.extents.extents, Flt.lt' x.maximum x.minimum = false ∧
        Flt.lt' x.var Flt.zero = false := by decide +kernel
    intro x hx
    exact ⟨(ordered_iff x).2 (this x hx).1, (varOk_iff x).2 (this x hx).2⟩
  · have : BoxFile.w0.cfg.eb = [EbField.simple 1 0 []] := by decide +kernel
    rw [this]
    intro f hf
    obtain rfl := List.mem_singleton.1 hf
    exact ⟨by decide, by decide, ⟨by decide, by decide⟩, ⟨by decide, by decide⟩⟩

theorem reported_eq (n : Node) : reported BoxFile.hist n = ⟨n.entry, n.pageKey⟩ := by
  unfold reported finalPage
  rw [BoxFile.written.2.2]
  rfl

/-- A copy of one of the two nodes of the sample file, with the configuration of its writer; the records of the
node are three of 31 bytes. -/
example : ∃ r all r2 r3 v v' s, Written Sample.L Sample.ord BoxFile.w0 BoxFile.w BoxFile.hist BoxFile.data ∧
    Reader.init ⟨BoxFile.data, 0, false⟩ = .ok r ∧
    Run.Ends (fun k => Reader.getAllNodes ROrder.plain k) r (.ok all, r2) ∧
    copyNodes Sample.L Sample.ord (all.filter keep) (r2, BoxFile.w0) = (.ok (), (r3, v)) ∧
    Writer.close Sample.L Sample.ord v = (.ok (), v') ∧ Storable v.cfg ∧ v'.base.out.data.length < 2 ^ 63 ∧
    v.pages.length + 1 < 2 ^ 31 ∧ Reader.init ⟨v'.base.out.data, 0, false⟩ = .ok s ∧
    r.cfg.header.recLen.toNat ≤ 255 ∧ all.length = 2 ∧ all.filter keep = [BoxFile.child] ∧
    HoldsRecords Sample.L r.cfg.header BoxFile.data BoxFile.child [recAt 5 1 6, recAt 6 4 4, recAt 8 0 8] := by
  have hw := BoxFile.written.1
  obtain ⟨r, hr, _⟩ := C33_opens hw
  obtain ⟨all, r2, hall, _⟩ := C33_allNodes hw hr .none ROrder.plain
  obtain ⟨hp, hd, hf⟩ := copy_nodes hw hr .none hall
  obtain ⟨r3, v, t, g1, _, _, _, g5, _, _, g8⟩ := copy_run (L := Sample.L) (ord := Sample.ord) hw.size BoxFile.made
    (all.filter keep) (by
      intro n hn
      obtain ⟨m, hm, rfl⟩ := List.mem_map.1 (hp.subset (List.mem_filter.1 hn).1)
      exact hw.copyable hm) r2 BoxFile.w0 [] hd hf .start (by intro x hx; cases hx)
  have hfil : all.filter keep = [BoxFile.child] := by
    have := hp.filter keep
    rw [BoxFile.written.2.1, show reported BoxFile.hist = fun n => ⟨n.entry, n.pageKey⟩ from funext reported_eq] at this
    exact List.perm_singleton.1 (this.trans (by decide))
  have hv : v = w1 := by
    rw [g8, hfil, List.foldl_cons, List.foldl_nil]
    unfold w1 blobOp BoxFile.child
    rw [← child_bytes]
    rfl
  have hg := good_eq
  unfold good at hg
  rw [← hv] at hg
  obtain ⟨_, _, _, _, _, f1, f2, _⟩ := hw.asked hr (Asked.none (L := Sample.L))
  have h1 : BoxFile.w0.cfg.header.fmt = 6 := by decide +kernel
  have h2 : BoxFile.w0.cfg.header.recLen.toNat = 31 := by decide +kernel
  match hc : Writer.close Sample.L Sample.ord v with
  | (.throw e, v') => rw [hc] at hg; cases hg
  | (.ub, v') => rw [hc] at hg; cases hg
  | (.ok (), v') =>
    rw [hc] at hg
    dsimp only at hg
    rw [Bool.and_eq_true, decide_eq_true_eq, decide_eq_true_eq] at hg
    have hst : Storable v.cfg := by rw [g5]; exact storable0
    obtain ⟨t, hw', _⟩ := copy_written hw hr .none hall BoxFile.made g1 hc hst hg.1 hg.2
    obtain ⟨s, hs, _⟩ := C33_opens hw'
    refine ⟨r, all, r2, r3, v, v', s, hw, hr, hall, g1, hc, hst, hg.1, hg.2, hs, by rw [f2, h2]; decide, ?_, hfil,
      1, ?_, ?_, ?_, rfl⟩
    · rw [hp.length_eq, BoxFile.written.2.1]; rfl
    · have : BoxFile.w0.cfg.header.ebSize = .ok 1 := by decide +kernel
      rw [← this]; unfold LasHeader.ebSize; rw [f1, f2]
    · rw [f2, h2]; decide
    · rw [f1, h1]
      exact child_bytes

end CopySample

end Copc
