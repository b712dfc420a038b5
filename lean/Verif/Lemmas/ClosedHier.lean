import Verif.Spec.RoundTrip
import Verif.Props.WriterTree
import Verif.Props.WriterCounts
import Verif.Props.WriterChunks
import Verif.Lemmas.ClosedOpen
import Verif.Lemmas.ReaderCalls
/-! # The hierarchy of a closed file is a good one -/
namespace Copc
open Spec VoxelKey

theorem inRange_up {k : VoxelKey} (hv : Valid k) (hr : k.InRange) {n : Nat} (hn : (n : Int) ≤ k.d) :
    (up n k).InRange := by
  have hdiv : ∀ a : Int, 0 ≤ a → InI32 a → InI32 (a / 2 ^ n) := by
    intro a h0 ha
    have h1 : 0 ≤ a / 2 ^ n := Int.ediv_nonneg h0 (by positivity)
    have h2 : a / 2 ^ n ≤ a := Int.ediv_le_self _ h0
    unfold InI32 at *
    omega
  obtain ⟨h1, h2, h3, h4⟩ := hr
  obtain ⟨v1, v2, v3, v4⟩ := hv
  refine ⟨?_, hdiv _ v2 h2, hdiv _ v3 h3, hdiv _ v4 h4⟩
  show InI32 (k.d - n)
  unfold InI32 at *
  omega

theorem inRange_below {a b : VoxelKey} (hv : Valid a) (hr : a.InRange) (h : Below a b) : b.InRange := by
  obtain ⟨n, hn, rfl⟩ := h
  exact inRange_up hv hr hn

section
variable {L : Lazperf} {ord : Order} {c : CopcConfig} {o : Writer.Overrides} {w0 w w' : Writer}
  {h : List (Op × Res (Option Node))}

/-- When the writer lists every key in one page only, and no page but the root is empty. -/
theorem closed_listing_at (hm : Writer.make OStream.fresh c o = .ok w0) (hh : History L ord w0 h w) (hu : Unclosed h)
    (hadd : ∀ p k n, w.listing p k = some n → n ∈ addedNodes h)
    (hone : ∀ p p' k n n', w.listing p k = some n → w.listing p' k = some n' → p = p')
    (hfull : ∀ p ∈ AList.keys w.pages, p = VoxelKey.root ∨ ∃ k n, w.listing p k = some n) (hcnt : Counted h)
    (hc : Writer.close L ord w = (.ok (), w')) (hlen : w'.base.out.data.length < 2 ^ 63)
    {otpd : Nat} {log : List (Nat × Bytes)} (b2 : BInv (otpd + 8) w0.base []) (hi : WInv L w0 otpd h w log)
    {hier : List (VoxelKey × VoxelKey)} {eb : Nat} {h14 : Header14} {gps : Extent}
    (hco : CloseOk L ord otpd log w w' hier eb h14 gps) :
    let ps := w.pages.map (filePage (closeLayout L ord otpd log hier w).2)
    GoodHierarchy w'.base.out.data ps ∧ ps.map (·.key) = AList.keys w.pages ∧
      (∀ m, NodeOf ps m ↔ ∃ p k n, w.listing p k = some n ∧ m = ⟨n.entry, p⟩) ∧
      (∀ q ∈ ps, w0.base.out.data.length ≤ q.offset + 8) ∧
      ∃ q ∈ ps, q.key = VoxelKey.root ∧ w'.cfg.info.rootHierOffset.toNat = q.offset ∧
        w'.cfg.info.rootHierSize.toNat = q.size := by
  dsimp only
  have hp := pageInv_history (pageInv_make hm) hh
  obtain ⟨t1, t2, t3, t4⟩ := hco.pageTree hp
  obtain ⟨_, _, _, _, _, _, hcfg, _⟩ := hco.closed
  generalize hpl : (closeLayout L ord otpd log hier w).2 = pl at *
  have hkeys : (w.pages.map (filePage pl)).map (·.key) = AList.keys w.pages := by rw [List.map_map]; rfl
  have hlist : ∀ x ∈ w.pages, ∀ y ∈ x.2, w.listing x.1 y.1 = some y.2 := by
    intro x hx y hy
    unfold Writer.listing
    rw [(AList.get_iff_mem hp.nodup).2 hx, Option.bind_some]
    exact (AList.get_iff_mem (hp.page x hx).2.1).2 hy
  have hpage : ∀ p ∈ w.pages.map (filePage pl), p.key.InRange ∧ p.offset < 2 ^ 63 ∧ p.size < 2 ^ 31 := by
    intro p hpm
    obtain ⟨_, s, _, a2, a3, a4, _, a6⟩ := t2 p hpm
    refine ⟨?_, by omega, by omega⟩
    have hk : p.key ∈ AList.keys w.pages := by rw [← hkeys]; exact List.mem_map_of_mem hpm
    rcases hfull p.key hk with he | ⟨k, n, hl⟩
    · rw [he]; decide
    · have hn := hadd _ _ _ hl
      obtain ⟨x, hx, rfl⟩ := List.mem_map.1 hpm
      unfold Writer.listing at hl
      have hg : AList.get x.1 w.pages = some x.2 := (AList.get_iff_mem hp.nodup).2 hx
      change (AList.get x.1 w.pages).bind _ = _ at hl
      rw [hg, Option.bind_some] at hl
      obtain ⟨q1, q2, q3⟩ := (hp.page x hx).2.2 _ (AList.mem_of_get hl)
      have hr := (hcnt n hn).1
      dsimp only at q1 q2 q3
      rw [q1] at hr
      exact inRange_below q2 hr q3
  refine ⟨⟨t1, hpage, ?_, ?_⟩, hkeys, ?_, ?_, ?_⟩
  · intro p hpm e he
    obtain ⟨x, hx, rfl⟩ := List.mem_map.1 hpm
    obtain ⟨y, hy, rfl⟩ := List.mem_map.1 he
    obtain ⟨q1, q2, q3⟩ := (hp.page x hx).2.2 y hy
    have n1 := hadd _ _ _ (hlist x hx y hy)
    obtain ⟨op, hop⟩ := mem_addedNodes n1
    obtain ⟨⟨_, blob, _, s2, s3, _⟩, _⟩ := C27_closed hm hh hu hc hlen hop
    obtain ⟨l1, l2, blob', c', key', page', _, _, _, hsz, hnn⟩ := hi.logged.node_in hop
    have hb : y.2.entry.byteSize = ((blob'.length % 2 ^ 64 : Nat) : Int) := by rw [hnn]; rfl
    have hb2 : y.2.entry.byteSize ≤ 2147483647 := by rw [hb]; omega
    obtain ⟨c1, c2, c3⟩ := hcnt _ n1
    refine ⟨⟨c1, by omega, ?_, ?_⟩, by rw [q1]; exact q2, by rw [hb]; omega, by omega, ?_⟩
    · unfold InI32; omega
    · unfold InI32; omega
    · rw [q1]; exact q3
  · rw [List.flatMap_def, List.nodup_flatten, List.map_map]
    constructor
    · intro l hl
      obtain ⟨x, hx, rfl⟩ := List.mem_map.1 hl
      have : ((filePage pl x).nodes.map (·.key)) = AList.keys x.2 := by
        unfold filePage AList.keys
        rw [List.map_map]
        exact List.map_congr_left fun y hy => ((hp.page x hx).2.2 y hy).1
      show ((filePage pl x).nodes.map (·.key)).Nodup
      rw [this]
      exact (hp.page x hx).2.1
    · rw [List.pairwise_map]
      have hnd : w.pages.Pairwise (fun a b => a.1 ≠ b.1) := by
        have := hp.nodup
        unfold AList.keys at this
        exact List.pairwise_map.1 this
      refine List.Pairwise.imp_of_mem ?_ hnd
      intro a b ha hb hne k hk hk'
      obtain ⟨e, he, rfl⟩ := List.mem_map.1 hk
      obtain ⟨y, hy, rfl⟩ := List.mem_map.1 he
      obtain ⟨e', he', hke⟩ := List.mem_map.1 hk'
      obtain ⟨y', hy', rfl⟩ := List.mem_map.1 he'
      have k1 := ((hp.page a ha).2.2 y hy).1
      have k2 := ((hp.page b hb).2.2 y' hy').1
      have l1 := hlist a ha y hy
      have l2 := hlist b hb y' hy'
      rw [← k1] at l1
      rw [← k2, hke] at l2
      exact hne (hone _ _ _ _ _ l1 l2)
  · intro m
    constructor
    · rintro ⟨p, hpm, hmem⟩
      obtain ⟨x, hx, rfl⟩ := List.mem_map.1 hpm
      obtain ⟨e, he, rfl⟩ := List.mem_map.1 hmem
      obtain ⟨y, hy, rfl⟩ := List.mem_map.1 he
      exact ⟨x.1, y.1, y.2, hlist x hx y hy, rfl⟩
    · rintro ⟨p, k, n, hl, rfl⟩
      unfold Writer.listing at hl
      cases hg : AList.get p w.pages with
      | none => rw [hg] at hl; cases hl
      | some pg =>
        rw [hg, Option.bind_some] at hl
        refine ⟨filePage pl (p, pg), List.mem_map_of_mem (AList.mem_of_get hg), ?_⟩
        unfold FPage.nodeList
        refine List.mem_map.2 ⟨n.entry, List.mem_map.2 ⟨_, AList.mem_of_get hl, rfl⟩, rfl⟩
  · intro q hq
    obtain ⟨qo, qs, _, a2, _, _, a5, _⟩ := t2 q hq
    have h0 : w0.base.out.data.length = otpd + 8 := by rw [b2.out.data]; simp [chunkData]
    omega
  · have hr : VoxelKey.root ∈ (w.pages.map (filePage pl)).map (·.key) := by rw [hkeys]; exact hp.root
    obtain ⟨q, hq, hqk⟩ := List.mem_map.1 hr
    refine ⟨q, hq, hqk, ?_⟩
    obtain ⟨_, po, ps⟩ := hpage q hq
    obtain ⟨qo, qs, a1, a2, a3, _⟩ := t2 q hq
    rw [hqk] at a1
    have hcf : w'.cfg = setRoot pl w.cfg := by rw [hcfg]; unfold closedCfg; rw [hpl]
    rw [hcf]
    unfold setRoot
    rw [a1, a2, a3]
    exact ⟨UInt64.toNat_ofNat_of_lt' (by rw [UInt64.size]; omega),
      UInt64.toNat_ofNat_of_lt' (by rw [UInt64.size]; omega)⟩

/-- The same, without the layout. -/
theorem closed_listing (hm : Writer.make OStream.fresh c o = .ok w0) (hh : History L ord w0 h w) (hu : Unclosed h)
    (hadd : ∀ p k n, w.listing p k = some n → n ∈ addedNodes h)
    (hone : ∀ p p' k n n', w.listing p k = some n → w.listing p' k = some n' → p = p')
    (hfull : ∀ p ∈ AList.keys w.pages, p = VoxelKey.root ∨ ∃ k n, w.listing p k = some n) (hcnt : Counted h)
    (hc : Writer.close L ord w = (.ok (), w')) (hlen : w'.base.out.data.length < 2 ^ 63) :
    ∃ ps, GoodHierarchy w'.base.out.data ps ∧ ps.map (·.key) = AList.keys w.pages ∧
      (∀ m, NodeOf ps m ↔ ∃ p k n, w.listing p k = some n ∧ m = ⟨n.entry, p⟩) ∧
      (∀ q ∈ ps, w0.base.out.data.length ≤ q.offset + 8) ∧
      ∃ q ∈ ps, q.key = VoxelKey.root ∧ w'.cfg.info.rootHierOffset.toNat = q.offset ∧
        w'.cfg.info.rootHierSize.toNat = q.size := by
  obtain ⟨otpd, b1, b2⟩ := bInv_of_make hm
  obtain ⟨log, hi⟩ := wInv_history b1 b2 hh hu
  obtain ⟨hier, eb, h14, gps, hco⟩ := close_ok hi.offset hi.base hc
  exact ⟨_, closed_listing_at hm hh hu hadd hone hfull hcnt hc hlen b2 hi hco⟩

theorem closed_good_at (hm : Writer.make OStream.fresh c o = .ok w0) (hh : History L ord w0 h w) (hu : Unclosed h)
    (hd : DistinctKeys h) (h1 : MovedOnce h) (hcnt : Counted h)
    (hc : Writer.close L ord w = (.ok (), w')) (hlen : w'.base.out.data.length < 2 ^ 63)
    {otpd : Nat} {log : List (Nat × Bytes)} (b2 : BInv (otpd + 8) w0.base []) (hi : WInv L w0 otpd h w log)
    {hier : List (VoxelKey × VoxelKey)} {eb : Nat} {h14 : Header14} {gps : Extent}
    (hco : CloseOk L ord otpd log w w' hier eb h14 gps) :
    let ps := w.pages.map (filePage (closeLayout L ord otpd log hier w).2)
    GoodHierarchy w'.base.out.data ps ∧ ps.map (·.key) = AList.keys w.pages ∧
      (∀ m, NodeOf ps m ↔ ∃ n ∈ addedNodes h, m = reported h n) ∧
      (∀ p, p ∈ ps.map (·.key) ↔ PageOf h p) ∧
      (∀ q ∈ ps, w0.base.out.data.length ≤ q.offset + 8) ∧
      ∃ q ∈ ps, q.key = VoxelKey.root ∧ w'.cfg.info.rootHierOffset.toNat = q.offset ∧
        w'.cfg.info.rootHierSize.toNat = q.size := by
  intro ps
  have hv := hInv_history (hInv_start hm) hh hd h1
  have huniq : ∀ n ∈ addedNodes h, ∀ n' ∈ addedNodes h, n.entry.key = n'.entry.key → n = n' := by
    intro n hn n' hn' he
    obtain ⟨i, hi, rfl⟩ := List.getElem_of_mem hn
    obtain ⟨j, hj, rfl⟩ := List.getElem_of_mem hn'
    have := (List.Nodup.getElem_inj_iff hd (hi := by simpa using hi) (hj := by simpa using hj)).1
      (by simpa using he)
    subst this
    rfl
  obtain ⟨g1, g2, g3, g4, g5⟩ := closed_listing_at hm hh hu (fun p k n hl => ((hv.listed p k n).1 hl).1)
    (fun p p' k n n' hl hl' => by
      obtain ⟨a1, a2, a3⟩ := (hv.listed p k n).1 hl
      obtain ⟨b1, b2, b3⟩ := (hv.listed p' k n').1 hl'
      obtain rfl := huniq n a1 n' b1 (a2.trans b2.symm)
      exact a3.symm.trans b3)
    (fun p hp => ((hv.pages p).1 hp).imp id fun ⟨n, hn, he⟩ => ⟨n.entry.key, n, (hv.listed p _ n).2 ⟨hn, rfl, he⟩⟩) hcnt hc hlen b2 hi hco
  refine ⟨g1, g2, fun m => (g3 m).trans ⟨?_, ?_⟩, fun p => by rw [g2]; exact hv.pages p, g4, g5⟩
  · rintro ⟨p, k, n, hl, rfl⟩
    obtain ⟨a1, _, a3⟩ := (hv.listed p k n).1 hl
    exact ⟨n, a1, by unfold reported; rw [a3]⟩
  · rintro ⟨n, hn, rfl⟩
    exact ⟨finalPage h n, n.entry.key, n, (hv.listed _ _ _).2 ⟨hn, rfl, rfl⟩, rfl⟩

theorem closed_good (hm : Writer.make OStream.fresh c o = .ok w0) (hh : History L ord w0 h w) (hu : Unclosed h)
    (hd : DistinctKeys h) (h1 : MovedOnce h) (hcnt : Counted h)
    (hc : Writer.close L ord w = (.ok (), w')) (hlen : w'.base.out.data.length < 2 ^ 63) :
    ∃ ps, GoodHierarchy w'.base.out.data ps ∧ ps.map (·.key) = AList.keys w.pages ∧
      (∀ m, NodeOf ps m ↔ ∃ n ∈ addedNodes h, m = reported h n) ∧
      (∀ p, p ∈ ps.map (·.key) ↔ PageOf h p) ∧
      (∀ q ∈ ps, w0.base.out.data.length ≤ q.offset + 8) ∧
      ∃ q ∈ ps, q.key = VoxelKey.root ∧ w'.cfg.info.rootHierOffset.toNat = q.offset ∧
        w'.cfg.info.rootHierSize.toNat = q.size := by
  obtain ⟨otpd, b1, b2⟩ := bInv_of_make hm
  obtain ⟨log, hi⟩ := wInv_history b1 b2 hh hu
  obtain ⟨hier, eb, h14, gps, hco⟩ := close_ok hi.offset hi.base hc
  exact ⟨_, closed_good_at hm hh hu hd h1 hcnt hc hlen b2 hi hco⟩

theorem closed_open (hm : Writer.make OStream.fresh c o = .ok w0) (hh : History L ord w0 h w) (hu : Unclosed h)
    (hs : Storable w.cfg) (hc : Writer.close L ord w = (.ok (), w'))
    (hlen : w'.base.out.data.length < 2 ^ 63) (hfew : w.pages.length + 1 < 2 ^ 31) :
    ∃ r, Reader.init ⟨w'.base.out.data, 0, false⟩ = .ok r ∧ r.h.str.fail = false ∧
      r.cfg.info = w'.cfg.info ∧ r.cfg.header.fmt = w0.cfg.header.fmt ∧
      r.cfg.header.recLen = w0.cfg.header.recLen ∧ r.cfg.header.scale = w0.cfg.header.scale ∧
      r.cfg.header.offset = w0.cfg.header.offset ∧
      r.cfg.header.pointCount = (Header14.decode w'.base.out.data).pointCount14 := by
  obtain ⟨otpd, h1, h2⟩ := bInv_of_make hm
  obtain ⟨log, hi⟩ := wInv_history h1 h2 hh hu
  obtain ⟨hier, eb, h14, gps, hco⟩ := close_ok hi.offset hi.base hc
  have hflag : w.cfg.header.copcFlag = true := by
    rw [hi.edit.copcFlag]
    obtain ⟨_, _, h3, _⟩ := make_ok hm
    exact initConfig_flag h3
  obtain ⟨q, vlrs, hr⟩ := hco.init (pageInv_history (pageInv_make hm) hh) hs hflag hlen hfew
  have hd' := hco.headerDecoded hs.header.byReturn
  exact ⟨_, hr, rfl, rfl, hi.edit.fmt, hi.edit.recLen, hi.edit.scale, hi.edit.offset, by rw [hd'.1]; rfl⟩

end
end Copc
