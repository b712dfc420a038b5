import Verif.Spec.Overrides
import Verif.Props.Extents
import Verif.Props.Config
import Verif.Lemmas.Sample
import Verif.Lemmas.ReaderCalls
/-! # C50: writers made with overrides -/
namespace Copc
open Spec

theorem copyRange_mem {α : Type} (src : List α) (n : Nat) : ∀ (dst l : List α) (i j : Nat),
    copyRange dst src i j n = .ok l → ∀ x ∈ l, x ∈ dst ∨ x ∈ src := by
  induction n with
  | zero =>
    intro dst l i j h x hx
    obtain rfl := Res.ok.inj h
    exact .inl hx
  | succ n ih =>
    intro dst l i j h x hx
    rw [copyRange] at h
    split at h
    · cases h
    · rename_i a ha
      split at h
      · rcases ih _ _ _ _ h x hx with h1 | h1
        · rcases List.mem_or_eq_of_mem_set h1 with h2 | rfl
          · exact .inl h2
          · exact .inr (List.mem_of_getElem? ha)
        · exact .inr h1
      · cases h

theorem condCopy_mem {α : Type} {p : Prop} [Decidable p] {dst src l : List α} {i j n : Nat}
    (h : (if p then copyRange dst src i j n else .ok dst) = .ok l) : ∀ x ∈ l, x ∈ dst ∨ x ∈ src := by
  split at h
  · exact copyRange_mem _ _ _ _ _ _ h
  · obtain rfl := Res.ok.inj h
    exact fun x hx => .inl hx

theorem reformat_mem {o e : Extents} {fmt : Int} {n : Nat} {x : Bool} (h : o.reformat fmt n x = .ok e) :
    ∀ y ∈ e.extents, y = Extent.default ∨ y ∈ o.extents := by
  unfold Extents.reformat at h
  obtain ⟨e0, h0, h⟩ := Res.bind_ok_iff.1 h
  obtain ⟨l1, h1, h⟩ := Res.bind_ok_iff.1 h
  obtain ⟨l2, h2, h⟩ := Res.bind_ok_iff.1 h
  obtain ⟨l3, h3, h⟩ := Res.bind_ok_iff.1 h
  obtain ⟨ob, _, h⟩ := Res.bind_ok_iff.1 h
  obtain ⟨l4, h4, h⟩ := Res.bind_ok_iff.1 h
  obtain rfl := Res.ok.inj h
  have m1 := copyRange_mem _ _ _ _ _ _ h1
  have m2 := condCopy_mem h2
  have m3 := condCopy_mem h3
  have m4 : ∀ y ∈ l4, y ∈ l3 ∨ y ∈ o.extents := by
    split at h4
    · obtain rfl := Res.ok.inj h4
      exact fun y hy => .inl hy
    · obtain ⟨b, _, h4⟩ := Res.bind_ok_iff.1 h4
      exact copyRange_mem _ _ _ _ _ _ h4
  have m0 : ∀ y ∈ e0.extents, y = Extent.default := by
    unfold Extents.make at h0
    split at h0
    · cases h0
    · obtain ⟨k, _, h0⟩ := Res.bind_ok_iff.1 h0
      obtain rfl := Res.ok.inj h0
      intro y hy
      exact List.eq_of_mem_replicate hy
  intro y hy
  rcases m4 y hy with h | h
  · rcases m3 y h with h | h
    · rcases m2 y h with h | h
      · rcases m1 y h with h | h
        · exact .inl (m0 y h)
        · exact .inr h
      · exact .inr h
    · exact .inr h
  · exact .inr h

theorem default_good : Ordered Extent.default ∧ VarOk Extent.default := by
  rw [ordered_iff, varOk_iff]
  decide +kernel

theorem extents_copy {e : Extents} (h : ∀ x ∈ e.extents, Ordered x ∧ VarOk x) : e.copy = .ok e := by
  have hl : ∀ l : List Extent, (∀ x ∈ l, Ordered x ∧ VarOk x) → Res.mapL Extent.copy l = .ok l := by
    intro l
    induction l with
    | nil => intro _; rfl
    | cons a l ih =>
      intro h
      rw [Res.mapL, C24_copy, if_pos (h a (by simp)), ih fun x hx => h x (by simp [hx])]
      rfl
  unfold Extents.copy
  rw [hl _ h]
  rfl

theorem ofParts_good {h : LasHeader} {info : CopcInfo} {e : Extents} {wkt : Bytes} {eb : List EbField}
    (hg : ∀ x ∈ e.extents, Ordered x ∧ VarOk x) : CopcConfig.ofParts h info e wkt eb =
      .ok { header := h.withCopc true, wkt := wkt, eb := eb, info := info, extents := e } := by
  unfold CopcConfig.ofParts
  rw [extents_copy hg]
  rfl

/-- Making a writer from a consistent configuration, with any combination of overrides whose format is 6-8 and
whose extra-byte items have LAS types, succeeds, and the writer holds the configuration so overridden. -/
theorem C50_overrides {c : CopcConfig} (hc : Consistent c) (hef : c.extents.fmt = c.header.fmt)
    (hx : ∀ x ∈ c.extents.extents, Ordered x ∧ VarOk x) (hn : c.eb.length < 65536)
    (ht : ∀ f ∈ c.eb, f.dataType ≤ 30) (o : Writer.Overrides)
    (hf : ∀ f, o.fmt = some f → f = 6 ∨ f = 7 ∨ f = 8)
    (he : ∀ l, o.eb = some l → l.length < 65536 ∧ ∀ f ∈ l, f.dataType ≤ 30) (out : OStream) :
    ∃ w, Writer.make out c o = .ok w ∧ Overridden c w.cfg o := by
  have hoff : ∀ c' : CopcConfig, (c'.header.fmt = 6 ∨ c'.header.fmt = 7 ∨ c'.header.fmt = 8) →
      c'.extents.extents.length = baseDims c'.header.fmt + c'.eb.length → ∃ n, Writer.offsetToPointData c' = .ok n := by
    intro c' h6 _
    have h1 : c'.header.ebSize = .ok ((c'.header.recLen.toNat + 65536 - lasBaseSize c'.header.fmt) % 65536) := by
      unfold LasHeader.ebSize ebByteSize
      rcases h6 with e | e | e <;> rw [e] <;> rfl
    have h2 : ∃ k, Extents.byteSize c'.header.fmt (c'.eb.length % 65536) = .ok k := by
      rcases h6 with e | e | e <;> rw [e] <;> exact ⟨_, rfl⟩
    obtain ⟨k, h2⟩ := h2
    unfold Writer.offsetToPointData BaseW.offsetToPointData
    rw [h1, Res.okBind, Res.okBind, h2, Res.okBind]
    exact ⟨_, rfl⟩
  by_cases hany : o.any = true
  · have hfmt : (o.fmt.getD c.header.fmt) = 6 ∨ (o.fmt.getD c.header.fmt) = 7 ∨ (o.fmt.getD c.header.fmt) = 8 := by
      cases h : o.fmt with
      | none => exact hc.fmt
      | some f => exact hf f h
    have heb : (o.eb.getD c.eb).length < 65536 ∧ ∀ f ∈ o.eb.getD c.eb, f.dataType ≤ 30 := by
      cases h : o.eb with
      | none => exact ⟨hn, ht⟩
      | some l => exact he l h
    have hb : pointBaseByteSize (o.fmt.getD c.header.fmt) = .ok (lasBaseSize (o.fmt.getD c.header.fmt)) := by
      rcases hfmt with e | e | e <;> rw [e] <;> rfl
    have hrl : recordLength (o.fmt.getD c.header.fmt) (o.eb.getD c.eb) = .ok (UInt16.ofNat
        (lasBaseSize (o.fmt.getD c.header.fmt) + ((o.eb.getD c.eb).map lasItemSize).sum)) := by
      unfold recordLength
      rw [hb, Res.okBind, C25_sum _ heb.2, Res.okBind]
    obtain ⟨ex, h1, h2, h3, h4, h5, h6, h7, h8⟩ := C23_dimensions c.extents c.eb.length
      ⟨by rw [hef]; exact hc.fmt, by rw [hef]; exact hc.extents⟩ (o.fmt.getD c.header.fmt) hfmt
      ((o.eb.getD c.eb).length % 65536) (o.ext.getD c.extents.extStats)
    rw [Nat.mod_eq_of_lt heb.1] at h1 h2 h7 h8
    have hgood : ∀ x ∈ ex.extents, Ordered x ∧ VarOk x := by
      intro x hxx
      rcases reformat_mem h1 x hxx with rfl | h
      · exact default_good
      · exact hx x h
    have hcfg : Writer.initConfig c o = .ok
        { header := (c.header.withFormat (o.fmt.getD c.header.fmt) (UInt16.ofNat
            (lasBaseSize (o.fmt.getD c.header.fmt) + ((o.eb.getD c.eb).map lasItemSize).sum))
            (o.scale.getD c.header.scale) (o.offset.getD c.header.offset)).withCopc true
          wkt := o.wkt.getD c.wkt
          eb := o.eb.getD c.eb
          info := c.info
          extents := ex } := by
      unfold Writer.initConfig
      rw [if_pos hany]
      simp only
      rw [hrl, Res.okBind, Nat.mod_eq_of_lt heb.1, h1, Res.okBind, ofParts_good hgood, Res.okBind]
      unfold CopcConfig.copy
      rw [ofParts_good hgood]
      rfl
    generalize hc' : ({ header := _, wkt := _, eb := _, info := _, extents := _ } : CopcConfig) = c' at hcfg
    have hnum : c'.extents.extents.length = baseDims c'.header.fmt + c'.eb.length := by
      subst hc'
      have := h2.number
      rw [h3] at this
      exact this
    obtain ⟨n, hn'⟩ := hoff c' (by subst hc'; exact hfmt) hnum
    refine ⟨⟨BaseW.init out (n + 8), c', [], [(VoxelKey.root, [])]⟩, ?_, ?_⟩
    · unfold Writer.make
      rw [hcfg, Res.okBind, hn', Res.okBind]
    · subst hc'
      constructor
      case recLen => simp [LasHeader.withFormat, LasHeader.withCopc]
      case kept => intro d a b; exact h5 d a (by rw [hef]; exact b)
      case fresh => intro d a b; exact h6 d a (by rw [hef]; exact b)
      case extNumber => exact hnum
      case extentsFrom => exact reformat_mem h1
      all_goals first | rfl | assumption
  · have hnone : o.fmt = none ∧ o.scale = none ∧ o.offset = none ∧ o.wkt = none ∧ o.eb = none ∧ o.ext = none := by
      simp only [Writer.Overrides.any, Bool.or_eq_true, not_or, Option.isSome_iff_ne_none, ne_eq, not_not] at hany
      obtain ⟨⟨⟨⟨⟨a1, a2⟩, a3⟩, a4⟩, a5⟩, a6⟩ := hany
      exact ⟨a1, a2, a3, a4, a5, a6⟩
    obtain ⟨e1, e2, e3, e4, e5, e6⟩ := hnone
    have hcfg : Writer.initConfig c o = .ok { c with header := c.header.withCopc true } := by
      unfold Writer.initConfig
      rw [if_neg hany]
      unfold CopcConfig.copy
      rw [ofParts_good hx]
    generalize hc' : ({ c with header := c.header.withCopc true } : CopcConfig) = c' at hcfg
    have hnum : c'.extents.extents.length = baseDims c'.header.fmt + c'.eb.length := by
      subst hc'; exact hc.extents
    obtain ⟨n, hn'⟩ := hoff c' (by subst hc'; exact hc.fmt) hnum
    refine ⟨⟨BaseW.init out (n + 8), c', [], [(VoxelKey.root, [])]⟩, ?_, ?_⟩
    · unfold Writer.make
      rw [hcfg, Res.okBind, hn', Res.okBind]
    · subst hc'
      constructor
      case recLen =>
        show c.header.recLen.toNat = (lasBaseSize c.header.fmt + (c.eb.map lasItemSize).sum) % 65536
        rw [← hc.len]
        exact (Nat.mod_eq_of_lt c.header.recLen.toNat_lt).symm
      case fresh => intro d a b; exact absurd a b
      case freshItems => intro a; exact absurd rfl a
      case extNumber => exact hnum
      case extFmt => exact hef
      case extentsFrom => exact fun x hx => .inr hx
      all_goals first | rfl | (simp only [e1, e2, e3, e4, e5, e6]; rfl) | (intros; rfl)

/-- A format other than 6, 7, 8 is rejected. -/
theorem C50_format (c : CopcConfig) (o : Writer.Overrides) {f : Int} (hf : o.fmt = some f)
    (hbad : ¬ (f = 6 ∨ f = 7 ∨ f = 8)) (out : OStream) : Writer.make out c o = .throw .badFormat := by
  have hany : o.any = true := by unfold Writer.Overrides.any; rw [hf]; simp
  unfold Writer.make Writer.initConfig
  rw [if_pos hany, hf]
  simp only [Option.getD_some]
  unfold recordLength pointBaseByteSize
  rw [if_neg (by omega), if_neg (by omega), if_neg (by omega)]
  rfl

/-- Without overrides the record length is taken over, not recomputed: it fits the items only because the
configuration is consistent. -/
theorem C50_length_kept {c : CopcConfig} {out : OStream} {w : Writer} (h : Writer.make out c {} = .ok w) :
    w.cfg.header.recLen = c.header.recLen := by
  unfold Writer.make at h
  obtain ⟨c', h1, h2⟩ := Res.bind_ok_iff.1 h
  obtain ⟨n, _, h3⟩ := Res.bind_ok_iff.1 h2
  obtain rfl := Res.ok.inj h3
  unfold Writer.initConfig CopcConfig.copy CopcConfig.ofParts at h1
  rw [if_neg (by decide)] at h1
  obtain ⟨e, _, h4⟩ := Res.bind_ok_iff.1 h1
  obtain rfl := Res.ok.inj h4
  rfl

theorem sample_checked : (Sample.cfg.header.fmt = 6) ∧
    Sample.cfg.header.recLen.toNat = lasBaseSize Sample.cfg.header.fmt + (Sample.cfg.eb.map lasItemSize).sum ∧
    (∀ f ∈ Sample.cfg.eb, 0 < lasItemSize f ∧ f.dataType ≤ 30) ∧
    Sample.cfg.extents.extents.length = baseDims Sample.cfg.header.fmt + Sample.cfg.eb.length ∧
    Sample.cfg.extents.fmt = Sample.cfg.header.fmt ∧ Sample.cfg.eb.length < 65536 ∧
    (∀ x ∈ Sample.cfg.extents.extents, Flt.lt' x.maximum x.minimum = false ∧ Flt.lt' x.var Flt.zero = false) := by
  decide +kernel

/-- The sample configuration meets the hypotheses of `C50_overrides`; here with format 7, another WKT and two
items in place of one. -/
example : ∃ w, Writer.make OStream.fresh Sample.cfg
    { fmt := some 7, wkt := some [88], eb := some [EbField.simple 4 0 [], EbField.simple 0 5 []] } = .ok w ∧
    Overridden Sample.cfg w.cfg
      { fmt := some 7, wkt := some [88], eb := some [EbField.simple 4 0 [], EbField.simple 0 5 []] } := by
  obtain ⟨h1, h2, h3, h4, h5, h6, h7⟩ := sample_checked
  refine C50_overrides ⟨.inl h1, h2, fun f hf => (h3 f hf).1, h4⟩ h5
    (fun x hx => ⟨(ordered_iff x).2 (h7 x hx).1, (varOk_iff x).2 (h7 x hx).2⟩) h6 (fun f hf => (h3 f hf).2) _ ?_ ?_ _
  · intro f hf
    obtain rfl := Option.some.inj hf
    exact .inr (.inl rfl)
  · intro l hl
    obtain rfl := Option.some.inj hl
    decide

end Copc
