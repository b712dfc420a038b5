import Verif.Lemmas.ClosedOpen
import Verif.Lemmas.Sample
/-!
# C35: the metadata of a closed file is read back
-/
namespace Copc
open Spec

/-- A file closed after any history can be opened (without running into its end), and the reader has the
attributes of the configuration the writer had when it was closed. -/
theorem C35_metadata_partial {L : Lazperf} {ord : Order} {c : CopcConfig} {o : Writer.Overrides} {w0 w w' : Writer}
    {h : List (Op × Res (Option Node))} (hm : Writer.make OStream.fresh c o = .ok w0)
    (hh : History L ord w0 h w) (hu : Unclosed h) (hs : Storable w.cfg)
    (hc : Writer.close L ord w = (.ok (), w')) (hlen : w'.base.out.data.length < 2 ^ 63)
    (hfew : w.pages.length + 1 < 2 ^ 31) :
    ∃ r, Reader.init ⟨w'.base.out.data, 0, false⟩ = .ok r ∧ r.h.str.fail = false ∧
      SameMetadata w.cfg r.cfg := by
  obtain ⟨otpd, h1, h2⟩ := bInv_of_make hm
  obtain ⟨log, hi⟩ := wInv_history h1 h2 hh hu
  obtain ⟨hier, eb, h14, gps, hco⟩ := close_ok hi.offset hi.base hc
  have hflag : w.cfg.header.copcFlag = true := by
    rw [hi.edit.copcFlag]
    obtain ⟨_, _, h3, _⟩ := make_ok hm
    exact initConfig_flag h3
  obtain ⟨q, vlrs, hr⟩ := hco.init (pageInv_history (pageInv_make hm) hh) hs hflag hlen hfew
  refine ⟨_, hr, rfl, ?_⟩
  obtain ⟨_, _, _, _, _, _, hcfg, _⟩ := hco.closed
  have hinfo : ∀ pl (c : CopcConfig), (setRoot pl c).info.centerX = c.info.centerX ∧
      (setRoot pl c).info.centerY = c.info.centerY ∧ (setRoot pl c).info.centerZ = c.info.centerZ ∧
      (setRoot pl c).info.halfsize = c.info.halfsize ∧ (setRoot pl c).info.spacing = c.info.spacing := by
    intro pl c
    unfold setRoot
    split <;> exact ⟨rfl, rfl, rfl, rfl, rfl⟩
  have hi5 := hinfo (closeLayout L ord otpd log hier w).2 w.cfg
  have hcf : w'.cfg = setRoot (closeLayout L ord otpd log hier w).2 w.cfg := hcfg
  rw [← hcf] at hi5
  obtain ⟨i1, i2, i3, i4, i5⟩ := hi5
  exact {
    fileSourceId := rfl
    globalEncoding := rfl
    creationDay := rfl
    creationYear := rfl
    max := rfl
    min := rfl
    pointsByReturn := rfl
    scale := rfl
    offset := rfl
    fmt := rfl
    recLen := rfl
    guid := rfl
    systemIdentifier := rfl
    generatingSoftware := rfl
    center := ⟨i1, i2, i3⟩
    halfsize := i4
    spacing := i5
    wkt := rfl
    eb := rfl
    extFmt := by simp only [Extents.restored]; split <;> rfl
    extStats := by simp only [Extents.restored]; split <;> rfl
    minmax := by
      simp only [Extents.restored]
      split
      · rfl
      · rw [List.map_map]; rfl
    stats := fun he => by simp only [Extents.restored]; rw [if_pos he] }

theorem sample_cfg : Sample.w.cfg = Sample.w0.cfg := by
  have h : (Sample.w.cfg.header, Sample.w.cfg.wkt, Sample.w.cfg.eb) =
      (Sample.w0.cfg.header, Sample.w0.cfg.wkt, Sample.w0.cfg.eb) := by decide +kernel
  have h2 : (Sample.w.cfg.info, Sample.w.cfg.extents) = (Sample.w0.cfg.info, Sample.w0.cfg.extents) := by
    decide +kernel
  generalize Sample.w.cfg = a at *
  generalize Sample.w0.cfg = b at *
  obtain ⟨⟨_, _, _⟩, _, _⟩ := a
  obtain ⟨⟨_, _, _⟩, _, _⟩ := b
  cases h
  cases h2
  rfl

theorem sample_storable : Storable Sample.w.cfg := by
  refine ⟨⟨by decide +kernel, by decide +kernel, by decide +kernel, by decide +kernel⟩, ⟨by decide +kernel,
    by decide +kernel, ⟨by decide +kernel, ?_⟩, ⟨by decide +kernel, ?_⟩, ⟨by decide +kernel, ?_⟩⟩,
    by decide +kernel, ?_, by decide +kernel, ?_, by decide +kernel⟩
  · have : Sample.w.cfg.header.guid = [] := by decide +kernel
    rw [this]; decide
  · have : Sample.w.cfg.header.systemIdentifier = [] := by decide +kernel
    rw [this]; decide
  · have : Sample.w.cfg.header.generatingSoftware = [] := by decide +kernel
    rw [this]; decide
  · have : ∀ x ∈ Sample.w.cfg.extents.extents, Flt.lt' x.maximum x.minimum = false ∧
        Flt.lt' x.var Flt.zero = false := by decide +kernel
    intro x hx
    exact ⟨(ordered_iff x).2 (this x hx).1, (varOk_iff x).2 (this x hx).2⟩
  · have : Sample.w.cfg.eb = [EbField.simple 1 0 []] := by decide +kernel
    rw [this]
    intro f hf
    obtain rfl := List.mem_singleton.1 hf
    exact ⟨by decide, by decide, ⟨by decide, by decide⟩, ⟨by decide, by decide⟩⟩

/-- The sample meets the hypotheses: it has extra bytes, a WKT string and extended statistics. -/
example : Storable Sample.w.cfg ∧ Sample.w.cfg.eb ≠ [] ∧ Sample.w.cfg.wkt = [87, 75, 84] ∧
    Sample.w.cfg.extents.extStats = true ∧ Sample.w.pages.length + 1 < 2 ^ 31 :=
  ⟨sample_storable, by decide +kernel, by decide +kernel, by decide +kernel, by decide +kernel⟩

/-- The configuration with the variance of the first extent set to -1, as `CopcExtent(vector)` accepts
it. -/
def badVariance (c : CopcConfig) : CopcConfig := { c with extents := { c.extents with
  extents := c.extents.extents.map fun x => { x with var := Flt.ofInt (-1) } } }

def variedClose : Res Unit × Writer :=
  Writer.close Sample.L Sample.ord { Sample.w with cfg := badVariance Sample.w.cfg }

def thrown {α : Type} : Res α → Option Exc
  | .throw e => some e
  | _ => none

/-- Without the condition on variances the property fails: a configuration that the interface accepts
(`Extent.ofVec`, the extents of `PublicEdit`) is written, and the file cannot be opened. -/
theorem C35_variance_violated :
    Extent.ofVec [Flt.ofInt 0, Flt.ofInt 0, Flt.ofInt 0, Flt.ofInt (-1)] =
      .ok ⟨Flt.ofInt 0, Flt.ofInt 0, Flt.ofInt 0, Flt.ofInt (-1)⟩ ∧
    PublicEdit Sample.w.cfg (badVariance Sample.w.cfg) ∧
    variedClose.1 = .ok () ∧
    thrown (Reader.init ⟨variedClose.2.base.out.data, 0, false⟩) = some .extentOrder :=
  ⟨by decide +kernel, ⟨rfl, rfl, rfl, rfl, rfl, rfl, rfl, rfl, rfl, by simp [badVariance], rfl⟩,
    by decide +kernel, by decide +kernel⟩

end Copc
