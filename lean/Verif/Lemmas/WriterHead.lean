import Verif.Spec.HeaderArea
import Verif.Lemmas.WriterTree
import Verif.Lemmas.Extents
import Verif.Props.WriterCounts
/-! # Size of the header area -/
namespace Copc
open Spec

theorem length_vlrHeader (h : VlrHeader) : h.encode.length = 54 := by simp [VlrHeader.encode]

theorem length_vlrBytes (u : Bytes) (i : UInt16) (d p : Bytes) :
    (BaseW.vlrBytes u i d p).length = 54 + p.length := by
  simp [BaseW.vlrBytes, length_vlrHeader]

theorem length_info (i : CopcInfo) (g : Extent) : (i.encode g).length = 160 := by simp [CopcInfo.encode]

theorem length_ebField (f : EbField) : f.encode.length = 192 := by simp [EbField.encode]

theorem length_putEb (l : List EbField) : (putEb l).length = 192 * l.length :=
  length_flatMap_const length_ebField l

theorem length_lazVlrs (L : Lazperf) (c : LazConfig) (eb : Nat) :
    (lazVlrs L c eb).length = (if eb > 0 then 54 + 192 * c.eb.length else 0) +
      (54 + (34 + 6 * lazItems c.header.fmt eb)) := by
  unfold lazVlrs
  split <;> simp only [List.length_append, length_vlrBytes, length_putEb, L.lazVlr_length,
    List.length_nil]

theorem length_copcVlrs (L : Lazperf) (c : CopcConfig) (eb : Nat) (g : Extent) :
    (copcVlrs L c eb g).length = 54 + 160 + (54 + 16 * c.extents.extents.length) +
      (if c.extents.extStats then 54 + 16 * c.extents.extents.length else 0) +
      (lazVlrs L c.toLazConfig eb).length := by
  unfold copcVlrs
  split <;> simp only [List.length_append, length_vlrBytes, length_info, length_putItems,
    Extents.toVlr, Extents.toVlrExtended, List.length_map, List.length_nil] <;> omega

theorem byteSize_eq {fmt : Int} (h : fmt = 6 ∨ fmt = 7 ∨ fmt = 8) (n : Nat) :
    Extents.byteSize fmt n = .ok ((baseDims fmt + n) * 16) := by
  unfold Extents.byteSize
  rw [extents_make_ok h, Res.okBind]
  simp [Extents.toVlr]

/-- `OffsetToPointData` of a format that exists. -/
theorem offset_eq {c : CopcConfig} (hf : c.header.fmt = 6 ∨ c.header.fmt = 7 ∨ c.header.fmt = 8)
    {eb : Nat} (he : c.header.ebSize = .ok eb) :
    Writer.offsetToPointData c = .ok (375 +
      (if 192 * c.eb.length > 0 then 192 * c.eb.length + 54 else 0) +
      (34 + 6 * lazItems c.header.fmt eb + 54) + (54 + 160) +
      (if c.extents.extStats then ((baseDims c.header.fmt + c.eb.length % 65536) * 16 + 54) * 2
        else (baseDims c.header.fmt + c.eb.length % 65536) * 16 + 54)) := by
  unfold Writer.offsetToPointData BaseW.offsetToPointData
  rw [he, Res.okBind, Res.okBind, byteSize_eq hf, Res.okBind]

theorem sum_pos {l : List EbField} (h : ∀ f ∈ l, 0 < lasItemSize f) :
    l.length ≤ (l.map lasItemSize).sum := by
  induction l with
  | nil => simp
  | cons a l ih =>
    have := h a (by simp)
    have := ih fun f hf => h f (by simp [hf])
    simp only [List.map_cons, List.sum_cons, List.length_cons]
    omega

theorem Spec.Consistent.eb {c : CopcConfig} (h : Consistent c) :
    c.header.ebSize = .ok (c.eb.map lasItemSize).sum ∧ (c.eb.map lasItemSize).sum < 65536 := by
  have hb : pointBaseByteSize c.header.fmt = .ok (lasBaseSize c.header.fmt) := by
    rcases h.fmt with e | e | e <;> rw [e] <;> rfl
  have hl := h.len
  have hlt := c.header.recLen.toNat_lt
  constructor
  · unfold LasHeader.ebSize ebByteSize
    rw [hb, Res.okBind, hl]
    congr 1
    generalize lasBaseSize c.header.fmt = b at *
    generalize (c.eb.map lasItemSize).sum = s at *
    omega
  · omega

theorem Spec.Consistent.exact {c : CopcConfig} (h : Consistent c) {otpd : Nat}
    (ho : Writer.offsetToPointData c = .ok otpd) (L : Lazperf) (g : Extent) :
    375 + (copcVlrs L c (c.eb.map lasItemSize).sum g).length = otpd := by
  have hs := sum_pos h.items
  have hlt := h.eb.2
  rw [offset_eq h.fmt h.eb.1] at ho
  injection ho with ho
  rw [length_copcVlrs, length_lazVlrs, ← ho, h.extents, Nat.mod_eq_of_lt (show c.eb.length < 65536 by omega)]
  have e : ((c.eb.map lasItemSize).sum > 0) ↔ 192 * c.eb.length > 0 := by
    constructor
    · intro h1
      refine Nat.pos_of_ne_zero fun h0 => ?_
      have : c.eb = [] := List.length_eq_zero_iff.1 (by omega)
      rw [this] at h1
      simp at h1
    · intro h1; omega
  by_cases h1 : (c.eb.map lasItemSize).sum > 0
  · rw [if_pos h1, if_pos (e.1 h1)]
    split <;> omega
  · rw [if_neg h1, if_neg (fun h2 => h1 (e.2 h2))]
    split <;> omega

/-! ### Walking over VLRs -/

theorem vlrEnd_step {data u d payload rest : Bytes} {i : UInt16} {p n : Nat}
    (h : data.drop p = BaseW.vlrBytes u i d payload ++ rest) (hl : payload.length < 65536) :
    vlrEnd data (n + 1) p = vlrEnd data n (p + (54 + payload.length)) := by
  rw [vlrEnd]
  congr 1
  rw [Nat.add_assoc]
  congr 2
  rw [← List.drop_drop, h]
  unfold BaseW.vlrBytes VlrHeader.encode
  simp only [List.append_assoc]
  rw [← List.append_assoc, ← List.append_assoc, List.drop_left' (by simp)]
  unfold putU16
  rw [getN_leN]
  simp only [UInt64.toNat_ofNat', UInt16.toNat_ofNat']
  omega

theorem drop_step {data a rest : Bytes} {p : Nat} (h : data.drop p = a ++ rest) {n : Nat} (hn : n = a.length) :
    data.drop (p + n) = rest := by
  rw [← List.drop_drop, h, List.drop_left' hn.symm]

theorem vlrEnd_laz {L : Lazperf} {c : LazConfig} {eb p : Nat} {data rest : Bytes}
    (hl : c.eb.length ≤ 341) (h : data.drop p = lazVlrs L c eb ++ rest) :
    vlrEnd data ((if eb ≠ 0 then 1 else 0) + 1) p = p + (lazVlrs L c eb).length := by
  have hi : lazItems c.header.fmt eb ≤ 3 := by unfold lazItems; split <;> split <;> omega
  rw [length_lazVlrs]
  unfold lazVlrs at h
  by_cases he : eb > 0
  · rw [if_pos he, List.append_assoc] at h
    rw [if_pos he, if_pos (show eb ≠ 0 by omega), Nat.add_comm 1 1,
      vlrEnd_step h (by rw [length_putEb]; omega),
      vlrEnd_step (drop_step h (by rw [length_vlrBytes])) (by rw [L.lazVlr_length]; omega)]
    rw [vlrEnd, length_putEb, L.lazVlr_length]
    omega
  · rw [if_neg he, List.nil_append] at h
    rw [if_neg he, if_neg (show ¬ eb ≠ 0 by omega), Nat.zero_add,
      vlrEnd_step h (by rw [L.lazVlr_length]; omega)]
    rw [vlrEnd, L.lazVlr_length]
    omega

theorem vlrEnd_copc {L : Lazperf} {c : CopcConfig} {eb p : Nat} {g : Extent} {data rest : Bytes}
    (hl : c.eb.length ≤ 341) (hx : c.extents.extents.length ≤ 4095)
    (h : data.drop p = copcVlrs L c eb g ++ rest) :
    vlrEnd data ((if eb ≠ 0 then 1 else 0) + 1 + 2 + (if c.extents.extStats then 1 else 0)) p =
      p + (copcVlrs L c eb g).length := by
  have hp1 : ∀ l : List (Dbl × Dbl), l.length = c.extents.extents.length →
      (Extents.putItems l).length < 65536 := by
    intro l hl2
    rw [length_putItems, hl2]
    omega
  have hv : c.extents.toVlr.length = c.extents.extents.length := by simp [Extents.toVlr]
  have hv2 : c.extents.toVlrExtended.length = c.extents.extents.length := by simp [Extents.toVlrExtended]
  have hi : ((c.info.encode g)).length < 65536 := by rw [length_info]; omega
  unfold copcVlrs at h
  rw [length_copcVlrs]
  simp only [List.append_assoc] at h
  by_cases hs : c.extents.extStats = true
  · rw [if_pos hs] at h
    rw [if_pos hs, if_pos hs, show (if eb ≠ 0 then 1 else 0) + 1 + 2 + 1 =
      ((if eb ≠ 0 then 1 else 0) + 1) + 1 + 1 + 1 by omega]
    have h2 := drop_step h (by rw [length_vlrBytes])
    have h3 := drop_step h2 (by rw [length_vlrBytes])
    have h4 := drop_step h3 (by rw [length_vlrBytes])
    rw [vlrEnd_step h hi, vlrEnd_step h2 (hp1 _ hv), vlrEnd_step h3 (hp1 _ hv2),
      vlrEnd_laz (c := c.toLazConfig) hl h4, length_info, length_putItems, length_putItems, hv, hv2]
    omega
  · rw [if_neg hs, List.nil_append] at h
    rw [if_neg hs, if_neg hs, show (if eb ≠ 0 then 1 else 0) + 1 + 2 + 0 =
      ((if eb ≠ 0 then 1 else 0) + 1) + 1 + 1 by omega]
    have h2 := drop_step h (by rw [length_vlrBytes])
    have h4 := drop_step h2 (by rw [length_vlrBytes])
    rw [vlrEnd_step h hi, vlrEnd_step h2 (hp1 _ hv),
      vlrEnd_laz (c := c.toLazConfig) hl h4, length_info, length_putItems, hv]
    omega

theorem initConfig_flag {c c' : CopcConfig} {o : Writer.Overrides} (h : Writer.initConfig c o = .ok c') :
    c'.header.copcFlag = true := by
  have hp : ∀ {h i e k l} {c' : CopcConfig}, CopcConfig.ofParts h i e k l = .ok c' → c'.header.copcFlag = true := by
    intro h i e k l c' hc
    unfold CopcConfig.ofParts at hc
    cases he : e.copy with
    | ok a => rw [he, Res.okBind] at hc; cases hc; rfl
    | throw e => rw [he] at hc; cases hc
    | ub => rw [he] at hc; cases hc
  have peel : ∀ {α : Type} (x : Res α) (f : α → Res CopcConfig), x.bind f = .ok c' → ∃ a, x = .ok a ∧ f a = .ok c' := by
    intro α x f hx
    cases x with
    | ok a => exact ⟨a, rfl, hx⟩
    | throw e => cases hx
    | ub => cases hx
  unfold Writer.initConfig at h
  split at h
  · obtain ⟨_, _, h⟩ := peel _ _ h
    obtain ⟨_, _, h⟩ := peel _ _ h
    obtain ⟨_, _, h⟩ := peel _ _ h
    exact hp h
  · exact hp h

theorem Spec.Consistent.edit {c c' : CopcConfig} (h : Consistent c) (he : PublicEdit c c') : Consistent c' where
  fmt := by rw [he.fmt]; exact h.fmt
  len := by rw [he.recLen, he.fmt, he.eb]; exact h.len
  items := by rw [he.eb]; exact h.items
  extents := by rw [he.extLen, he.fmt, he.eb]; exact h.extents

end Copc
