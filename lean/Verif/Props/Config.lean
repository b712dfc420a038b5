import Verif.Spec.Config
import Verif.Model.Config
/-! # C25: extra-byte sizes -/
namespace Copc

theorem ebTypeTable_eq : ∀ k : Fin 31, k.1 ≠ 0 →
    ebTypeTable[k.1]? = some (lasScalarSize ((k.1 - 1) % 10) * ((k.1 - 1) / 10 + 1)) := by decide

theorem ebFieldSize_eq (f : EbField) (h : f.dataType ≤ 30) : ebFieldSize f = .ok (lasItemSize f) := by
  have ht : f.dataType.toNat ≤ 30 := h
  unfold ebFieldSize lasItemSize
  by_cases h0 : f.dataType = 0
  · rw [if_pos h0, if_pos h0]
  · rw [if_neg h0, if_neg h0]
    have := ebTypeTable_eq ⟨f.dataType.toNat, by omega⟩ (by
      intro e
      exact h0 (UInt8.toNat_inj.1 e))
    simp only at this
    rw [this]

theorem ebFieldSize_ub (f : EbField) (h : 30 < f.dataType) : ebFieldSize f = .ub := by
  have ht : 30 < f.dataType.toNat := h
  have h0 : f.dataType ≠ 0 := by
    intro e; rw [e] at ht; exact absurd ht (by decide)
  unfold ebFieldSize
  rw [if_neg h0, List.getElem?_eq_none (by simp [ebTypeTable]; omega)]

/-- The extra-byte size is the sum of the LAS sizes of the items. -/
theorem C25_sum (l : List EbField) (h : ∀ f ∈ l, f.dataType ≤ 30) :
    numBytesFromExtraBytes l = .ok (l.map lasItemSize).sum := by
  induction l with
  | nil => rfl
  | cons f l ih =>
    rw [numBytesFromExtraBytes, ebFieldSize_eq f (h f (by simp)), ih fun g hg => h g (by simp [hg])]
    rfl

/-- A data type above 30 indexes past the type table: undefined behaviour. -/
theorem C25_undefined (l : List EbField) (h : ∃ f ∈ l, 30 < f.dataType) :
    numBytesFromExtraBytes l = .ub := by
  induction l with
  | nil => simp at h
  | cons f l ih =>
    rw [numBytesFromExtraBytes]
    by_cases hf : 30 < f.dataType
    · rw [ebFieldSize_ub f hf]; rfl
    · have hf' : f.dataType ≤ 30 := by
        have : ¬ 30 < f.dataType.toNat := hf
        exact Nat.le_of_not_lt this
      obtain ⟨g, hg, hg2⟩ := h
      have hgl : g ∈ l := by
        rcases List.mem_cons.1 hg with rfl | h
        · exact absurd hg2 hf
        · exact h
      rw [ebFieldSize_eq f hf', ih ⟨g, hgl, hg2⟩]
      rfl

/-- The record length of a new LAZ configuration, and `EbByteSize` recovering the extra bytes. -/
theorem C25_config (fmt : Int) (hf : fmt = 6 ∨ fmt = 7 ∨ fmt = 8) (scale offset : Vec3 Dbl) (wkt : Bytes)
    (l : List EbField) (copc : Bool) (h : ∀ f ∈ l, f.dataType ≤ 30) :
    ∃ c, LazConfig.make fmt scale offset wkt l copc = .ok c ∧ c.eb = l ∧ c.wkt = wkt ∧
      c.header.fmt = fmt ∧ c.header.scale = scale ∧ c.header.offset = offset ∧
      c.header.recLen.toNat = (lasBaseSize fmt + (l.map lasItemSize).sum) % 65536 ∧
      c.header.ebSize = .ok ((l.map lasItemSize).sum % 65536) := by
  have hb : pointBaseByteSize fmt = .ok (lasBaseSize fmt) := by rcases hf with rfl | rfl | rfl <;> rfl
  have hle : lasBaseSize fmt ≤ 38 := by rcases hf with rfl | rfl | rfl <;> decide
  refine ⟨⟨LasHeader.make fmt (UInt16.ofNat (lasBaseSize fmt + (l.map lasItemSize).sum)) scale offset copc,
    wkt, l⟩, ?_, rfl, rfl, rfl, rfl, rfl, ?_, ?_⟩
  · unfold LazConfig.make
    rw [if_neg (by omega)]
    unfold recordLength
    rw [hb, C25_sum l h]
    rfl
  · simp [LasHeader.make]
  · simp only [LasHeader.ebSize, LasHeader.make, ebByteSize, hb, Res.okBind]
    congr 1
    simp only [UInt16.toNat_ofNat']
    generalize (l.map lasItemSize).sum = s
    generalize lasBaseSize fmt = b at *
    omega

/-- The same for a COPC configuration, which also gets one extent per dimension and item. -/
theorem C25_copc_config (fmt : Int) (hf : fmt = 6 ∨ fmt = 7 ∨ fmt = 8) (scale offset : Vec3 Dbl)
    (wkt : Bytes) (l : List EbField) (ext : Bool) (h : ∀ f ∈ l, f.dataType ≤ 30) :
    ∃ c, CopcConfig.make fmt scale offset wkt l ext = .ok c ∧ c.eb = l ∧ c.wkt = wkt ∧
      c.header.fmt = fmt ∧ c.header.scale = scale ∧ c.header.offset = offset ∧
      c.header.recLen.toNat = (lasBaseSize fmt + (l.map lasItemSize).sum) % 65536 ∧
      c.header.ebSize = .ok ((l.map lasItemSize).sum % 65536) ∧ c.extents.extStats = ext ∧
      c.extents.extents.length =
        (if fmt = 6 then 14 else if fmt = 7 then 17 else 18) + l.length % 65536 := by
  obtain ⟨c, hc, h1, h2, h3, h4, h5, h6, h7⟩ := C25_config fmt hf scale offset wkt l true h
  have he : ∃ e, Extents.make fmt (l.length % 65536) ext = .ok e ∧ e.extStats = ext ∧
      e.extents.length = (if fmt = 6 then 14 else if fmt = 7 then 17 else 18) + l.length % 65536 := by
    refine ⟨⟨fmt, ext, List.replicate
        ((if fmt = 6 then 14 else if fmt = 7 then 17 else 18) + l.length % 65536) Extent.default⟩,
        ?_, ?_, ?_⟩
    · unfold Extents.make
      rw [if_neg (by omega)]
      rcases hf with rfl | rfl | rfl <;> rfl
    · rfl
    · simp
  obtain ⟨e, he1, he2, he3⟩ := he
  refine ⟨{ c with
    info := CopcInfo.default
    extents := e }, ?_, h1, h2, h3, h4, h5, h6, h7, he2, he3⟩
  unfold CopcConfig.make
  rw [hc, Res.okBind, he1, Res.okBind]

/-- Formats other than 6, 7, 8 are rejected. -/
theorem C25_format (fmt : Int) (hf : fmt < 6 ∨ 8 < fmt) (scale offset : Vec3 Dbl) (wkt : Bytes)
    (l : List EbField) (b : Bool) : LazConfig.make fmt scale offset wkt l b = .throw .badFormat ∧
      CopcConfig.make fmt scale offset wkt l b = .throw .badFormat := by
  have h : ∀ c, LazConfig.make fmt scale offset wkt l c = .throw .badFormat := by
    intro c; unfold LazConfig.make; rw [if_pos (by omega)]
  exact ⟨h b, by unfold CopcConfig.make; rw [h true]; rfl⟩

/-- Three documented items of 1, 16 and 24 bytes and 5 undocumented bytes. -/
example : numBytesFromExtraBytes [EbField.simple 1 0 [], EbField.simple 17 0 [], EbField.simple 27 0 [],
    EbField.simple 0 5 []] = .ok 46 := by rfl

example : ∀ f ∈ [EbField.simple 1 0 [], EbField.simple 17 0 [], EbField.simple 27 0 [],
    EbField.simple 0 5 []], f.dataType ≤ 30 := by decide

example : numBytesFromExtraBytes [EbField.simple 1 0 [], EbField.simple 31 0 []] = .ub := by rfl

end Copc
