import Verif.Model.Pickle
/-! # C58: pickling -/
namespace Copc

/-- `x` pickles and comes back as `x`. -/
def Spec.Pickles {α : Type} (getState : α → PyRes PyVal) (setState : PyVal → PyRes α) (x : α) : Prop :=
  ∃ t, getState x = .ok t ∧ setState t = .ok x

open Spec

theorem isCont_iff {b : Nat} : isCont b = true ↔ 0x80 ≤ b ∧ b ≤ 0xBF := by simp [isCont]

theorem utf8_1 {a : Nat} (h : a < 0x80) : utf8Char a = [a] := by unfold utf8Char; rw [if_pos h]
theorem utf8_2 {a b : Nat} (h : 0xC2 ≤ a ∧ a ≤ 0xDF) (hb : 0x80 ≤ b ∧ b ≤ 0xBF) :
    utf8Char ((a - 0xC0) * 64 + (b - 0x80)) = [a, b] := by
  unfold utf8Char
  rw [if_neg (by omega), if_pos (by omega)]
  simp only [List.cons.injEq, and_true]
  omega
theorem utf8_3 {a b c : Nat} (h : 0xE0 ≤ a ∧ a ≤ 0xEF) (hb : 0x80 ≤ b ∧ b ≤ 0xBF) (hc : 0x80 ≤ c ∧ c ≤ 0xBF)
    (h1 : a = 0xE0 → 0xA0 ≤ b) :
    utf8Char ((a - 0xE0) * 4096 + (b - 0x80) * 64 + (c - 0x80)) = [a, b, c] := by
  unfold utf8Char
  rw [if_neg (by omega), if_neg (by omega), if_pos (by omega)]
  simp only [List.cons.injEq, and_true]
  omega
theorem utf8_4 {a b c d : Nat} (h : 0xF0 ≤ a ∧ a ≤ 0xF4) (hb : 0x80 ≤ b ∧ b ≤ 0xBF) (hc : 0x80 ≤ c ∧ c ≤ 0xBF)
    (hd : 0x80 ≤ d ∧ d ≤ 0xBF) (h1 : a = 0xF0 → 0x90 ≤ b) :
    utf8Char ((a - 0xF0) * 262144 + (b - 0x80) * 4096 + (c - 0x80) * 64 + (d - 0x80)) = [a, b, c, d] := by
  unfold utf8Char
  rw [if_neg (by omega), if_neg (by omega), if_neg (by omega)]
  simp only [List.cons.injEq, and_true]
  omega

theorem utf8_back (bs : List Nat) {cs : List Nat} (h : utf8Dec bs = some cs) : cs.flatMap utf8Char = bs := by
  induction bs using utf8Dec.induct generalizing cs <;> unfold utf8Dec at h <;>
    simp_all only [if_true, if_false, Option.map_eq_some_iff, reduceCtorEq, Option.some.injEq, and_self]
  · subst h; rfl
  · obtain ⟨l, h1, rfl⟩ := h
    rename_i ih
    rw [List.flatMap_cons, utf8_1 (by assumption), ih h1]; rfl
  · obtain ⟨l, h1, rfl⟩ := h
    rename_i hc ih
    rw [List.flatMap_cons, utf8_2 (by assumption) (isCont_iff.1 hc), ih h1]; rfl
  · rename_i hc ih
    rw [if_pos (by simp), Option.map_eq_some_iff] at h
    obtain ⟨l, h1, rfl⟩ := h
    rw [List.flatMap_cons, utf8_3 (by assumption) (isCont_iff.1 hc.1) (isCont_iff.1 hc.2.1) hc.2.2.1, ih h1]; rfl
  · rename_i hc ih
    rw [if_pos (by simp), Option.map_eq_some_iff] at h
    obtain ⟨l, h1, rfl⟩ := h
    rw [List.flatMap_cons, utf8_4 (by assumption) (isCont_iff.1 hc.1) (isCont_iff.1 hc.2.1) (isCont_iff.1 hc.2.2.1)
      hc.2.2.2.1, ih h1]; rfl

theorem string_back {s : Bytes} {v : PyVal} (h : PyVal.ofString s = .ok v) : v.toString = .ok s := by
  unfold PyVal.ofString at h
  split at h
  · rename_i l hl
    cases h
    simp only [PyVal.toString]
    rw [utf8_back _ hl, List.map_map]
    congr 1
    conv => rhs; rw [← List.map_id s]
    apply List.map_congr_left
    intro b _
    simp
  · cases h

theorem toInt_ok {lo hi i : Int} (h : lo ≤ i ∧ i ≤ hi) : PyVal.toInt lo hi (.int i) = .ok i := if_pos h

theorem toU16_ok (n : UInt16) : PyVal.toU16 (.int n.toNat) = .ok n := by
  have := n.toNat_lt
  simp only [PyVal.toU16]
  rw [toInt_ok (by omega)]
  simp [PyRes.bind]

theorem toU32_ok (n : UInt32) : PyVal.toU32 (.int n.toNat) = .ok n := by
  have := n.toNat_lt
  simp only [PyVal.toU32]
  rw [toInt_ok (by omega)]
  simp [PyRes.bind]

theorem toU64_ok (n : UInt64) : PyVal.toU64 (.int n.toNat) = .ok n := by
  have := n.toNat_lt
  simp only [PyVal.toU64]
  rw [toInt_ok (by omega)]
  simp [PyRes.bind]

@[simp] theorem PyRes.bind_ok_eq {α β : Type} (a : α) (f : α → PyRes β) : (PyRes.ok a >>= f) = f a := rfl
@[simp] theorem PyRes.pure_eq {α : Type} (a : α) : (pure a : PyRes α) = .ok a := rfl

/-- Byte vectors. -/
theorem C58_bytes (v : Bytes) : Pickles VectorChar.getState VectorChar.setState v :=
  ⟨_, rfl, rfl⟩

/-- Keys, of any four 32-bit numbers. -/
theorem C58_key {k : VoxelKey} (h : k.InRange) : Pickles VoxelKey.getState VoxelKey.setState k := by
  obtain ⟨h1, h2, h3, h4⟩ := h
  refine ⟨_, rfl, ?_⟩
  simp [VoxelKey.setState, PyVal.size, PyVal.item, PyVal.toI32, toInt_ok h1, toInt_ok h2, toInt_ok h3, toInt_ok h4]

theorem key_py {k : VoxelKey} (h : k.InRange) : ∃ v, k.toPy = .ok v ∧ VoxelKey.ofPy v = .ok k := by
  obtain ⟨t, h1, h2⟩ := C58_key h
  refine ⟨.obj "VoxelKey" t, ?_, ?_⟩
  · simp [VoxelKey.toPy, h1]
  · simp [VoxelKey.ofPy, h2]

/-- Nodes. -/
theorem C58_node {n : Node} (h : n.entry.InRange) (hp : n.pageKey.InRange) :
    Pickles Node.getState Node.setState n := by
  obtain ⟨h1, h2, h3, h4⟩ := h
  obtain ⟨v, v1, v2⟩ := key_py h1
  obtain ⟨u, u1, u2⟩ := key_py hp
  have ho : PyVal.toU64 (.int n.entry.offset) = .ok (UInt64.ofNat n.entry.offset) := by
    have := toU64_ok (UInt64.ofNat n.entry.offset)
    rw [UInt64.toNat_ofNat_of_lt' h2] at this
    exact this
  refine ⟨.tuple [v, .int n.entry.offset, .int n.entry.byteSize, .int n.entry.pointCount, u], ?_, ?_⟩
  · simp [Node.getState, v1, u1]
  · simp [Node.setState, PyVal.size, PyVal.item, PyVal.toI32, toInt_ok h3, toInt_ok h4, v2, u2, ho,
      UInt64.toNat_ofNat_of_lt' h2]

/-- Vectors. -/
theorem C58_vector (v : Vec3 Dbl) : Pickles Vec3.getState Vec3.setState v :=
  ⟨_, rfl, rfl⟩

theorem vec_py (v : Vec3 Dbl) : ∃ p, v.toPy = .ok p ∧ Vec3.ofPy p = .ok v := ⟨_, rfl, rfl⟩

theorem arr_ok : ∀ l : List UInt64, PyVal.toArr15.go (l.map fun n => .int n.toNat) = .ok l
  | [] => rfl
  | n :: l => by
    simp only [List.map_cons, PyVal.toArr15.go, toU64_ok, arr_ok l, PyRes.bind]

/-- Headers whose three strings are UTF-8. -/
theorem C58_header_partial {h : LasHeader} (hf : -128 ≤ h.fmt ∧ h.fmt ≤ 127) (hr : h.pointsByReturn.length = 15)
    (hg : h.guid.length ≤ 16) (hs : h.systemIdentifier.length ≤ 32) (hw : h.generatingSoftware.length ≤ 32)
    (ug : (utf8Dec (h.guid.map (·.toNat))).isSome) (us : (utf8Dec (h.systemIdentifier.map (·.toNat))).isSome)
    (uw : (utf8Dec (h.generatingSoftware.map (·.toNat))).isSome) :
    Pickles LasHeader.getState LasHeader.setState h := by
  have hstr : ∀ s : Bytes, (utf8Dec (s.map (·.toNat))).isSome → ∃ v, PyVal.ofString s = .ok v ∧ v.toString = .ok s := by
    intro s hs
    obtain ⟨l, hl⟩ := Option.isSome_iff_exists.1 hs
    have : PyVal.ofString s = .ok (.str l) := by simp [PyVal.ofString, hl]
    exact ⟨_, this, string_back this⟩
  obtain ⟨g, g1, g2⟩ := hstr _ ug
  obtain ⟨s, s1, s2⟩ := hstr _ us
  obtain ⟨w, w1, w2⟩ := hstr _ uw
  obtain ⟨sc, sc1, sc2⟩ := vec_py h.scale
  obtain ⟨off, off1, off2⟩ := vec_py h.offset
  obtain ⟨mx, mx1, mx2⟩ := vec_py h.max
  obtain ⟨mn, mn1, mn2⟩ := vec_py h.min
  have ha : PyVal.toArr15 (.list (h.pointsByReturn.map fun n => .int n.toNat)) = .ok h.pointsByReturn := by
    simp only [PyVal.toArr15]
    rw [if_pos (by simpa using hr), arr_ok]
  refine ⟨.tuple [.int h.fileSourceId.toNat, .int h.globalEncoding.toNat, g, s, w, .int h.creationDay.toNat,
    .int h.creationYear.toNat, .int h.pointOffset.toNat, .int h.vlrCount.toNat, .int h.fmt, .int h.recLen.toNat,
    sc, off, mx, mn, .int h.evlrOffset.toNat, .int h.evlrCount.toNat, .int h.pointCount.toNat,
    .list (h.pointsByReturn.map fun n => .int n.toNat), .bool h.copcFlag], ?_, ?_⟩
  · simp [LasHeader.getState, g1, s1, w1, sc1, off1, mx1, mn1]
  · simp [LasHeader.setState, PyVal.size, PyVal.item, PyVal.toI8, toInt_ok hf, toU16_ok, toU32_ok, toU64_ok, g2, s2, w2,
      sc2, off2, mx2, mn2, ha, PyVal.toBool, LasHeader.setGuid, LasHeader.setSystemIdentifier,
      LasHeader.setGeneratingSoftware, PyRes.ofRes, Nat.not_lt.2 hg, Nat.not_lt.2 hs, Nat.not_lt.2 hw, LasHeader.ofPickle]

/-- Non-vacuity: the root key, a node of the empty file, a header with a German GUID ("\u00fc-1"). -/
example : Pickles VoxelKey.getState VoxelKey.setState ⟨5, 31, 0, 7⟩ := C58_key (by decide)
example : Pickles Node.getState Node.setState ⟨⟨⟨5, 31, 0, 7⟩, 123456789012, 100, -1⟩, VoxelKey.root⟩ :=
  C58_node (by decide) (by decide)
example : Pickles LasHeader.getState LasHeader.setState
    { LasHeader.make 7 36 defaultScale Vec3.zero true with guid := [0xC3, 0xBC, 45, 49] } :=
  C58_header_partial (by decide) (by decide) (by decide) (by decide) (by decide) (by decide +kernel)
    (by decide +kernel) (by decide +kernel)

/-- A header with a GUID that is not UTF-8, as the binary GUIDs of LAS files usually are, cannot be pickled. -/
theorem C58_guid_violated : ∃ h, LasHeader.setGuid LasHeader.default [0xFF, 0x01] = .ok h ∧
    h.getState = .raise .value ∧ ¬Pickles LasHeader.getState LasHeader.setState h := by
  have e : LasHeader.getState { LasHeader.default with guid := [0xFF, 0x01] } = .raise .value := by rfl
  refine ⟨{ LasHeader.default with guid := [0xFF, 0x01] }, rfl, e, ?_⟩
  rintro ⟨t, h, -⟩
  rw [e] at h
  cases h

end Copc
