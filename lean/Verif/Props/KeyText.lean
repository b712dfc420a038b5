import Verif.Model.KeyText
import Verif.Lemmas.FltOrder
import Mathlib.Tactic.Linarith
/-! # C59, C60: texts, equality, hashes -/
namespace Copc
open Spec

/-- Value of a string of digits. -/
def digitsVal (l : List Nat) : Nat := l.foldl (fun a d => a * 10 + (d - 48)) 0

theorem digitsVal_snoc (l : List Nat) (d : Nat) : digitsVal (l ++ [d]) = digitsVal l * 10 + (d - 48) := by
  simp [digitsVal]

theorem decNat_val (n : Nat) : digitsVal (decNat n) = n := by
  induction n using decNat.induct with
  | case1 n h =>
    unfold decNat
    rw [if_pos h]
    simp [digitsVal]
  | case2 n h ih =>
    unfold decNat
    rw [if_neg h, digitsVal_snoc, ih]
    omega

theorem decNat_digits (n : Nat) : ∀ d ∈ decNat n, 48 ≤ d ∧ d ≤ 57 := by
  induction n using decNat.induct with
  | case1 n h =>
    unfold decNat
    rw [if_pos h]
    simp; omega
  | case2 n h ih =>
    unfold decNat
    rw [if_neg h]
    intro d hd
    rw [List.mem_append, List.mem_singleton] at hd
    rcases hd with hd | rfl
    · exact ih d hd
    · omega

theorem decNat_inj {a b : Nat} (h : decNat a = decNat b) : a = b := by
  rw [← decNat_val a, h, decNat_val]

theorem decInt_chars (i : Int) : ∀ d ∈ decInt i, d = 45 ∨ (48 ≤ d ∧ d ≤ 57) := by
  intro d hd
  unfold decInt at hd
  split at hd
  · rw [List.mem_cons] at hd
    rcases hd with rfl | hd
    · exact Or.inl rfl
    · exact Or.inr (decNat_digits _ d hd)
  · exact Or.inr (decNat_digits _ d hd)

theorem decInt_inj {a b : Int} (h : decInt a = decInt b) : a = b := by
  unfold decInt at h
  split at h <;> split at h
  · have := decNat_inj (List.cons.inj h).2
    omega
  · have := decNat_digits b.toNat 45 (by rw [← h]; simp)
    omega
  · have := decNat_digits a.toNat 45 (by rw [h]; simp)
    omega
  · have := decNat_inj h
    omega

/-- A list cut at the first occurrence of a separator. -/
theorem cut_at {c : Nat} : ∀ {a a' b b' : List Nat}, c ∉ a → c ∉ a' → a ++ c :: b = a' ++ c :: b' → a = a' ∧ b = b'
  | [], [], _, _, _, _, h => ⟨rfl, (List.cons.inj h).2⟩
  | [], x :: a', _, _, _, h', h => absurd (List.cons.inj h).1 fun e => h' (by simp [e])
  | x :: a, [], _, _, h', _, h => absurd (List.cons.inj h).1 fun e => h' (by simp [← e])
  | x :: a, y :: a', b, b', h1, h2, h => by
    rw [List.cons_append, List.cons_append, List.cons.injEq] at h
    obtain ⟨e1, e2⟩ := cut_at (fun e => h1 (List.mem_cons_of_mem _ e)) (fun e => h2 (List.mem_cons_of_mem _ e)) h.2
    exact ⟨by rw [h.1, e1], e2⟩

theorem no_comma (i : Int) : 44 ∉ decInt i := fun h => by have := decInt_chars i 44 h; omega
theorem no_close (i : Int) : 41 ∉ decInt i := fun h => by have := decInt_chars i 41 h; omega

/-- Different keys have different texts, so nothing is lost by using `str(key)` as the key of a dictionary. -/
theorem C59_text {a b : VoxelKey} : a.text = b.text ↔ a = b := by
  refine ⟨fun h => ?_, fun h => by rw [h]⟩
  unfold VoxelKey.text at h
  obtain ⟨-, h⟩ := List.cons.inj h
  obtain ⟨h1, h⟩ := cut_at (no_comma _) (no_comma _) h
  obtain ⟨-, h⟩ := List.cons.inj h
  obtain ⟨h2, h⟩ := cut_at (no_comma _) (no_comma _) h
  obtain ⟨-, h⟩ := List.cons.inj h
  obtain ⟨h3, h⟩ := cut_at (no_comma _) (no_comma _) h
  obtain ⟨-, h⟩ := List.cons.inj h
  obtain ⟨h4, -⟩ := cut_at (no_close _) (no_close _) h
  rcases a with ⟨d, x, y, z⟩
  rcases b with ⟨d', x', y', z'⟩
  simp only at h1 h2 h3 h4
  rw [decInt_inj h1, decInt_inj h2, decInt_inj h3, decInt_inj h4]

/-- `==` compares the four numbers. -/
theorem C59_eq {a b : VoxelKey} : a.eqOp b = true ↔ a = b := by
  rcases a with ⟨d, x, y, z⟩
  rcases b with ⟨d', x', y', z'⟩
  simp [VoxelKey.eqOp, and_assoc]

/-- Equal keys have equal hashes, as unordered maps and Python dictionaries need, whatever the hash of a number is. -/
theorem C59_hash {a b : VoxelKey} (h : a.eqOp b = true) (f : Nat → Nat) : a.hash f = b.hash f := by
  rw [C59_eq.1 h]

/-- The text of a key, "(12, 0, -1, 305)". -/
example : (⟨12, 0, -1, 305⟩ : VoxelKey).text =
    [40, 49, 50, 44, 32, 48, 44, 32, 45, 49, 44, 32, 51, 48, 53, 41] := by decide +kernel
example : (⟨1, 1, 0, 0⟩ : VoxelKey).text ≠ (⟨1, 0, 1, 0⟩ : VoxelKey).text := fun h => by
  have := C59_text.1 h; revert this; decide

/-! ### C60 -/

/-- `a` and `b` are the same number (so not NaN; the two zeros are the same number). -/
def Spec.SameNumber (a b : Dbl) : Prop := a.isNaN = false ∧ b.isNaN = false ∧ ext a = ext b

theorem eq'_iff {a b : Dbl} : Flt.eq' a b = true ↔ SameNumber a b := by
  have h1 := @Flt.le'_iff_ext a b
  have h2 := @Flt.le'_iff_ext b a
  have h3 : Flt.eq' a b = true ↔ Flt.le' a b = true ∧ Flt.le' b a = true := by
    simp only [Flt.eq', Flt.le', Bool.and_eq_true, decide_eq_true_eq, Bool.not_eq_true']
    constructor
    · rintro ⟨⟨n1, n2⟩, h⟩; exact ⟨⟨⟨n1, n2⟩, h.le⟩, ⟨⟨n2, n1⟩, h.ge⟩⟩
    · rintro ⟨⟨⟨n1, n2⟩, h⟩, ⟨-, h'⟩⟩; exact ⟨⟨n1, n2⟩, le_antisymm h h'⟩
  rw [h3, h1, h2]
  constructor
  · rintro ⟨⟨n1, n2, h⟩, ⟨-, -, h'⟩⟩; exact ⟨n1, n2, le_antisymm h h'⟩
  · rintro ⟨n1, n2, h⟩; exact ⟨⟨n1, n2, h.le⟩, ⟨n2, n1, h.ge⟩⟩

/-- Entries compare equal exactly when key, offset, size and count are the same; nodes, when their entries do
(the page key is not compared, see `C60_node_violated`). -/
theorem C60_entry {a b : Entry} : a.isEqual b = true ↔ a = b := by
  rcases a with ⟨k, o, s, c⟩
  rcases b with ⟨k', o', s', c'⟩
  simp only [Entry.isEqual, Bool.and_eq_true, decide_eq_true_eq, C59_eq, Entry.mk.injEq]
  tauto

/-- Vectors compare equal exactly when their coordinates are the same numbers. -/
theorem C60_vector {a b : Vec3 Dbl} :
    a.eqOp b = true ↔ SameNumber a.x b.x ∧ SameNumber a.y b.y ∧ SameNumber a.z b.z := by
  simp only [Vec3.eqOp, Bool.and_eq_true, eq'_iff, and_assoc]

/-- Extents compare equal exactly when minimum, maximum, mean and variance are the same numbers. -/
theorem C60_extent {a b : Extent} : a.eqOp b = true ↔
    SameNumber a.minimum b.minimum ∧ SameNumber a.maximum b.maximum ∧ SameNumber a.mean b.mean ∧
      SameNumber a.var b.var := by
  simp only [Extent.eqOp, Bool.and_eq_true, eq'_iff, and_assoc]

/-- The same descriptor compares equal to itself, and descriptors that compare equal agree in type, options, name and
description. Missing from C60: the numbers of the descriptors (`C60_descriptor_violated`). -/
theorem C60_descriptor_partial (a b : EbField) :
    a.eqOp a = true ∧ (a.eqOp b = true → a.dataType = b.dataType ∧ a.options = b.options ∧ a.name = b.name ∧
      a.description = b.description) := by
  refine ⟨by simp [EbField.eqOp, memcmp3], fun h => ?_⟩
  simp only [EbField.eqOp, Bool.and_eq_true, decide_eq_true_eq] at h
  tauto

/-- Descriptors with different scales, 1 and 2, compare equal: only three low bytes of each triple are looked at. -/
theorem C60_descriptor_violated : ∃ a b : EbField, a.eqOp b = true ∧ ¬SameNumber a.scale.x b.scale.x := by
  refine ⟨{ EbField.simple 3 0 [] with scale := ⟨Flt.ofInt 1, Flt.ofInt 1, Flt.ofInt 1⟩ },
    { EbField.simple 3 0 [] with scale := ⟨Flt.ofInt 2, Flt.ofInt 2, Flt.ofInt 2⟩ }, by decide +kernel, fun h => ?_⟩
  have := eq'_iff.2 h
  revert this
  decide +kernel

/-- Nodes on different pages compare equal. -/
theorem C60_node_violated : ∃ a b : Node, a.eqOp b = true ∧ a.pageKey ≠ b.pageKey :=
  ⟨⟨⟨VoxelKey.root, 600, 10, 1⟩, VoxelKey.root⟩, ⟨⟨VoxelKey.root, 600, 10, 1⟩, VoxelKey.invalid⟩, by decide, by decide⟩

/-- Non-vacuity. -/
example : (⟨Flt.ofInt 1, Flt.zero, Flt.ofInt 3⟩ : Vec3 Dbl).eqOp ⟨Flt.ofInt 1, Flt.zero, Flt.ofInt 3⟩ = true ∧
    (⟨Flt.ofInt 1, Flt.zero, Flt.ofInt 3⟩ : Vec3 Dbl).eqOp ⟨Flt.ofInt 1, Flt.zero, Flt.ofInt 4⟩ = false := by
  decide +kernel

end Copc
