import Verif.Model.Header
/-! # The header record round trips through its bytes -/
namespace Copc

@[simp] theorem getV_put (v : Vec3 Dbl) (rest : Bytes) : getV (putV v ++ rest) = (v, rest) := by
  simp [getV, putV, List.append_assoc]

@[simp] theorem length_putV (v : Vec3 Dbl) : (putV v).length = 24 := by simp [putV]

theorem getMany_put32 {l : List UInt32} {n : Nat} (h : l.length = n) (rest : Bytes) :
    getMany getU32 n (l.flatMap putU32 ++ rest) = (l, rest) := by
  subst h; exact getMany_flatMap l (fun a _ r => getU32_put a r) rest

theorem getMany_put64 {l : List UInt64} {n : Nat} (h : l.length = n) (rest : Bytes) :
    getMany getU64 n (l.flatMap putU64 ++ rest) = (l, rest) := by
  subst h; exact getMany_flatMap l (fun a _ r => getU64_put a r) rest

theorem length_flatMap_const {α : Type} {f : α → Bytes} {k : Nat} (h : ∀ a, (f a).length = k)
    (l : List α) : (l.flatMap f).length = k * l.length := by
  induction l with
  | nil => rfl
  | cons a l ih => simp [List.flatMap_cons, h, ih, Nat.mul_add]; omega

namespace Header14

theorem length_encode {h : Header14} (s : h.Sized) : h.encode.length = 375 := by
  obtain ⟨h1, h2, h3, h4, h5, h6⟩ := s
  simp only [encode, List.length_append, length_putU8, length_putU16, length_putU32, length_putU64,
    length_putD, length_putV, h1, h2, h3, h4, length_flatMap_const length_putU32,
    length_flatMap_const length_putU64, h5, h6]

theorem decode_encode {h : Header14} (s : h.Sized) (rest : Bytes) : decode (h.encode ++ rest) = h := by
  obtain ⟨h1, h2, h3, h4, h5, h6⟩ := s
  simp only [encode, decode, List.append_assoc, getRaw_append h1, getRaw_append h2, getRaw_append h3,
    getRaw_append h4, getMany_put32 h5, getMany_put64 h6, getU8_put, getU16_put, getU32_put, getU64_put,
    getD_put, getV_put]

end Header14

theorem length_strncpy (k : Nat) (s : Bytes) : (LasHeader.strncpy k s).length = k := length_padTo _ _

theorem ofCharArray_strncpy {k : Nat} {s : Bytes} (h : NoNul s) (hl : s.length < k) :
    LasHeader.ofCharArray (LasHeader.strncpy k s) = .ok s := by
  have e : LasHeader.strncpy k s = s ++ 0 :: List.replicate (k - s.length - 1) 0 := by
    rw [LasHeader.strncpy, cstr_of_noNul h, padTo, List.take_of_length_le (by omega),
      ← List.replicate_succ]
    congr 2; omega
  rw [e, LasHeader.ofCharArray, if_pos (by simp), cstr_append_nul h]

end Copc
