import Verif.Base.Bytes
import Verif.Base.Flt
/-!
# Fixed-size little-endian records as lazperf reads and writes them

lazperf reads a record into a zero-filled buffer and extracts its fields one after the other, so a
record cut short by the end of the file behaves as if it were followed by zeros. `getU k bs` is one
such extraction: the value and the remaining bytes.
-/
namespace Copc

/-- Extract a `k`-byte unsigned integer. -/
def getU (k : Nat) (bs : Bytes) : Nat × Bytes := (unLe (bs.take k), bs.drop k)

/-- A string in a field of `k` bytes: cut to `k` bytes, filled with zeros. -/
def padTo (k : Nat) (s : Bytes) : Bytes := s.take k ++ List.replicate (k - s.length) 0

/-- Extract `k` raw bytes. -/
def getRaw (k : Nat) (bs : Bytes) : Bytes × Bytes := (padTo k (bs.take k), bs.drop k)

/-- Bytes up to the first NUL (`std::string(const char *)`, `strncpy`). -/
def cstr (s : Bytes) : Bytes := s.takeWhile (fun b => b != 0)

/-- Bytes without the trailing NULs (lazperf's extraction of a `std::string` field). -/
def trimNul (s : Bytes) : Bytes := (s.reverse.dropWhile (fun b => b == 0)).reverse

def getU8 (bs : Bytes) : UInt8 × Bytes := (UInt8.ofNat (getU 1 bs).1, (getU 1 bs).2)
def getU16 (bs : Bytes) : UInt16 × Bytes := (UInt16.ofNat (getU 2 bs).1, (getU 2 bs).2)
def getU32 (bs : Bytes) : UInt32 × Bytes := (UInt32.ofNat (getU 4 bs).1, (getU 4 bs).2)
def getU64 (bs : Bytes) : UInt64 × Bytes := (UInt64.ofNat (getU 8 bs).1, (getU 8 bs).2)
def getD (bs : Bytes) : Dbl × Bytes := (Flt.ofBits (getU 8 bs).1, (getU 8 bs).2)

def putU8 (v : UInt8) : Bytes := leN 1 v.toNat
def putU16 (v : UInt16) : Bytes := leN 2 v.toNat
def putU32 (v : UInt32) : Bytes := leN 4 v.toNat
def putU64 (v : UInt64) : Bytes := leN 8 v.toNat
def putD (v : Dbl) : Bytes := leN 8 v.toBits

/-- `n` values one after the other. -/
def getMany {α : Type} (p : Bytes → α × Bytes) : Nat → Bytes → List α × Bytes
  | 0, bs => ([], bs)
  | n + 1, bs =>
    let (a, bs) := p bs
    let (l, bs) := getMany p n bs
    (a :: l, bs)

@[simp] theorem length_putU8 (v : UInt8) : (putU8 v).length = 1 := by simp [putU8]
@[simp] theorem length_putU16 (v : UInt16) : (putU16 v).length = 2 := by simp [putU16]
@[simp] theorem length_putU32 (v : UInt32) : (putU32 v).length = 4 := by simp [putU32]
@[simp] theorem length_putU64 (v : UInt64) : (putU64 v).length = 8 := by simp [putU64]
@[simp] theorem length_putD (v : Dbl) : (putD v).length = 8 := by simp [putD]

@[simp] theorem length_padTo (k : Nat) (s : Bytes) : (padTo k s).length = k := by
  simp [padTo]; omega

theorem padTo_of_length {k : Nat} {s : Bytes} (h : s.length = k) : padTo k s = s := by
  subst h; simp [padTo]

theorem getU_leN (k n : Nat) (rest : Bytes) : getU k (leN k n ++ rest) = (n % 256 ^ k, rest) := by
  have h : (leN k n).length = k := length_leN k n
  have h1 : (leN k n ++ rest).take k = leN k n := List.take_left' h
  have h2 : (leN k n ++ rest).drop k = rest := List.drop_left' h
  rw [getU, h1, h2, unLe_leN]

@[simp] theorem getU8_put (v : UInt8) (rest : Bytes) : getU8 (putU8 v ++ rest) = (v, rest) := by
  simp only [getU8, putU8, getU_leN]
  have := v.toNat_lt
  rw [Nat.mod_eq_of_lt (by simpa using this)]
  simp
@[simp] theorem getU16_put (v : UInt16) (rest : Bytes) : getU16 (putU16 v ++ rest) = (v, rest) := by
  simp only [getU16, putU16, getU_leN]
  have := v.toNat_lt
  rw [Nat.mod_eq_of_lt (by simpa using this)]
  simp
@[simp] theorem getU32_put (v : UInt32) (rest : Bytes) : getU32 (putU32 v ++ rest) = (v, rest) := by
  simp only [getU32, putU32, getU_leN]
  have := v.toNat_lt
  rw [Nat.mod_eq_of_lt (by simpa using this)]
  simp
@[simp] theorem getU64_put (v : UInt64) (rest : Bytes) : getU64 (putU64 v ++ rest) = (v, rest) := by
  simp only [getU64, putU64, getU_leN]
  have := v.toNat_lt
  rw [Nat.mod_eq_of_lt (by simpa using this)]
  simp
@[simp] theorem getD_put (v : Dbl) (rest : Bytes) : getD (putD v ++ rest) = (v, rest) := by
  simp only [getD, putD, getU_leN]
  have := v.toBits_lt
  rw [Nat.mod_eq_of_lt (by simpa using this), Flt.ofBits_toBits]

theorem getRaw_append {k : Nat} {s : Bytes} (h : s.length = k) (rest : Bytes) :
    getRaw k (s ++ rest) = (s, rest) := by
  subst h
  simp [getRaw, padTo]

@[simp] theorem getRaw_padTo (k : Nat) (s rest : Bytes) :
    getRaw k (padTo k s ++ rest) = (padTo k s, rest) := getRaw_append (length_padTo k s) rest

theorem getMany_flatMap {α : Type} {p : Bytes → α × Bytes} {f : α → Bytes}
    (l : List α) (h : ∀ a ∈ l, ∀ rest, p (f a ++ rest) = (a, rest)) (rest : Bytes) :
    getMany p l.length (l.flatMap f ++ rest) = (l, rest) := by
  induction l with
  | nil => rfl
  | cons a l ih =>
    simp only [List.length_cons, getMany, List.flatMap_cons, List.append_assoc]
    rw [h a (by simp), ih (fun b hb => h b (by simp [hb]))]

/-- No NUL byte in the string. -/
def NoNul (s : Bytes) : Prop := ∀ b ∈ s, b ≠ 0

instance (s : Bytes) : Decidable (NoNul s) := by unfold NoNul; infer_instance

theorem cstr_of_noNul {s : Bytes} (h : NoNul s) : cstr s = s := by
  unfold cstr
  induction s with
  | nil => rfl
  | cons a l ih =>
    have h1 : a ≠ 0 := h a (by simp)
    rw [List.takeWhile_cons_of_pos (by simpa using h1), ih (fun b hb => h b (by simp [hb]))]

theorem cstr_append_nul {s t : Bytes} (h : NoNul s) : cstr (s ++ 0 :: t) = s := by
  unfold cstr
  rw [List.takeWhile_append_of_pos]
  · simp
  · intro b hb
    simpa using h b hb

theorem trimNul_padTo {k : Nat} {s : Bytes} (h : NoNul s) (hl : s.length ≤ k) :
    trimNul (padTo k s) = s := by
  unfold trimNul padTo
  rw [List.take_of_length_le hl, List.reverse_append, List.reverse_replicate]
  have e : List.dropWhile (fun b : UInt8 => b == 0) (List.replicate (k - s.length) 0 ++ s.reverse) =
      s.reverse := by
    induction k - s.length with
    | zero =>
      simp only [List.replicate_zero, List.nil_append]
      rcases hs : s.reverse with _ | ⟨a, l⟩
      · rfl
      · have : a ∈ s := by rw [← List.mem_reverse, hs]; simp
        exact List.dropWhile_cons_of_neg (by simpa using h a this)
    | succ n ih => simpa [List.replicate_succ, List.dropWhile] using ih
  rw [e, List.reverse_reverse]

end Copc
