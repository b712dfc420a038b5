/-!
# Bytes, little-endian integers and input/output streams
-/
namespace Copc

abbrev Bytes := List UInt8

/-- `k` bytes of `n`, least significant first (what `write((char*)&v, sizeof v)` emits on a
little-endian host; higher bits of `n` are dropped, as in a C++ narrowing conversion). -/
def leN : Nat → Nat → Bytes
  | 0, _ => []
  | k + 1, n => UInt8.ofNat n :: leN k (n / 256)

/-- Value of little-endian bytes. -/
def unLe : Bytes → Nat
  | [] => 0
  | b :: bs => b.toNat + 256 * unLe bs

/-- Two's complement little-endian encoding of a signed integer in `k` bytes. -/
def leI (k : Nat) (v : Int) : Bytes := leN k (v % 256 ^ k).toNat

/-- Value of `n < 256^k` read as a signed `k`-byte integer. -/
def signed (k : Nat) (n : Nat) : Int := if 2 * n < 256 ^ k then n else (n : Int) - 256 ^ k

/-- Signed value of `k` little-endian bytes. -/
def unLeI (k : Nat) (bs : Bytes) : Int := signed k (unLe bs)

@[simp] theorem length_leN (k n : Nat) : (leN k n).length = k := by
  induction k generalizing n with
  | zero => rfl
  | succ k ih => simp [leN, ih]

@[simp] theorem length_leI (k : Nat) (v : Int) : (leI k v).length = k := length_leN _ _

theorem unLe_leN (k n : Nat) : unLe (leN k n) = n % 256 ^ k := by
  induction k generalizing n with
  | zero => simp [leN, unLe, Nat.mod_one]
  | succ k ih =>
    simp only [leN, unLe, ih, Nat.pow_succ]
    rw [Nat.mul_comm (256 ^ k) 256, Nat.mod_mul]
    simp

theorem unLe_lt (bs : Bytes) : unLe bs < 256 ^ bs.length := by
  induction bs with
  | nil => simp [unLe]
  | cons b bs ih =>
    simp only [unLe, List.length_cons, Nat.pow_succ]
    have := b.toNat_lt
    omega

theorem leN_unLe (bs : Bytes) : leN bs.length (unLe bs) = bs := by
  induction bs with
  | nil => rfl
  | cons b bs ih =>
    simp only [unLe, List.length_cons, leN]
    have hb := b.toNat_lt
    have h1 : (b.toNat + 256 * unLe bs) / 256 = unLe bs := by omega
    rw [h1, ih]
    congr 1
    apply UInt8.toNat.inj
    simp only [UInt8.toNat_ofNat']
    omega

theorem leN_mod (k n : Nat) : leN k (n % 256 ^ k) = leN k n := by
  have h := leN_unLe (leN k n)
  rw [length_leN, unLe_leN] at h
  exact h

theorem unLe_leN_lt {k n : Nat} (h : n < 256 ^ k) : unLe (leN k n) = n := by
  rw [unLe_leN, Nat.mod_eq_of_lt h]

theorem leN_inj {k m n : Nat} (hm : m < 256 ^ k) (hn : n < 256 ^ k) (h : leN k m = leN k n) :
    m = n := by
  rw [← unLe_leN_lt hm, h, unLe_leN_lt hn]

theorem signed_emod {k : Nat} (hk : 0 < k) {v : Int} (h1 : -(256 ^ k : Int) ≤ 2 * v)
    (h2 : 2 * v < 256 ^ k) : signed k (v % 256 ^ k).toNat = v := by
  have hp : (0 : Int) < 256 ^ k := Int.pow_pos (by decide)
  have hc : ((256 ^ k : Nat) : Int) = 256 ^ k := by simp
  have h0 := Int.emod_nonneg v (Int.ne_of_gt hp)
  have hl := Int.emod_lt_of_pos v hp
  unfold signed
  by_cases hv : 0 ≤ v
  · have e : v % 256 ^ k = v := Int.emod_eq_of_lt hv (by omega)
    rw [e]
    split <;> omega
  · have e : v % 256 ^ k = v + 256 ^ k := by
      rw [← Int.add_emod_right, Int.emod_eq_of_lt (by omega) (by omega)]
    rw [e]
    split <;> omega

theorem unLeI_leI {k : Nat} (hk : 0 < k) {v : Int} (h1 : -(256 ^ k : Int) ≤ 2 * v)
    (h2 : 2 * v < 256 ^ k) : unLeI k (leI k v) = v := by
  have hp : (0 : Int) < 256 ^ k := Int.pow_pos (by decide)
  have hc : ((256 ^ k : Nat) : Int) = 256 ^ k := by simp
  have h0 := Int.emod_nonneg v (Int.ne_of_gt hp)
  have hl := Int.emod_lt_of_pos v hp
  unfold unLeI leI
  rw [unLe_leN_lt (by omega), signed_emod hk h1 h2]

theorem signed_range {k : Nat} {n : Nat} (h : n < 256 ^ k) :
    -(256 ^ k : Int) ≤ 2 * signed k n ∧ 2 * signed k n < 256 ^ k := by
  have hc : ((256 ^ k : Nat) : Int) = 256 ^ k := by simp
  unfold signed
  split <;> omega

theorem emod_signed {k : Nat} {n : Nat} (h : n < 256 ^ k) : (signed k n % 256 ^ k).toNat = n := by
  have hc : ((256 ^ k : Nat) : Int) = 256 ^ k := by simp
  unfold signed
  split
  · rw [Int.emod_eq_of_lt (by omega) (by omega)]; omega
  · rw [Int.sub_emod_right, Int.emod_eq_of_lt (by omega) (by omega)]; omega

theorem leI_unLeI (bs : Bytes) : leI bs.length (unLeI bs.length bs) = bs := by
  unfold leI unLeI
  rw [emod_signed (unLe_lt bs), leN_unLe]

/-! ### Decoding from the front of a byte list

`takeN k` is what lazperf's extractors do on a buffer which was zero filled before the read: a short
list behaves as if it were followed by zeros. -/

/-- Unsigned little-endian integer from the first `k` bytes. -/
def getN (k : Nat) (bs : Bytes) : Nat := unLe (bs.take k)

theorem getN_leN (k n : Nat) (rest : Bytes) : getN k (leN k n ++ rest) = n % 256 ^ k := by
  unfold getN
  rw [List.take_append_of_le_length (by simp), List.take_of_length_le (by simp), unLe_leN]

/-! ### Input streams -/

/-- `std::istream` over a fixed byte sequence. `fail` is `failbit|badbit`. `eofbit` alone never
matters here: `read` sets it together with `failbit` and `seekg` clears it. -/
structure IStream where
  data : Bytes
  pos : Nat
  fail : Bool
  deriving DecidableEq, Repr

namespace IStream

/-- `seekg(p)`: no effect on a failed stream; a position not representable in `streamoff` fails.
Simplification: seeking past the end succeeds here (it does for files; for `stringstream` it sets
`failbit` at once) — in both cases the next non-empty read fails. -/
def seekg (s : IStream) (p : Nat) : IStream :=
  if s.fail then s else if p < 2 ^ 63 then { s with pos := p } else { s with fail := true }

/-- `seekg(n, std::ios::cur)`. -/
def skip (s : IStream) (n : Nat) : IStream := s.seekg (s.pos + n)

/-- `read(buf, n)`: the bytes actually stored into the buffer, and the new stream state. -/
def read (s : IStream) (n : Nat) : Bytes × IStream :=
  if s.fail then ([], s)
  else if s.pos + n ≤ s.data.length then ((s.data.drop s.pos).take n, { s with pos := s.pos + n })
  else (s.data.drop s.pos, { s with pos := s.data.length, fail := true })

/-- `tellg()`, `-1` on a failed stream, as converted to `uint64_t`. -/
def tellg (s : IStream) : Nat := if s.fail then 2 ^ 64 - 1 else s.pos

end IStream

/-! ### Output streams -/

/-- How a device stops taking bytes: it holds only `c` bytes in all (disk full), or it takes `n` more
bytes, wherever they go, and then none (the machine or the process dies at that point, an I/O error). -/
inductive Limit where
  | size (c : Nat)
  | total (n : Nat)
  deriving DecidableEq, Repr

/-- `std::ostream` on a seekable byte sequence. With `cap = some _` a write beyond the limit stores what
fits and sets `fail`. -/
structure OStream where
  data : Bytes
  pos : Nat
  fail : Bool := false
  cap : Option Limit := none
  deriving DecidableEq, Repr

namespace OStream

/-- Overwrite `bs` at position `p` of `data` (filling a gap with zeros, extending if needed). -/
def patch (data : Bytes) (p : Nat) (bs : Bytes) : Bytes :=
  data.take p ++ List.replicate (p - data.length) 0 ++ bs ++ data.drop (p + bs.length)

/-- `write(bs)`. -/
def write (s : OStream) (bs : Bytes) : OStream :=
  if s.fail then s
  else match s.cap with
    | none => { s with data := patch s.data s.pos bs, pos := s.pos + bs.length }
    | some (.size c) =>
      if s.pos + bs.length ≤ c then
        { s with data := patch s.data s.pos bs, pos := s.pos + bs.length }
      else
        { s with data := patch s.data s.pos (bs.take (c - s.pos)), pos := max s.pos c, fail := true }
    | some (.total n) =>
      if bs.length ≤ n then
        { s with
          data := patch s.data s.pos bs
          pos := s.pos + bs.length
          cap := some (.total (n - bs.length)) }
      else
        { s with
          data := patch s.data s.pos (bs.take n)
          pos := s.pos + n
          fail := true
          cap := some (.total 0) }

/-- `seekp(p)`. -/
def seekp (s : OStream) (p : Nat) : OStream := if s.fail then s else { s with pos := p }

/-- `seekp(0, std::ios::end)`. -/
def seekEnd (s : OStream) : OStream := if s.fail then s else { s with pos := s.data.length }

/-- `tellp()` as converted to `uint64_t` (`-1` on failure). -/
def tellp (s : OStream) : Nat := if s.fail then 2 ^ 64 - 1 else s.pos

end OStream

end Copc
