import Verif.Model.Config
/-!
# lazperf as the library uses it (external)

The arithmetic coder, the chunk table compression and the laszip VLR are lazperf's, not copc-lib's.
The model takes them as parameters: a `Lazperf` is any implementation with the stated laws. Every
theorem that mentions one is proved for all implementations, and `Lazperf.plain` shows that there is
one.
-/
namespace Copc

/-- Base size of a record of formats 6, 7, 8 in lazperf (LAS 1.4 R15). -/
def lazBase (fmt : Int) : Nat := if fmt = 6 then 30 else if fmt = 7 then 36 else 38

/-- Number of items of the laszip VLR: the point item, RGB (7) or RGB-NIR (8), extra bytes. -/
def lazItems (fmt : Int) (eb : Nat) : Nat :=
  (if fmt = 6 then 1 else 2) + (if eb = 0 then 0 else 1)

structure Lazperf where
  /-- `build_las_compressor(cb, fmt, eb)`, `compress` on every record, `done`: the bytes emitted
  (`compressor.hpp:25-43`) -/
  compress : Int → Nat → List Bytes → Bytes
  /-- `build_las_decompressor(cb, fmt, eb)` and `n` calls of `decompress` on a stream with the given
  bytes ahead (`decompressor.hpp:25-36`); `none`: lazperf throws (end of file). -/
  decompress : Int → Nat → Nat → Bytes → Option (List Bytes)
  /-- How many of the bytes ahead a decompressor has taken from the stream after `n` calls of
  `decompress` (lazperf's `InputCb`, which reads a chunk's bytes and no more). -/
  consumed : Int → Nat → Nat → Bytes → Nat
  /-- `compress_chunk_table(cb, chunks, true)` of (count, size) pairs -/
  table : List (Nat × Nat) → Bytes
  /-- `decompress_chunk_table` -/
  readTable : Nat → Bytes → List (Nat × Nat)
  /-- `laz_vlr(fmt, eb, chunk_size).write` -/
  lazVlr : Int → Nat → Bytes
  /-- `laz_vlr::size` (34 bytes and 6 per item) is what it writes. -/
  lazVlr_length : ∀ fmt eb, (lazVlr fmt eb).length = 34 + 6 * lazItems fmt eb
  /-- The library asks for chunks of varying sizes (`laz_vlr(fmt, eb, VARIABLE_CHUNK_SIZE)`, `laz_base_writer.cpp:48-49`, `laz_base_writer.hpp:47`): the chunk
  size in the VLR is 2^32 - 1. -/
  lazVlr_varying : ∀ fmt eb, getN 4 ((lazVlr fmt eb).drop 12) = 4294967295
  /-- LAZ is lossless on records of the right size, whatever follows them in the stream. -/
  lossless : ∀ fmt eb recs rest, fmt = 6 ∨ fmt = 7 ∨ fmt = 8 → (∀ r ∈ recs, r.length = lazBase fmt + eb) →
    decompress fmt eb recs.length (compress fmt eb recs ++ rest) = some recs
  /-- Decompressing all records of a non-empty chunk takes its bytes and no more. -/
  consumes : ∀ fmt eb recs rest, fmt = 6 ∨ fmt = 7 ∨ fmt = 8 → (∀ r ∈ recs, r.length = lazBase fmt + eb) →
    recs ≠ [] → consumed fmt eb recs.length (compress fmt eb recs ++ rest) = (compress fmt eb recs).length
  /-- A decompressed record has the size of its format. -/
  decompress_length : ∀ fmt eb n bs l, decompress fmt eb n bs = some l →
    l.length = n ∧ ∀ r ∈ l, r.length = lazBase fmt + eb
  /-- The chunk table is lossless on 32-bit values. -/
  table_lossless : ∀ (t : List (Nat × Nat)) rest, (∀ c ∈ t, c.1 < 2 ^ 32 ∧ c.2 < 2 ^ 32) →
    readTable t.length (table t ++ rest) = t

namespace Lazperf

/-- `n` pieces of `k` bytes, zero filled. -/
def pieces (k : Nat) : Nat → Bytes → List Bytes
  | 0, _ => []
  | n + 1, bs => padTo k bs :: pieces k n (bs.drop k)

theorem pieces_flatten (k : Nat) (l : List Bytes) (h : ∀ r ∈ l, r.length = k) (rest : Bytes) :
    pieces k l.length (l.flatten ++ rest) = l := by
  induction l with
  | nil => rfl
  | cons a l ih =>
    have ha : a.length = k := h a (by simp)
    simp only [List.length_cons, pieces, List.flatten_cons, List.append_assoc]
    rw [List.drop_left' ha, ih (fun r hr => h r (by simp [hr]))]
    congr 1
    unfold padTo
    subst ha
    simp

theorem pieces_length (k n : Nat) (bs : Bytes) : (pieces k n bs).length = n ∧
    ∀ r ∈ pieces k n bs, r.length = k := by
  induction n generalizing bs with
  | zero => simp [pieces]
  | succ n ih =>
    have := ih (bs.drop k)
    refine ⟨by simp [pieces, this.1], ?_⟩
    intro r hr
    simp only [pieces, List.mem_cons] at hr
    rcases hr with rfl | hr
    · exact length_padTo _ _
    · exact this.2 r hr

/-- An implementation that stores everything uncompressed: the laws can be met. -/
def plain : Lazperf where
  compress _ _ recs := recs.flatten
  decompress fmt eb n bs :=
    if bs.length < n * (lazBase fmt + eb) then none else some (pieces (lazBase fmt + eb) n bs)
  consumed fmt eb n _ := n * (lazBase fmt + eb)
  table t := t.flatMap fun c => leN 8 c.1 ++ leN 8 c.2
  readTable n bs := (pieces 16 n bs).map fun r => (getN 8 r, getN 8 (r.drop 8))
  lazVlr fmt eb := List.replicate 12 1 ++ ([255, 255, 255, 255] ++ List.replicate (18 + 6 * lazItems fmt eb) 1)
  lazVlr_length _ _ := by simp; omega
  lazVlr_varying _ _ := by
    rw [List.drop_left' (List.length_replicate ..), show ([255, 255, 255, 255] : Bytes) = leN 4 4294967295 from by decide, getN_leN]
  lossless fmt eb recs rest _ h := by
    have e : (recs.flatten ++ rest).length = recs.length * (lazBase fmt + eb) + rest.length := by
      rw [List.length_append, List.length_flatten, List.map_congr_left h, List.map_const',
        List.sum_replicate_nat]
    rw [if_neg (by omega), pieces_flatten _ recs h rest]
  consumes fmt eb recs rest _ h _ := by
    rw [List.length_flatten, List.map_congr_left h, List.map_const', List.sum_replicate_nat]
  decompress_length fmt eb n bs l h := by
    split at h
    · cases h
    · cases h
      exact pieces_length _ n bs
  table_lossless t rest h := by
    have e : (t.flatMap fun c => leN 8 c.1 ++ leN 8 c.2) =
        (t.map fun c : Nat × Nat => leN 8 c.1 ++ leN 8 c.2).flatten := by
      rw [List.flatMap_def]
    rw [e]
    have h1 := pieces_flatten 16 (t.map fun c : Nat × Nat => leN 8 c.1 ++ leN 8 c.2)
      (by
        simp only [List.mem_map]
        rintro r ⟨c, _, rfl⟩
        simp) rest
    rw [List.length_map] at h1
    rw [h1, List.map_map]
    conv => rhs; rw [← List.map_id t]
    apply List.map_congr_left
    intro c hc
    have := h c hc
    simp only [Function.comp, id, getN_leN]
    rw [List.drop_left' (length_leN 8 c.1)]
    have e2 : leN 8 c.2 = leN 8 c.2 ++ [] := by simp
    rw [e2, getN_leN]
    rw [Nat.mod_eq_of_lt (by omega), Nat.mod_eq_of_lt (by omega)]

end Lazperf
end Copc
