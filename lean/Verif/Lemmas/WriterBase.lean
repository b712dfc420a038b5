import Verif.Model.Writer
import Verif.Lemmas.Stream
/-! # Invariant of the base writer while chunks are written -/
namespace Copc
open OStream

/-- End positions of chunks written one after the other from `pos`. -/
def chunkEnds : Nat → List (Nat × Bytes) → List (Nat × Nat)
  | _, [] => []
  | pos, (c, bl) :: l => (c, pos + bl.length) :: chunkEnds (pos + bl.length) l

/-- All bytes of the chunks. -/
def chunkData (log : List (Nat × Bytes)) : Bytes := (log.map (·.2)).flatten

@[simp] theorem chunkData_append (a b : List (Nat × Bytes)) :
    chunkData (a ++ b) = chunkData a ++ chunkData b := by simp [chunkData]

@[simp] theorem chunkData_single (c : Nat) (bl : Bytes) : chunkData [(c, bl)] = bl := by
  simp [chunkData]

theorem chunkEnds_append (pos : Nat) (a b : List (Nat × Bytes)) :
    chunkEnds pos (a ++ b) = chunkEnds pos a ++ chunkEnds (pos + (chunkData a).length) b := by
  induction a generalizing pos with
  | nil => simp [chunkEnds, chunkData]
  | cons x a ih =>
    obtain ⟨c, bl⟩ := x
    simp only [List.cons_append, chunkEnds, ih]
    simp only [chunkData, List.map_cons, List.flatten_cons, List.length_append]
    simp only [Nat.add_assoc]

@[simp] theorem length_chunkEnds (pos : Nat) (a : List (Nat × Bytes)) :
    (chunkEnds pos a).length = a.length := by
  induction a generalizing pos with
  | nil => rfl
  | cons x a ih => obtain ⟨c, bl⟩ := x; simp [chunkEnds, ih]

/-- `n0` reserved bytes and the chunks `log` (point count, bytes) are in the stream, the counters
agree, nothing has been closed. -/
structure BInv (n0 : Nat) (b : BaseW) (log : List (Nat × Bytes)) : Prop where
  out : b.out.Holds (List.replicate n0 0 ++ chunkData log)
  chunks : b.chunks = chunkEnds n0 log
  count : b.pointCount = (log.map (·.1)).sum % 2 ^ 64
  isOpen : b.open_ = true
  evlr : b.evlrCount = 0

theorem bInv_init (n0 : Nat) : BInv n0 (BaseW.init ⟨[], 0, false, none⟩ n0) [] where
  out := by
    have h : (⟨[], 0, false, none⟩ : OStream).Holds [] := rfl
    have := h.write (List.replicate n0 0)
    simpa [BaseW.init, chunkData] using this
  chunks := rfl
  count := by simp [BaseW.init]
  isOpen := rfl
  evlr := rfl

/-- What the bytes of a chunk are, given the arguments of the call (`compressed` or not). -/
structure ChunkOf (L : Lazperf) (h : LasHeader) (bs : Bytes) (count : Int) (compressed : Bool)
    (blob : Bytes) (c : Int) : Prop where
  comp : compressed = true → blob = bs ∧ c = count
  raw : compressed = false → ∃ eb size, h.ebSize = .ok eb ∧ pointByteSize h.fmt eb = .ok size ∧
    size ≠ 0 ∧ bs.length % size = 0 ∧ bs.length ≤ 2147483647 ∧
    c = ((bs.length / size : Nat) : Int) ∧
    blob = L.compress h.fmt eb (BaseW.cut size (bs.length / size) bs)

theorem compressBytes_cases (L : Lazperf) (h : LasHeader) (bs : Bytes) (b : BaseW) :
    (BaseW.compressBytes L h bs b).2 = b ∧ (∀ a, (BaseW.compressBytes L h bs b).1 ≠ .ok a) ∨
    ∃ blob c, BaseW.compressBytes L h bs b = (.ok c, { b with out := b.out.write blob }) ∧
      ChunkOf L h bs 0 false blob c := by
  unfold BaseW.compressBytes
  rcases he : h.ebSize with eb | e | _
  · rcases hs : pointByteSize h.fmt eb with size | e | _
    · simp only [Act.bind_apply, Act.lift_apply, hs]
      by_cases h0 : size = 0
      · left; simp [h0]
      · simp only [if_neg h0]
        by_cases h1 : bs.length % size ≠ 0
        · left; simp [Act.bind_apply, Act.throwIf_pos h1]
        · by_cases h2 : bs.length > 2147483647
          · left; simp [Act.bind_apply, Act.throwIf_neg h1, Act.throwIf_pos h2]
          · right
            refine ⟨_, _, ?_, ⟨by simp, fun _ => ⟨eb, size, he, hs, h0, by omega, by omega, rfl, rfl⟩⟩⟩
            simp [Act.bind_apply, Act.throwIf_neg h1, Act.throwIf_neg h2, BaseW.emit, BaseW.onOut]
    · left; simp [Act.bind_apply, hs]
    · left; simp [Act.bind_apply, hs]
  · left; simp [Act.bind_apply]
  · left; simp [Act.bind_apply]

/-- The writer after the bytes of a chunk and its bookkeeping. -/
def chunkAdded (b : BaseW) (blob : Bytes) (c : Int) : BaseW :=
  { b with
    out := b.out.write blob
    pointCount := (b.pointCount + u64 c) % 2 ^ 64
    chunks := b.chunks ++ [(u64 c, (b.out.write blob).tellp)] }

theorem bInv_chunkAdded {n0 : Nat} {b : BaseW} {log : List (Nat × Bytes)} (hi : BInv n0 b log)
    (blob : Bytes) (c : Int) : BInv n0 (chunkAdded b blob c) (log ++ [(u64 c, blob)]) := by
  have hd := hi.out
  have hd' := hd.write blob
  have hp' : (b.out.write blob).tellp = n0 + (chunkData log).length + blob.length := by
    rw [hd'.tellp]; simp [Nat.add_assoc]
  refine ⟨?_, ?_, ?_, hi.isOpen, hi.evlr⟩
  · have : List.replicate n0 0 ++ chunkData (log ++ [(u64 c, blob)]) =
        List.replicate n0 0 ++ chunkData log ++ blob := by simp
    rw [this]
    exact hd'
  · have : chunkEnds n0 (log ++ [(u64 c, blob)]) = chunkEnds n0 log ++
        [(u64 c, n0 + (chunkData log).length + blob.length)] := by
      rw [chunkEnds_append]; rfl
    rw [this, ← hp', ← hi.chunks]
    rfl
  · have : ((log ++ [(u64 c, blob)]).map (·.1)).sum = (log.map (·.1)).sum + u64 c := by simp
    rw [this]
    show (b.pointCount + u64 c) % 2 ^ 64 = _
    rw [hi.count, Nat.mod_add_mod]

theorem finishChunk_eq (start : Nat) (c : Int) (b : BaseW) (h0 : ¬ b.out.tellp ≤ 0) :
    BaseW.finishChunk start c b =
      ((Act.throwIf ((b.out.tellp + 2 ^ 64 - start) % 2 ^ 64 > 2147483647) .chunkTooLarge >>=
        fun _ => pure (start, (((b.out.tellp + 2 ^ 64 - start) % 2 ^ 64 : Nat) : Int), c) :
          Act BaseW (Nat × Int × Int)) { b with
        pointCount := (b.pointCount + u64 c) % 2 ^ 64
        chunks := b.chunks ++ [(u64 c, b.out.tellp)] }) := by
  unfold BaseW.finishChunk
  rw [Act.bind_apply, Act.modify_apply]
  dsimp only
  rw [Act.bind_apply, Act.gets_apply]
  dsimp only
  rw [Act.bind_apply, Act.throwIf_neg h0]
  dsimp only
  rw [Act.bind_apply, Act.modify_apply]

theorem finishChunk_spec {n0 : Nat} {b : BaseW} {log : List (Nat × Bytes)} (hi : BInv n0 b log)
    (hn : 0 < n0) (blob : Bytes) (c : Int) :
    BaseW.finishChunk b.out.tellp c { b with out := b.out.write blob } =
      (if blob.length % 2 ^ 64 > 2147483647 then .throw .chunkTooLarge
        else .ok (n0 + (chunkData log).length, ((blob.length % 2 ^ 64 : Nat) : Int), c),
       chunkAdded b blob c) := by
  have hd := hi.out
  have hp : b.out.tellp = n0 + (chunkData log).length := by rw [hd.tellp]; simp
  have hd' := hd.write blob
  have hp' : (b.out.write blob).tellp = n0 + (chunkData log).length + blob.length := by
    rw [hd'.tellp]; simp [Nat.add_assoc]
  have hp0' : ¬ (b.out.write blob).tellp ≤ 0 := by omega
  have hsz : ((b.out.write blob).tellp + 2 ^ 64 - b.out.tellp) % 2 ^ 64 = blob.length % 2 ^ 64 := by
    rw [hp, hp']
    have : n0 + (chunkData log).length + blob.length + 2 ^ 64 - (n0 + (chunkData log).length) =
        blob.length + 2 ^ 64 := by omega
    rw [this, Nat.add_mod_right]
  rw [finishChunk_eq _ _ { b with out := b.out.write blob } hp0']
  dsimp only
  rw [hsz, Act.bind_apply, ← hp]
  by_cases hl : blob.length % 2 ^ 64 > 2147483647
  · rw [Act.throwIf_pos hl, if_pos hl]; rfl
  · rw [Act.throwIf_neg hl, if_neg hl]; rfl

/-- What a completed call of `WriteChunk` returns for the bytes `blob` of a chunk. -/
def chunkResult (pos : Nat) (blob : Bytes) (c : Int) : Res (Nat × Int × Int) :=
  if blob.length % 2 ^ 64 > 2147483647 then .throw .chunkTooLarge
  else .ok (pos, ((blob.length % 2 ^ 64 : Nat) : Int), c)

/-- The outcomes of `WriteChunk` on a healthy stream: nothing happens, or a chunk is written. -/
theorem writeChunk_cases (L : Lazperf) (h : LasHeader) (bs : Bytes) (count : Int) (compressed : Bool)
    {n0 : Nat} {b : BaseW} {log : List (Nat × Bytes)} (hi : BInv n0 b log) (hn : 0 < n0) :
    ((BaseW.writeChunk L h bs count compressed b).2 = b ∧
      (∀ a, (BaseW.writeChunk L h bs count compressed b).1 ≠ .ok a)) ∨
    ∃ blob c, ChunkOf L h bs count compressed blob c ∧
      BaseW.writeChunk L h bs count compressed b =
        (chunkResult (n0 + (chunkData log).length) blob c, chunkAdded b blob c) := by
  have hd := hi.out
  have hp : b.out.tellp = n0 + (chunkData log).length := by rw [hd.tellp]; simp
  have hp0 : ¬ b.out.tellp ≤ 0 := by omega
  unfold BaseW.writeChunk
  cases compressed with
  | true =>
    right
    have hc : ChunkOf L h bs count true bs count := ⟨fun _ => ⟨rfl, rfl⟩, by simp⟩
    refine ⟨bs, count, hc, ?_⟩
    have := finishChunk_spec hi hn bs count
    simp only [Act.bind_apply, Act.gets_apply, Act.throwIf_neg hp0, if_true,
      BaseW.emit, BaseW.onOut, Act.modify_apply]
    exact this
  | false =>
    simp only [Act.bind_apply, Act.gets_apply, Act.throwIf_neg hp0, Bool.false_eq_true,
      if_false]
    rcases compressBytes_cases L h bs b with ⟨h1, h2⟩ | ⟨blob, c, h1, h2⟩
    · left
      rcases hr : BaseW.compressBytes L h bs b with ⟨r, b'⟩
      rw [hr] at h1 h2
      cases r with
      | ok a => exact absurd rfl (h2 a)
      | throw e => simpa using h1
      | ub => simpa using h1
    · right
      have hc : ChunkOf L h bs count false blob c := ⟨by simp, h2.raw⟩
      refine ⟨blob, c, hc, ?_⟩
      rw [h1]
      exact finishChunk_spec hi hn blob c

/-! ### The chunk table -/

theorem relative_chunkEnds (pos : Nat) (log : List (Nat × Bytes)) :
    BaseW.relative pos (chunkEnds pos log) = log.map fun x => (x.1, x.2.length % 2 ^ 64) := by
  induction log generalizing pos with
  | nil => rfl
  | cons x l ih =>
    obtain ⟨c, bl⟩ := x
    simp only [chunkEnds, BaseW.relative, ih, List.map_cons]
    congr 2
    have : pos + bl.length + 2 ^ 64 - pos = bl.length + 2 ^ 64 := by omega
    rw [this, Nat.add_mod_right]

/-- The table of relative sizes. -/
def sizes (log : List (Nat × Bytes)) : List (Nat × Nat) := log.map fun x => (x.1, x.2.length % 2 ^ 64)

/-- Bytes of the chunk table. -/
def tableBytes (L : Lazperf) (log : List (Nat × Bytes)) : Bytes :=
  leN 4 0 ++ leN 4 log.length ++ L.table (sizes log)

theorem writeChunkTable_ok (L : Lazperf) {otpd : Nat} {b : BaseW} {log : List (Nat × Bytes)}
    (hi : BInv (otpd + 8) b log) (hl : log.length ≤ 4294967295) :
    ∃ o, BaseW.writeChunkTable L otpd b = (.ok (), { b with
        out := o
        chunks := sizes log }) ∧
      o.HoldsAt (List.replicate otpd 0 ++ leN 8 (otpd + 8 + (chunkData log).length))
        (chunkData log ++ tableBytes L log) := by
  have hd := hi.out.seekEnd
  have ht : b.out.seekEnd.tellp = otpd + 8 + (chunkData log).length := by rw [hd.tellp]; simp
  have hch : BaseW.relative (otpd + 8) b.chunks = sizes log := by
    rw [hi.chunks, relative_chunkEnds]; rfl
  have hls : ¬ (sizes log).length > 4294967295 := by simp [sizes]; omega
  have hlen : (sizes log).length = log.length := by simp [sizes]
  refine ⟨((((b.out.seekEnd.write (leN 4 0)).write (leN 4 (sizes log).length)).write
    (L.table (sizes log))).seekp otpd).write (leN 8 b.out.seekEnd.tellp), ?_, ?_⟩
  · simp only [BaseW.writeChunkTable, Act.bind_apply, BaseW.onOut, BaseW.emit, Act.modify_apply,
      Act.gets_apply, hch, Act.throwIf_neg hls]
  · have h1 := ((hd.write (leN 4 0)).write (leN 4 (sizes log).length)).write (L.table (sizes log))
    rw [ht]
    have e : List.replicate (otpd + 8) (0 : UInt8) ++ chunkData log ++ leN 4 0 ++
        leN 4 (sizes log).length ++ L.table (sizes log) =
        List.replicate otpd 0 ++ (List.replicate 8 0 ++ (chunkData log ++ tableBytes L log)) := by
      rw [← List.replicate_append_replicate, hlen]
      simp [tableBytes]
    rw [e] at h1
    have h2 := h1.seekp
    rw [List.length_replicate] at h2
    exact h2.write (by simp)

theorem writeChunkTable_too_many (L : Lazperf) {otpd : Nat} {b : BaseW}
    (hl : b.chunks.length > 4294967295) :
    (BaseW.writeChunkTable L otpd b).1 = .throw .tooManyChunks := by
  have hr : ∀ (l : List (Nat × Nat)) p, (BaseW.relative p l).length = l.length := by
    intro l
    induction l with
    | nil => intro p; rfl
    | cons x l ih => intro p; obtain ⟨a, b⟩ := x; simp [BaseW.relative, ih]
  have hls : (BaseW.relative (otpd + 8) b.chunks).length > 4294967295 := by rw [hr]; exact hl
  simp only [BaseW.writeChunkTable, Act.bind_apply, BaseW.onOut, BaseW.emit, Act.modify_apply,
      Act.gets_apply, Act.throwIf_pos hls]

end Copc
