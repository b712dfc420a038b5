import Verif.Props.BoxSample
/-!
# C47: the record buffer of the decompressor

The buffer has 255 bytes; a record of format `fmt` with `eb` extra bytes has `baseSize fmt + eb`. The property
holds when a record fits, and fails otherwise.
-/
namespace Copc
open Spec VoxelKey

/-- `DecompressBytes` overruns its buffer exactly when there is a record to decompress and it has more than
255 bytes. -/
theorem C47_exact (L : Lazperf) (fmt : Int) (eb : Nat) (n : Int) (s : IStream) :
    (Reader.decompressStream L fmt eb n s).1 = .ub ↔
      (fmt = 6 ∨ fmt = 7 ∨ fmt = 8) ∧ 0 < n ∧ 255 < lasBaseSize fmt + eb := by
  have hb : lasBaseSize fmt = lazBase fmt := rfl
  rw [hb]
  unfold Reader.decompressStream
  cases hs : pointByteSize fmt eb with
  | ub =>
    exfalso
    unfold pointByteSize pointBaseByteSize at hs
    by_cases h6 : fmt = 6
    · rw [if_pos h6] at hs; cases hs
    · by_cases h7 : fmt = 7
      · rw [if_neg h6, if_pos h7] at hs; cases hs
      · by_cases h8 : fmt = 8
        · rw [if_neg h6, if_neg h7, if_pos h8] at hs; cases hs
        · rw [if_neg h6, if_neg h7, if_neg h8] at hs; cases hs
  | throw e =>
    refine ⟨fun h => (by cases h), fun ⟨hf, _⟩ => ?_⟩
    exfalso
    unfold pointByteSize pointBaseByteSize at hs
    rcases hf with rfl | rfl | rfl <;> cases hs
  | ok size =>
    have hf := (size_eq hs).1
    simp only
    by_cases hn : n ≤ 0
    · rw [if_pos hn]
      exact ⟨fun h => (by cases h), fun ⟨_, h, _⟩ => by omega⟩
    · rw [if_neg hn]
      by_cases hl : 255 < lazBase fmt + eb
      · rw [if_pos hl]
        exact ⟨fun _ => ⟨hf, by omega, hl⟩, fun _ => rfl⟩
      · rw [if_neg hl]
        refine ⟨fun h => ?_, fun ⟨_, _, h⟩ => absurd h hl⟩
        split at h <;> cases h

/-- No overrun when a record fits: whatever the data, the count and the state of the stream. -/
theorem C47_partial (L : Lazperf) (fmt : Int) (eb : Nat) (h : lasBaseSize fmt + eb ≤ 255) (n : Int) :
    (∀ s, (Reader.decompressStream L fmt eb n s).1 ≠ .ub) ∧
    ∀ bs, Reader.decompressVector L bs fmt eb n ≠ .ub :=
  ⟨fun s hu => by have := (C47_exact L fmt eb n s).1 hu; omega,
   fun bs hu => by have := (C47_exact L fmt eb n _).1 hu; omega⟩

/-- `GetPointData(node)` of a reader whose header has a record length between the base size and 255 never
overruns the buffer. -/
theorem C47_reader_partial (L : Lazperf) (r : Reader) (n : Node) (h1 : lasBaseSize r.cfg.header.fmt ≤ r.cfg.header.recLen.toNat)
    (h2 : r.cfg.header.recLen.toNat ≤ 255) : (Reader.getPointData L n r).1 ≠ .ub := by
  by_cases hv : n.isValid = false
  · unfold Reader.getPointData
    rw [Act.bind_apply, Act.throwIf_apply, if_pos hv]
    simp
  · unfold Reader.getPointData
    rw [Act.bind_apply, Act.throwIf_apply, if_neg hv]
    show (Reader.decompressBytes L r.cfg.header n.entry.pointCount (r.h.str.seekg n.entry.offset)).1 ≠ .ub
    unfold Reader.decompressBytes
    by_cases hf : r.cfg.header.fmt = 6 ∨ r.cfg.header.fmt = 7 ∨ r.cfg.header.fmt = 8
    · rw [(ebSize_consistent hf h1).1]
      intro hu
      have := (C47_exact _ _ _ _ _).1 hu
      omega
    · have : r.cfg.header.ebSize = .throw .badFormat := by
        unfold LasHeader.ebSize ebByteSize pointBaseByteSize
        rw [if_neg (by tauto), if_neg (by tauto), if_neg (by tauto)]
        rfl
      rw [this]
      simp

namespace WideFile

/-- Format 6 with an undocumented field of 226 extra bytes: records of 256 bytes. -/
def cfg : CopcConfig := Sample.getOk (CopcConfig.make 6 Sample.scale Sample.zero [] [EbField.simple 0 226 []] false)
def w0 : Writer := Sample.getOk (Writer.make OStream.fresh cfg {})
def ops : List Op := [.add VoxelKey.root (List.replicate 256 1) VoxelKey.root]
def run : List (Op × Res (Option Node)) × Writer := Sample.run Sample.L Sample.ord ops w0 []
def data : Bytes := (Writer.close Sample.L Sample.ord run.2).2.base.out.data

theorem outcomes : run.1.map (fun x => x.2.isOk) = [true] := by decide +kernel
theorem closes : (Writer.close Sample.L Sample.ord run.2).1 = .ok () := by decide +kernel

def openOf (data : Bytes) : Option Reader := match Reader.init ⟨data, 0, false⟩ with
  | .ok r => some r
  | _ => none
def reader : Option Reader := openOf data

theorem overruns : reader.map (fun r => (r.cfg.header.recLen, (Reader.getPointDataAt Sample.L 10 VoxelKey.root r).map (·.1))) =
    some (256, some .ub) := by decide +kernel

end WideFile

theorem sampleRun_one (op : Op) (w : Writer) :
    Sample.run Sample.L Sample.ord [op] w [] = ([(op, (op.run Sample.L Sample.ord w).1)], (op.run Sample.L Sample.ord w).2) := rfl

theorem overrun_of {op : Op} {w0 : Writer} {p : List (Op × Res (Option Node)) × Writer}
    (hp : p = Sample.run Sample.L Sample.ord [op] w0 [])
    (h1 : p.1.map (fun x => x.2.isOk) = [true])
    (h2 : (Writer.close Sample.L Sample.ord p.2).1 = .ok ())
    {o : Option Reader} (ho : o = WideFile.openOf (Writer.close Sample.L Sample.ord p.2).2.base.out.data)
    (h3 : o.map (fun r => (r.cfg.header.recLen, (Reader.getPointDataAt Sample.L 10 VoxelKey.root r).map (·.1))) =
      some (256, some .ub)) :
    ∃ w n, op.run Sample.L Sample.ord w0 = (.ok n, w) ∧
    ∃ w', Writer.close Sample.L Sample.ord w = (.ok (), w') ∧
    ∃ r, Reader.init ⟨w'.base.out.data, 0, false⟩ = .ok r ∧ ∃ k r', Reader.getPointDataAt Sample.L k VoxelKey.root r = some (.ub, r') := by
  rw [sampleRun_one] at hp
  subst hp
  subst ho
  generalize op.run Sample.L Sample.ord w0 = q at *
  obtain ⟨res, w⟩ := q
  simp only [List.map_cons, List.map_nil, List.cons.injEq, and_true] at h1
  cases res with
  | throw e => cases h1
  | ub => cases h1
  | ok n =>
    refine ⟨w, n, rfl, (Writer.close Sample.L Sample.ord w).2, Prod.ext h2 rfl, ?_⟩
    simp only [WideFile.openOf] at h3
    cases hr : Reader.init ⟨(Writer.close Sample.L Sample.ord w).2.base.out.data, 0, false⟩ with
    | throw e => rw [hr] at h3; cases h3
    | ub => rw [hr] at h3; cases h3
    | ok r =>
      rw [hr] at h3
      obtain ⟨_, h4⟩ := Prod.mk.inj (Option.some.inj h3)
      obtain ⟨r', e⟩ := map_fst h4
      exact ⟨r, rfl, 10, r', e⟩

theorem WideFile.run_eq : WideFile.run = Sample.run Sample.L Sample.ord [.add VoxelKey.root (List.replicate 256 1) VoxelKey.root] WideFile.w0 [] := by
  rw [WideFile.run, WideFile.ops]

theorem WideFile.reader_eq : WideFile.reader = WideFile.openOf (Writer.close Sample.L Sample.ord WideFile.run.2).2.base.out.data := by
  rw [WideFile.reader, WideFile.data]

/-- A file written by the library, with one node of one record of 256 bytes: reading the node back overruns
the buffer. -/
theorem C47_violated : ∃ c w0 w n, Writer.make OStream.fresh c {} = .ok w0 ∧
    Op.run Sample.L Sample.ord (.add VoxelKey.root (List.replicate 256 1) VoxelKey.root) w0 = (.ok n, w) ∧
    ∃ w', Writer.close Sample.L Sample.ord w = (.ok (), w') ∧
    ∃ r, Reader.init ⟨w'.base.out.data, 0, false⟩ = .ok r ∧ ∃ k r', Reader.getPointDataAt Sample.L k VoxelKey.root r = some (.ub, r') := by
  obtain ⟨w, n, h⟩ := overrun_of (op := .add VoxelKey.root (List.replicate 256 1) VoxelKey.root) (w0 := WideFile.w0) (p := WideFile.run)
    (o := WideFile.reader) WideFile.run_eq WideFile.outcomes WideFile.closes WideFile.reader_eq WideFile.overruns
  exact ⟨WideFile.cfg, WideFile.w0, w, n, make_of_ok (by decide +kernel), h⟩

end Copc
