import Verif.Model.KeyText
import Verif.Model.Reader
import Verif.Model.Writer
import Mathlib.Logic.Function.Basic
/-!
# Model of the Python multiprocessing helpers
(`python/copclib/mp/utils.py`, `python/copclib/mp/transform.py`, `python/copclib/mp/read.py`)

A pool of worker processes, each with its own reader of the same file. A task is a member function of the
worker's reader; which worker runs a task, in which order the tasks are started and in which order their results
come back is up to the schedule: the runs are a relation that allows every one.
-/
namespace Copc.Mp
open Copc

/-- `chunks(lst, n)`, `utils.py:1-4`: the pieces `lst[i : i + n]` for `i` in `range(0, len(lst), n)`; `none` is
the `ValueError` of a zero step, a negative step gives no piece at all. -/
def chunks {α : Type} (l : List α) (n : Int) : Option (List (List α)) :=
  if n = 0 then none
  else if n < 0 then some []
  else some ((List.range ((l.length + n.toNat - 1) / n.toNat)).map fun i => (l.drop (i * n.toNat)).take n.toNat)

/-- The worker processes: the state of the reader of each (`init_mp`, `transform.py:13-17`, `read.py:8-9`). -/
abbrev Pool := Nat → Reader

/-- Tasks run by the workers, in the order they are started: each by some worker, on the reader as that worker's
earlier tasks left it (`executor.submit`, `transform.py:111-118`, `read.py:77-82`). Simplification: tasks of
different workers share nothing, so each is one step. -/
inductive Works {β : Type} (task : Node → Act Reader β) : Pool → List Node → List (Res β) → Pool → Prop
  | nil {p} : Works task p [] [] p
  | step {p p' n ns rs} (i : Nat) : Works task (Function.update p i (task n (p i)).2) ns rs p' →
      Works task p (n :: ns) ((task n (p i)).1 :: rs) p'

/-- One chunk of nodes: the tasks are started in some order, and the results come back in some order
(`as_completed`, `transform.py:107-133`, `read.py:73-90`). -/
def ChunkRun {β : Type} (task : Node → Act Reader β) (p : Pool) (chunk : List Node) (completed : List (Res β))
    (p' : Pool) : Prop :=
  ∃ started results, started.Perm chunk ∧ Works task p started results p' ∧ results.Perm completed

/-- All chunks, one after another; `absorb` is what the main process does with each result. An exception ends the
run (`fut.result()` raises what the task raised). -/
inductive PoolRun {β σ : Type} (task : Node → Act Reader β) (absorb : β → Act σ Unit) :
    Pool → List (List Node) → σ → Res Unit × σ → Prop
  | done {p s} : PoolRun task absorb p [] s (.ok (), s)
  | chunk {p p' c cs completed s s' out} : ChunkRun task p c completed p' →
      Act.forEach (fun r => Act.lift r >>= absorb) completed s = (.ok (), s') →
      PoolRun task absorb p' cs s' out → PoolRun task absorb p (c :: cs) s out
  | fail {p p' c cs completed s s' r} : ChunkRun task p c completed p' →
      Act.forEach (fun r => Act.lift r >>= absorb) completed s = (r, s') → r ≠ .ok () →
      PoolRun task absorb p (c :: cs) s (r, s')

/-- `Compressor::CompressBytes(in, header)`, `compressor.hpp:52-64`, on a new string stream
(`compressor.hpp:22-45`). -/
def compressVector (L : Lazperf) (h : LasHeader) (bs : Bytes) : Res Bytes :=
  h.ebSize.bind fun eb => (pointByteSize h.fmt eb).bind fun size =>
  if size = 0 then .ub
  else if bs.length % size ≠ 0 then .throw .compressSize
  else if bs.length > 2147483647 then .throw .compressSize
  else .ok (L.compress h.fmt eb (BaseW.cut size (bs.length / size) bs))

/-- Python's `min` of a list of numbers, `none` for an empty one: a later element replaces the current one if it
is smaller. -/
def pyMin : List Dbl → Option Dbl
  | [] => none
  | a :: l => some (l.foldl (fun m x => if Flt.lt' x m then x else m) a)

/-- Python's `max`. -/
def pyMax : List Dbl → Option Dbl
  | [] => none
  | a :: l => some (l.foldl (fun m x => if Flt.lt' m x then x else m) a)

/-- `xyz_min` and `xyz_max`, `transform.py:215-217`. -/
def bounds (ps : List Point) : Option (Vec3 Dbl × Vec3 Dbl) := do
  let x0 ← pyMin (ps.map (·.x))
  let y0 ← pyMin (ps.map (·.y))
  let z0 ← pyMin (ps.map (·.z))
  let x1 ← pyMax (ps.map (·.x))
  let y1 ← pyMax (ps.map (·.y))
  let z1 ← pyMax (ps.map (·.z))
  pure (⟨x0, y0, z0⟩, ⟨x1, y1, z1⟩)

/-- What `_transform_node` returns, `transform.py:222`. -/
structure TaskResult where
  data : Bytes
  node : Node
  count : Nat
  bounds : Option (Vec3 Dbl × Vec3 Dbl)

/-- `_transform_node`, `transform.py:173-222`, with a transform function `f` of the node and its points.
Simplification: a transform function that uses the reader or outside state, and the values returned beside the
points, are not modelled. -/
def transformNode (L : Lazperf) (f : Node → List Point → Res (List Point)) (hd : LasHeader) (update : Bool)
    (n : Node) : Act Reader TaskResult := do
  let ps ← Reader.getPoints L n
  let qs ← Act.lift (f n ps)
  let bs ← Act.lift (packPoints qs hd.scale hd.offset)
  let data ← Act.lift (compressVector L hd bs)
  pure ⟨data, n, qs.length, if update then bounds qs else none⟩

/-- The main process of a transform: the writer and the bounds collected (`all_mins`, `all_maxs`). -/
structure Main (σ : Type) where
  writer : σ
  bounds : List (Vec3 Dbl × Vec3 Dbl)

/-- What the main process does with a result, `transform.py:143-158`; the completion callback is not
modelled. -/
def absorb {σ : Type} (add : TaskResult → Act σ Unit) (t : TaskResult) : Act (Main σ) Unit :=
  if t.count > 0 then do
    Act.modify fun s => { s with bounds := s.bounds ++ t.bounds.toList }
    Act.zoom (·.writer) (fun w s => { s with writer := w }) (add t)
  else pure ()

/-- Adding to a COPC writer, `transform.py:151-156`. -/
def addCopc (L : Lazperf) (t : TaskResult) : Act Writer Unit := do
  let _ ← Writer.addNodeCompressed L t.node.key t.data t.count t.node.pageKey
  pure ()

/-- Adding to a LAZ writer, `transform.py:158`. -/
def addLaz (L : Lazperf) (t : TaskResult) : Act LazWriter Unit :=
  LazWriter.writePointsCompressed L t.data t.count

/-- numpy's `min` of two numbers: NaN if one is. -/
def npMin2 (m x : Dbl) : Dbl := if m.isNaN then m else if x.isNaN then x else if Flt.lt' x m then x else m
/-- numpy's `max` of two numbers. -/
def npMax2 (m x : Dbl) : Dbl := if m.isNaN then m else if x.isNaN then x else if Flt.lt' m x then x else m

/-- `np.min(all_mins, axis=0)` and `np.max(all_maxs, axis=0)`, `transform.py:162-167`; zeros if there are none.
Simplification: which of two zeros of different signs or of two NaNs numpy returns is that of a loop from the
left. -/
def globalBounds : List (Vec3 Dbl × Vec3 Dbl) → Vec3 Dbl × Vec3 Dbl
  | [] => (Vec3.zero, Vec3.zero)
  | a :: l => l.foldl (fun b x =>
      (⟨npMin2 b.1.x x.1.x, npMin2 b.1.y x.1.y, npMin2 b.1.z x.1.z⟩,
       ⟨npMax2 b.2.x x.2.x, npMax2 b.2.y x.2.y, npMax2 b.2.z x.2.z⟩)) a

/-- `transform.py:161-170` on a COPC writer. -/
def setBounds (update : Bool) (s : Main Writer) : Writer :=
  if update then
    let b := globalBounds s.bounds
    { s.writer with
      cfg := { s.writer.cfg with
        header := { s.writer.cfg.header with
          min := b.1
          max := b.2 } } }
  else s.writer

/-- `transform.py:161-170` on a LAZ writer. -/
def setBoundsLaz (update : Bool) (s : Main LazWriter) : LazWriter :=
  if update then
    let b := globalBounds s.bounds
    { s.writer with
      cfg := { s.writer.cfg with
        header := { s.writer.cfg.header with
          min := b.1
          max := b.2 } } }
  else s.writer

/-- A run of `transform_multithreaded(reader, writer, f, nodes=nodes, chunk_size=size, update_minmax=update)` on a
COPC writer, `transform.py:97-170`, where `r` is a newly opened reader of the file: outcome and final writer. -/
inductive Transform (L : Lazperf) (f : Node → List Point → Res (List Point)) (update : Bool) (r : Reader)
    (nodes : List Node) (size : Int) (w : Writer) : Res Unit → Writer → Prop
  | ok {cs s} : chunks nodes size = some cs →
      PoolRun (transformNode L f w.cfg.header update) (absorb (addCopc L)) (fun _ => r) cs ⟨w, []⟩ (.ok (), s) →
      Transform L f update r nodes size w (.ok ()) (setBounds update s)
  | fail {cs o s} : chunks nodes size = some cs →
      PoolRun (transformNode L f w.cfg.header update) (absorb (addCopc L)) (fun _ => r) cs ⟨w, []⟩ (o, s) →
      o ≠ .ok () → Transform L f update r nodes size w o s.writer

/-- The same with a LAZ writer. -/
inductive TransformLaz (L : Lazperf) (f : Node → List Point → Res (List Point)) (update : Bool) (r : Reader)
    (nodes : List Node) (size : Int) (w : LazWriter) : Res Unit → LazWriter → Prop
  | ok {cs s} : chunks nodes size = some cs →
      PoolRun (transformNode L f w.cfg.header update) (absorb (addLaz L)) (fun _ => r) cs ⟨w, []⟩ (.ok (), s) →
      TransformLaz L f update r nodes size w (.ok ()) (setBoundsLaz update s)
  | fail {cs o s} : chunks nodes size = some cs →
      PoolRun (transformNode L f w.cfg.header update) (absorb (addLaz L)) (fun _ => r) cs ⟨w, []⟩ (o, s) →
      o ≠ .ok () → TransformLaz L f update r nodes size w o s.writer

/-- `_do_read_xyz`, `read.py:123-143`: the coordinates of the points whose classification is among the limits; no
limits, all points. -/
def readXyz (limits : List UInt8) (ps : List Point) : List (Vec3 Dbl) :=
  (ps.filter fun p => limits.isEmpty || limits.contains p.classification).map fun p => ⟨p.x, p.y, p.z⟩

/-- `_read_node`, `read.py:99-120`, with `_do_read_xyz`. -/
def readNode (L : Lazperf) (limits : List UInt8) (n : Node) : Act Reader (Node × List (Vec3 Dbl)) := do
  let ps ← Reader.getPoints L n
  pure (n, readXyz limits ps)

/-- The callback of `read_concat_xyz_class_limit`, `read.py:179-180`: the arrays in the order of completion. -/
def concatCallback (t : Node × List (Vec3 Dbl)) : Act (List (List (Vec3 Dbl))) Unit :=
  Act.modify fun s => s ++ [t.2]

/-- The callback of `read_map_xyz_class_limit`, `read.py:231-233`: a dictionary from the texts of keys. -/
def mapCallback (t : Node × List (Vec3 Dbl)) : Act (List (List Nat × List (Vec3 Dbl))) Unit :=
  if t.2.length > 0 then Act.modify fun s => AList.put t.1.key.text t.2 s else pure ()

/-- A run of `read_multithreaded` with `_do_read_xyz` and a callback, `read.py:12-96`: outcome and what the callback
collected. -/
def ReadRun {σ : Type} (L : Lazperf) (limits : List UInt8) (callback : Node × List (Vec3 Dbl) → Act σ Unit) (r : Reader)
    (nodes : List Node) (size : Int) (s : σ) (out : Res Unit × σ) : Prop :=
  ∃ cs, chunks nodes size = some cs ∧ PoolRun (readNode L limits) callback (fun _ => r) cs s out

/-- `np.concatenate(all_xyz)`, `read.py:194`: `none` is the `ValueError` for no arrays at all. -/
def concatenate (arrays : List (List (Vec3 Dbl))) : Option (List (Vec3 Dbl)) :=
  if arrays = [] then none else some arrays.flatten

end Copc.Mp
