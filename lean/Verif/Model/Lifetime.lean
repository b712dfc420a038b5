import Verif.Model.Writer
/-!
# Construction and destruction of writers, and the writers on files

(`laz_base_writer.hpp`, `laz_writer.hpp`, `copc_writer.hpp`, `copc_writer_internal.hpp` and their `.cpp`)

All destructors of the writers call `Close`. A destructor is `noexcept` unless it says otherwise, so an
exception of that `Close` ends the program (`std::terminate`).
-/
namespace Copc

/-- What becomes of constructing or destroying an object. -/
inductive Fate (α : Type) where
  | returns (a : α)
  | throws (e : Exc)
  | ub
  /-- `std::terminate` -/
  | terminates
  deriving DecidableEq

/-- The body of a destructor, followed by the destructors of members and bases. -/
def Act.noexcept {σ τ : Type} (x : Act σ Unit) (rest : σ → Fate τ) : σ → Fate τ := fun s =>
  match x s with
  | (.ok _, s') => rest s'
  | (.throw _, _) => .terminates
  | (.ub, _) => .ub

/-- `~BaseWriter() { Close(); }`, `laz_base_writer.hpp:44`; leaves the output stream, which the caller
owns. Within this destructor `Close` and what it calls are those of `BaseWriter`. -/
def BaseW.destroy (L : Lazperf) (c : LazConfig) : BaseW → Fate OStream :=
  (BaseW.close L c).noexcept fun b => .returns b.out

/-- The destructor of `LazWriter`, which has none of its own (`laz_writer.hpp:22-39`). -/
def LazWriter.destroy (L : Lazperf) (w : LazWriter) : Fate OStream := w.base.destroy L w.cfg

/-- `~Writer() { Close(); }`, `copc_writer.hpp:52`, then that of the `WriterInternal` it owns,
`~WriterInternal() { Close(); }`, `copc_writer_internal.hpp:23`, then `~BaseWriter`. Simplification: the
`WriterInternal` is not shared with a copy of the `Writer`. -/
def Writer.destroy (L : Lazperf) (ord : Order) : Writer → Fate OStream :=
  (Writer.close L ord).noexcept ((Writer.close L ord).noexcept fun w => w.base.destroy L w.cfg.toLazConfig)

/-- `Writer(out_stream, config, overrides)`: when the constructor of `WriterInternal` throws,
`copc_writer_internal.cpp:36-43`, its base is already there and destroyed, with no space reserved. -/
def Writer.construct (L : Lazperf) (out : OStream) (c : CopcConfig) (o : Writer.Overrides) : Fate Writer :=
  match Writer.initConfig c o with
  | .ok c' => match Writer.offsetToPointData c' with
    | .ok n => .returns ⟨BaseW.init out (n + 8), c', [], [(VoxelKey.root, [])]⟩
    | .throw e => match BaseW.destroy L c'.toLazConfig ⟨out, [], 0, 0, 0, true⟩ with
      | .returns _ => .throws e
      | .throws e => .throws e
      | .ub => .ub
      | .terminates => .terminates
    | .ub => .ub
  | .throw e => .throws e
  | .ub => .ub

/-- `LazWriter(out_stream, config)`, `laz_writer.cpp:8-14`, likewise. -/
def LazWriter.construct (L : Lazperf) (out : OStream) (c : LazConfig) : Fate LazWriter :=
  match BaseW.offsetToPointData c.forWriter with
  | .ok n => .returns ⟨BaseW.init out (n + 8), c.forWriter⟩
  | .throw e => match BaseW.destroy L c.forWriter ⟨out, [], 0, 0, 0, true⟩ with
    | .returns _ => .throws e
    | .throws e => .throws e
    | .ub => .ub
    | .terminates => .terminates
  | .ub => .ub

/-! ### Writers on files -/

/-- `f_stream_.close()`, `laz_base_writer.cpp:170-174`. A closed `fstream` takes no bytes and has position
-1, as a failed one. -/
def OStream.shut (o : OStream) : OStream := { o with fail := true }

/-- An empty file opened for writing, `laz_base_writer.cpp:162-168`, on a device with room `cap`. Simplification:
bytes reach the file in the order written. -/
def OStream.created (cap : Option Limit) : OStream := ⟨[], 0, false, cap⟩

/-- `copc::FileWriter`, `copc_writer.hpp:77-96`: the writer and whether the stream was closed. The bytes of
the file are those of the writer's stream. -/
structure FileWriter where
  w : Writer
  shut : Bool
  deriving DecidableEq

namespace FileWriter

/-- `FileWriter(path, config, overrides)`, `copc_writer.hpp:80-89`: the file is created (an existing one
emptied) before the arguments are looked at. The contents of the file are `old` before, and the second
component afterwards; `openable` is whether the path can be opened for writing (`laz_base_writer.cpp:166-167`). -/
def make (L : Lazperf) (openable : Bool) (cap : Option Limit) (c : CopcConfig) (o : Writer.Overrides)
    (old : Bytes) : Fate FileWriter × Bytes :=
  if openable = false then (.throws .badStream, old) else
  let out := OStream.created cap
  match Writer.construct L out c o with
  | .returns w => (.returns ⟨w, false⟩, w.base.out.data)
  | .throws e => (.throws e, out.data)
  | .ub => (.ub, out.data)
  | .terminates => (.terminates, out.data)

/-- A call on the `Writer` part. -/
def onWriter {α : Type} (x : Act Writer α) : Act FileWriter α :=
  Act.zoom (·.w) (fun w f => { f with w := w }) x

/-- `BaseFileWriter::Close`, `laz_base_writer.cpp:170-174`. -/
def closeStream : Act FileWriter Unit := Act.modify fun f =>
  if f.shut then f else { w := { f.w with base := { f.w.base with out := f.w.base.out.shut } }, shut := true }

/-- `FileWriter::Close`, `copc_writer_public.cpp:173-178`. -/
def close (L : Lazperf) (ord : Order) : Act FileWriter Unit := do
  onWriter (Writer.close L ord)
  closeStream

/-- `~FileWriter() { Close(); }`, `copc_writer.hpp:92`, then the destructors of `BaseFileWriter` (whose
stream is closed), of `Writer` and of what it owns. The result is the contents of the file. -/
def destroy (L : Lazperf) (ord : Order) : FileWriter → Fate Bytes :=
  (close L ord).noexcept (closeStream.noexcept fun f =>
    match Writer.destroy L ord f.w with
    | .returns o => .returns o.data
    | .throws e => .throws e
    | .ub => .ub
    | .terminates => .terminates)

end FileWriter

/-- `laz::LazFileWriter`, `laz_writer.hpp:41-57`. -/
structure LazFileWriter where
  w : LazWriter
  shut : Bool
  deriving DecidableEq

namespace LazFileWriter

/-- `LazFileWriter(path, config)`, `laz_writer.hpp:45-48`. -/
def make (L : Lazperf) (openable : Bool) (cap : Option Limit) (c : LazConfig) (old : Bytes) :
    Fate LazFileWriter × Bytes :=
  if openable = false then (.throws .badStream, old) else
  let out := OStream.created cap
  match LazWriter.construct L out c with
  | .returns w => (.returns ⟨w, false⟩, w.base.out.data)
  | .throws e => (.throws e, out.data)
  | .ub => (.ub, out.data)
  | .terminates => (.terminates, out.data)

def onWriter {α : Type} (x : Act LazWriter α) : Act LazFileWriter α :=
  Act.zoom (·.w) (fun w f => { f with w := w }) x

/-- `BaseFileWriter::Close`, `laz_base_writer.cpp:170-174`. -/
def closeStream : Act LazFileWriter Unit := Act.modify fun f =>
  if f.shut then f else { w := { f.w with base := { f.w.base with out := f.w.base.out.shut } }, shut := true }

/-- `LazFileWriter::Close`, `laz_writer.hpp:49-53`. -/
def close (L : Lazperf) : Act LazFileWriter Unit := do
  onWriter (LazWriter.close L)
  closeStream

/-- `~LazFileWriter() { Close(); }`, `laz_writer.hpp:54`, then the destructors of `LazWriter` and
`BaseFileWriter`. -/
def destroy (L : Lazperf) : LazFileWriter → Fate Bytes :=
  (close L).noexcept fun f =>
    match LazWriter.destroy L f.w with
    | .returns o => .returns o.data
    | .throws e => .throws e
    | .ub => .ub
    | .terminates => .terminates

end LazFileWriter
end Copc
