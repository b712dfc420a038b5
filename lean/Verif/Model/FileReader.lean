import Verif.Model.Lifetime
import Verif.Model.Reader
import Verif.Model.LazReader
/-!
# Model of the readers on files (`copc_reader.hpp:84-117`, `laz_reader.hpp:23-55`)
-/
namespace Copc

/-- The same reader with another stream behind its pointer `in_stream_`. -/
def Reader.onto (s : IStream) (r : Reader) : Reader := { r with h := { r.h with str := s } }

/-- A call on `r` has no use for the stream: whatever stream `in_stream_` points to, it does the same and leaves that
stream alone. -/
def Reader.Offline {α : Type} (x : Run Reader α) (r : Reader) : Prop :=
  ∀ s, x (r.onto s) = (x r).map fun p => (p.1, p.2.onto s)

/-- `copc::FileReader`, `copc_reader.hpp:84-117`: the reader, `is_open_`, and whether the stream that `in_stream_`
points to exists (with the file open). -/
structure FileReader where
  rd : Reader
  isOpen : Bool
  alive : Bool

namespace FileReader

/-- `FileReader(file_path)`, `copc_reader.hpp:87-98`, of a file with the bytes `data`; `openable` is whether the path
can be opened for reading. The second component is the number of files left open: when `InitReader` or
`InitCopcReader` throws, nobody owns the stream made with `new`, and the destructor of `FileReader` does not run. -/
def make (openable : Bool) (data : Bytes) : Fate FileReader × Nat :=
  if openable = false then (.throws .badStream, 0) else
  match Reader.init ⟨data, 0, false⟩ with
  | .ok r => (.returns ⟨r, true, true⟩, 1)
  | .throw e => (.throws e, 1)
  | .ub => (.ub, 1)

open Classical in
/-- A call on the `Reader` part. After `Close` the pointer dangles (`copc_reader.hpp:104-106`): a call that has a use
for the stream is undefined. -/
noncomputable def ask {α : Type} (x : Run Reader α) : Run FileReader α := fun f =>
  if f.alive = true ∨ Reader.Offline x f.rd then (x f.rd).map fun p => (p.1, { f with rd := p.2 })
  else some (.ub, f)

/-- `Close`, `copc_reader.hpp:100-108`. Deleting the stream twice would be undefined. -/
def close : Act FileReader Unit := fun f =>
  if f.isOpen = true then
    (if f.alive = true then (.ok (), { f with isOpen := false, alive := false }) else (.ub, f))
  else (.ok (), f)

/-- `~FileReader() { Close(); }`, `copc_reader.hpp:112`: the number of files left open. -/
def destroy : FileReader → Fate Nat := close.noexcept fun f => .returns (if f.alive then 1 else 0)

end FileReader

/-- `laz::LazFileReader`, `laz_reader.hpp:23-55`. -/
structure LazFileReader where
  rd : LazReader
  isOpen : Bool
  alive : Bool

namespace LazFileReader

/-- `LazFileReader(file_path)`, `laz_reader.hpp:26-36`. -/
def make (L : Lazperf) (openable : Bool) (data : Bytes) : Fate LazFileReader × Nat :=
  if openable = false then (.throws .badStream, 0) else
  match LazReader.init L ⟨data, 0, false⟩ with
  | .ok r => (.returns ⟨r, true, true⟩, 1)
  | .throw e => (.throws e, 1)
  | .ub => (.ub, 1)

/-- `Close`, `laz_reader.hpp:38-46`. -/
def close : Act LazFileReader Unit := fun f =>
  if f.isOpen = true then
    (if f.alive = true then (.ok (), { f with isOpen := false, alive := false }) else (.ub, f))
  else (.ok (), f)

/-- `~LazFileReader() { Close(); }`, `laz_reader.hpp:50`: the number of files left open. -/
def destroy : LazFileReader → Fate Nat := close.noexcept fun f => .returns (if f.alive then 1 else 0)

/-- `GetPointData`, `laz_reader.cpp:5-22`, first call: it begins with the stream's `seekg`. -/
def getPointData (L : Lazperf) (f : LazFileReader) : Res Bytes :=
  if f.alive = true then LazReader.getPointData L f.rd else .ub

end LazFileReader
end Copc
