import Verif.Model.Reader
import Verif.Lemmas.ReaderCalls
/-!
# Model of several readers on one stream

A `Reader` keeps a pointer to the stream it is given (`base_reader.hpp:21,29`): a program can make several readers on
one stream.
-/
namespace Copc

/-- The reader, with the stream as it is now. -/
def Reader.on (r : Reader) (s : IStream) : Reader := { r with h := { r.h with str := s } }

/-- The stream and the readers on it (`in_stream_`, `base_reader.hpp:29`; the stream inside a `Reader` of the list is not
used). Simplification: the calls of the readers are made one after the other, not at the same time. -/
structure Sharing where
  str : IStream
  readers : List Reader

/-- What happens to a stream that readers share: a reader is made (`copc_reader.hpp:26`), reader number `i` is called, and
something else that uses the stream (a `LazReader`, the program itself) leaves it at another position. -/
inductive SharedUse where
  | new
  | call (i : Nat) (q : Query)
  | seek (p : Nat)

/-- A program on a shared stream in which every reader that was asked for was made and every call returned or threw and left
the stream usable. The latest use comes first. -/
inductive Sharing.Used (L : Lazperf) (s0 : Sharing) : List SharedUse → Sharing → Prop
  | none : Sharing.Used L s0 [] s0
  | new {l : List SharedUse} {s : Sharing} {r : Reader} : Sharing.Used L s0 l s → Reader.init s.str = .ok r →
      r.h.str.fail = false → Sharing.Used L s0 (.new :: l) ⟨r.h.str, s.readers ++ [r]⟩
  | call {l : List SharedUse} {s : Sharing} {i : Nat} {r v : Reader} {q : Query} {res : Res Unit} :
      Sharing.Used L s0 l s → s.readers[i]? = some r → Run.Ends (fun n => q.run L n) (r.on s.str) (res, v) →
      v.h.str.fail = false → Sharing.Used L s0 (.call i q :: l) ⟨v.h.str, s.readers.set i v⟩
  | seek {l : List SharedUse} {s : Sharing} {p : Nat} : Sharing.Used L s0 l s →
      Sharing.Used L s0 (.seek p :: l) { s with str := { s.str with pos := p } }

end Copc
