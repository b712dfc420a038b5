import Verif.Model.Reader
/-! # Files that go on, files that are cut -/
namespace Copc

/-- The same stream on a file with more bytes at the end. -/
def IStream.more (t : Bytes) (s : IStream) : IStream := { s with data := s.data ++ t }

/-- The same reader on a file with more bytes at the end. -/
def HReader.more (t : Bytes) (s : HReader) : HReader := { s with str := s.str.more t }

/-- The same reader on a file with more bytes at the end. -/
def Reader.more (t : Bytes) (r : Reader) : Reader := { r with h := r.h.more t }

/-- lazperf decodes from a stream as it goes: what it makes of some bytes it makes of the same bytes when more
follow. -/
def Lazperf.Streams (L : Lazperf) : Prop :=
  ∀ fmt eb n bs rest l, L.decompress fmt eb n bs = some l → L.decompress fmt eb n (bs ++ rest) = some l

end Copc
