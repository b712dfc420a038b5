import Verif.Model.Reader
import Verif.Model.Writer
/-!
# The compressor and decompressor on byte vectors
(`cpp/include/copc-lib/laz/compressor.hpp`, `cpp/include/copc-lib/laz/decompressor.hpp`)
-/
namespace Copc

/-- `Compressor::CompressBytes(in, point_format_id, eb_byte_size)`, `compressor.hpp:22-45, 52-59`: the bytes written
to an `ostringstream`. A point size of zero makes `%` undefined. Simplification: `build_las_compressor` accepts the
formats 6 to 8. -/
def compressVector (L : Lazperf) (bs : Bytes) (fmt : Int) (eb : Nat) : Res Bytes :=
  (pointByteSize fmt eb).bind fun size =>
    if size = 0 then .ub
    else if bs.length % size ≠ 0 then .throw .compressSize
    else if bs.length > 2147483647 then .throw .compressSize
    else .ok (L.compress fmt eb (BaseW.cut size (bs.length / size) bs))

/-- `Compressor::CompressBytes(in, header)`, `compressor.hpp:61-64`. -/
def compressVectorH (L : Lazperf) (bs : Bytes) (hd : LasHeader) : Res Bytes :=
  hd.ebSize.bind fun eb => compressVector L bs hd.fmt eb

/-- `Decompressor::DecompressBytes(compressed_data, header, point_count)`, `decompressor.hpp:55-59`. -/
def decompressVectorH (L : Lazperf) (bs : Bytes) (hd : LasHeader) (n : Int) : Res Bytes :=
  hd.ebSize.bind fun eb => Reader.decompressVector L bs hd.fmt eb n

end Copc
