import Verif.Props.Refused
import Verif.Props.BoxSample
/-!
# The theorems on refused files apply to files
-/
namespace Copc
open Spec

/-- A file that a `Reader` opens. -/
example : Format.LasHeaded BoxFile.data ∧ Format.RecordAt BoxFile.data 375 Format.uCopc 1 ∧
    ∃ p, Format.RecordAt BoxFile.data p Format.uCopc 1000 := by
  obtain ⟨r, hr, _⟩ := C33_opens BoxFile.written.1
  exact C96_copc hr

/-- A file that a `LazReader` opens. -/
example : Format.LasHeaded LazSample.closed.base.out.data ∧ ∃ p, Format.RecordAt LazSample.closed.base.out.data p Format.uLaszip 22204 := by
  obtain ⟨r, hr, _⟩ := C55_data lazSample_written (by decide +kernel) (by
    rw [lazSample_calls]
    exact .cons lazSample_points1 (.cons lazSample_compressed (.cons lazSample_points2 .nil))) (by decide +kernel)
  exact C96_laz hr

/-- A LAZ file, that a `Reader` refuses. -/
example : Reader.init ⟨LazSample.closed.base.out.data, 0, false⟩ = .throw .missingVlr := C96_laz_refused lazSample_written

end Copc
