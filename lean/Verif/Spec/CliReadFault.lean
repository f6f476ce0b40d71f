import Verif.Model.CliReadFault
import Verif.Spec.ReadFault

/-! # The programs when reading fails -/

namespace Verif
namespace Spec

variable {R : FP}

/-- Errors with codes of errors, none of which has the code which stands for the end of the file. -/
structure FileFaults.Plain (F : FileFaults) : Prop where
  errors : FileFaults.Errors F
  array : TableFaults.NotEof F.array
  wavelength : TableFaults.NotEof F.wavelength

/-- Errors only where the file is opened and closed, and its header, targets, arrays and wavelengths are read. -/
structure FileFaults.Early (F : FileFaults) : Prop where
  plain : FileFaults.Plain F
  corr : F.corr = TableFaults.none
  inspol : F.inspol = TableFaults.none
  vis : F.vis = TableFaults.none
  vis2 : F.vis2 = TableFaults.none
  t3 : F.t3 = TableFaults.none
  flux : F.flux = TableFaults.none

/-- One of the calls which open and close the file, or read its header, targets, arrays and wavelengths fails. There is
one call for each table, and one which finds that there are no more. -/
def FileFaults.Noticed (F : FileFaults) (hdus : List (Hdu R)) : Prop :=
  F.opening ≠ .none ∨ F.header ≠ .none ∨ F.target ≠ .none ∨ F.closing ≠ .none ∨
  F.array.move ≠ .none ∨ (∃ k f, k ≤ (positions "OI_ARRAY" hdus).length ∧ F.array.reads[k]? = some (some f)) ∨
  F.wavelength.move ≠ .none ∨ ∃ k f, k ≤ (positions "OI_WAVELENGTH" hdus).length ∧ F.wavelength.reads[k]? = some (some f)

/-- Files which CFITSIO can open have a primary HDU, and the names of their tables are strings. -/
def Sound (fs : Files R) : Prop :=
  ∀ name hdus, fs name = some (.fits hdus) → hdus ≠ [] ∧ ∀ h ∈ hdus, StringName h

end Spec
end Verif
