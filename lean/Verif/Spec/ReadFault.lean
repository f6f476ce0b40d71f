import Verif.Model.ReadFault
import Verif.Spec.Read

/-! # Errors while a file is read -/

namespace Verif
namespace Spec

/-- No call fails while these tables are read. -/
def TableFaults.none : TableFaults := ⟨.none, []⟩

/-- No call fails. -/
def FileFaults.none : FileFaults :=
  ⟨.none, .none, .none, TableFaults.none, TableFaults.none, TableFaults.none, TableFaults.none, TableFaults.none,
    TableFaults.none, TableFaults.none, TableFaults.none, .none⟩

/-- The codes of the errors are codes of errors. -/
def TableFaults.Errors (F : TableFaults) : Prop := F.move ≠ some .ok ∧ ∀ f, some f ∈ F.reads → f.status ≠ .ok

/-- No error has the code which stands for the end of the file. -/
def TableFaults.NotEof (F : TableFaults) : Prop :=
  F.move ≠ some .END_OF_FILE ∧ ∀ f, some f ∈ F.reads → f.status ≠ .END_OF_FILE

/-- The codes of the errors are codes of errors. -/
structure FileFaults.Errors (F : FileFaults) : Prop where
  opening : F.opening ≠ some .ok
  header : F.header ≠ some .ok
  target : F.target ≠ some .ok
  array : TableFaults.Errors F.array
  wavelength : TableFaults.Errors F.wavelength
  corr : TableFaults.Errors F.corr
  inspol : TableFaults.Errors F.inspol
  vis : TableFaults.Errors F.vis
  vis2 : TableFaults.Errors F.vis2
  t3 : TableFaults.Errors F.t3
  flux : TableFaults.Errors F.flux
  closing : F.closing ≠ some .ok

end Spec
end Verif
