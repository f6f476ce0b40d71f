import Verif.Spec.WF
import Verif.Spec.Basic
import Verif.Spec.Calendar

/-! Specification vocabulary for datasets. -/

namespace Verif.Spec
variable {R : FP}

/-- The MJD values of all data records of the dataset. -/
def mjds (oi : OiFits R) : List R.Dbl :=
  (oi.visList.flatMap fun t => t.record.map fun r => r.mjd) ++
  (oi.vis2List.flatMap fun t => t.record.map fun r => r.mjd) ++
  (oi.t3List.flatMap fun t => t.record.map fun r => r.mjd) ++
  (oi.fluxList.flatMap fun t => t.record.map fun r => r.mjd)

/-- All MJD values are finite numbers from 0 to 100000. -/
def NominalMjds (L : Lawful R) (oi : OiFits R) : Prop :=
  ∀ x ∈ mjds oi, ∃ a, L.val x = some a ∧ 0 ≤ a ∧ a ≤ 100000

/-- All flags of the OI_VIS data. -/
def visFlags (oi : OiFits R) : List Bool :=
  oi.visList.flatMap fun t => t.record.flatMap fun r => r.flag

/-- All flags of the OI_VIS2 data. -/
def vis2Flags (oi : OiFits R) : List Bool :=
  oi.vis2List.flatMap fun t => t.record.flatMap fun r => r.flag

/-- All flags of the OI_T3 data. -/
def t3Flags (oi : OiFits R) : List Bool :=
  oi.t3List.flatMap fun t => t.record.flatMap fun r => r.flag

/-- The decimal digit of `n`. -/
def digit (n : Int) : Char := Char.ofNat (48 + (n % 10).toNat)

/-- A date in the form YYYY-MM-DD. -/
def isoDate (d : Date) : CStr :=
  [digit (d.year / 1000), digit (d.year / 100), digit (d.year / 10), digit d.year, '-',
   digit (d.month / 10), digit d.month, '-', digit (d.day / 10), digit d.day]

/-- What `set_oi_header` is documented to store for a list of names: `none` names
give `empty`, one name is stored, more give MULTIPLE. -/
def summaryName (empty : CStr) : List CStr → CStr
  | [] => empty
  | [n] => n
  | _ => "MULTIPLE"

end Verif.Spec
