import Verif.Spec.Read

/-! Files which hold the same OIFITS tables, perhaps in a different order and with other things between them. -/

namespace Verif.Spec

variable {R : FP}

/-- The names of OIFITS tables. -/
def oiTables : List CStr :=
  ["OI_TARGET", "OI_ARRAY", "OI_WAVELENGTH", "OI_CORR", "OI_INSPOL", "OI_VIS", "OI_VIS2", "OI_T3", "OI_FLUX"]

/-- The primary HDU is the same, and for each type of OIFITS table the tables of that type are the same,
in the same order. How tables of different types follow each other, and what other HDUs there are, is left open. -/
def SameTables (hdus hdus' : List (Hdu R)) : Prop :=
  hdus.head? = hdus'.head? ∧
    ∀ name ∈ oiTables, hdus.tail.filter (isTable name) = hdus'.tail.filter (isTable name)

end Verif.Spec
