import Verif.Spec.Cli
import Verif.Spec.Fits
import Verif.Spec.ExampleFits
import Verif.Spec.Read

/-! Files for examples of runs of the command-line programs. -/

namespace Verif.Ex
open Spec

/-- Values of variables which are not initialised. -/
def undef : Undef FP.ratFP := ⟨1, none, none, "junk", true, 'x'⟩

/-- A file whose TARGET_IDs are outside the range of 16-bit integers. -/
def wide : List (Hdu FP.ratFP) :=
  (fileOf "2016-01-01" { oic with
      targets := { oic.targets with targ := oic.targets.targ.map fun t => { t with target_id := 40000 } } }).map
    fun h => { h with cols := h.cols.map fun c => if c.type = .I then { c with type := .J } else c }

/-- A file according to version 1 of the format. -/
def first : List (Hdu FP.ratFP) :=
  (fileOf "2016-01-01" oic).map fun h =>
    { h with keys := (h.keys.filter fun k => k.1 != ("CONTENT" : CStr)).map fun k =>
        if k.1 = ("OI_REVN" : CStr) then (k.1, .int 1) else k }

/-- A file without OI_ARRAY table whose tables have wrong revision numbers. -/
def bad : List (Hdu FP.ratFP) :=
  ((fileOf "2016-01-01" oic).filter fun h => ¬ isTable "OI_ARRAY" h).map fun h =>
    { h with keys := h.keys.map fun k => if k.1 = ("OI_REVN" : CStr) then (k.1, .int 1) else k }

/-- Files named in, bad, wide, first and old. The last of them is not a FITS file. -/
def files : Files FP.ratFP := fun n =>
  if n = ("in" : CStr) then some (.fits (fileOf "2016-01-01" oic))
  else if n = ("wide" : CStr) then some (.fits wide)
  else if n = ("first" : CStr) then some (.fits first)
  else if n = ("bad" : CStr) then some (.fits bad)
  else if n = ("old" : CStr) then some .other
  else none

/-- Whether it is a file, but not a FITS file. -/
def isOther : Option (FileData FP.ratFP) → Bool
  | some .other => true
  | _ => false

end Verif.Ex
