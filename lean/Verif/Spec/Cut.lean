import Verif.Spec.Fits
import Verif.Model.Write

/-! Writing which is cut short: the program is killed, the disc is full, or CFITSIO reports
some other error. -/

namespace Verif.Spec

variable {R : FP}

/-- The calls which `write_oi_fits` makes once it has created the file (oifile.c:639-662),
in order: the header, the targets, then one call for each table. -/
def writeCalls (today : CStr) (oi : OiFits R) : List (FitsM R Unit) :=
  write_oi_header today oi.header :: write_oi_target oi.targets ::
    ((oi.arrayList.mapIdx fun k t => write_oi_array t (k + 1))
    ++ (oi.wavelengthList.mapIdx fun k t => write_oi_wavelength t (k + 1))
    ++ (oi.corrList.mapIdx fun k t => write_oi_corr t (k + 1))
    ++ (oi.inspolList.mapIdx fun k t => write_oi_inspol t (k + 1))
    ++ (oi.visList.mapIdx fun k t => write_oi_vis t (k + 1))
    ++ (oi.vis2List.mapIdx fun k t => write_oi_vis2 t (k + 1))
    ++ (oi.t3List.mapIdx fun k t => write_oi_t3 t (k + 1))
    ++ (oi.fluxList.mapIdx fun k t => write_oi_flux t (k + 1)))

/-- One call after another. -/
def runCalls : List (FitsM R Unit) → FitsM R Unit
  | [] => pure ()
  | c :: cs => do
    c
    runCalls cs

/-- A file which has just been created. -/
def newFile : FState R := ⟨[], 0, .ok⟩

/-- The dataset with the first `n` of its tables only, counting the arrays, then the
wavelength tables, and so on in the order in which tables are written. -/
def firstTables (n : Nat) (oi : OiFits R) : OiFits R :=
  let a := oi.arrayList.length
  let w := a + oi.wavelengthList.length
  let c := w + oi.corrList.length
  let p := c + oi.inspolList.length
  let v := p + oi.visList.length
  let v2 := v + oi.vis2List.length
  let t := v2 + oi.t3List.length
  { oi with
    arrayList := oi.arrayList.take n
    numArray := (oi.arrayList.take n).length
    wavelengthList := oi.wavelengthList.take (n - a)
    numWavelength := (oi.wavelengthList.take (n - a)).length
    corrList := oi.corrList.take (n - w)
    numCorr := (oi.corrList.take (n - w)).length
    inspolList := oi.inspolList.take (n - c)
    numInspol := (oi.inspolList.take (n - c)).length
    visList := oi.visList.take (n - p)
    numVis := (oi.visList.take (n - p)).length
    vis2List := oi.vis2List.take (n - v)
    numVis2 := (oi.vis2List.take (n - v)).length
    t3List := oi.t3List.take (n - v2)
    numT3 := (oi.t3List.take (n - v2)).length
    fluxList := oi.fluxList.take (n - t)
    numFlux := (oi.fluxList.take (n - t)).length }

/-- The number of tables, not counting the target table. -/
def tableCount (oi : OiFits R) : Nat :=
  oi.arrayList.length + oi.wavelengthList.length + oi.corrList.length + oi.inspolList.length
    + oi.visList.length + oi.vis2List.length + oi.t3List.length + oi.fluxList.length

/-- The dataset has a table of data. -/
def HasData (oi : OiFits R) : Prop :=
  oi.visList ≠ [] ∨ oi.vis2List ≠ [] ∨ oi.t3List ≠ [] ∨ oi.fluxList ≠ []

end Verif.Spec
