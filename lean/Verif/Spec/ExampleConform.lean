import Verif.Spec.ExampleCli

/-! A dataset which conforms to the standard. -/

namespace Verif.Ex
open FP Spec

/-- A spectrum which is not calibrated and so has no FOVTYPE. -/
def spectrum : OiFlux ratFP := { flux with corrname := "CORR1", fov := ratFP.nan, fovtype := "" }

/-- `oic` without the FOVTYPE which its spectrum should not have. -/
def good : OiFits ratFP := { oic with fluxList := [spectrum] }

theorem good_storable : good.Storable :=
  { oic_storable with
    flux := by
      intro t ht; rw [List.mem_singleton.mp ht]
      exact ⟨⟨flux_wf.rows, flux_wf.chans, flux_wf.recs⟩, by decide, fun h => absurd rfl h, by decide +kernel,
        fun _ => by decide +kernel⟩ }

theorem good_exact (str : CStr) : good.Exact "2016-01-01" 1 str :=
  { oic_exact str with
    flux := by
      intro t ht; rw [List.mem_singleton.mp ht]
      exact ⟨rfl, by decide +kernel, by decide +kernel, by decide +kernel, by decide +kernel,
        by rw [if_pos (show spectrum.fovtype = [] from rfl)]; rfl, by decide +kernel, by decide, by decide +kernel,
        fun h => absurd h (by decide), fun h => absurd h (by decide)⟩ }

/-- `good` with a calibrated spectrum, which belongs to no array. -/
def calibrated : OiFits ratFP :=
  { good with fluxList := [{ spectrum with arrname := "", calstat := 'C', record := spectrum.record.map fun r => { r with sta_index := -1 } }] }

/-- `good` with a table of two spectra, of which only the first has a STA_INDEX. -/
def mixedSta : OiFits ratFP :=
  { good with fluxList := [{ spectrum with record := spectrum.record ++ spectrum.record.map fun r =>
      { r with target_id := 2, sta_index := -1 } }] }

/-- `good` where only the spectrum refers to the correlation matrix. -/
def lone : OiFits ratFP :=
  { good with visList := [{ vis with corrname := "" }], t3List := [t3] }

/-- A file which holds it, and one which breaks a rule. -/
def files2 : Files FP.ratFP := fun n =>
  if n = ("good" : CStr) then some (.fits (fileOf "2016-01-01" good)) else files n

end Verif.Ex
