import Verif.Spec.Exact
import Verif.Spec.Example

/-! The dataset of `Spec/Example.lean` can be written to a file. -/

namespace Verif.Ex
open FP Spec

theorem targets_storable : targets.Storable := ⟨by decide, by decide +kernel⟩
theorem array_storable : array.Storable := ⟨array_wf, rfl, rfl, rfl, by decide +kernel⟩
theorem inspol_storable : inspol.Storable := ⟨inspol_wf, by decide, by decide +kernel, by decide +kernel⟩
theorem vis_storable : vis.Storable := ⟨vis_wf, by decide, by decide +kernel, by decide +kernel⟩
theorem vis2_storable : vis2.Storable := ⟨vis2_wf, by decide, by decide +kernel, by decide +kernel⟩
theorem t3_storable : t3.Storable := ⟨t3_wf, by decide, by decide +kernel, by decide +kernel⟩
theorem flux_storable : flux.Storable := ⟨flux_wf, by decide, fun _ => rfl, by decide +kernel, fun _ => by decide +kernel⟩

theorem oi_storable : oi.Storable where
  targets := targets_storable
  array := by intro t ht; rw [List.mem_singleton.mp ht]; exact array_storable
  wavelength := by intro t ht; rw [List.mem_singleton.mp ht]; exact wave_wf
  corr := by intro t ht; rw [List.mem_singleton.mp ht]; exact corr_wf
  inspol := by intro t ht; rw [List.mem_singleton.mp ht]; exact inspol_storable
  vis := by intro t ht; rw [List.mem_singleton.mp ht]; exact vis_storable
  vis2 := by
    intro t ht
    rcases List.mem_cons.mp ht with rfl | ht
    · exact vis2_storable
    · rw [List.mem_singleton.mp ht]; exact vis2_storable
  t3 := by intro t ht; rw [List.mem_singleton.mp ht]; exact t3_storable
  flux := by intro t ht; rw [List.mem_singleton.mp ht]; exact flux_storable

theorem array_exact : array.Exact where
  revision := rfl
  arrname := by decide +kernel
  frame := by decide +kernel
  arrayx := by unfold CardNum; decide +kernel
  arrayy := by unfold CardNum; decide +kernel
  arrayz := by unfold CardNum; decide +kernel
  elem := by decide +kernel

theorem targets_exact (junk : CStr) : targets.Exact junk where
  revision := rfl
  targ := by decide +kernel
  category := fun x hx => by
    rw [if_pos (show targets.usecategory = true from rfl)]
    exact (by decide +kernel : ∀ x ∈ targets.targ, ColText 3 x.category) x hx

theorem wave_exact : wave.Exact := ⟨rfl, by decide +kernel⟩
theorem corr_exact : corr.Exact := ⟨rfl, by decide +kernel⟩

theorem vis_exact (junk : Int) : vis.Exact junk where
  revision := rfl
  date_obs := by decide +kernel
  arrname := by decide +kernel
  insname := by decide +kernel
  corrname := by decide +kernel
  amptyp := by decide +kernel
  phityp := by decide +kernel
  amporder := by decide
  phiorder := by decide
  ampunit := by decide +kernel
  complexunit := by decide +kernel
  time := by decide +kernel
  corrindx := fun h => absurd h (by decide)
  corrindx' := fun h => absurd ⟨rfl, by decide⟩ h

theorem vis2_exact : vis2.Exact 1 where
  revision := rfl
  date_obs := by decide +kernel
  arrname := by decide +kernel
  insname := by decide +kernel
  corrname := by decide +kernel
  time := by decide +kernel
  corrindx := fun _ => by decide +kernel

/-- `t3` with a reference to a correlation matrix. -/
def t3c : OiT3 ratFP := { t3 with corrname := "CORR1" }

theorem t3c_storable : t3c.Storable :=
  ⟨⟨t3_wf.rows, t3_wf.chans, t3_wf.recs⟩, by decide, by decide +kernel, by decide +kernel⟩

theorem t3_exact (junk : Int) : t3c.Exact junk where
  revision := rfl
  date_obs := by decide +kernel
  arrname := by decide +kernel
  insname := by decide +kernel
  corrname := by decide +kernel
  time := by decide +kernel
  corrindx := fun h => absurd h (by decide)

theorem flux_exact : flux.Exact (-1) where
  revision := rfl
  date_obs := by decide +kernel
  arrname := by decide +kernel
  insname := by decide +kernel
  corrname := by decide +kernel
  fov := by rw [if_neg (by decide)]; unfold CardNum; decide +kernel
  fovtype := by decide +kernel
  calstat := by decide
  fluxunit := by decide +kernel
  corrindx := fun _ => by decide +kernel
  sta_index := fun h => absurd h (by decide)

theorem header_exact : header.Exact "2016-01-01" := ⟨rfl, rfl, by decide +kernel⟩

/-- `oi` without the OI_INSPOL table and with `t3c`; the OI_FLUX table also refers to the
correlation matrix. -/
def oic : OiFits ratFP :=
  { oi with inspolList := [], numInspol := 0, t3List := [t3c], fluxList := [{ flux with corrname := "CORR1" }] }

theorem oic_storable : oic.Storable where
  targets := targets_storable
  array := oi_storable.array
  wavelength := oi_storable.wavelength
  corr := oi_storable.corr
  inspol := by intro t ht; cases ht
  vis := oi_storable.vis
  vis2 := oi_storable.vis2
  t3 := by intro t ht; rw [List.mem_singleton.mp ht]; exact t3c_storable
  flux := by
    intro t ht; rw [List.mem_singleton.mp ht]
    exact ⟨⟨flux_wf.rows, flux_wf.chans, flux_wf.recs⟩, by decide, fun _ => rfl, by decide +kernel,
      fun _ => by decide +kernel⟩

theorem oic_exact (str : CStr) : oic.Exact "2016-01-01" 1 str where
  header := header_exact
  targets := targets_exact str
  array := by intro t ht; rw [List.mem_singleton.mp ht]; exact array_exact
  wavelength := by intro t ht; rw [List.mem_singleton.mp ht]; exact wave_exact
  corr := by intro t ht; rw [List.mem_singleton.mp ht]; exact corr_exact
  inspol := rfl
  vis := by intro t ht; rw [List.mem_singleton.mp ht]; exact vis_exact _
  vis2 := by
    intro t ht
    rcases List.mem_cons.mp ht with rfl | ht
    · exact vis2_exact
    · rw [List.mem_singleton.mp ht]; exact vis2_exact
  t3 := by intro t ht; rw [List.mem_singleton.mp ht]; exact t3_exact _
  flux := by
    intro t ht; rw [List.mem_singleton.mp ht]
    exact ⟨rfl, by decide +kernel, by decide +kernel, by decide +kernel, by decide +kernel,
      by rw [if_neg (by decide)]; unfold CardNum; decide +kernel, by decide +kernel, by decide, by decide +kernel,
      fun h => absurd h (by decide), fun h => absurd h (by decide)⟩

end Verif.Ex
