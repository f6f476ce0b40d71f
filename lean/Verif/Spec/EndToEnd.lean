import Verif.Spec.Cli
import Verif.Spec.Filter
import Verif.Spec.Merge
import Verif.Spec.RoundTrip

/-! What the files made by the programs hold. -/

namespace Verif.Spec
variable {R : FP}

/-- Reading the file into which `oi` has been written gives `oi'`: the same tables in the same order, each as changed
by the format. `asRead` is defined for each type of table in `Spec/Fits.lean`. -/
structure SavedAs (today : CStr) (u : Undef R) (oi oi' : OiFits R) : Prop where
  header : oi'.header = oi.header.asRead today
  targets : oi'.targets = oi.targets.asRead u.str
  array : oi'.arrayList = oi.arrayList.map OiArray.asRead
  wavelength : oi'.wavelengthList = oi.wavelengthList.map OiWavelength.asRead
  corr : oi'.corrList = oi.corrList.map OiCorr.asRead
  inspol : oi'.inspolList = oi.inspolList.map OiInspol.asRead
  vis : oi'.visList = oi.visList.map (OiVis.asRead u.int)
  vis2 : oi'.vis2List = oi.vis2List.map (OiVis2.asRead u.int)
  t3 : oi'.t3List = oi.t3List.map (OiT3.asRead u.int)
  flux : oi'.fluxList = oi.fluxList.map (OiFlux.asRead u.int)
  counts : oi'.CountsAgree

/-- The file can be read, and holds `oi` as far as the format can hold it. -/
def FileOf (today : CStr) (files : Files R) (name : CStr) (oi : OiFits R) : Prop :=
  ∀ u, ∃ oi', Holds u files name oi' ∧ SavedAs today u oi oi'

/-- No two OI_WAVELENGTH tables have the same INSNAME, these have at most 70 characters,
and each data table has as many channels as the table its INSNAME refers to, if any. -/
structure ChannelsAgree (oi : OiFits R) : Prop where
  unique : (oi.wavelengthList.map OiWavelength.insname).Nodup
  fits : ∀ w ∈ oi.wavelengthList, w.insname.length ≤ 70
  vis : ∀ t ∈ oi.visList, ∀ w ∈ oi.wavelengthList, w.insname = t.insname → w.nwave = t.nwave
  vis2 : ∀ t ∈ oi.vis2List, ∀ w ∈ oi.wavelengthList, w.insname = t.insname → w.nwave = t.nwave
  t3 : ∀ t ∈ oi.t3List, ∀ w ∈ oi.wavelengthList, w.insname = t.insname → w.nwave = t.nwave
  flux : ∀ t ∈ oi.fluxList, ∀ w ∈ oi.wavelengthList, w.insname = t.insname → w.nwave = t.nwave

/-- The target the filter asks for, if any, is there. -/
def TargetThere (f : FilterSpec R) (oi : OiFits R) : Prop :=
  f.target_id < 0 ∨ ∃ x ∈ oi.targets.targ, x.target_id = f.target_id

end Verif.Spec
