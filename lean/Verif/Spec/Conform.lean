import Verif.Spec.Basic
import Verif.Spec.Cli
import Verif.Spec.Exact

/-! The rules of the OIFITS standard which oifits-check examines. -/

namespace Verif.Spec
variable {R : FP}

/-- The station numbers in records are those of stations of the array. -/
def Stations {ρ : Type} (oi : OiFits R) (arrname : CStr) (stations : ρ → List Int) (recs : List ρ) : Prop :=
  arrname ≠ [] → ∀ r ∈ recs, ∀ s ∈ stations r, ElementKnown oi arrname s

/-- CORRNAME, if there is one, is that of an OI_CORR table. -/
def CorrKnown (oi : OiFits R) (corrname : CStr) : Prop :=
  corrname ≠ [] → (oi_fits_lookup_corr oi corrname).isSome

/-- The dataset satisfies all rules which oifits-check examines. -/
structure Conforms (oi : OiFits R) : Prop where
  /-- The mandatory tables are there. -/
  tables : TablesPresent oi
  /-- Tables have the revision numbers of the version of the standard. -/
  revisions : RevisionsRight oi
  /-- The mandatory keywords of version 2 have a value. -/
  header : V2 oi → ∀ s ∈ [oi.header.origin, oi.header.date, oi.header.date_obs, oi.header.telescop, oi.header.instrume,
    oi.header.observer, oi.header.insmode, oi.header.object], s ≠ []
  /-- Values of keywords are among those allowed. -/
  frame : ∀ t ∈ oi.arrayList, t.frame ∈ frames
  amptyp : V2 oi → ∀ t ∈ oi.visList, t.amptyp ∈ amptyps ∧ t.phityp ∈ phityps
  calstat : ∀ t ∈ oi.fluxList, t.calstat ∈ ['C', 'U'] ∧ t.fovtype ∈ fovtypes
  /-- There is VISREFMAP for differential visibilities and no others. -/
  visrefmap : ∀ t ∈ oi.visList, t.usevisrefmap = true ↔ Differential t
  /-- No two targets have the same name. -/
  unique : (oi.targets.targ.map (·.target)).Nodup
  /-- The targets of all records are known. -/
  targetVis : ∀ t ∈ oi.visList, ∀ r ∈ t.record, TargetKnown oi r.target_id
  targetVis2 : ∀ t ∈ oi.vis2List, ∀ r ∈ t.record, TargetKnown oi r.target_id
  targetT3 : ∀ t ∈ oi.t3List, ∀ r ∈ t.record, TargetKnown oi r.target_id
  targetFlux : ∀ t ∈ oi.fluxList, ∀ r ∈ t.record, TargetKnown oi r.target_id
  /-- Tables have an ARRNAME where version 2 requires it, and OI_INSPOL tables always. -/
  arrInspol : ∀ t ∈ oi.inspolList, t.arrname ≠ []
  arrVis : V2 oi → ∀ t ∈ oi.visList, t.arrname ≠ []
  arrVis2 : V2 oi → ∀ t ∈ oi.vis2List, t.arrname ≠ []
  arrT3 : V2 oi → ∀ t ∈ oi.t3List, t.arrname ≠ []
  arrFlux : V2 oi → ∀ t ∈ oi.fluxList, t.calstat = 'U' → t.arrname ≠ []
  /-- The stations of all records are known. -/
  staInspol : ∀ t ∈ oi.inspolList, Stations oi t.arrname (fun r => [r.sta_index]) t.record
  staVis : ∀ t ∈ oi.visList, Stations oi t.arrname (fun r => [r.sta_index.1, r.sta_index.2]) t.record
  staVis2 : ∀ t ∈ oi.vis2List, Stations oi t.arrname (fun r => [r.sta_index.1, r.sta_index.2]) t.record
  staT3 : ∀ t ∈ oi.t3List, Stations oi t.arrname (fun r => [r.sta_index.1, r.sta_index.2.1, r.sta_index.2.2]) t.record
  staFlux : ∀ t ∈ oi.fluxList, Stations oi t.arrname (fun r => if r.sta_index = -1 then [] else [r.sta_index]) t.record
  /-- The correlation matrices of all tables are known. -/
  corrVis : ∀ t ∈ oi.visList, CorrKnown oi t.corrname
  corrVis2 : ∀ t ∈ oi.vis2List, CorrKnown oi t.corrname
  corrT3 : ∀ t ∈ oi.t3List, CorrKnown oi t.corrname
  corrFlux : ∀ t ∈ oi.fluxList, CorrKnown oi t.corrname
  /-- Data with negative errors are flagged. -/
  errVis : ∀ t ∈ oi.visList, ∀ r ∈ t.record, ∀ j < t.nwave, ¬ visNegError r j
  errVis2 : ∀ t ∈ oi.vis2List, ∀ r ∈ t.record, ∀ j < t.nwave, ¬ vis2NegError r j
  errT3 : ∀ t ∈ oi.t3List, ∀ r ∈ t.record, ∀ j < t.nwave, ¬ t3NegError r j
  /-- Triple product amplitudes are normalised. -/
  t3amp : ∀ t ∈ oi.t3List, ∀ r ∈ t.record, ∀ j < t.nwave, ¬ t3Unnormalised r j
  /-- Wavelengths are in ascending order. -/
  waveorder : ∀ w ∈ oi.wavelengthList, Ascending w
  /-- TIME is zero in version 2. -/
  timeVis : V2 oi → ∀ t ∈ oi.visList, ∀ r ∈ t.record, ¬ NonZeroTime r.time
  timeVis2 : V2 oi → ∀ t ∈ oi.vis2List, ∀ r ∈ t.record, ¬ NonZeroTime r.time
  timeT3 : V2 oi → ∀ t ∈ oi.t3List, ∀ r ∈ t.record, ¬ NonZeroTime r.time
  /-- Calibrated spectra belong to no array. -/
  fluxC : ∀ t ∈ oi.fluxList, t.calstat = 'C' → t.arrname = [] ∧ ¬ HasStation t
  /-- Spectra which are not calibrated belong to a station, and have no field of view. -/
  fluxU : ∀ t ∈ oi.fluxList, t.calstat = 'U' → t.arrname ≠ [] ∧ HasStation t ∧ t.fovtype = []

/-- The checks find nothing. -/
def NothingFound (oi : OiFits R) : Prop := ∀ bs ∈ breachLists oi, bs = []

/-! ### Filtering and conformity -/

/-- Different OI_ARRAY tables have different names, and a look-up gives a table with the name looked up. -/
structure NamesDistinct (oi : OiFits R) : Prop where
  arrays : (oi.arrayList.map (·.arrname)).Nodup
  arrayLookup : ∀ n a, oi_fits_lookup_array oi n = some a → a ∈ oi.arrayList ∧ a.arrname = n
  corrLookup : ∀ n c, oi_fits_lookup_corr oi n = some c → c ∈ oi.corrList ∧ c.corrname = n

/-- In each OI_FLUX table either all records have a STA_INDEX or none has. -/
def StationsUniform (oi : OiFits R) : Prop :=
  ∀ t ∈ oi.fluxList, (∀ r ∈ t.record, r.sta_index = -1) ∨ ∀ r ∈ t.record, r.sta_index ≠ -1

/-- All wavelengths are numbers, or NaN, which compares false with everything; that is, they are not infinite. -/
def FiniteWavelengths (L : Lawful R) (oi : OiFits R) : Prop :=
  ∀ w ∈ oi.wavelengthList, ∀ x ∈ w.eff_wave, (L.val (R.toD x)).isSome ∨
    ∀ y, R.lt (R.toD x) y = false ∧ R.lt y (R.toD x) = false

/-- There are data other than calibrated spectra. -/
def DataRemain (oi : OiFits R) : Prop :=
  oi.visList ≠ [] ∨ oi.vis2List ≠ [] ∨ oi.t3List ≠ [] ∨ V2 oi ∧ ∃ t ∈ oi.fluxList, t.calstat = 'U'

/-- Nothing is less than NaN - 1, as in IEEE arithmetic. -/
def NanCompares (R : FP) : Prop := ∀ x, R.lt x (R.sub R.nan (R.lit 1)) = false

/-! ### Files and conformity -/

/-- The texts are ones which a file can hold without change: the keywords of the header, the names of targets, and the names which
tables have or refer to. -/
structure TextsFit (oi : OiFits R) : Prop where
  header : ∀ s ∈ [oi.header.origin, oi.header.date_obs, oi.header.telescop, oi.header.instrume,
    oi.header.observer, oi.header.insmode, oi.header.object], CardText s
  targets : ∀ x ∈ oi.targets.targ, ColText 32 x.target
  array : ∀ t ∈ oi.arrayList, CardText t.arrname
  corr : ∀ t ∈ oi.corrList, CardText t.corrname
  inspol : ∀ t ∈ oi.inspolList, CardText t.arrname
  vis : ∀ t ∈ oi.visList, CardText t.arrname ∧ CardText t.corrname
  vis2 : ∀ t ∈ oi.vis2List, CardText t.arrname ∧ CardText t.corrname
  t3 : ∀ t ∈ oi.t3List, CardText t.arrname ∧ CardText t.corrname
  flux : ∀ t ∈ oi.fluxList, CardText t.arrname ∧ CardText t.corrname

/-- Each correlation matrix to which a spectrum refers is one to which other data refer too, and each array to which the
records of an OI_INSPOL table refer is one to which data refer too. -/
structure SharedReferences (oi : OiFits R) : Prop where
  flux : ∀ t ∈ oi.fluxList, t.corrname ≠ [] → (∃ v ∈ oi.visList, v.corrname = t.corrname) ∨
    (∃ v ∈ oi.vis2List, v.corrname = t.corrname) ∨ ∃ v ∈ oi.t3List, v.corrname = t.corrname
  inspol : ∀ t ∈ oi.inspolList, t.record ≠ [] → (∃ v ∈ oi.visList, v.arrname = t.arrname) ∨
    (∃ v ∈ oi.vis2List, v.arrname = t.arrname) ∨ (∃ v ∈ oi.t3List, v.arrname = t.arrname) ∨
    ∃ v ∈ oi.fluxList, v.arrname = t.arrname

/-- The dataset has what version 2 requires and version 1 does not, apart from revision numbers and TIME, which are set
when a file is written. -/
structure MeetsV2 (oi : OiFits R) : Prop where
  header : ∀ s ∈ [oi.header.origin, oi.header.date_obs, oi.header.telescop, oi.header.instrume,
    oi.header.observer, oi.header.insmode, oi.header.object], s ≠ []
  arrays : oi.arrayList ≠ []
  vis : ∀ t ∈ oi.visList, t.arrname ≠ [] ∧ t.amptyp ∈ amptyps ∧ t.phityp ∈ phityps
  vis2 : ∀ t ∈ oi.vis2List, t.arrname ≠ []
  t3 : ∀ t ∈ oi.t3List, t.arrname ≠ []

/-- Zero is not greater than 1e-10. -/
def ZeroTime (R : FP) : Prop := ¬ NonZeroTime (R.lit 0.0)

end Verif.Spec
