import Verif.Spec.Iter
import Verif.Spec.WF

/-! Specification of filtering a dataset: which tables, records and channels are
kept and what becomes of them. -/

namespace Verif.Spec
open Classical
variable {R : FP}

/-- The entries of a list at the given places. -/
def pick {α : Type} (ks : List Nat) (l : List α) : List α := ks.filterMap fun j => l[j]?

/-- The entries of an `n` × `n` matrix (as a list of rows) at the given rows and columns. -/
def submatrix {α : Type} (n : Nat) (ks : List Nat) (l : List α) : List α :=
  ks.flatMap fun j => ks.filterMap fun i => l[i + j * n]?

/-- Channel `j` of the wavelength table is in the wavelength range. -/
def WaveOk (f : FilterSpec R) (w : OiWavelength R) (j : Nat) : Prop :=
  ∃ x, w.eff_wave[j]? = some x ∧ InF f.wave_range x

/-- The channels in the wavelength range, in increasing order. -/
noncomputable def keptChans (f : FilterSpec R) (w : OiWavelength R) : List Nat :=
  (List.range w.nwave).filter fun j => decide (WaveOk f w j)

/-- The wavelength table of an instrument: the first with that INSNAME. -/
def instTable (oi : OiFits R) (insname : CStr) : Option (OiWavelength R) :=
  oi.wavelengthList.find? fun w => w.insname == insname

/-- TARGET_ID after filtering: with a target filter the one target left has 1. -/
def targetIdOut (f : FilterSpec R) (id : Int) : Int := if 0 ≤ f.target_id then 1 else id

/-- The UV radius of a baseline at channel `j` is in range. -/
def UvOk (f : FilterSpec R) (w : OiWavelength R) (u v : R.Dbl) (j : Nat) : Prop :=
  ∃ x, w.eff_wave[j]? = some x ∧ InD f.uvrad_range (R.div (baseline u v) (R.toD x))

/-! ### OI_VIS -/

/-- UV radius and signal-to-noise ratios of channel `j` are in range. -/
def VisInRange (f : FilterSpec R) (w : OiWavelength R) (r : OiVisRecord R) (j : Nat) : Prop :=
  UvOk f w r.ucoord r.vcoord j ∧ SnrAmpOk f r.visamp r.visamperr j ∧ SnrPhiOk f r.visphierr j

/-- The record is kept. -/
structure VisKept (f : FilterSpec R) (w : OiWavelength R) (r : OiVisRecord R) : Prop where
  target : TargetOk f r.target_id
  mjd : InD f.mjd_range r.mjd
  bas : InD f.bas_range (baseline r.ucoord r.vcoord)
  unflagged : f.accept_flagged = true ∨
    ∃ j ∈ keptChans f w, r.flag[j]? = some false ∧ VisInRange f w r j

/-- A kept record after filtering: the channels in range, flagged where a datum was
flagged or is out of range. -/
noncomputable def visRecOut (f : FilterSpec R) (w : OiWavelength R) (r : OiVisRecord R) :
    OiVisRecord R :=
  let ks := keptChans f w
  { r with
    target_id := targetIdOut f r.target_id
    visamp := pick ks r.visamp
    visamperr := pick ks r.visamperr
    visphi := pick ks r.visphi
    visphierr := pick ks r.visphierr
    flag := ks.map fun j => decide (r.flag[j]? = some true ∨ ¬ VisInRange f w r j)
    visrefmap := r.visrefmap.map (submatrix w.nwave ks)
    rvis := r.rvis.map (pick ks)
    rviserr := r.rviserr.map (pick ks)
    ivis := r.ivis.map (pick ks)
    iviserr := r.iviserr.map (pick ks) }

/-- The table after filtering. -/
noncomputable def visOut (f : FilterSpec R) (w : OiWavelength R) (t : OiVis R) : OiVis R :=
  { t with
    nwave := (keptChans f w).length
    record := (t.record.filter fun r => decide (VisKept f w r)).map (visRecOut f w) }

/-- The table remains: the patterns accept its names, its instrument has channels in
range, and some record is kept. -/
structure VisRemains (f : FilterSpec R) (w : OiWavelength R) (t : OiVis R) : Prop where
  names : NamesOk f t.arrname t.insname t.corrname
  chan : ∃ j, j < w.nwave ∧ WaveOk f w j
  record : ∃ r ∈ t.record, VisKept f w r

/-- The OI_VIS tables after filtering. -/
noncomputable def visTables (f : FilterSpec R) (oi : OiFits R) : List (OiVis R) :=
  if f.accept_vis then oi.visList.filterMap fun t =>
    match instTable oi t.insname with
    | none => none
    | some w => if VisRemains f w t then some (visOut f w t) else none
  else []

/-! ### OI_VIS2 -/

/-- UV radius and signal-to-noise ratio of channel `j` are in range. -/
def Vis2InRange (f : FilterSpec R) (w : OiWavelength R) (r : OiVis2Record R) (j : Nat) : Prop :=
  UvOk f w r.ucoord r.vcoord j ∧ SnrAmpOk f r.vis2data r.vis2err j

/-- The record is kept. -/
structure Vis2Kept (f : FilterSpec R) (w : OiWavelength R) (r : OiVis2Record R) : Prop where
  target : TargetOk f r.target_id
  mjd : InD f.mjd_range r.mjd
  bas : InD f.bas_range (baseline r.ucoord r.vcoord)
  unflagged : f.accept_flagged = true ∨
    ∃ j ∈ keptChans f w, r.flag[j]? = some false ∧ Vis2InRange f w r j

/-- A kept record after filtering. -/
noncomputable def vis2RecOut (f : FilterSpec R) (w : OiWavelength R) (r : OiVis2Record R) :
    OiVis2Record R :=
  let ks := keptChans f w
  { r with
    target_id := targetIdOut f r.target_id
    vis2data := pick ks r.vis2data
    vis2err := pick ks r.vis2err
    flag := ks.map fun j => decide (r.flag[j]? = some true ∨ ¬ Vis2InRange f w r j) }

/-- The table after filtering. -/
noncomputable def vis2Out (f : FilterSpec R) (w : OiWavelength R) (t : OiVis2 R) : OiVis2 R :=
  { t with
    nwave := (keptChans f w).length
    record := (t.record.filter fun r => decide (Vis2Kept f w r)).map (vis2RecOut f w) }

/-- The table remains. -/
structure Vis2Remains (f : FilterSpec R) (w : OiWavelength R) (t : OiVis2 R) : Prop where
  names : NamesOk f t.arrname t.insname t.corrname
  chan : ∃ j, j < w.nwave ∧ WaveOk f w j
  record : ∃ r ∈ t.record, Vis2Kept f w r

/-- The OI_VIS2 tables after filtering. -/
noncomputable def vis2Tables (f : FilterSpec R) (oi : OiFits R) : List (OiVis2 R) :=
  if f.accept_vis2 then oi.vis2List.filterMap fun t =>
    match instTable oi t.insname with
    | none => none
    | some w => if Vis2Remains f w t then some (vis2Out f w t) else none
  else []

/-! ### OI_T3 -/

/-- The UV radii and the signal-to-noise ratios of those of amplitude and phase that
are accepted, at channel `j`, are in range. -/
def T3InRange (f : FilterSpec R) (w : OiWavelength R) (r : OiT3Record R) (j : Nat) : Prop :=
  UvOk f w r.u1coord r.v1coord j ∧ UvOk f w r.u2coord r.v2coord j ∧
  UvOk f w (R.add r.u1coord r.u2coord) (R.add r.v1coord r.v2coord) j ∧
  (f.accept_t3amp = true → SnrAmpOk f r.t3amp r.t3amperr j) ∧
  (f.accept_t3phi = true → SnrPhiOk f r.t3phierr j)

/-- The record is kept. -/
structure T3Kept (f : FilterSpec R) (w : OiWavelength R) (r : OiT3Record R) : Prop where
  target : TargetOk f r.target_id
  mjd : InD f.mjd_range r.mjd
  basAB : InD f.bas_range (baseline r.u1coord r.v1coord)
  basBC : InD f.bas_range (baseline r.u2coord r.v2coord)
  basAC : InD f.bas_range (baseline (R.add r.u1coord r.u2coord) (R.add r.v1coord r.v2coord))
  unflagged : f.accept_flagged = true ∨
    ∃ j ∈ keptChans f w, r.flag[j]? = some false ∧ T3InRange f w r j

/-- The values at the channels, or NaN for all of them. -/
noncomputable def pickOrNaN (accept : Bool) (ks : List Nat) (l : List R.Dbl) : List R.Dbl :=
  if accept then pick ks l else ks.map fun _ => R.nan

/-- A kept record after filtering. Amplitude or phase, if not accepted, become NaN. -/
noncomputable def t3RecOut (f : FilterSpec R) (w : OiWavelength R) (r : OiT3Record R) :
    OiT3Record R :=
  let ks := keptChans f w
  { r with
    target_id := targetIdOut f r.target_id
    t3amp := pickOrNaN f.accept_t3amp ks r.t3amp
    t3amperr := pick ks r.t3amperr
    t3phi := pickOrNaN f.accept_t3phi ks r.t3phi
    t3phierr := pick ks r.t3phierr
    flag := ks.map fun j => decide (r.flag[j]? = some true ∨ ¬ T3InRange f w r j) }

/-- The table after filtering. -/
noncomputable def t3Out (f : FilterSpec R) (w : OiWavelength R) (t : OiT3 R) : OiT3 R :=
  { t with
    nwave := (keptChans f w).length
    record := (t.record.filter fun r => decide (T3Kept f w r)).map (t3RecOut f w) }

/-- The table remains. -/
structure T3Remains (f : FilterSpec R) (w : OiWavelength R) (t : OiT3 R) : Prop where
  names : NamesOk f t.arrname t.insname t.corrname
  chan : ∃ j, j < w.nwave ∧ WaveOk f w j
  record : ∃ r ∈ t.record, T3Kept f w r

/-- The OI_T3 tables after filtering. -/
noncomputable def t3Tables (f : FilterSpec R) (oi : OiFits R) : List (OiT3 R) :=
  if f.accept_t3amp || f.accept_t3phi then oi.t3List.filterMap fun t =>
    match instTable oi t.insname with
    | none => none
    | some w => if T3Remains f w t then some (t3Out f w t) else none
  else []

/-! ### OI_FLUX -/

/-- The record is kept; flags do not matter. -/
structure FluxKept (f : FilterSpec R) (r : OiFluxRecord R) : Prop where
  target : TargetOk f r.target_id
  mjd : InD f.mjd_range r.mjd

/-- The flux at channel `j`, or NaN if its signal-to-noise ratio is out of range. -/
noncomputable def fluxValue (f : FilterSpec R) (r : OiFluxRecord R) (j : Nat) : Option R.Dbl :=
  if SnrAmpOk f r.fluxdata r.fluxerr j then r.fluxdata[j]? else some R.nan

/-- A kept record after filtering. -/
noncomputable def fluxRecOut (f : FilterSpec R) (w : OiWavelength R) (r : OiFluxRecord R) :
    OiFluxRecord R :=
  let ks := keptChans f w
  { r with
    target_id := targetIdOut f r.target_id
    fluxdata := ks.filterMap (fluxValue f r)
    fluxerr := pick ks r.fluxerr
    flag := pick ks r.flag }

/-- The table after filtering. -/
noncomputable def fluxOut (f : FilterSpec R) (w : OiWavelength R) (t : OiFlux R) : OiFlux R :=
  { t with
    nwave := (keptChans f w).length
    record := (t.record.filter fun r => decide (FluxKept f r)).map (fluxRecOut f w) }

/-- The table remains. -/
structure FluxRemains (f : FilterSpec R) (w : OiWavelength R) (t : OiFlux R) : Prop where
  names : NamesOk f t.arrname t.insname t.corrname
  chan : ∃ j, j < w.nwave ∧ WaveOk f w j
  record : ∃ r ∈ t.record, FluxKept f r

/-- The OI_FLUX tables after filtering. -/
noncomputable def fluxTables (f : FilterSpec R) (oi : OiFits R) : List (OiFlux R) :=
  if f.accept_flux then oi.fluxList.filterMap fun t =>
    match instTable oi t.insname with
    | none => none
    | some w => if FluxRemains f w t then some (fluxOut f w t) else none
  else []

/-! ### Tables the data refer to -/

/-- Some data table of the dataset refers to this ARRNAME. -/
def ArrReferenced (oi : OiFits R) (n : CStr) : Prop :=
  n ≠ [] ∧ ((∃ t ∈ oi.visList, t.arrname = n) ∨ (∃ t ∈ oi.vis2List, t.arrname = n) ∨
    (∃ t ∈ oi.t3List, t.arrname = n) ∨ (∃ t ∈ oi.fluxList, t.arrname = n))

/-- Some data table of the dataset refers to this INSNAME. -/
def InsReferenced (oi : OiFits R) (n : CStr) : Prop :=
  (∃ t ∈ oi.visList, t.insname = n) ∨ (∃ t ∈ oi.vis2List, t.insname = n) ∨
    (∃ t ∈ oi.t3List, t.insname = n) ∨ (∃ t ∈ oi.fluxList, t.insname = n)

/-- Some data table of the dataset refers to this CORRNAME. -/
def CorrReferenced (oi : OiFits R) (n : CStr) : Prop :=
  n ≠ [] ∧ ((∃ t ∈ oi.visList, t.corrname = n) ∨ (∃ t ∈ oi.vis2List, t.corrname = n) ∨
    (∃ t ∈ oi.t3List, t.corrname = n) ∨ (∃ t ∈ oi.fluxList, t.corrname = n))

/-- The wavelength table after filtering: the channels in range. -/
noncomputable def waveOut (f : FilterSpec R) (w : OiWavelength R) : OiWavelength R :=
  { w with
    nwave := (keptChans f w).length
    eff_wave := pick (keptChans f w) w.eff_wave
    eff_band := pick (keptChans f w) w.eff_band }

/-- The channels of an instrument that are kept: none if it is unknown or its name
does not match. -/
noncomputable def instChans (f : FilterSpec R) (oi : OiFits R) (insname : CStr) : List Nat :=
  match instTable oi insname with
  | none => []
  | some w => if Glob f.insname insname then keptChans f w else []

/-- The OI_INSPOL record is kept. -/
structure InspolKept (f : FilterSpec R) (oi : OiFits R) (r : OiInspolRecord R) : Prop where
  target : TargetOk f r.target_id
  mjd : R.lt r.mjd_end f.mjd_range.1 = false ∧ R.lt f.mjd_range.2 r.mjd_obs = false
  chan : instChans f oi r.insname ≠ []

/-- An OI_INSPOL record after filtering. -/
noncomputable def inspolRecOut (f : FilterSpec R) (oi : OiFits R) (r : OiInspolRecord R) :
    OiInspolRecord R :=
  let ks := instChans f oi r.insname
  { r with
    target_id := targetIdOut f r.target_id
    jxx := pick ks r.jxx
    jyy := pick ks r.jyy
    jxy := pick ks r.jxy
    jyx := pick ks r.jyx }

/-- The records of an OI_INSPOL table that are kept. -/
noncomputable def inspolRecs (f : FilterSpec R) (oi : OiFits R) (t : OiInspol R) :
    List (OiInspolRecord R) := t.record.filter fun r => decide (InspolKept f oi r)

/-- An OI_INSPOL table after filtering: the number of channels is that of the first
record kept. -/
noncomputable def inspolOut (f : FilterSpec R) (oi : OiFits R) (t : OiInspol R) : OiInspol R :=
  { t with
    nwave := match inspolRecs f oi t with
      | [] => t.nwave
      | r :: _ => (instChans f oi r.insname).length
    record := (inspolRecs f oi t).map (inspolRecOut f oi) }

/-- The OI_INSPOL table remains, if data refer to its ARRNAME. -/
structure InspolRemains (f : FilterSpec R) (oi : OiFits R) (t : OiInspol R) : Prop where
  name : Glob f.arrname t.arrname
  record : ∃ r ∈ t.record, InspolKept f oi r

/-- The wavelength table remains, if data refer to its INSNAME. -/
structure WaveRemains (f : FilterSpec R) (w : OiWavelength R) : Prop where
  name : Glob f.insname w.insname
  chan : ∃ j, j < w.nwave ∧ WaveOk f w j

/-- The target table after filtering. With a target filter it has the last target
of that id, if any. -/
def targetsOut (f : FilterSpec R) (t : OiTarget R) : OiTarget R :=
  if f.target_id < 0 then t
  else
    { revision := t.revision
      targ := match t.targ.reverse.find? fun x => x.target_id == f.target_id with
        | some x => [{ x with target_id := 1 }]
        | none => []
      usecategory := false }

/-- The last of the tables with the name. -/
def lastNamed {τ : Type} (name : τ → CStr) (l : List τ) (n : CStr) : Option τ :=
  l.reverse.find? fun t => name t == n

/-! ### Datasets to which the specification applies -/

/-- The instruments named by the records kept of an OI_INSPOL table
have as many channels as the table, and all the same number of
channels in range. (True in particular if the table names one instrument.) -/
def InspolUniform (f : FilterSpec R) (oi : OiFits R) (t : OiInspol R) : Prop :=
  ∀ r ∈ inspolRecs f oi t, (∀ w, instTable oi r.insname = some w → w.nwave = t.nwave) ∧
    ∀ r' ∈ inspolRecs f oi t,
      (instChans f oi r'.insname).length = (instChans f oi r.insname).length

/-- A dataset that can be filtered: tables as allocated, instrument names unique and
not too long for the array they are kept in, each data table with as many channels
as its wavelength table, found by lookup; and with some target. -/
structure Filterable (f : FilterSpec R) (oi : OiFits R) : Prop where
  wf : oi.WF
  targets : 0 ≤ f.target_id ∨ oi.targets.targ ≠ []
  unique : (oi.wavelengthList.map OiWavelength.insname).Nodup
  fits : ∀ w ∈ oi.wavelengthList, w.insname.length < FLEN_VALUE
  vis : ∀ t ∈ oi.visList, ∀ w, instTable oi t.insname = some w →
    oi_fits_lookup_wavelength oi t.insname = some w ∧ w.nwave = t.nwave
  vis2 : ∀ t ∈ oi.vis2List, ∀ w, instTable oi t.insname = some w →
    oi_fits_lookup_wavelength oi t.insname = some w ∧ w.nwave = t.nwave
  t3 : ∀ t ∈ oi.t3List, ∀ w, instTable oi t.insname = some w →
    oi_fits_lookup_wavelength oi t.insname = some w ∧ w.nwave = t.nwave
  flux : ∀ t ∈ oi.fluxList, ∀ w, instTable oi t.insname = some w → w.nwave = t.nwave

/-- The dataset `out` is `oi` filtered. Of the OI_INSPOL tables this only says that
the data refer to their ARRNAME; for the rest see `InspolFiltered`. -/
structure Filtered (f : FilterSpec R) (oi out : OiFits R) : Prop where
  header : out.header = oi.header
  targets : out.targets = targetsOut f oi.targets
  vis : out.visList = visTables f oi
  vis2 : out.vis2List = vis2Tables f oi
  t3 : out.t3List = t3Tables f oi
  flux : out.fluxList = fluxTables f oi
  array : out.arrayList = oi.arrayList.filter fun t =>
    decide (Glob f.arrname t.arrname ∧ ArrReferenced out t.arrname)
  corr : out.corrList = oi.corrList.filter fun t =>
    decide (Glob f.corrname t.corrname ∧ CorrReferenced out t.corrname)
  wavelength : out.wavelengthList = (oi.wavelengthList.filter fun w =>
    decide (WaveRemains f w ∧ InsReferenced out w.insname)).map (waveOut f)
  inspol : ∀ t ∈ out.inspolList, ArrReferenced out t.arrname
  counts : out.CountsAgree
  arrayLookup : ∀ n, oi_fits_lookup_array out n = lastNamed OiArray.arrname out.arrayList n
  waveLookup : ∀ n, oi_fits_lookup_wavelength out n =
    lastNamed OiWavelength.insname out.wavelengthList n
  corrLookup : ∀ n, oi_fits_lookup_corr out n = lastNamed OiCorr.corrname out.corrList n

/-- The OI_INSPOL tables of `out` are those of `oi` filtered. -/
def InspolFiltered (f : FilterSpec R) (oi out : OiFits R) : Prop :=
  out.inspolList = (oi.inspolList.filter fun t =>
    decide (InspolRemains f oi t ∧ ArrReferenced out t.arrname)).map (inspolOut f oi)

/-- The instruments of the OI_INSPOL records that are kept are ones the output data
refer to. -/
def InspolObserved (f : FilterSpec R) (oi out : OiFits R) : Prop :=
  ∀ t ∈ oi.inspolList, ∀ r ∈ t.record, InspolKept f oi r → InsReferenced out r.insname

/-- ARRNAME, INSNAME and CORRNAME of each data table. -/
def dataNames (oi : OiFits R) : List (CStr × CStr × CStr) :=
  oi.visList.map (fun t => (t.arrname, t.insname, t.corrname)) ++
  oi.vis2List.map (fun t => (t.arrname, t.insname, t.corrname)) ++
  oi.t3List.map (fun t => (t.arrname, t.insname, t.corrname)) ++
  oi.fluxList.map (fun t => (t.arrname, t.insname, t.corrname))

/-- TARGET_ID of each data record. -/
def dataTargets (oi : OiFits R) : List Int :=
  oi.visList.flatMap (fun t => t.record.map (·.target_id)) ++
  oi.vis2List.flatMap (fun t => t.record.map (·.target_id)) ++
  oi.t3List.flatMap (fun t => t.record.map (·.target_id)) ++
  oi.fluxList.flatMap (fun t => t.record.map (·.target_id))

/-! ### Correspondence of channels -/

/-- `dst` consists of the entries of `src` at the places `ks`, in that order. -/
def AtChans {α : Type} (ks : List Nat) (src dst : List α) : Prop :=
  dst.length = ks.length ∧
    ∀ k j : Nat, ks[k]? = some j → ∃ x, src[j]? = some x ∧ dst[k]? = some x

/-- The same for arrays that may be absent. -/
def AtChansOpt {α : Type} (ks : List Nat) (src dst : Option (List α)) : Prop :=
  match src, dst with
  | some s, some d => AtChans ks s d
  | none, none => True
  | _, _ => False

/-- The same for square matrices, `n` × `n` in `src`, that may be absent. -/
def AtChansSquare {α : Type} (n : Nat) (ks : List Nat) (src dst : Option (List α)) : Prop :=
  match src, dst with
  | some s, some d => d.length = ks.length * ks.length ∧
      ∀ k l i j : Nat, ks[k]? = some i → ks[l]? = some j →
        ∃ x, s[i + j * n]? = some x ∧ d[k + l * ks.length]? = some x
  | none, none => True
  | _, _ => False

/-- The arrays of an OI_VIS record are those of another (with `n` channels) at the
channels `ks`. -/
structure VisAt (n : Nat) (ks : List Nat) (r r' : OiVisRecord R) : Prop where
  visamp : AtChans ks r.visamp r'.visamp
  visamperr : AtChans ks r.visamperr r'.visamperr
  visphi : AtChans ks r.visphi r'.visphi
  visphierr : AtChans ks r.visphierr r'.visphierr
  visrefmap : AtChansSquare n ks r.visrefmap r'.visrefmap
  rvis : AtChansOpt ks r.rvis r'.rvis
  rviserr : AtChansOpt ks r.rviserr r'.rviserr
  ivis : AtChansOpt ks r.ivis r'.ivis
  iviserr : AtChansOpt ks r.iviserr r'.iviserr
  flag : r'.flag.length = ks.length

/-- The arrays of an OI_VIS2 record are those of another at the channels `ks`. -/
structure Vis2At (ks : List Nat) (r r' : OiVis2Record R) : Prop where
  vis2data : AtChans ks r.vis2data r'.vis2data
  vis2err : AtChans ks r.vis2err r'.vis2err
  flag : r'.flag.length = ks.length

/-- The array has the entries at the channels, or, if the quantity is not accepted,
as many NaN. -/
def AtChansOrNaN (accept : Bool) (ks : List Nat) (src dst : List R.Dbl) : Prop :=
  if accept then AtChans ks src dst else dst = List.replicate ks.length R.nan

/-- The arrays of an OI_T3 record are those of another at the channels `ks`. -/
structure T3At (f : FilterSpec R) (ks : List Nat) (r r' : OiT3Record R) : Prop where
  t3amp : AtChansOrNaN f.accept_t3amp ks r.t3amp r'.t3amp
  t3amperr : AtChans ks r.t3amperr r'.t3amperr
  t3phi : AtChansOrNaN f.accept_t3phi ks r.t3phi r'.t3phi
  t3phierr : AtChans ks r.t3phierr r'.t3phierr
  flag : r'.flag.length = ks.length

/-- The arrays of an OI_FLUX record are those of another at the channels `ks`. -/
structure FluxAt (f : FilterSpec R) (ks : List Nat) (r r' : OiFluxRecord R) : Prop where
  length : r'.fluxdata.length = ks.length
  fluxdata : ∀ k j : Nat, ks[k]? = some j → SnrAmpOk f r.fluxdata r.fluxerr j →
    r'.fluxdata[k]? = r.fluxdata[j]?
  rejected : ∀ k j : Nat, ks[k]? = some j → ¬ SnrAmpOk f r.fluxdata r.fluxerr j →
    r'.fluxdata[k]? = some R.nan
  fluxerr : AtChans ks r.fluxerr r'.fluxerr
  flag : AtChans ks r.flag r'.flag

/-- Two datasets are the same to a user: contents, counts and lookups. -/
structure SameContents (a b : OiFits R) : Prop where
  header : a.header = b.header
  targets : a.targets = b.targets
  arrayList : a.arrayList = b.arrayList
  wavelengthList : a.wavelengthList = b.wavelengthList
  corrList : a.corrList = b.corrList
  inspolList : a.inspolList = b.inspolList
  visList : a.visList = b.visList
  vis2List : a.vis2List = b.vis2List
  t3List : a.t3List = b.t3List
  fluxList : a.fluxList = b.fluxList
  counts : a.CountsAgree ∧ b.CountsAgree
  arrayLookup : ∀ n, oi_fits_lookup_array a n = oi_fits_lookup_array b n
  waveLookup : ∀ n, oi_fits_lookup_wavelength a n = oi_fits_lookup_wavelength b n
  corrLookup : ∀ n, oi_fits_lookup_corr a n = oi_fits_lookup_corr b n

/-! ### The initial filter -/

/-- A filter that accepts all names, targets and types of data, flagged or not, MJD from 0 to
10^7, wavelengths from 0 to 10^-4 m, baselines from 0 to 10^4 m, UV radii from 0 to
10^11 and signal-to-noise ratios from -5 to 10^10. -/
def nominalFilter (R : FP) : FilterSpec R where
  arrname := "*"
  insname := "*"
  corrname := "*"
  target_id := -1
  mjd_range := (R.lit 0, R.lit (10 ^ 7))
  wave_range := (R.toF (R.lit 0), R.toF (R.lit (1 / 10 ^ 4)))
  bas_range := (R.lit 0, R.lit (10 ^ 4))
  uvrad_range := (R.lit 0, R.lit (10 ^ 11))
  snr_range := (R.toF (R.lit (-5)), R.toF (R.lit (10 ^ 10)))
  accept_vis := true
  accept_vis2 := true
  accept_t3amp := true
  accept_t3phi := true
  accept_flux := true
  accept_flagged := true

/-- The data are within the ranges of the filter: each table's instrument has a
wavelength table, with all channels in range, and MJD, baselines, UV radii and
signal-to-noise ratios are in range; the latter two do not matter for flagged data,
nor the last for a flux that is NaN. -/
structure WithinRanges (f : FilterSpec R) (oi : OiFits R) : Prop where
  vis : ∀ t ∈ oi.visList, ∃ w, instTable oi t.insname = some w ∧ (∀ j, j < w.nwave → WaveOk f w j) ∧
    ∀ r ∈ t.record, InD f.mjd_range r.mjd ∧ InD f.bas_range (baseline r.ucoord r.vcoord) ∧
      ∀ j, j < w.nwave → r.flag[j]? = some true ∨ VisInRange f w r j
  vis2 : ∀ t ∈ oi.vis2List, ∃ w, instTable oi t.insname = some w ∧
    (∀ j, j < w.nwave → WaveOk f w j) ∧
    ∀ r ∈ t.record, InD f.mjd_range r.mjd ∧ InD f.bas_range (baseline r.ucoord r.vcoord) ∧
      ∀ j, j < w.nwave → r.flag[j]? = some true ∨ Vis2InRange f w r j
  t3 : ∀ t ∈ oi.t3List, ∃ w, instTable oi t.insname = some w ∧ (∀ j, j < w.nwave → WaveOk f w j) ∧
    ∀ r ∈ t.record, InD f.mjd_range r.mjd ∧ InD f.bas_range (baseline r.u1coord r.v1coord) ∧
      InD f.bas_range (baseline r.u2coord r.v2coord) ∧
      InD f.bas_range (baseline (R.add r.u1coord r.u2coord) (R.add r.v1coord r.v2coord)) ∧
      ∀ j, j < w.nwave → r.flag[j]? = some true ∨ T3InRange f w r j
  flux : ∀ t ∈ oi.fluxList, ∃ w, instTable oi t.insname = some w ∧
    (∀ j, j < w.nwave → WaveOk f w j) ∧
    ∀ r ∈ t.record, InD f.mjd_range r.mjd ∧
      ∀ j, j < w.nwave → r.fluxdata[j]? = some R.nan ∨ SnrAmpOk f r.fluxdata r.fluxerr j

/-! ### Values of data -/

/-- The datum is not flagged. -/
def VisUnflagged (d : Datum (OiVis R) (OiVisRecord R)) : Prop :=
  d.record.flag[d.iwave]? = some false
/-- The datum is not flagged. -/
def Vis2Unflagged (d : Datum (OiVis2 R) (OiVis2Record R)) : Prop :=
  d.record.flag[d.iwave]? = some false
/-- The datum is not flagged. -/
def T3Unflagged (d : Datum (OiT3 R) (OiT3Record R)) : Prop :=
  d.record.flag[d.iwave]? = some false

/-- A complex visibility with what identifies it: names, time, baseline, stations,
wavelength, and then the data and errors. -/
def visValue (oi : OiFits R) (d : Datum (OiVis R) (OiVisRecord R)) :=
  (d.table.arrname, d.table.insname, d.record.mjd, d.record.ucoord, d.record.vcoord,
    d.record.sta_index, effWave oi d.table.insname d.iwave,
    d.record.visamp[d.iwave]?, d.record.visamperr[d.iwave]?,
    d.record.visphi[d.iwave]?, d.record.visphierr[d.iwave]?)

/-- The same for a squared visibility. -/
def vis2Value (oi : OiFits R) (d : Datum (OiVis2 R) (OiVis2Record R)) :=
  (d.table.arrname, d.table.insname, d.record.mjd, d.record.ucoord, d.record.vcoord,
    d.record.sta_index, effWave oi d.table.insname d.iwave,
    d.record.vis2data[d.iwave]?, d.record.vis2err[d.iwave]?)

/-- The same for a triple product; amplitude and phase if they are accepted. -/
def t3Value (f : FilterSpec R) (oi : OiFits R) (d : Datum (OiT3 R) (OiT3Record R)) :=
  (d.table.arrname, d.table.insname, d.record.mjd, d.record.u1coord, d.record.v1coord,
    d.record.u2coord, d.record.v2coord, d.record.sta_index, effWave oi d.table.insname d.iwave,
    (if f.accept_t3amp then d.record.t3amp[d.iwave]? else none), d.record.t3amperr[d.iwave]?,
    (if f.accept_t3phi then d.record.t3phi[d.iwave]? else none), d.record.t3phierr[d.iwave]?)

end Verif.Spec
