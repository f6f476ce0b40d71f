import Verif.Spec.File

/-! Specification of merging datasets, independent of the modelled functions. -/

namespace Verif.Spec
variable {R : FP}

/-- The target records of all inputs, in order. -/
def allTargets (ins : List (OiFits R)) : List (Target R) := ins.flatMap fun oi => oi.targets.targ

/-- The entries of a list without repetitions, in order of first appearance. -/
def distinct : List CStr → List CStr
  | [] => []
  | x :: xs => x :: (distinct xs).filter fun y => y ≠ x

/-- In dataset `oi` TARGET_ID `id` denotes a target called `name`. -/
def DenotesTarget (oi : OiFits R) (id : Int) (name : CStr) : Prop :=
  ∃ t, FirstWith (fun t => t.target_id = id) oi.targets.targ t ∧ t.target = name

/-- Two lists have the same length and corresponding entries are related. -/
def Pairwise₂ {α β : Type} (P : α → β → Prop) (l : List α) (l' : List β) : Prop :=
  l.length = l'.length ∧ ∀ (i : Nat) (x : α) (y : β), l[i]? = some x → l'[i]? = some y → P x y

/-- The tables of one type of all inputs, in order, each with the dataset it belongs
to. -/
def tablesOf {τ : Type} (tabs : OiFits R → List τ) (ins : List (OiFits R)) :
    List (OiFits R × τ) :=
  ins.flatMap fun oi => (tabs oi).map fun t => (oi, t)

/-- The merged tables of one type correspond one to one, in order, to the tables of
the inputs, and each is related to the one it comes from. -/
def Corresponds {τ : Type} (tabs : OiFits R → List τ) (ins : List (OiFits R)) (out : OiFits R)
    (P : OiFits R → τ → τ → Prop) : Prop :=
  Pairwise₂ (fun p t' => P p.1 p.2 t') (tablesOf tabs ins) (tabs out)

/-- The revision number a table gets in the merged dataset. -/
def upgraded (revision : Int) : Int := if revision = 1 then 2 else revision

/-- The TIME a record gets in the merged dataset, given its table's revision number. -/
def upgradedTime (revision : Int) (time : R.Dbl) : R.Dbl :=
  if revision = 1 then R.lit 0 else time

/-! Tables which hold the same data, apart from references to other tables. -/

/-- `t'` is `t` apart from ARRNAME, INSNAME and the records' TARGET_ID. -/
def InspolSame (t t' : OiInspol R) : Prop :=
  t' = { t with arrname := t'.arrname, record := t'.record } ∧
  Pairwise₂ (fun r r' => r' = { r with target_id := r'.target_id, insname := r'.insname })
    t.record t'.record

/-- `t'` is `t` apart from ARRNAME, INSNAME, CORRNAME, the records' TARGET_ID, and the
change to version 2. -/
def VisSame (t t' : OiVis R) : Prop :=
  t' = { t with
    revision := upgraded t.revision, arrname := t'.arrname, insname := t'.insname,
    corrname := t'.corrname, record := t'.record } ∧
  Pairwise₂ (fun r r' => r' = { r with
      target_id := r'.target_id, time := upgradedTime t.revision r.time })
    t.record t'.record

/-- `VisSame`, but IVISERR is a copy of RVISERR if there are complex visibilities. -/
def VisSameButIviserr (t t' : OiVis R) : Prop :=
  t' = { t with
    revision := upgraded t.revision, arrname := t'.arrname, insname := t'.insname,
    corrname := t'.corrname, record := t'.record } ∧
  Pairwise₂ (fun r r' => r' = { r with
      target_id := r'.target_id, time := upgradedTime t.revision r.time,
      iviserr := if t.usecomplex then r.rviserr else r.iviserr })
    t.record t'.record

/-- As `VisSame`. -/
def Vis2Same (t t' : OiVis2 R) : Prop :=
  t' = { t with
    revision := upgraded t.revision, arrname := t'.arrname, insname := t'.insname,
    corrname := t'.corrname, record := t'.record } ∧
  Pairwise₂ (fun r r' => r' = { r with
      target_id := r'.target_id, time := upgradedTime t.revision r.time })
    t.record t'.record

/-- As `VisSame`. -/
def T3Same (t t' : OiT3 R) : Prop :=
  t' = { t with
    revision := upgraded t.revision, arrname := t'.arrname, insname := t'.insname,
    corrname := t'.corrname, record := t'.record } ∧
  Pairwise₂ (fun r r' => r' = { r with
      target_id := r'.target_id, time := upgradedTime t.revision r.time })
    t.record t'.record

/-- `t'` is `t` apart from ARRNAME, INSNAME, CORRNAME and the records' TARGET_ID. -/
def FluxSame (t t' : OiFlux R) : Prop :=
  t' = { t with
    arrname := t'.arrname, insname := t'.insname, corrname := t'.corrname, record := t'.record } ∧
  Pairwise₂ (fun r r' => r' = { r with target_id := r'.target_id }) t.record t'.record

/-! Equality within tolerance. -/

/-- The same number, or numbers whose difference is not found to exceed 1e-10. -/
def Near (x y : R.Dbl) : Prop :=
  x = y ∨ R.lt (R.lit (mkRat 1 10000000000)) (R.abs (R.sub x y)) = false

/-- The same diameter, or two whose difference is not found to exceed 0.001. -/
def NearDiameter (x y : R.Flt) : Prop :=
  x = y ∨ R.lt (R.toD (R.toF (R.lit (mkRat 1 1000)))) (R.abs (R.toD (R.subF x y))) = false

/-- The same wavelength, or two whose difference is not found to reach 1e-10. -/
def NearWave (x y : R.Flt) : Prop :=
  x = y ∨ R.le (R.lit (mkRat 1 10000000000)) (R.abs (R.toD (R.subF x y))) = false

/-- Two OI_WAVELENGTH tables have the same channels, within tolerance. -/
def SameWaves (w w' : OiWavelength R) : Prop :=
  w'.nwave = w.nwave ∧
  ∀ k, k < w.nwave → ∃ x y a b, w.eff_wave[k]? = some x ∧ w'.eff_wave[k]? = some y ∧
    w.eff_band[k]? = some a ∧ w'.eff_band[k]? = some b ∧ NearWave y x ∧ NearWave b a

/-- Two stations are at the same place and have the same aperture (and, if `fov`, the
same field of view), within tolerance. -/
def SameStation (fov : Bool) (e e' : Element R) : Prop :=
  e'.sta_index = e.sta_index ∧
  Near e.staxyz.1 e'.staxyz.1 ∧ Near e.staxyz.2.1 e'.staxyz.2.1 ∧
  Near e.staxyz.2.2 e'.staxyz.2.2 ∧ NearDiameter e.diameter e'.diameter ∧
  (fov = true → Near e.fov e'.fov ∧ e'.fovtype = e.fovtype)

/-- OI_ARRAY table `a'` has the same centre as `a` and contains all its stations,
within tolerance. -/
def SameGeometry (a a' : OiArray R) : Prop :=
  Near a.arrayx a'.arrayx ∧ Near a.arrayy a'.arrayy ∧ Near a.arrayz a'.arrayz ∧
  ∀ e ∈ a.elem, ∃ e' ∈ a'.elem, SameStation (decide (2 ≤ a.revision)) e e'

/-- The same correlation matrix. -/
def SameCorr (c c' : OiCorr R) : Prop := c' = { c with corrname := c'.corrname }

/-! Names. -/

/-- At least three decimal digits. -/
def Number (ds : CStr) : Prop := 3 ≤ ds.length ∧ ∀ c ∈ ds, c.isDigit = true

/-- `n` is one of `names` followed by an underscore and a number, or `base` followed by
a number. -/
def LooksGenerated (base : CStr) (names : List CStr) (n : CStr) : Prop :=
  ∃ ds, Number ds ∧ (n = base ++ ds ∨ ∃ m ∈ names, n = m ++ '_' :: ds)

/-- The names of a type of table over all inputs. -/
def allNames {τ : Type} (tabs : OiFits R → List τ) (name : τ → CStr) (ins : List (OiFits R)) :
    List CStr := ins.flatMap fun oi => (tabs oi).map name

/-- Names which merging cannot generate by itself, each fitting its buffer, and fewer
tables than ten thousand. -/
structure PlainNames (base : CStr) (names : List CStr) : Prop where
  plain : ∀ n ∈ names, ¬ LooksGenerated base names n
  fits : ∀ n ∈ names, n.length < FLEN_VALUE
  few : names.length < 10000

/-! Header. -/

/-- A keyword summarising the inputs' values: those that are not empty agree, or they
don't (MULTIPLE), or there are none (`unset`). -/
def Summarises (unset : CStr) (vals : List CStr) (v : CStr) : Prop :=
  ((∀ x ∈ vals, x = []) ∧ v = unset) ∨
  (v ≠ [] ∧ v ∈ vals ∧ ∀ x ∈ vals, x = [] ∨ x = v) ∨
  ((∃ x ∈ vals, ∃ y ∈ vals, x ≠ [] ∧ y ≠ [] ∧ x ≠ y) ∧ v = ("MULTIPLE" : CStr))

/-- The primary header keywords which are mandatory, apart from DATE-OBS, DATE and
CONTENT. -/
def mandatoryKeys : List (OiHeader → CStr) :=
  [OiHeader.origin, OiHeader.telescop, OiHeader.instrume, OiHeader.observer, OiHeader.insmode,
   OiHeader.object]

/-- The optional primary header keywords. -/
def optionalKeys : List (OiHeader → CStr) :=
  [OiHeader.referenc, OiHeader.author, OiHeader.prog_id, OiHeader.procsoft, OiHeader.obstech]

/-- Keyword values fit their buffers. -/
def HeaderFits (oi : OiFits R) : Prop :=
  ∀ key ∈ mandatoryKeys ++ optionalKeys, (key oi.header).length < FLEN_VALUE

/-- A text which starts with the date `d`, of the years 1901 to 2099, as YYYY-MM-DD. -/
def StartsWithDate (s : CStr) (d : Date) : Prop :=
  ValidDate d ∧ 1901 ≤ d.year ∧ d.year ≤ 2099 ∧ ∃ rest, s = isoDate d ++ rest

/-- Date `d` is earlier than `d'`, or the same. -/
def NotLater (d d' : Date) : Prop :=
  d.year < d'.year ∨ (d.year = d'.year ∧ (d.month < d'.month ∨
    (d.month = d'.month ∧ d.day ≤ d'.day)))

/-- The DATE-OBS of each input is empty or starts with a date. -/
def GoodDates (ins : List (OiFits R)) : Prop :=
  ∀ oi ∈ ins, oi.header.date_obs = [] ∨ ∃ d, StartsWithDate oi.header.date_obs d

/-! Conditions. -/

/-- Each TARGET_ID of a data record denotes a target of the dataset. -/
structure TargetsResolve (oi : OiFits R) : Prop where
  inspol : ∀ t ∈ oi.inspolList, ∀ r ∈ t.record, ∃ n, DenotesTarget oi r.target_id n
  vis : ∀ t ∈ oi.visList, ∀ r ∈ t.record, ∃ n, DenotesTarget oi r.target_id n
  vis2 : ∀ t ∈ oi.vis2List, ∀ r ∈ t.record, ∃ n, DenotesTarget oi r.target_id n
  t3 : ∀ t ∈ oi.t3List, ∀ r ∈ t.record, ∃ n, DenotesTarget oi r.target_id n
  flux : ∀ t ∈ oi.fluxList, ∀ r ∈ t.record, ∃ n, DenotesTarget oi r.target_id n

/-- No two tables of the same type in the dataset have the same name. -/
structure UniqueNames (oi : OiFits R) : Prop where
  array : (oi.arrayList.map (·.arrname)).Nodup
  wavelength : (oi.wavelengthList.map (·.insname)).Nodup
  corr : (oi.corrList.map (·.corrname)).Nodup

/-- Names fit their buffers of 71 bytes. -/
structure NamesFit (oi : OiFits R) : Prop where
  array : ∀ t ∈ oi.arrayList, t.arrname.length < FLEN_VALUE
  wavelength : ∀ t ∈ oi.wavelengthList, t.insname.length < FLEN_VALUE
  corr : ∀ t ∈ oi.corrList, t.corrname.length < FLEN_VALUE

/-- Revision numbers are positive. -/
structure RevisionsPositive (oi : OiFits R) : Prop where
  target : 1 ≤ oi.targets.revision
  array : ∀ t ∈ oi.arrayList, 1 ≤ t.revision
  wavelength : ∀ t ∈ oi.wavelengthList, 1 ≤ t.revision
  corr : ∀ t ∈ oi.corrList, 1 ≤ t.revision
  inspol : ∀ t ∈ oi.inspolList, 1 ≤ t.revision
  vis : ∀ t ∈ oi.visList, 1 ≤ t.revision
  vis2 : ∀ t ∈ oi.vis2List, 1 ≤ t.revision
  t3 : ∀ t ∈ oi.t3List, 1 ≤ t.revision
  flux : ∀ t ∈ oi.fluxList, 1 ≤ t.revision

/-- All tables have at least the revision number of OIFITS version 2 (2, or 1 for the
tables new in version 2) and the header says so. -/
structure VersionTwo (oi : OiFits R) : Prop where
  content : oi.header.content = ("OIFITS2" : CStr)
  target : 2 ≤ oi.targets.revision
  array : ∀ t ∈ oi.arrayList, 2 ≤ t.revision
  wavelength : ∀ t ∈ oi.wavelengthList, 2 ≤ t.revision
  corr : ∀ t ∈ oi.corrList, 1 ≤ t.revision
  inspol : ∀ t ∈ oi.inspolList, 1 ≤ t.revision
  vis : ∀ t ∈ oi.visList, 2 ≤ t.revision
  vis2 : ∀ t ∈ oi.vis2List, 2 ≤ t.revision
  t3 : ∀ t ∈ oi.t3List, 2 ≤ t.revision
  flux : ∀ t ∈ oi.fluxList, 1 ≤ t.revision

/-- `INSNAME`, `ARRNAME` and `CORRNAME` lookups of the dataset agree with its lists of
tables: a table found is in the list and has the name asked for; one is found if the
list has any. -/
structure LookupsAgree (oi : OiFits R) (lookArr : CStr → Option (OiArray R))
    (lookIns : CStr → Option (OiWavelength R)) (lookCorr : CStr → Option (OiCorr R)) : Prop where
  array : ∀ n t, lookArr n = some t → t ∈ oi.arrayList ∧ t.arrname = n
  array_found : ∀ t ∈ oi.arrayList, lookArr t.arrname ≠ none
  wavelength : ∀ n t, lookIns n = some t → t ∈ oi.wavelengthList ∧ t.insname = n
  wavelength_found : ∀ t ∈ oi.wavelengthList, lookIns t.insname ≠ none
  corr : ∀ n t, lookCorr n = some t → t ∈ oi.corrList ∧ t.corrname = n
  corr_found : ∀ t ∈ oi.corrList, lookCorr t.corrname ≠ none

end Verif.Spec
