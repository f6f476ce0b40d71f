import Verif.Model.Cli
import Verif.Spec.Check

/-! What the texts for the user say, and what the options of oifits-filter mean. -/

namespace Verif.Spec
variable {R : FP} {α β : Type}

/-! ### The summary of a dataset -/

/-- A line of text. -/
def line (parts : List CStr) : CStr := parts.flatten ++ ['\n']

/-- The number of tables and one entry for each, numbered from 1. -/
def listing (name : CStr) (tables : List α) (entry : α → CStr) : CStr :=
  line ["  ", dec tables.length, " ", name, " tables:"] ++
    (tables.zipIdx 1).flatMap fun t =>
      ("    #" : CStr) ++ dec t.2 ++ List.replicate (2 - (dec t.2).length) ' ' ++ (" " : CStr) ++ entry t.1

/-- The number, with leading blanks to make at least `w` characters. -/
def rightAligned (w n : Nat) : CStr := List.replicate (w - (dec n).length) ' ' ++ dec n

/-- The smallest of some wavelengths, if they are all below 1e11 m. -/
def shortest (l : List R.Flt) : R.Flt :=
  l.foldl (fun m x => if R.lt (R.toD x) (R.toD m) then x else m) (R.toF (R.lit 1.0e11))

/-- The largest of some wavelengths, if they are not negative. -/
def longest (l : List R.Flt) : R.Flt :=
  l.foldl (fun m x => if R.lt (R.toD m) (R.toD x) then x else m) (R.toF (R.lit 0.0))

/-- A wavelength in nm, with one digit after the decimal point. -/
def nanometres (conversion : String) (x : R.Flt) : CStr := R.fmt conversion (R.mul (R.lit 1000000000) (R.toD x))

/-- The entry for an OI_ARRAY table. -/
def arrayEntry (t : OiArray R) : CStr := line ["ARRNAME='", t.arrname, "'  ", dec t.elem.length, " elements"]

/-- The entry for an OI_WAVELENGTH table. -/
def wavelengthEntry (t : OiWavelength R) : CStr :=
  line ["INSNAME='", t.insname, "'  ", dec t.nwave, " channels  ", nanometres "%7.1f" (shortest t.eff_wave), "-",
    nanometres "%7.1f" (longest t.eff_wave), "nm"]

/-- The entry for an OI_CORR table. -/
def corrEntry (t : OiCorr R) : CStr :=
  line ["CORRNAME='", t.corrname, "'  ", dec t.ncorr, "/", fmtInt t.ndata, " non-zero correlations"]

/-- The entry for an OI_INSPOL table. -/
def inspolEntry (t : OiInspol R) : CStr := line ["ARRNAME='", t.arrname, "'"]

/-- The entry for a table with data. -/
def dataEntry (date_obs insname arrname corrname : CStr) (numrec nwave : Nat) : CStr :=
  line ["DATE-OBS=", date_obs] ++
  line ["    INSNAME='", insname, "'  ARRNAME='", arrname, "'  CORRNAME='", corrname, "'"] ++
  line ["     ", rightAligned 5 numrec, " records x ", rightAligned 3 nwave, " wavebands"]

/-- The summary of a dataset: version, header, and all tables. -/
def summary (oi : OiFits R) : CStr :=
  line ["OIFITS version ", if oi.header.content = "OIFITS2" then "2" else "1", " data:"] ++
  line ["  ORIGIN  = '", oi.header.origin, "'"] ++
  line ["  DATE    = '", oi.header.date, "'"] ++
  line ["  DATE-OBS= '", oi.header.date_obs, "'"] ++
  line ["  TELESCOP= '", oi.header.telescop, "'"] ++
  line ["  INSTRUME= '", oi.header.instrume, "'"] ++
  line ["  OBSERVER= '", oi.header.observer, "'"] ++
  line ["  OBJECT  = '", oi.header.object, "'"] ++
  line ["  INSMODE = '", oi.header.insmode, "'"] ++
  line ["  OBSTECH = '", oi.header.obstech, "'"] ++
  line [] ++
  listing "OI_ARRAY" oi.arrayList arrayEntry ++
  listing "OI_WAVELENGTH" oi.wavelengthList wavelengthEntry ++
  listing "OI_CORR" oi.corrList corrEntry ++
  listing "OI_INSPOL" oi.inspolList inspolEntry ++
  listing "OI_VIS" oi.visList (fun t =>
    dataEntry t.date_obs t.insname t.arrname t.corrname t.record.length t.nwave) ++
  listing "OI_VIS2" oi.vis2List (fun t =>
    dataEntry t.date_obs t.insname t.arrname t.corrname t.record.length t.nwave) ++
  listing "OI_T3" oi.t3List (fun t =>
    dataEntry t.date_obs t.insname t.arrname t.corrname t.record.length t.nwave) ++
  listing "OI_FLUX" oi.fluxList (fun t =>
    dataEntry t.date_obs t.insname t.arrname t.corrname t.record.length t.nwave)

/-! ### The description of a filter -/

/-- What the filter accepts. -/
def filterText (f : FilterSpec R) : CStr :=
  line ["Filter accepts:"] ++
  line ["  ARRNAME='", f.arrname, "'"] ++
  line ["  INSNAME='", f.insname, "'"] ++
  line ["  CORRNAME='", f.corrname, "'"] ++
  line (if f.target_id < 0 then ["  [Any TARGET_ID]"] else ["  TARGET_ID=", dec f.target_id.toNat]) ++
  line ["  MJD: ", R.fmt "%.2lf" f.mjd_range.1, " - ", R.fmt "%.2lf" f.mjd_range.2] ++
  line ["  Wavelength: ", nanometres "%.1f" f.wave_range.1, " - ", nanometres "%.1f" f.wave_range.2, "nm"] ++
  line ["  Baseline: ", R.fmt "%.1lf" f.bas_range.1, " - ", R.fmt "%.1lf" f.bas_range.2, "m"] ++
  line ["  UV Radius: ", R.fmt "%.1lg" f.uvrad_range.1, " - ", R.fmt "%.1lg" f.uvrad_range.2, " waves"] ++
  line ["  SNR: ", R.fmt "%.1f" (R.toD f.snr_range.1), " - ", R.fmt "%.1f" (R.toD f.snr_range.2)] ++
  line (if f.accept_vis then ["  OI_VIS (complex visibilities)"] else ["  [OI_VIS not accepted]"]) ++
  line (if f.accept_vis2 then ["  OI_VIS2 (squared visibilities)"] else ["  [OI_VIS2 not accepted]"]) ++
  line (if f.accept_t3amp then ["  OI_T3 T3AMP (triple amplitudes)"] else ["  [OI_T3 T3AMP not accepted]"]) ++
  line (if f.accept_t3phi then ["  OI_T3 T3PHI (closure phases)"] else ["  [OI_T3 T3PHI not accepted]"]) ++
  line (if f.accept_flux then ["  OI_FLUX (incoherent spectra)"] else ["  [OI_FLUX not accepted]"]) ++
  line (if f.accept_flagged then ["  All-flagged records"] else ["  [All-flagged records not accepted]"])

/-! ### The report of oifits-check -/

/-- What the check of array elements finds: OI_INSPOL tables without ARRNAME, and
references to missing elements. -/
def elementBreaches (oi : OiFits R) : List Breach :=
  numbered (fun k t => if t.arrname = [] then
      [⟨.notOifits, "ARRNAME missing", shown (atTable "OI_INSPOL" 0)⟩]
    else unknownElements oi "OI_INSPOL" t.arrname (fun r => [r.sta_index]) k t.record) oi.inspolList ++
  dataElementBreaches oi

/-- What the fourteen checks find, in the order in which oifits-check makes them. -/
def breachLists (oi : OiFits R) : List (List Breach) :=
  [missingTables oi ++ revisionBreaches oi, headerBreaches oi, keywordBreaches oi, visrefmapBreaches oi,
    uniqueBreaches oi, targetBreaches oi, arrnameBreaches (fun _ => 0) oi, elementBreaches oi, corrBreaches oi,
    flaggingBreaches oi, t3ampBreaches oi, waveorderBreaches oi, timeBreaches oi, fluxBreaches oi]

/-- The severity of the worst of some breaches. -/
def severity (bs : List Breach) : CStr :=
  if bs.any (·.level = .notFits) then "Does not conform to the FITS standard"
  else if bs.any (·.level = .notOifits) then "Does not conform to the OIFITS standard"
  else "Valid OIFITS, but may cause problems for some reading software"

/-- What is printed about the breaches found by one check. -/
def reportText : List Breach → CStr
  | [] => []
  | b :: bs =>
    line ["*** ", severity (b :: bs), ":"] ++
    line [b.description, ", ", dec (bs.length + 1), " occurrences:-"] ++
    ((b :: bs).take 9).flatMap (fun x => line ["    ", x.location]) ++
    if 10 ≤ bs.length + 1 then line ["    [List truncated]"] else []

/-! ### Files -/

/-- The file can be read, and gives `oi`. -/
def Holds (u : Undef R) (files : Files R) (name : CStr) (oi : OiFits R) : Prop :=
  ∃ hdus, files name = some (.fits hdus) ∧ read_oi_fits u (some hdus) .ok = .ok (some oi, .ok)

/-- Reading the file fails: there is no such file, it is not a FITS file, or reading it
ends with an error. -/
def Unreadable (u : Undef R) (files : Files R) (name : CStr) : Prop :=
  (∀ hdus, files name ≠ some (.fits hdus)) ∨
  ∃ hdus oi st, files name = some (.fits hdus) ∧ read_oi_fits u (some hdus) .ok = .ok (oi, st) ∧ (oi = none ∨ st ≠ .ok)

/-- The file is what `write_oi_fits` makes of `oi`. -/
def Stored (today : CStr) (files : Files R) (name : CStr) (oi : OiFits R) : Prop :=
  ∃ hdus, write_oi_fits today false oi .ok = .ok (some hdus, .ok) ∧ files name = some (.fits hdus)

/-- A file name of at most 1024 characters which does not begin with `!`. -/
structure PlainName (name : CStr) : Prop where
  short : name.length < FLEN_FILENAME
  plain : name.head? ≠ some '!'

/-- What oifits-filter prints. -/
def filterOutput (input : OiFits R) (f : FilterSpec R) (output : OiFits R) : CStr :=
  ("=== INPUT DATA: ===\n" : CStr) ++ summary input ++ ("=== Applying filter: ===\n" : CStr) ++ filterText f ++
    ("--> OUTPUT DATA: ===\n" : CStr) ++ summary output

/-- What oifits-merge prints. -/
def mergeOutput (output : OiFits R) : CStr := ("=== MERGED DATA: ===\n" : CStr) ++ summary output

/-- What oifits-upgrade prints. -/
def upgradeOutput (oi : OiFits R) : CStr := ("=== INPUT DATA: ===\n" : CStr) ++ summary oi

/-- The dataset with keywords as given to oifits-upgrade, each cut off after 70 characters. -/
def withKeywords (oi : OiFits R) (origin observer insmode : CStr) : OiFits R :=
  { oi with header := { oi.header with
    origin := origin.take 70
    observer := observer.take 70
    insmode := insmode.take 70 } }

/-! ### Options -/

/-- The option `opt` is given with value `x`, and not given again later. -/
def LastGiven (opt : α → FilterOpt R) (opts : List (FilterOpt R)) (x : α) : Prop :=
  ∃ before after, opts = before ++ opt x :: after ∧ ∀ y, opt y ∉ after

/-- The option decides about `value`: it is computed from the last value given, and is
`default` if the option is not given. -/
def SetBy (opt : α → FilterOpt R) (opts : List (FilterOpt R)) (value : β) (of : α → β) (default : β) : Prop :=
  (∀ x, LastGiven opt opts x → value = of x) ∧ ((∀ x, opt x ∉ opts) → value = default)

/-- A wavelength given in nm. -/
def metres (x : R.Dbl) : R.Flt := R.toF (R.mul (R.lit (mkRat 1 1000000000)) x)

/-- A wavelength converted to nm, and back. -/
def thereAndBack (x : R.Flt) : R.Flt := metres (R.mul (R.lit 1000000000) (R.toD x))

/-- What the filter made from command-line options is: each option decides about one
criterion. Names are cut off after 70 characters, and wavelengths are given in nm. -/
structure MadeFrom (opts : List (FilterOpt R)) (f : FilterSpec R) : Prop where
  arrname : SetBy .arrname opts f.arrname (List.take 70) "*"
  insname : SetBy .insname opts f.insname (List.take 70) "*"
  corrname : SetBy .corrname opts f.corrname (List.take 70) "*"
  target_id : SetBy .target_id opts f.target_id id (-1)
  mjd_min : SetBy .mjd_min opts f.mjd_range.1 id (R.lit 0)
  mjd_max : SetBy .mjd_max opts f.mjd_range.2 id (R.lit 10000000)
  wave_min : SetBy .wave_min opts f.wave_range.1 metres (thereAndBack (R.toF (R.lit 0)))
  wave_max : SetBy .wave_max opts f.wave_range.2 metres (thereAndBack (R.toF (R.lit (mkRat 1 10000))))
  bas_min : SetBy .bas_min opts f.bas_range.1 id (R.lit 0)
  bas_max : SetBy .bas_max opts f.bas_range.2 id (R.lit 10000)
  uvrad_min : SetBy .uvrad_min opts f.uvrad_range.1 id (R.lit 0)
  uvrad_max : SetBy .uvrad_max opts f.uvrad_range.2 id (R.lit 100000000000)
  snr_min : SetBy .snr_min opts f.snr_range.1 R.toF (R.toF (R.toD (R.toF (R.lit (-5)))))
  snr_max : SetBy .snr_max opts f.snr_range.2 R.toF (R.toF (R.toD (R.toF (R.lit 10000000000))))
  accept_vis : SetBy .accept_vis opts f.accept_vis (· ≠ 0) true
  accept_vis2 : SetBy .accept_vis2 opts f.accept_vis2 (· ≠ 0) true
  accept_t3amp : SetBy .accept_t3amp opts f.accept_t3amp (· ≠ 0) true
  accept_t3phi : SetBy .accept_t3phi opts f.accept_t3phi (· ≠ 0) true
  accept_flux : SetBy .accept_flux opts f.accept_flux (· ≠ 0) true
  accept_flagged : SetBy .accept_flagged opts f.accept_flagged (· ≠ 0) true

end Verif.Spec
