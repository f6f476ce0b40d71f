import Verif.Model.Types
import Verif.Model.Date

/-! Model of `/repo/src/oifitslib/oifile.c`, except file I/O (see `Read`, `Write`)
and the formatting of summaries. -/

namespace Verif
open Outcome

variable {R : FP}

/-- oifile.c:47-61 `find_oi_array` (the warning is not modelled). -/
def find_oi_array (oi : OiFits R) (arrname : CStr) : Option (OiArray R) :=
  oi.arrayList.find? fun a => a.arrname == arrname

/-- oifile.c:64-79 `find_oi_wavelength` (the warning is not modelled). -/
def find_oi_wavelength (oi : OiFits R) (insname : CStr) : Option (OiWavelength R) :=
  oi.wavelengthList.find? fun w => w.insname == insname

/-- oifile.c:82-96 `find_oi_corr` (the warning is not modelled). -/
def find_oi_corr (oi : OiFits R) (corrname : CStr) : Option (OiCorr R) :=
  oi.corrList.find? fun c => c.corrname == corrname

/-- The loop `for (i = 0; i < n; i++)` with loop body `f` acting on a state. -/
def loopN {σ : Type} (n : Nat) (f : Nat → σ → Outcome σ) (s : σ) : Outcome σ :=
  (List.range n).foldlM (fun s i => f i s) s

/-- oifile.c:105-115 `get_min_wavelength`. -/
def get_min_wavelength (w : OiWavelength R) : Outcome R.Flt :=
  loopN w.nwave
    (fun i minWave => do
      let x ← index w.eff_wave i
      if R.lt (R.toD x) (R.toD minWave) then return x else return minWave)
    (R.toF (R.lit 1.0e11))

/-- oifile.c:124-134 `get_max_wavelength`. -/
def get_max_wavelength (w : OiWavelength R) : Outcome R.Flt :=
  loopN w.nwave
    (fun i maxWave => do
      let x ← index w.eff_wave i
      if R.lt (R.toD maxWave) (R.toD x) then return x else return maxWave)
    (R.toF (R.lit 0.0))

/-- The body `if (mjd < minMjd) minMjd = mjd;` of oifile.c:218-270. -/
def minStep (minMjd mjd : R.Dbl) : R.Dbl := if R.lt mjd minMjd then mjd else minMjd

/-- The body `if (mjd > maxMjd) maxMjd = mjd;` of oifile.c:275-327. -/
def maxStep (maxMjd mjd : R.Dbl) : R.Dbl := if R.lt maxMjd mjd then mjd else maxMjd

/-- oifile.c:218-270 `get_min_mjd`: four loops over tables and their records. -/
def get_min_mjd (oi : OiFits R) : R.Dbl :=
  let m := R.lit 100000
  let m := oi.visList.foldl (fun m t => t.record.foldl (fun m r => minStep m r.mjd) m) m
  let m := oi.vis2List.foldl (fun m t => t.record.foldl (fun m r => minStep m r.mjd) m) m
  let m := oi.t3List.foldl (fun m t => t.record.foldl (fun m r => minStep m r.mjd) m) m
  oi.fluxList.foldl (fun m t => t.record.foldl (fun m r => minStep m r.mjd) m) m

/-- oifile.c:275-327 `get_max_mjd`: four loops over tables and their records. -/
def get_max_mjd (oi : OiFits R) : R.Dbl :=
  let m := R.lit 0
  let m := oi.visList.foldl (fun m t => t.record.foldl (fun m r => maxStep m r.mjd) m) m
  let m := oi.vis2List.foldl (fun m t => t.record.foldl (fun m r => maxStep m r.mjd) m) m
  let m := oi.t3List.foldl (fun m t => t.record.foldl (fun m r => maxStep m r.mjd) m) m
  oi.fluxList.foldl (fun m t => t.record.foldl (fun m r => maxStep m r.mjd) m) m

/-- oifile.c:338-380 `init_oi_fits`. -/
def init_oi_fits (R : FP) : OiFits R where
  numArray := 0
  numWavelength := 0
  numCorr := 0
  numInspol := 0
  numVis := 0
  numVis2 := 0
  numT3 := 0
  numFlux := 0
  header := ⟨[], [], [], [], [], [], [], [], [], [], [], [], [], []⟩
  targets := ⟨OI_REVN_V2_TARGET, [], false⟩
  arrayList := []
  wavelengthList := []
  corrList := []
  inspolList := []
  visList := []
  vis2List := []
  t3List := []
  fluxList := []
  arrayHash := HMap.empty
  wavelengthHash := HMap.empty
  corrHash := HMap.empty

/-- oifile.c:412-426 `is_oi_fits_one`, with the macro
`RETURN_VAL_IF_BAD_TAB_REVISION` (382-394) as `List.all`. -/
def is_oi_fits_one (oi : OiFits R) : Bool :=
  if oi.header.content == ("OIFITS2" : CStr) then false
  else if oi.targets.revision != OI_REVN_V1_TARGET then false
  else
    oi.arrayList.all (fun t => t.revision == OI_REVN_V1_ARRAY) &&
    oi.wavelengthList.all (fun t => t.revision == OI_REVN_V1_ARRAY) &&
    oi.visList.all (fun t => t.revision == OI_REVN_V1_VIS) &&
    oi.vis2List.all (fun t => t.revision == OI_REVN_V1_VIS2) &&
    oi.t3List.all (fun t => t.revision == OI_REVN_V1_T3)

/-- oifile.c:438-442 `is_oi_fits_two`. -/
def is_oi_fits_two (oi : OiFits R) : Bool := oi.header.content == ("OIFITS2" : CStr)

/-- oifile.c:454-468 `is_atomic`. -/
def is_atomic (oi : OiFits R) (maxDays : R.Dbl) : Bool :=
  if oi.numArray > 1 then false
  else if oi.numWavelength ≠ 1 then false
  else if oi.targets.targ.length ≠ 1 then false
  else if R.lt maxDays (R.abs (R.sub (get_max_mjd oi) (get_min_mjd oi))) then false
  else true

/-- The inner loop of oifile.c:498-501 (also 514-517, 530-533): counts the
entries of `flag` which are not set. -/
def countUnflagged (nwave : Nat) (flag : List Bool) (num : Nat) : Outcome Nat :=
  loopN nwave (fun i num => do
    let f ← index flag i
    if !f then return num + 1 else return num) num

/-- oifile.c:480-541 `count_oi_fits_data`; the three results are returned as a
triple (the option to pass NULL is not modelled). -/
def count_oi_fits_data (oi : OiFits R) : Outcome (Nat × Nat × Nat) := do
  let numVis ← oi.visList.foldlM
    (fun n t => t.record.foldlM (fun n r => countUnflagged t.nwave r.flag n) n) 0
  let numVis2 ← oi.vis2List.foldlM
    (fun n t => t.record.foldlM (fun n r => countUnflagged t.nwave r.flag n) n) 0
  let numT3 ← oi.t3List.foldlM
    (fun n t => t.record.foldlM (fun n r => countUnflagged t.nwave r.flag n) n) 0
  return (numVis, numVis2, numT3)

/-- The format `"%4ld-%02ld-%02ld"` used in oifile.c:609 and oimerge.c. -/
def fmtDate (d : Date) : CStr :=
  fmtIntW 4 d.year ++ ['-'] ++ fmtInt0 2 d.month ++ ['-'] ++ fmtInt0 2 d.day

/-- oifile.c:572-586, the part of `set_oi_header` which sets TELESCOP. -/
def headerTelescop (oi : OiFits R) : Outcome CStr :=
  if oi.numArray = 0 then pure (strlcpy ("UNKNOWN" : CStr) FLEN_VALUE)
  else if oi.numArray = 1 then do
    let a ← deref oi.arrayList.head?
    pure (strlcpy a.arrname FLEN_VALUE)
  else pure (strlcpy ("MULTIPLE" : CStr) FLEN_VALUE)

/-- oifile.c:588-595, the part of `set_oi_header` which sets INSTRUME. -/
def headerInstrume (oi : OiFits R) : Outcome CStr :=
  if oi.numWavelength = 1 then do
    let w ← deref oi.wavelengthList.head?
    pure (strlcpy w.insname FLEN_VALUE)
  else pure (strlcpy ("MULTIPLE" : CStr) FLEN_VALUE)

/-- oifile.c:597-605, the part of `set_oi_header` which sets OBJECT. -/
def headerObject (oi : OiFits R) : CStr :=
  match oi.targets.targ with
  | [t] => strlcpy t.target FLEN_VALUE
  | _ => strlcpy ("MULTIPLE" : CStr) FLEN_VALUE

/-- oifile.c:564-616 `set_oi_header`. The counters, not the lists, decide; an
empty list with counter 1 is a NULL dereference. -/
def set_oi_header (oi : OiFits R) : Outcome (OiFits R) := do
  let telescop ← headerTelescop oi
  let instrume ← headerInstrume oi
  let object := headerObject oi
  let date_obs := snprintf FLEN_VALUE (fmtDate (mjd2date (R.floor (get_min_mjd oi))))
  return { oi with
    header := { oi.header with
      telescop := telescop
      instrume := instrume
      object := object
      date_obs := date_obs
      origin := strlcpy ("UNKNOWN" : CStr) FLEN_VALUE
      observer := strlcpy ("UNKNOWN" : CStr) FLEN_VALUE
      insmode := strlcpy ("UNKNOWN" : CStr) FLEN_VALUE } }

/-- oifile.c:1022-1025 `oi_fits_lookup_array`. -/
def oi_fits_lookup_array (oi : OiFits R) (arrname : CStr) : Option (OiArray R) :=
  oi.arrayHash.lookup arrname

/-- oifile.c:1036-1050 `oi_fits_lookup_element`. -/
def oi_fits_lookup_element (oi : OiFits R) (arrname : CStr) (staIndex : Int) :
    Option (Element R) :=
  match oi_fits_lookup_array oi arrname with
  | none => none
  | some a => a.elem.find? fun e => e.sta_index == staIndex

/-- oifile.c:1060-1064 `oi_fits_lookup_wavelength`. -/
def oi_fits_lookup_wavelength (oi : OiFits R) (insname : CStr) : Option (OiWavelength R) :=
  oi.wavelengthHash.lookup insname

/-- oifile.c:1074-1077 `oi_fits_lookup_corr`. -/
def oi_fits_lookup_corr (oi : OiFits R) (corrname : CStr) : Option (OiCorr R) :=
  oi.corrHash.lookup corrname

/-- oifile.c:1087-1098 `oi_fits_lookup_target`. -/
def oi_fits_lookup_target (oi : OiFits R) (targetId : Int) : Option (Target R) :=
  oi.targets.targ.find? fun t => t.target_id == targetId

/-- oifile.c:1108-1118 `oi_fits_lookup_target_by_name`. -/
def oi_fits_lookup_target_by_name (oi : OiFits R) (target : CStr) : Option (Target R) :=
  oi.targets.targ.find? fun t => t.target == target

/-- oifile.h:58-63 `MEMDUP` of `n` array elements: `chkmalloc` refuses size 0
(chkmalloc.c:36-), and reading past the end of the source is undefined. -/
def memdup {α : Type} (src : List α) (n : Nat) : Outcome (List α) :=
  if n = 0 then .abort
  else if src.length < n then .ub
  else .ok (src.take n)

/-- oifile.h:58-63: `MEMDUP` through a pointer that may be NULL. -/
def memdupOpt {α : Type} (src : Option (List α)) (n : Nat) : Outcome (Option (List α)) :=
  if n = 0 then .abort
  else match src with
    | none => .ub
    | some l => do
      let l' ← memdup l n
      return some l'

/-- oifile.h:58-63, as used in the functions `dup_...`: `if (used) MEMDUP(dst, src, n)` on a record which was copied before, so that
without the copy `dst` is the pointer of the original. -/
def memdupIf {α : Type} (used : Bool) (src dst : Option (List α)) (n : Nat) :
    Outcome (Option (List α)) :=
  if used then memdupOpt src n else pure dst

/-- oifile.c:1202-1210 `dup_oi_target`. -/
def dup_oi_target (t : OiTarget R) : Outcome (OiTarget R) := do
  let targ ← memdup t.targ t.targ.length
  return { t with targ := targ }

/-- oifile.c:1218-1226 `dup_oi_array`. -/
def dup_oi_array (t : OiArray R) : Outcome (OiArray R) := do
  let elem ← memdup t.elem t.elem.length
  return { t with elem := elem }

/-- oifile.c:1235-1245 `dup_oi_wavelength`. -/
def dup_oi_wavelength (t : OiWavelength R) : Outcome (OiWavelength R) := do
  let eff_wave ← memdup t.eff_wave t.nwave
  let eff_band ← memdup t.eff_band t.nwave
  return { t with eff_wave := eff_wave, eff_band := eff_band }

/-- oifile.c:1254-1265 `dup_oi_corr`. -/
def dup_oi_corr (t : OiCorr R) : Outcome (OiCorr R) := do
  let iindx ← memdup t.iindx t.ncorr
  let jindx ← memdup t.jindx t.ncorr
  let corr ← memdup t.corr t.ncorr
  return { t with iindx := iindx, jindx := jindx, corr := corr }

/-- oifile.c:1274-1293 `dup_oi_inspol`. -/
def dup_oi_inspol (t : OiInspol R) : Outcome (OiInspol R) := do
  let record ← memdup t.record t.record.length
  let record ← record.mapM fun r => do
    let jxx ← memdup r.jxx t.nwave
    let jyy ← memdup r.jyy t.nwave
    let jxy ← memdup r.jxy t.nwave
    let jyx ← memdup r.jyx t.nwave
    return { r with jxx := jxx, jyy := jyy, jxy := jxy, jyx := jyx }
  return { t with record := record }

/-- oifile.c:1302-1343 `dup_oi_vis`. As in the code (line 1338), IVISERR is copied
from the array RVISERR. -/
def dup_oi_vis (t : OiVis R) : Outcome (OiVis R) := do
  let record ← memdup t.record t.record.length
  let record ← record.mapM fun r => do
    let visamp ← memdup r.visamp t.nwave
    let visamperr ← memdup r.visamperr t.nwave
    let visphi ← memdup r.visphi t.nwave
    let visphierr ← memdup r.visphierr t.nwave
    let flag ← memdup r.flag t.nwave
    let visrefmap ← memdupIf t.usevisrefmap r.visrefmap r.visrefmap (t.nwave * t.nwave)
    let rvis ← memdupIf t.usecomplex r.rvis r.rvis t.nwave
    let rviserr ← memdupIf t.usecomplex r.rviserr r.rviserr t.nwave
    let ivis ← memdupIf t.usecomplex r.ivis r.ivis t.nwave
    let iviserr ← memdupIf t.usecomplex r.rviserr r.iviserr t.nwave
    return { r with visamp := visamp, visamperr := visamperr, visphi := visphi,
                    visphierr := visphierr, flag := flag, visrefmap := visrefmap,
                    rvis := rvis, rviserr := rviserr, ivis := ivis, iviserr := iviserr }
  return { t with record := record }

/-- oifile.c:1352-1373 `dup_oi_vis2`. -/
def dup_oi_vis2 (t : OiVis2 R) : Outcome (OiVis2 R) := do
  let record ← memdup t.record t.record.length
  let record ← record.mapM fun r => do
    let vis2data ← memdup r.vis2data t.nwave
    let vis2err ← memdup r.vis2err t.nwave
    let flag ← memdup r.flag t.nwave
    return { r with vis2data := vis2data, vis2err := vis2err, flag := flag }
  return { t with record := record }

/-- oifile.c:1382-1407 `dup_oi_t3`. -/
def dup_oi_t3 (t : OiT3 R) : Outcome (OiT3 R) := do
  let record ← memdup t.record t.record.length
  let record ← record.mapM fun r => do
    let t3amp ← memdup r.t3amp t.nwave
    let t3amperr ← memdup r.t3amperr t.nwave
    let t3phi ← memdup r.t3phi t.nwave
    let t3phierr ← memdup r.t3phierr t.nwave
    let flag ← memdup r.flag t.nwave
    return { r with t3amp := t3amp, t3amperr := t3amperr, t3phi := t3phi,
                    t3phierr := t3phierr, flag := flag }
  return { t with record := record }

/-- oifile.c:1416-1437 `dup_oi_flux`. -/
def dup_oi_flux (t : OiFlux R) : Outcome (OiFlux R) := do
  let record ← memdup t.record t.record.length
  let record ← record.mapM fun r => do
    let fluxdata ← memdup r.fluxdata t.nwave
    let fluxerr ← memdup r.fluxerr t.nwave
    let flag ← memdup r.flag t.nwave
    return { r with fluxdata := fluxdata, fluxerr := fluxerr, flag := flag }
  return { t with record := record }

/-- oifile.c:1444-1447 `upgrade_oi_target`. -/
def upgrade_oi_target (t : OiTarget R) : OiTarget R :=
  if t.revision = OI_REVN_V1_TARGET then { t with revision := OI_REVN_V2_TARGET } else t

/-- oifile.c:1454-1458 `upgrade_oi_wavelength`. -/
def upgrade_oi_wavelength (t : OiWavelength R) : OiWavelength R :=
  if t.revision = OI_REVN_V1_WAVELENGTH then { t with revision := OI_REVN_V2_WAVELENGTH } else t

/-- oifile.c:1465-1468 `upgrade_oi_array`. -/
def upgrade_oi_array (t : OiArray R) : OiArray R :=
  if t.revision = OI_REVN_V1_ARRAY then { t with revision := OI_REVN_V2_ARRAY } else t

/-- oifile.c:1477-1487 `upgrade_oi_vis`. -/
def upgrade_oi_vis (t : OiVis R) : OiVis R :=
  if t.revision = OI_REVN_V1_VIS then
    { t with revision := OI_REVN_V2_VIS
             record := t.record.map fun r => { r with time := R.lit 0.0 } }
  else t

/-- oifile.c:1496-1506 `upgrade_oi_vis2`. -/
def upgrade_oi_vis2 (t : OiVis2 R) : OiVis2 R :=
  if t.revision = OI_REVN_V1_VIS2 then
    { t with revision := OI_REVN_V2_VIS2
             record := t.record.map fun r => { r with time := R.lit 0.0 } }
  else t

/-- oifile.c:1515-1525 `upgrade_oi_t3`. -/
def upgrade_oi_t3 (t : OiT3 R) : OiT3 R :=
  if t.revision = OI_REVN_V1_T3 then
    { t with revision := OI_REVN_V2_T3
             record := t.record.map fun r => { r with time := R.lit 0.0 } }
  else t

end Verif
