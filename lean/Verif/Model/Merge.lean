import Verif.Model.File

/-! Model of `/repo/src/oifitslib/oimerge.c`. -/

namespace Verif
open Outcome

variable {R : FP}

/-- oimerge.c:45-55 `lookup_element`. -/
def lookup_element (a : OiArray R) (staIndex : Int) : Option (Element R) :=
  a.elem.find? fun e => e.sta_index == staIndex

/-- oimerge.c:80-90, 95: `fabs(a - b) > tol` on doubles. -/
def farApart (tol a b : R.Dbl) : Bool := R.lt tol (R.abs (R.sub a b))

/-- oimerge.c:91: `fabs(a - b) > tol` with `float` arguments and tolerance; the difference is
computed as `float` and converted (`FLT_EVAL_METHOD` 0). -/
def farApartF (tol a b : R.Flt) : Bool := R.lt (R.toD tol) (R.abs (R.toD (R.subF a b)))

/-- oimerge.c:70 `tol`. -/
def arrayTol (R : FP) : R.Dbl := R.lit (mkRat 1 10000000000)

/-- oimerge.c:71 `ftol`. -/
def arrayFtol (R : FP) : R.Flt := R.toF (R.lit (mkRat 1 1000))

/-- The loop body of oimerge.c:84-98 for element `e` of `pArray`: `false` stands
for `break`. -/
def elementMatches (pArray pCmp : OiArray R) (e : Element R) : Bool :=
  match lookup_element pCmp e.sta_index with
  | none => false
  | some c =>
    if farApart (arrayTol R) e.staxyz.1 c.staxyz.1 then false
    else if farApart (arrayTol R) e.staxyz.2.1 c.staxyz.2.1 then false
    else if farApart (arrayTol R) e.staxyz.2.2 c.staxyz.2.2 then false
    else if farApartF (arrayFtol R) e.diameter c.diameter then false
    else if pArray.revision ≥ 2 ∧ pCmp.revision ≥ 2 then
      if farApart (arrayTol R) e.fov c.fov then false
      else if e.fovtype ≠ c.fovtype then false
      else true
    else true

/-- One iteration of the `while` loop of oimerge.c:75-100: `true` if `pCmp` is
returned. -/
def arrayMatches (pArray pCmp : OiArray R) : Bool :=
  if farApart (arrayTol R) pArray.arrayx pCmp.arrayx then false
  else if farApart (arrayTol R) pArray.arrayy pCmp.arrayy then false
  else if farApart (arrayTol R) pArray.arrayz pCmp.arrayz then false
  else pArray.elem.all (elementMatches pArray pCmp)

/-- oimerge.c:65-102 `match_oi_array`. -/
def match_oi_array (pArray : OiArray R) (list : List (OiArray R)) : Option (OiArray R) :=
  list.find? (arrayMatches pArray)

/-- oimerge.c:113 `tol`. -/
def waveTol (R : FP) : R.Dbl := R.lit (mkRat 1 10000000000)

/-- The loop of oimerge.c:122-127 over the channel numbers given: `true` if it ends
without `break`. As in C, EFF_BAND is not looked at if EFF_WAVE differs. -/
def wavesMatchFrom (pCmp pWave : OiWavelength R) : List Nat → Outcome Bool
  | [] => .ok true
  | i :: is => do
    let a ← index pCmp.eff_wave i
    let b ← index pWave.eff_wave i
    if R.le (waveTol R) (R.abs (R.toD (R.subF a b))) then return false
    else do
      let a ← index pCmp.eff_band i
      let b ← index pWave.eff_band i
      if R.le (waveTol R) (R.abs (R.toD (R.subF a b))) then return false
      else wavesMatchFrom pCmp pWave is

/-- oimerge.c:120-129: `true` if `pCmp` is returned. -/
def waveMatches (pWave pCmp : OiWavelength R) : Outcome Bool :=
  if pCmp.nwave = pWave.nwave then wavesMatchFrom pCmp pWave (List.range pWave.nwave)
  else .ok false

/-- oimerge.c:108-133 `match_oi_wavelength`. -/
def match_oi_wavelength (pWave : OiWavelength R) :
    List (OiWavelength R) → Outcome (Option (OiWavelength R))
  | [] => .ok none
  | pCmp :: list => do
    if ← waveMatches pWave pCmp then return some pCmp
    else match_oi_wavelength pWave list

/-- C's `isspace` (in the "C" locale). -/
def isSpaceC (c : Char) : Bool :=
  c == ' ' || c == '\t' || c == '\n' || c == '\x0b' || c == '\x0c' || c == '\r'

/-- The value of a string of decimal digits. -/
def digitsVal (ds : CStr) : Nat := ds.foldl (fun n c => 10 * n + (c.toNat - 48)) 0

/-- At most `w` decimal digits (but at least one) at the start of the text: their
value and the rest of the text. -/
def scanDigits (w : Nat) (s : CStr) : Option (Nat × CStr) :=
  let ds := (s.take w).takeWhile Char.isDigit
  if ds.isEmpty then none else some (digitsVal ds, s.drop ds.length)

/-- The `scanf` conversion `%<w>ld`: skips white space; then an optional sign and
digits, together at most `w` characters. -/
def scanLong (w : Nat) (s : CStr) : Option (Int × CStr) :=
  match s.dropWhile isSpaceC with
  | '-' :: rest => (scanDigits (w - 1) rest).map fun (n, s) => (-(n : Int), s)
  | '+' :: rest => (scanDigits (w - 1) rest).map fun (n, s) => ((n : Int), s)
  | s => (scanDigits w s).map fun (n, s) => ((n : Int), s)

/-- The literal `-` of a `scanf` format. -/
def scanDash (s : CStr) : Option CStr :=
  match s with
  | '-' :: rest => some rest
  | _ => none

/-- oimerge.c:149: `sscanf(s, "%4ld-%2ld-%2ld", &year, &month, &day)`: `some` if the result is 3. -/
def sscanfDate (s : CStr) : Option Date := do
  let (year, s) ← scanLong 4 s
  let s ← scanDash s
  let (month, s) ← scanLong 2 s
  let s ← scanDash s
  let (day, _) ← scanLong 2 s
  return ⟨year, month, day⟩

/-- The loop body of oimerge.c:148-151. -/
def minMjdStep (minMjd : Int) (oi : OiFits R) : Outcome Int :=
  match sscanfDate oi.header.date_obs with
  | none => .ok minMjd
  | some d => do
    let mjd ← date2mjd d.year d.month d.day
    if mjd < minMjd then return mjd else return minMjd

/-- oimerge.c:138-157 `files_min_mjd`. -/
def files_min_mjd (list : List (OiFits R)) : Outcome Int :=
  list.foldlM minMjdStep 100000

/-- The loop of oimerge.c:171-181 (macro `MERGE_HEADER_KEY`) over the inputs' values
of a keyword, from the number `nuniq` of values stored so far and the output's
value; the result is both at the end of the loop. -/
def mergeKeyLoop : List CStr → Nat → CStr → Nat × CStr
  | [], nuniq, out => (nuniq, out)
  | v :: vs, nuniq, out =>
    if v.length > 0 ∧ v ≠ out then
      if nuniq + 1 > 1 then (nuniq + 1, out)
      else mergeKeyLoop vs (nuniq + 1) (strlcpy v FLEN_VALUE)
    else mergeKeyLoop vs nuniq out

/-- oimerge.c:164-186 `MERGE_HEADER_KEY`; `vals` are the inputs' values, `out` the
initial value of the output. -/
def mergeKey (vals : List CStr) (required : Bool) (out : CStr) : CStr :=
  let (nuniq, out) := mergeKeyLoop vals 0 out
  if nuniq = 0 ∧ required then strlcpy ("UNKNOWN" : CStr) FLEN_VALUE
  else if nuniq > 1 then strlcpy ("MULTIPLE" : CStr) FLEN_VALUE
  else out

/-- oimerge.c:194-220 `merge_oi_header`. -/
def merge_oi_header (inList : List (OiFits R)) (out : OiFits R) : Outcome (OiFits R) := do
  guardAssert (out.header.origin.length == 0)
  let mjd ← files_min_mjd inList
  let h := out.header
  let key (f : OiHeader → CStr) (required : Bool) : CStr :=
    mergeKey (inList.map fun i => f i.header) required (f h)
  return { out with
    header :=
      { date_obs := snprintf FLEN_VALUE (fmtDate (mjd2date mjd))
        date := snprintf FLEN_VALUE ("[unset]" : CStr)
        content := snprintf FLEN_VALUE ("OIFITS2" : CStr)
        origin := key OiHeader.origin true
        telescop := key OiHeader.telescop true
        instrume := key OiHeader.instrume true
        observer := key OiHeader.observer true
        insmode := key OiHeader.insmode true
        object := key OiHeader.object true
        referenc := key OiHeader.referenc false
        author := key OiHeader.author false
        prog_id := key OiHeader.prog_id false
        procsoft := key OiHeader.procsoft false
        obstech := key OiHeader.obstech false } }

/-- oimerge.c:232 `MAX_TARGET`. -/
def MAX_TARGET : Nat := 100

/-- The loop body of oimerge.c:251-260: the output table and the hash table of new
TARGET_IDs, for input target `t`. -/
def mergeTargetStep (st : List (Target R) × HMap Int) (t : Target R) :
    Outcome (List (Target R) × HMap Int) :=
  match st.2.lookup t.target with
  | some _ => .ok st
  | none => do
    guardAssert (decide (st.1.length + 1 < MAX_TARGET))
    let id : Int := st.1.length + 1
    return (st.1 ++ [{ t with target_id := id }], st.2.insert t.target id)

/-- oimerge.c:244-263, the loop over the inputs: revision, targets and hash table.
The number of targets (`ntarget`) is the length of the list. -/
def mergeTargetLoop : List (OiFits R) → Int × List (Target R) × HMap Int →
    Outcome (Int × List (Target R) × HMap Int)
  | [], st => .ok st
  | oi :: ois, (rev, st) => do
    let st ← oi.targets.targ.foldlM mergeTargetStep st
    mergeTargetLoop ois (if oi.targets.revision > rev then oi.targets.revision else rev, st)

/-- oimerge.c:230-266 `merge_oi_target`. USECATEGORY is left as it was set by
`init_oi_fits`. The final `realloc` (to size 0 if there is no target, where
memory is freed) only shrinks the array. -/
def merge_oi_target (inList : List (OiFits R)) (out : OiFits R) :
    Outcome (OiFits R × HMap Int) := do
  let (rev, targ, hash) ← mergeTargetLoop inList (OI_REVN_V2_TARGET, [], HMap.empty)
  return ({ out with targets := { out.targets with revision := rev, targ := targ } }, hash)

/-- The new name of a table which clashes with table number `num` of the output yet
to come: oimerge.c:309-314 (also 371-377, 431-436); `base` is the prefix used for
long names. -/
def newName (base name : CStr) (num : Int) : CStr :=
  if name.length < FLEN_VALUE - 5 then
    snprintf FLEN_VALUE (name ++ '_' :: fmtInt0 3 num)
  else snprintf FLEN_VALUE (base ++ fmtInt0 3 num)

/-- The loop body of oimerge.c:300-322: state is the output and the hash table of
new names for the current input. The `strlcpy` of line 315 copies `newName`. -/
def mergeArrayStep (st : OiFits R × HMap CStr) (pInTab : OiArray R) :
    Outcome (OiFits R × HMap CStr) :=
  let (out, hash) := st
  match match_oi_array pInTab out.arrayList with
  | some pOutTab => .ok (out, hash.insert pInTab.arrname pOutTab.arrname)
  | none => do
    let dup ← dup_oi_array pInTab
    let dup := upgrade_oi_array dup
    let name :=
      match out.arrayHash.lookup dup.arrname with
      | some _ => strlcpy (newName "array" dup.arrname (out.numArray + 1)) FLEN_VALUE
      | none => dup.arrname
    let pOutTab := { dup with arrname := name }
    return ({ out with
        arrayHash := out.arrayHash.insert pOutTab.arrname pOutTab
        arrayList := out.arrayList ++ [pOutTab]
        numArray := out.numArray + 1 },
      hash.insert pInTab.arrname pOutTab.arrname)

/-- The loop body of oimerge.c:361-386. -/
def mergeWavelengthStep (st : OiFits R × HMap CStr) (pInTab : OiWavelength R) :
    Outcome (OiFits R × HMap CStr) := do
  let (out, hash) := st
  match ← match_oi_wavelength pInTab out.wavelengthList with
  | some pOutTab => .ok (out, hash.insert pInTab.insname pOutTab.insname)
  | none => do
    let dup ← dup_oi_wavelength pInTab
    let dup := upgrade_oi_wavelength dup
    let name :=
      match out.wavelengthHash.lookup dup.insname with
      | some _ => strlcpy (newName "ins" dup.insname (out.numWavelength + 1)) FLEN_VALUE
      | none => dup.insname
    let pOutTab := { dup with insname := name }
    return ({ out with
        wavelengthHash := out.wavelengthHash.insert pOutTab.insname pOutTab
        wavelengthList := out.wavelengthList ++ [pOutTab]
        numWavelength := out.numWavelength + 1 },
      hash.insert pInTab.insname pOutTab.insname)

/-- The loop body of oimerge.c:425-444. -/
def mergeCorrStep (st : OiFits R × HMap CStr) (pInTab : OiCorr R) :
    Outcome (OiFits R × HMap CStr) := do
  let (out, hash) := st
  let dup ← dup_oi_corr pInTab
  let name :=
    match out.corrHash.lookup dup.corrname with
    | some _ => strlcpy (newName "ins" dup.corrname (out.numCorr + 1)) FLEN_VALUE
    | none => dup.corrname
  let pOutTab := { dup with corrname := name }
  return ({ out with
      corrHash := out.corrHash.insert pOutTab.corrname pOutTab
      corrList := out.corrList ++ [pOutTab]
      numCorr := out.numCorr + 1 },
    hash.insert pInTab.corrname pOutTab.corrname)

/-- The loop over the input datasets of oimerge.c:288-325 (also 349-389, 413-447):
`tabs` are the tables of one dataset, `step` is the loop body. The hash tables of
new names are appended to the list `hashes`. -/
def mergeNames {τ : Type} (tabs : OiFits R → List τ)
    (step : OiFits R × HMap CStr → τ → Outcome (OiFits R × HMap CStr)) :
    List (OiFits R) → OiFits R → List (HMap CStr) → Outcome (OiFits R × List (HMap CStr))
  | [], out, hashes => .ok (out, hashes)
  | inp :: inps, out, hashes => do
    let (out, hash) ← (tabs inp).foldlM step (out, HMap.empty)
    mergeNames tabs step inps out (hashes ++ [hash])

/-- oimerge.c:277-327 `merge_all_oi_array`. -/
def merge_all_oi_array (inList : List (OiFits R)) (out : OiFits R) :
    Outcome (OiFits R × List (HMap CStr)) := do
  guardAssert out.arrayList.isEmpty
  mergeNames OiFits.arrayList mergeArrayStep inList out []

/-- oimerge.c:338-391 `merge_all_oi_wavelength`. -/
def merge_all_oi_wavelength (inList : List (OiFits R)) (out : OiFits R) :
    Outcome (OiFits R × List (HMap CStr)) := do
  guardAssert out.wavelengthList.isEmpty
  mergeNames OiFits.wavelengthList mergeWavelengthStep inList out []

/-- oimerge.c:402-449 `merge_all_oi_corr`. -/
def merge_all_oi_corr (inList : List (OiFits R)) (out : OiFits R) :
    Outcome (OiFits R × List (HMap CStr)) := do
  guardAssert out.corrList.isEmpty
  mergeNames OiFits.corrList mergeCorrStep inList out []

/-- `g_strlcpy(name, g_hash_table_lookup(hash, name), FLEN_VALUE)` of oimerge.c:464-466
`REPLACE_INSNAME` and 535-540: with a NULL source `g_strlcpy` returns without
touching the destination. -/
def replaceName (hash : HMap CStr) (name : CStr) : CStr :=
  match hash.lookup name with
  | some new => strlcpy new FLEN_VALUE
  | none => name

/-- oimerge.c:452-461 `REPLACE_ARRNAME` and 469-478 `REPLACE_CORRNAME`. -/
def replaceOptName (hash : HMap CStr) (name : CStr) : CStr :=
  if name.length > 0 then replaceName hash name else name

/-- oimerge.c:481-493 `REPLACE_TARGET_ID` for one record: the new TARGET_ID. Both the
target (lines 489-491) and the hash table entry are dereferenced. -/
def mergedTargetId (pInOi : OiFits R) (targetIdHash : HMap Int) (id : Int) : Outcome Int := do
  let t ← deref (oi_fits_lookup_target pInOi id)
  deref (targetIdHash.lookup t.target)

/-- The loop body of oimerge.c:532-543. -/
def mergeInspolTab (pInput : OiFits R) (ids : HMap Int) (arrHash insHash : HMap CStr)
    (out : OiFits R) (t : OiInspol R) : Outcome (OiFits R) := do
  let t ← dup_oi_inspol t
  let t := { t with arrname := replaceOptName arrHash t.arrname }
  let record ← t.record.mapM fun r => do
    let id ← mergedTargetId pInput ids r.target_id
    return { r with target_id := id }
  let record := record.map fun r => { r with insname := replaceName insHash r.insname }
  let t := { t with record := record }
  return { out with inspolList := out.inspolList ++ [t], numInspol := out.numInspol + 1 }

/-- oimerge.c:509-550 `merge_all_oi_inspol`. -/
def merge_all_oi_inspol (ids : HMap Int) : List (OiFits R) → List (HMap CStr) →
    List (HMap CStr) → OiFits R → Outcome (OiFits R)
  | [], _, _, out => .ok out
  | inp :: inps, a :: as, i :: is, out => do
    let out ← inp.inspolList.foldlM (mergeInspolTab inp ids a i) out
    merge_all_oi_inspol ids inps as is out
  | _ :: _, _, _, _ => .ub

/-- The loop body of oimerge.c:593-601. -/
def mergeVisTab (pInput : OiFits R) (ids : HMap Int) (arrHash insHash corrHash : HMap CStr)
    (out : OiFits R) (t : OiVis R) : Outcome (OiFits R) := do
  let t ← dup_oi_vis t
  let t := upgrade_oi_vis t
  let t := { t with arrname := replaceOptName arrHash t.arrname }
  let t := { t with insname := replaceName insHash t.insname }
  let t := { t with corrname := replaceOptName corrHash t.corrname }
  let record ← t.record.mapM fun r => do
    let id ← mergedTargetId pInput ids r.target_id
    return { r with target_id := id }
  let t := { t with record := record }
  return { out with visList := out.visList ++ [t], numVis := out.numVis + 1 }

/-- The loop body of oimerge.c:652-660. -/
def mergeVis2Tab (pInput : OiFits R) (ids : HMap Int) (arrHash insHash corrHash : HMap CStr)
    (out : OiFits R) (t : OiVis2 R) : Outcome (OiFits R) := do
  let t ← dup_oi_vis2 t
  let t := upgrade_oi_vis2 t
  let t := { t with arrname := replaceOptName arrHash t.arrname }
  let t := { t with insname := replaceName insHash t.insname }
  let t := { t with corrname := replaceOptName corrHash t.corrname }
  let record ← t.record.mapM fun r => do
    let id ← mergedTargetId pInput ids r.target_id
    return { r with target_id := id }
  let t := { t with record := record }
  return { out with vis2List := out.vis2List ++ [t], numVis2 := out.numVis2 + 1 }

/-- The loop body of oimerge.c:710-718. -/
def mergeT3Tab (pInput : OiFits R) (ids : HMap Int) (arrHash insHash corrHash : HMap CStr)
    (out : OiFits R) (t : OiT3 R) : Outcome (OiFits R) := do
  let t ← dup_oi_t3 t
  let t := upgrade_oi_t3 t
  let t := { t with arrname := replaceOptName arrHash t.arrname }
  let t := { t with insname := replaceName insHash t.insname }
  let t := { t with corrname := replaceOptName corrHash t.corrname }
  let record ← t.record.mapM fun r => do
    let id ← mergedTargetId pInput ids r.target_id
    return { r with target_id := id }
  let t := { t with record := record }
  return { out with t3List := out.t3List ++ [t], numT3 := out.numT3 + 1 }

/-- The loop body of oimerge.c:768-775. -/
def mergeFluxTab (pInput : OiFits R) (ids : HMap Int) (arrHash insHash corrHash : HMap CStr)
    (out : OiFits R) (t : OiFlux R) : Outcome (OiFits R) := do
  let t ← dup_oi_flux t
  let t := { t with arrname := replaceOptName arrHash t.arrname }
  let t := { t with insname := replaceName insHash t.insname }
  let t := { t with corrname := replaceOptName corrHash t.corrname }
  let record ← t.record.mapM fun r => do
    let id ← mergedTargetId pInput ids r.target_id
    return { r with target_id := id }
  let t := { t with record := record }
  return { out with fluxList := out.fluxList ++ [t], numFlux := out.numFlux + 1 }

/-- The loop over the input datasets and, in step, over the lists of hash tables,
of oimerge.c:579-608 (also 638-667, 696-725, 753-782). Running off the end of a list
of hash tables is a NULL dereference. -/
def mergeData {τ : Type} (tabs : OiFits R → List τ)
    (step : OiFits R → HMap CStr → HMap CStr → HMap CStr → OiFits R → τ → Outcome (OiFits R)) :
    List (OiFits R) → List (HMap CStr) → List (HMap CStr) → List (HMap CStr) → OiFits R →
      Outcome (OiFits R)
  | [], _, _, _, out => .ok out
  | inp :: inps, a :: as, i :: is, c :: cs, out => do
    let out ← (tabs inp).foldlM (step inp a i c) out
    mergeData tabs step inps as is cs out
  | _ :: _, _, _, _, _ => .ub

/-- oimerge.c:568-609 `merge_all_oi_vis`. -/
def merge_all_oi_vis (ids : HMap Int) (inList : List (OiFits R))
    (arrs inss corrs : List (HMap CStr)) (out : OiFits R) : Outcome (OiFits R) :=
  mergeData OiFits.visList (fun inp => mergeVisTab inp ids) inList arrs inss corrs out

/-- oimerge.c:627-668 `merge_all_oi_vis2`. -/
def merge_all_oi_vis2 (ids : HMap Int) (inList : List (OiFits R))
    (arrs inss corrs : List (HMap CStr)) (out : OiFits R) : Outcome (OiFits R) :=
  mergeData OiFits.vis2List (fun inp => mergeVis2Tab inp ids) inList arrs inss corrs out

/-- oimerge.c:686-726 `merge_all_oi_t3`. -/
def merge_all_oi_t3 (ids : HMap Int) (inList : List (OiFits R))
    (arrs inss corrs : List (HMap CStr)) (out : OiFits R) : Outcome (OiFits R) :=
  mergeData OiFits.t3List (fun inp => mergeT3Tab inp ids) inList arrs inss corrs out

/-- oimerge.c:743-783 `merge_all_oi_flux`. -/
def merge_all_oi_flux (ids : HMap Int) (inList : List (OiFits R))
    (arrs inss corrs : List (HMap CStr)) (out : OiFits R) : Outcome (OiFits R) :=
  mergeData OiFits.fluxList (fun inp => mergeFluxTab inp ids) inList arrs inss corrs out

/-- oimerge.c:793-837 `merge_oi_fits_list` (freeing the hash tables is not
modelled). -/
def merge_oi_fits_list (inList : List (OiFits R)) : Outcome (OiFits R) := do
  let out := init_oi_fits R
  let out ← merge_oi_header inList out
  let (out, ids) ← merge_oi_target inList out
  let (out, arrs) ← merge_all_oi_array inList out
  let (out, inss) ← merge_all_oi_wavelength inList out
  let (out, corrs) ← merge_all_oi_corr inList out
  let out ← merge_all_oi_inspol ids inList arrs inss out
  let out ← merge_all_oi_vis ids inList arrs inss corrs out
  let out ← merge_all_oi_vis2 ids inList arrs inss corrs out
  let out ← merge_all_oi_t3 ids inList arrs inss corrs out
  merge_all_oi_flux ids inList arrs inss corrs out

/-- oimerge.c:850-869 `merge_oi_fits`: the arguments up to the terminating NULL are
put in a list. -/
def merge_oi_fits (pInput1 pInput2 : OiFits R) (more : List (OiFits R)) : Outcome (OiFits R) :=
  merge_oi_fits_list (([] ++ [pInput1]) ++ [pInput2] ++ more)

end Verif
