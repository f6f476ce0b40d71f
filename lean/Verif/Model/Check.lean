import Verif.Model.File

/-! Model of `/repo/src/oifitslib/oicheck.c`.

A check function is a program over its result struct (`CheckM`). Loops over a
GList or over records are `enumM`, which passes the 0-based position as
`g_list_position` or the loop index gives it. `numBreach` is unbounded (`int` in
C, so the model is exact up to 2^31-1 breaches). The GStringChunk holding copies
of the strings is not modelled. -/

namespace Verif
open Outcome

variable {R : FP}

/-- oicheck.h:82-89 `oi_breach_level`. -/
inductive Level where
  | none
  | warning
  | notOifits
  | notFits
deriving DecidableEq, Repr

/-- oicheck.h:82-89. The integer value of the C enumerator. -/
def Level.toNat : Level → Nat
  | .none => 0
  | .warning => 1
  | .notOifits => 2
  | .notFits => 3

/-- oicheck.h:79 `MAX_REPORT`. -/
def MAX_REPORT : Nat := 10

/-- oicheck.h:94-102 `oi_check_result` (`location[MAX_REPORT]` as a list). -/
structure CheckResult where
  level : Level
  description : Option CStr
  numBreach : Nat
  location : List (Option CStr)
deriving DecidableEq

/-- oicheck.c:37-41 `oi_breach_level_desc`. -/
def oi_breach_level_desc : Level → CStr
  | .none => "No error"
  | .warning => "Valid OIFITS, but may cause problems for some reading software"
  | .notOifits => "Does not conform to the OIFITS standard"
  | .notFits => "Does not conform to the FITS standard"

/-- oicheck.c:48-58 `init_check_result`. -/
def init_check_result : CheckResult where
  level := .none
  description := none
  numBreach := 0
  location := List.replicate MAX_REPORT none

/-- oicheck.c:61-79 (in `set_result`): Assignment to `location[i]`, out of bounds outside the array. -/
def storeLocation (res : CheckResult) (i : Nat) (s : CStr) : Outcome CheckResult :=
  if i < res.location.length then .ok { res with location := res.location.set i (some s) }
  else .ub

/-- oicheck.c:64-68, the first part of `set_result`: level and description. -/
def setLevelDesc (res : CheckResult) (level : Level) (description : CStr) : Outcome CheckResult :=
  let res := if level.toNat > res.level.toNat then { res with level := level } else res
  match res.description with
  | none => .ok { res with description := some description }
  | some d => if description = d then .ok res else .abort

/-- oicheck.c:61-79 `set_result`. -/
def set_result (res : CheckResult) (level : Level) (description location : CStr) :
    Outcome CheckResult := do
  let res ← setLevelDesc res level description
  let res := { res with numBreach := res.numBreach + 1 }
  if res.numBreach < MAX_REPORT then storeLocation res (res.numBreach - 1) location
  else if res.numBreach = MAX_REPORT then
    storeLocation res (MAX_REPORT - 1) ("[List truncated]" : CStr)
  else .ok res

/-- oicheck.c:98-114 `format_check_result`; `none` is NULL. -/
def format_check_result (res : CheckResult) : Outcome (Option CStr) :=
  if res.level = .none then .ok none
  else do
    let desc ← deref res.description
    let head := ("*** " : CStr) ++ oi_breach_level_desc res.level ++ (":\n" : CStr) ++ desc ++
      (", " : CStr) ++ fmtInt res.numBreach ++ (" occurrences:-\n" : CStr)
    let n := if res.numBreach < MAX_REPORT then res.numBreach else MAX_REPORT
    let text ← loopN n (fun i text => do
      let p ← index res.location i
      let s ← deref p
      return text ++ (("    " : CStr) ++ s ++ ("\n" : CStr))) head
    return some text

/-- oicheck.c:121-124 `print_check_result`: the text printed. Printing a NULL string
is undefined. -/
def print_check_result (res : CheckResult) : Outcome CStr := do
  let s ← format_check_result res
  deref s

/-- A piece of a check function, acting on `*pResult`. -/
abbrev CheckM := StateT CheckResult Outcome

/-- oicheck.c:61-79, as called by the checks: `set_result(pResult, level, desc, location)` where `location` was formatted by
`g_snprintf(location, FLEN_VALUE, ...)` as `text`. -/
def report (level : Level) (desc text : CStr) : CheckM Unit := fun res => do
  let res ← set_result res level desc (snprintf FLEN_VALUE text)
  return ((), res)

/-- `if (c) m`. -/
def whenM (c : Bool) (m : CheckM Unit) : CheckM Unit := if c then m else pure ()

/-- `a || b` where evaluating `b` reads memory. -/
def orM (a : Bool) (b : CheckM Bool) : CheckM Bool := if a then pure true else b

/-- `a && b` where evaluating `b` reads memory. -/
def andM (a : Bool) (b : CheckM Bool) : CheckM Bool := if a then b else pure false

/-- Loop over the entries of a list from position `k`. -/
def enumFromM {α : Type} (k : Nat) (f : Nat → α → CheckM Unit) : List α → CheckM Unit
  | [] => pure ()
  | x :: l => do f k x; enumFromM (k + 1) f l

/-- Loop over the entries of a GList or array with their positions 0, 1, .... -/
def enumM {α : Type} (l : List α) (f : Nat → α → CheckM Unit) : CheckM Unit := enumFromM 0 f l

/-- `for (j = 0; j < n; j++)`. -/
def rangeM (n : Nat) (f : Nat → CheckM Unit) : CheckM Unit :=
  enumM (List.range n) fun _ j => f j

/-- Read element `i` of an array. -/
def readAt {α : Type} (l : List α) (i : Nat) : CheckM α := StateT.lift (index l i)

/-- `init_check_result` followed by the body of a check function. The level the
function returns is the field `level`. -/
def runCheck (m : CheckM Unit) : Outcome CheckResult := do
  let (_, res) ← m.run init_check_result
  return res

/-- oicheck.c:629 and the other calls of `g_snprintf` for tables: The text `"%s #%d"` of a table with 0-based position `k`. -/
def tableText (name : CStr) (k : Int) : CStr := name ++ (" #" : CStr) ++ fmtInt (k + 1)

/-- oicheck.c:534 and the other calls of `g_snprintf` for records: The text `"%s #%d record %d"`. -/
def recordText (name : CStr) (k : Int) (i : Nat) : CStr :=
  tableText name k ++ (" record " : CStr) ++ fmtInt (i + 1)

/-- oicheck.c:966, 987, 1008: The text `"%s #%d record %d channel %d"`. -/
def channelText (name : CStr) (k : Int) (i j : Nat) : CStr :=
  recordText name k i ++ (" channel " : CStr) ++ fmtInt (j + 1)

/-- oicheck.c:126-145 `CHECK_BAD_TAB_REVISION`. -/
def checkBadTabRevision {τ : Type} (tabs : List τ) (revision : τ → Int) (name : CStr)
    (rev : Int) : CheckM Unit :=
  enumM tabs fun k tab =>
    whenM (revision tab != rev)
      (report .notOifits ("Invalid OI_REVN" : CStr) (tableText name k))

/-- oicheck.c:155-233 `check_tables`. -/
def check_tables (oi : OiFits R) : Outcome CheckResult := runCheck <|
  let desc1 : CStr := "Mandatory table missing"
  if is_oi_fits_two oi then do
    whenM (oi.numArray == 0)
      (report .notOifits desc1 ("No OI_ARRAY table - at least one required" : CStr))
    whenM (oi.numWavelength == 0)
      (report .notOifits desc1 ("No OI_WAVELENGTH table - at least one required" : CStr))
    whenM (oi.numVis == 0 && oi.numVis2 == 0 && oi.numT3 == 0 && oi.numFlux == 0)
      (report .notOifits desc1
        ("No data table - at least one OI_VIS/VIS2/T3/FLUX required" : CStr))
    whenM (oi.targets.revision != OI_REVN_V2_TARGET)
      (report .notOifits ("Invalid OI_REVN" : CStr) ("OI_TARGET" : CStr))
    checkBadTabRevision oi.arrayList (·.revision) "OI_ARRAY" OI_REVN_V2_ARRAY
    checkBadTabRevision oi.wavelengthList (·.revision) "OI_WAVELENGTH" OI_REVN_V2_WAVELENGTH
    checkBadTabRevision oi.visList (·.revision) "OI_VIS" OI_REVN_V2_VIS
    checkBadTabRevision oi.vis2List (·.revision) "OI_VIS2" OI_REVN_V2_VIS2
    checkBadTabRevision oi.t3List (·.revision) "OI_T3" OI_REVN_V2_T3
    checkBadTabRevision oi.fluxList (·.revision) "OI_FLUX" OI_REVN_V2_FLUX
    checkBadTabRevision oi.corrList (·.revision) "OI_CORR" OI_REVN_V2_CORR
    checkBadTabRevision oi.inspolList (·.revision) "OI_INSPOL" OI_REVN_V2_INSPOL
  else do
    whenM (oi.numWavelength == 0)
      (report .notOifits desc1 ("No OI_WAVELENGTH table - at least one required" : CStr))
    whenM (oi.numVis == 0 && oi.numVis2 == 0 && oi.numT3 == 0)
      (report .notOifits desc1
        ("No data table - at least one OI_VIS/VIS2/T3 required" : CStr))
    whenM (oi.targets.revision != OI_REVN_V1_TARGET)
      (report .notOifits ("Invalid OI_REVN" : CStr) ("OI_TARGET" : CStr))
    checkBadTabRevision oi.arrayList (·.revision) "OI_ARRAY" OI_REVN_V1_ARRAY
    checkBadTabRevision oi.wavelengthList (·.revision) "OI_WAVELENGTH" OI_REVN_V1_WAVELENGTH
    checkBadTabRevision oi.visList (·.revision) "OI_VIS" OI_REVN_V1_VIS
    checkBadTabRevision oi.vis2List (·.revision) "OI_VIS2" OI_REVN_V1_VIS2
    checkBadTabRevision oi.t3List (·.revision) "OI_T3" OI_REVN_V1_T3

/-- One of the tests of oicheck.c:251-311: `if (strlen(value) == 0) ...`. -/
def checkHeaderKey (value text : CStr) : CheckM Unit :=
  whenM (value.length == 0)
    (report .notOifits ("Invalid/missing primary header keyword value" : CStr) text)

/-- oicheck.c:243-314 `check_header`. -/
def check_header (oi : OiFits R) : Outcome CheckResult := runCheck <|
  whenM (is_oi_fits_two oi) do
    checkHeaderKey oi.header.origin "ORIGIN value missing from primary header"
    checkHeaderKey oi.header.date "DATE value missing from primary header"
    checkHeaderKey oi.header.date_obs "DATE-OBS value missing from primary header"
    if oi.header.content.length == 0 then
      report .notOifits ("Invalid/missing primary header keyword value" : CStr)
        ("CONTENT value missing from primary header" : CStr)
    else
      whenM (oi.header.content != ("OIFITS2" : CStr))
        (report .notOifits ("Invalid/missing primary header keyword value" : CStr)
          (("Value of CONTENT in primary header is '" : CStr) ++ oi.header.content ++
            ("' not 'OIFITS2'" : CStr)))
    checkHeaderKey oi.header.telescop "TELESCOP value missing from primary header"
    checkHeaderKey oi.header.instrume "INSTRUME value missing from primary header"
    checkHeaderKey oi.header.observer "OBSERVER value missing from primary header"
    checkHeaderKey oi.header.insmode "INSMODE value missing from primary header"
    checkHeaderKey oi.header.object "OBJECT value missing from primary header"

/-- oicheck.c:338-353, the OI_ARRAY part of `check_keywords`. -/
def checkArrayKeywords (desc : CStr) (k : Nat) (t : OiArray R) : CheckM Unit :=
  whenM (t.frame != ("GEOCENTRIC" : CStr) && t.frame != ("SKY" : CStr))
    (report .notOifits desc
      (tableText "OI_ARRAY" k ++ (" FRAME='" : CStr) ++ t.frame ++
        ("' ('GEOCENTRIC'/'SKY')" : CStr)))

/-- oicheck.c:355-381, the OI_VIS part of `check_keywords`. -/
def checkVisKeywords (ver2 : Bool) (desc : CStr) (k : Nat) (t : OiVis R) : CheckM Unit := do
  whenM (ver2 && decide (t.amptyp.length > 0) && t.amptyp != ("absolute" : CStr) &&
      t.amptyp != ("differential" : CStr) && t.amptyp != ("correlated flux" : CStr))
    (report .notOifits desc
      (tableText "OI_VIS" k ++ (" AMPTYP='" : CStr) ++ t.amptyp ++
        ("' ('absolute'/'differential'/'correlated flux')" : CStr)))
  whenM (ver2 && decide (t.phityp.length > 0) && t.phityp != ("absolute" : CStr) &&
      t.phityp != ("differential" : CStr))
    (report .notOifits desc
      (tableText "OI_VIS" k ++ (" PHITYP='" : CStr) ++ t.phityp ++
        ("' ('absolute'/'differential')" : CStr)))

/-- oicheck.c:383-403, the OI_FLUX part of `check_keywords`. CALSTAT is written with `%c`: when it
is the NUL character (which is what reading a blank CALSTAT gives) the C string ends there. -/
def checkFluxKeywords (desc : CStr) (k : Nat) (t : OiFlux R) : CheckM Unit := do
  whenM (t.calstat != 'C' && t.calstat != 'U')
    (report .notOifits desc
      (tableText "OI_FLUX" k ++ (" CALSTAT='" : CStr) ++
        (if t.calstat = '\x00' then [] else t.calstat :: ("' ('C'/'U')" : CStr))))
  whenM (decide (t.fovtype.length > 0) && t.fovtype != ("FWHM" : CStr) &&
      t.fovtype != ("RADIUS" : CStr))
    (report .notOifits desc
      (tableText "OI_FLUX" k ++ (" FOVTYPE='" : CStr) ++ t.fovtype ++
        ("' ('FWHM', 'RADIUS')" : CStr)))

/-- oicheck.c:324-406 `check_keywords`. -/
def check_keywords (oi : OiFits R) : Outcome CheckResult := runCheck <| do
  let desc : CStr := "Invalid keyword value"
  enumM oi.arrayList (checkArrayKeywords desc)
  enumM oi.visList (checkVisKeywords (is_oi_fits_two oi) desc)
  enumM oi.fluxList (checkFluxKeywords desc)

/-- oicheck.c:419-460 `check_visrefmap`. -/
def check_visrefmap (oi : OiFits R) : Outcome CheckResult := runCheck <|
  let desc : CStr := "VISREFMAP present (missing) for absolute (differential) vis"
  enumM oi.visList fun k t =>
    let types := tableText "OI_VIS" k ++ (" AMPTYP='" : CStr) ++ t.amptyp ++
      ("' PHITYP='" : CStr) ++ t.phityp
    if t.amptyp == ("differential" : CStr) || t.phityp == ("differential" : CStr) then
      whenM (!t.usevisrefmap) (report .notOifits desc (types ++ ("' has no VISREFMAP" : CStr)))
    else
      whenM t.usevisrefmap (report .warning desc (types ++ ("' has VISREFMAP" : CStr)))

/-- oicheck.c:481-497, the loop of `check_unique_targets`, with the names seen so
far (`idList`). -/
def checkUniqueLoop (idList : List CStr) : List (Target R) → CheckM Unit
  | [] => pure ()
  | t :: l =>
    if idList.contains t.target then do
      report .warning ("Duplicate value in TARGET column of OI_TARGET" : CStr)
        (("TARGET_ID=" : CStr) ++ fmtInt t.target_id ++ ("  TARGET='" : CStr) ++ t.target ++
          ("'" : CStr))
      checkUniqueLoop idList l
    else checkUniqueLoop (t.target :: idList) l

/-- oicheck.c:470-501 `check_unique_targets`. -/
def check_unique_targets (oi : OiFits R) : Outcome CheckResult :=
  runCheck (checkUniqueLoop [] oi.targets.targ)

/-- The body of the four loops in oicheck.c:525-591: one table named `name`. -/
def checkTargetIds {ρ : Type} (oi : OiFits R) (name : CStr) (target_id : ρ → Int) (k : Nat)
    (record : List ρ) : CheckM Unit :=
  enumM record fun i r =>
    whenM (oi_fits_lookup_target oi (target_id r)).isNone
      (report .notOifits ("Reference to missing target record" : CStr) (recordText name k i))

/-- oicheck.c:511-594 `check_targets_present`. -/
def check_targets_present (oi : OiFits R) : Outcome CheckResult := runCheck <| do
  enumM oi.visList fun k t => checkTargetIds oi "OI_VIS" (·.target_id) k t.record
  enumM oi.vis2List fun k t => checkTargetIds oi "OI_VIS2" (·.target_id) k t.record
  enumM oi.t3List fun k t => checkTargetIds oi "OI_T3" (·.target_id) k t.record
  enumM oi.fluxList fun k t => checkTargetIds oi "OI_FLUX" (·.target_id) k t.record

/-- oicheck.c:608-695 `check_arrname`. For OI_INSPOL tables the position is looked
up in the wrong list (line 630), which gives -1. -/
def check_arrname (oi : OiFits R) : Outcome CheckResult := runCheck <|
  let desc : CStr := "ARRNAME missing"
  whenM (is_oi_fits_two oi) do
    enumM oi.inspolList fun _ t =>
      whenM (t.arrname.length == 0) (report .notOifits desc (tableText "OI_INSPOL" (-1)))
    enumM oi.visList fun k t =>
      whenM (t.arrname.length == 0) (report .notOifits desc (tableText "OI_VIS" k))
    enumM oi.vis2List fun k t =>
      whenM (t.arrname.length == 0) (report .notOifits desc (tableText "OI_VIS2" k))
    enumM oi.t3List fun k t =>
      whenM (t.arrname.length == 0) (report .notOifits desc (tableText "OI_T3" k))
    enumM oi.fluxList fun k t =>
      whenM (t.calstat == 'U' && t.arrname.length == 0)
        (report .notOifits desc (tableText "OI_FLUX" k))

/-- The test in oicheck.c:732, 761, 785, 809, 832 and the report made if it holds. -/
def checkElement (oi : OiFits R) (arrname name : CStr) (k i : Nat) (sta : Int) : CheckM Unit :=
  whenM (oi_fits_lookup_element oi arrname sta).isNone
    (report .notOifits ("Reference to missing array element" : CStr) (recordText name k i))

/-- oicheck.c:707-845 `check_elements_present`. As in `check_arrname` the position
of an OI_INSPOL table without ARRNAME is looked up in the wrong list. -/
def check_elements_present (oi : OiFits R) : Outcome CheckResult := runCheck <| do
  enumM oi.inspolList fun k t =>
    if t.arrname.length > 0 then
      enumM t.record fun i r => checkElement oi t.arrname "OI_INSPOL" k i r.sta_index
    else report .notOifits ("ARRNAME missing" : CStr) (tableText "OI_INSPOL" (-1))
  enumM oi.visList fun k t =>
    whenM (decide (t.arrname.length > 0)) <|
      enumM t.record fun i r => do
        checkElement oi t.arrname "OI_VIS" k i r.sta_index.1
        checkElement oi t.arrname "OI_VIS" k i r.sta_index.2
  enumM oi.vis2List fun k t =>
    whenM (decide (t.arrname.length > 0)) <|
      enumM t.record fun i r => do
        checkElement oi t.arrname "OI_VIS2" k i r.sta_index.1
        checkElement oi t.arrname "OI_VIS2" k i r.sta_index.2
  enumM oi.t3List fun k t =>
    whenM (decide (t.arrname.length > 0)) <|
      enumM t.record fun i r => do
        checkElement oi t.arrname "OI_T3" k i r.sta_index.1
        checkElement oi t.arrname "OI_T3" k i r.sta_index.2.1
        checkElement oi t.arrname "OI_T3" k i r.sta_index.2.2
  enumM oi.fluxList fun k t =>
    whenM (decide (t.arrname.length > 0)) <|
      enumM t.record fun i r =>
        whenM (r.sta_index != -1) (checkElement oi t.arrname "OI_FLUX" k i r.sta_index)

/-- The test in oicheck.c:875-881 and its copies. -/
def checkCorrname (oi : OiFits R) (corrname name : CStr) (k : Nat) : CheckM Unit :=
  whenM (decide (corrname.length > 0) && (oi_fits_lookup_corr oi corrname).isNone)
    (report .notOifits ("Reference to missing OI_CORR table" : CStr) (tableText name k))

/-- oicheck.c:858-931 `check_corr_present`. -/
def check_corr_present (oi : OiFits R) : Outcome CheckResult := runCheck <| do
  enumM oi.visList fun k t => checkCorrname oi t.corrname "OI_VIS" k
  enumM oi.vis2List fun k t => checkCorrname oi t.corrname "OI_VIS2" k
  enumM oi.t3List fun k t => checkCorrname oi t.corrname "OI_T3" k
  enumM oi.fluxList fun k t => checkCorrname oi t.corrname "OI_FLUX" k

/-- oicheck.c:963-964, 985, 1006: `x < 0.` -/
def isNeg (x : R.Dbl) : Bool := R.lt x (R.lit 0)

/-- The body of the channel loops in oicheck.c:962-969 and 1005-1012. -/
def checkTwoErrors (name : CStr) (flag : List Bool) (err1 err2 : List R.Dbl) (k i j : Nat) :
    CheckM Unit := do
  let f ← readAt flag j
  whenM (!f) do
    let e1 ← readAt err1 j
    let bad ← orM (isNeg e1) (do
      let e2 ← readAt err2 j
      return isNeg e2)
    whenM bad
      (report .notOifits ("Data table contains negative error bar" : CStr)
        (channelText name k i j))

/-- The body of the channel loop in oicheck.c:984-990. -/
def checkOneError (name : CStr) (flag : List Bool) (err : List R.Dbl) (k i j : Nat) :
    CheckM Unit := do
  let f ← readAt flag j
  whenM (!f) do
    let e ← readAt err j
    whenM (isNeg e)
      (report .notOifits ("Data table contains negative error bar" : CStr)
        (channelText name k i j))

/-- oicheck.c:941-1018 `check_flagging`. -/
def check_flagging (oi : OiFits R) : Outcome CheckResult := runCheck <| do
  enumM oi.visList fun k t => enumM t.record fun i r => rangeM t.nwave fun j =>
    checkTwoErrors "OI_VIS" r.flag r.visamperr r.visphierr k i j
  enumM oi.vis2List fun k t => enumM t.record fun i r => rangeM t.nwave fun j =>
    checkOneError "OI_VIS2" r.flag r.vis2err k i j
  enumM oi.t3List fun k t => enumM t.record fun i r => rangeM t.nwave fun j =>
    checkTwoErrors "OI_T3" r.flag r.t3amperr r.t3phierr k i j

/-- oicheck.c:1051: `(t3amp - 1.0) > 1 * t3amperr`. -/
def t3ampBad (amp err : R.Dbl) : Bool := R.lt (R.mul (R.lit 1) err) (R.sub amp (R.lit 1))

/-- oicheck.c:1028-1063 `check_t3amp`. -/
def check_t3amp (oi : OiFits R) : Outcome CheckResult := runCheck <|
  enumM oi.t3List fun k t => enumM t.record fun i r => rangeM t.nwave fun j => do
    let f ← readAt r.flag j
    whenM (!f) do
      let amp ← readAt r.t3amp j
      let err ← readAt r.t3amperr j
      whenM (t3ampBad amp err)
        (report .notOifits
          ("OI_T3 table may contain unnormalised triple product amplitude" : CStr)
          (channelText "OI_T3" k i j))

/-- oicheck.c:1089-1090: `x < y` on values of type float. -/
def ltF (x y : R.Flt) : Bool := R.lt (R.toD x) (R.toD y)

/-- oicheck.c:1073-1101 `check_waveorder`. The loop starts from 1. -/
def check_waveorder (oi : OiFits R) : Outcome CheckResult := runCheck <|
  enumM oi.wavelengthList fun _ w => rangeM (w.nwave - 1) fun j => do
    let i := j + 1
    let x ← readAt w.eff_wave i
    let prev ← readAt w.eff_wave (i - 1)
    let bad ← orM (ltF x prev)
      (andM (decide (i + 1 < w.nwave)) (do
        let x ← readAt w.eff_wave i
        let next ← readAt w.eff_wave (i + 1)
        return ltF next x))
    whenM bad
      (report .warning ("OI_WAVELENGTH has wavelengths not in ascending order" : CStr)
        (("OI_WAVELENGTH INSNAME=" : CStr) ++ w.insname ++ (" channel " : CStr) ++
          fmtInt (i + 1)))

/-- The body of the record loops in oicheck.c:1135, 1152, 1169. -/
def checkZeroTime (name : CStr) (k i : Nat) (time : R.Dbl) : CheckM Unit :=
  whenM (R.lt (R.lit 1e-10) (R.abs time))
    (report .warning ("Non-zero TIME values in OIFITS v2 data table" : CStr)
      (recordText name k i))

/-- oicheck.c:1113-1180 `check_time`. -/
def check_time (oi : OiFits R) : Outcome CheckResult := runCheck <|
  whenM (is_oi_fits_two oi) do
    enumM oi.visList fun k t => enumM t.record fun i r => checkZeroTime "OI_VIS" k i r.time
    enumM oi.vis2List fun k t => enumM t.record fun i r => checkZeroTime "OI_VIS2" k i r.time
    enumM oi.t3List fun k t => enumM t.record fun i r => checkZeroTime "OI_T3" k i r.time

/-- oicheck.c:1208-1224, a calibrated OI_FLUX table in `check_flux`. -/
def checkFluxCal (desc : CStr) (k : Nat) (t : OiFlux R) : CheckM Unit := do
  whenM (decide (t.arrname.length > 0))
    (report .notOifits desc (tableText "OI_FLUX" k ++
      (" Calibrated but ARRNAME='" : CStr) ++ t.arrname ++ ("'" : CStr)))
  let r ← readAt t.record 0
  whenM (r.sta_index != -1)
    (report .notOifits desc (tableText "OI_FLUX" k ++
      (" Calibrated but STA_INDEX present" : CStr)))

/-- oicheck.c:1225-1248, an uncalibrated OI_FLUX table in `check_flux`. -/
def checkFluxUncal (desc : CStr) (k : Nat) (t : OiFlux R) : CheckM Unit := do
  whenM (t.arrname.length == 0)
    (report .notOifits desc (tableText "OI_FLUX" k ++
      (" Uncalibrated but ARRNAME missing" : CStr)))
  let r ← readAt t.record 0
  whenM (r.sta_index == -1)
    (report .notOifits desc (tableText "OI_FLUX" k ++
      (" Uncalibrated but STA_INDEX missing" : CStr)))
  whenM (decide (t.fovtype.length > 0))
    (report .notOifits desc (tableText "OI_FLUX" k ++
      (" Uncalibrated but FOVTYPE present" : CStr)))

/-- oicheck.c:1194-1254 `check_flux`. -/
def check_flux (oi : OiFits R) : Outcome CheckResult := runCheck <|
  let desc : CStr := "ARRNAME/STA_INDEX/FOVTYPE present (missing) in (un)calibrated fluxes"
  enumM oi.fluxList fun k t =>
    if t.calstat == 'C' then checkFluxCal desc k t
    else if t.calstat == 'U' then checkFluxUncal desc k t
    else pure ()

end Verif
