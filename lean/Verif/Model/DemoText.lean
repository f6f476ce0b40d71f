import Verif.Model.Calls
import Verif.Model.Read

/-! Model of the part of `demo_write` in `/repo/src/oifitslib/oitable-demo.c` which takes the tables from a text file with
`fscanf`. A conversion which fails leaves its variable as it was: for the variables used for counting and for complex
numbers this is modelled; for all others, which are stored in the file later, the outcome is then undefined at once. Not
modelled: prompting for file names, messages on standard output, running out of memory. -/

namespace Verif
open Outcome

variable {R : FP}

/-- `strtod` and `strtof`, which give the numbers for decimal numerals (ISO C 7.22.1.3). -/
structure Numerals (R : FP) where
  dbl : CStr → R.Dbl
  flt : CStr → R.Flt

/-! ### `fscanf` of the C library (ISO C 7.21.6.2) -/

/-- `isspace` in the C locale. -/
def isSpace (c : Char) : Bool := c = ' ' || c = '\t' || c = '\n' || c = '\x0b' || c = '\x0c' || c = '\r'

/-- `isdigit`. -/
def isDigit (c : Char) : Bool := '0' ≤ c && c ≤ '9'

/-- The value of decimal digits. -/
def decimalVal (s : CStr) : Nat := s.foldl (fun n c => n * 10 + (c.toNat - '0'.toNat)) 0

/-- A directive of a format. -/
inductive Dir where
  /-- white space -/
  | ws
  /-- a character which must be there -/
  | lit (c : Char)
  /-- `%s`, `%<width>s` -/
  | str (width : Option Nat)
  /-- `%d` -/
  | int
  /-- `%ld` -/
  | long
  /-- `%lf` -/
  | dbl
  /-- `%f` -/
  | flt
  /-- `%c` -/
  | chr
deriving DecidableEq

/-- Where the analysis of a format is: in plain text, after `%` and perhaps a width, after `%l`. -/
inductive FormatPos where
  | text
  | conv (width : Option Nat)
  | long

/-- The directives of a format, only for the conversions which oitable-demo.c uses. -/
def formatDirs : FormatPos → CStr → List Dir
  | _, [] => []
  | .text, c :: s =>
    if c = '%' then formatDirs (.conv none) s
    else if isSpace c then .ws :: formatDirs .text s
    else .lit c :: formatDirs .text s
  | .conv w, c :: s =>
    if isDigit c then formatDirs (.conv (some (w.getD 0 * 10 + decimalVal [c]))) s
    else if c = 'l' then formatDirs .long s
    else if c = 's' then .str w :: formatDirs .text s
    else if c = 'd' then .int :: formatDirs .text s
    else if c = 'f' then .flt :: formatDirs .text s
    else if c = 'c' then .chr :: formatDirs .text s
    else []
  | .long, c :: s =>
    if c = 'd' then .long :: formatDirs .text s
    else if c = 'f' then .dbl :: formatDirs .text s
    else []

/-- The type of the variable to which an argument of `fscanf` points; `chars size` is an array of `size` characters. -/
inductive ScanDest where
  | chars (size : Nat)
  | int
  | long
  | dbl
  | flt
  | chr

/-- A value which `fscanf` stores. -/
inductive ScanVal (R : FP) where
  | str (s : CStr)
  | int (i : Int)
  | dbl (x : R.Dbl)
  | flt (x : R.Flt)
  | chr (c : Char)

/-- Skips white space. -/
def skipSpace (s : CStr) : CStr := s.dropWhile isSpace

/-- The characters up to the next white space, at most `width`, and what follows. -/
def scanWord : Option Nat → CStr → CStr × CStr
  | _, [] => ([], [])
  | some 0, s => ([], s)
  | some (n + 1), c :: s =>
    if isSpace c then ([], c :: s) else ((c :: (scanWord (some n) s).1), (scanWord (some n) s).2)
  | none, c :: s => if isSpace c then ([], c :: s) else ((c :: (scanWord none s).1), (scanWord none s).2)

/-- An optional sign, and what follows. -/
def scanSign : CStr → CStr × CStr
  | [] => ([], [])
  | c :: s => if c = '+' || c = '-' then ([c], s) else ([], c :: s)

/-- Decimal digits, and what follows. -/
def scanDecDigits (s : CStr) : CStr × CStr := (s.takeWhile isDigit, s.dropWhile isDigit)

/-- The value of the numeral with this sign and these digits. -/
def signedVal (sign digits : CStr) : Int := if sign = ['-'] then -(decimalVal digits : Int) else decimalVal digits

/-- A decimal integer, and what follows. A sign without digits is used up. -/
def scanInt (s : CStr) : Option Int × CStr :=
  let (sign, s) := scanSign s
  let (digits, s) := scanDecDigits s
  if digits = [] then (none, s) else (some (signedVal sign digits), s)

/-- A point and digits after it, if there is a point, and what follows. -/
def scanFraction : CStr → CStr × CStr
  | [] => ([], [])
  | c :: s => if c = '.' then ('.' :: (scanDecDigits s).1, (scanDecDigits s).2) else ([], c :: s)

/-- An exponent, if there is one, and what follows. `none` if the letter is not followed by a number. -/
def scanExponent : CStr → Option CStr × CStr
  | [] => (some [], [])
  | c :: s =>
    if c = 'e' || c = 'E' then
      let (sign, s) := scanSign s
      let (digits, s) := scanDecDigits s
      if digits = [] then (none, s) else (some (c :: sign ++ digits), s)
    else (some [], c :: s)

/-- A decimal number, and what follows. Simplified: hexadecimal numbers, infinities and NaNs are not recognised. -/
def scanNumber (s : CStr) : Option CStr × CStr :=
  let (sign, s) := scanSign s
  let (digits, s) := scanDecDigits s
  let (fraction, s) := scanFraction s
  if digits = [] ∧ fraction.drop 1 = [] then (none, s)
  else
    match scanExponent s with
    | (some e, s) => (some (sign ++ digits ++ fraction ++ e), s)
    | (none, s) => (none, s)

/-- A conversion: the value, or `none` if the input does not match, and the rest of the input. It is undefined to convert
to a variable of the wrong type, an integer which the type cannot hold, or a string for which the array is too short. -/
def scanConv (N : Numerals R) : Dir → ScanDest → CStr → Outcome (Option (ScanVal R) × CStr)
  | .str w, .chars size, s =>
    let (a, s) := scanWord w (skipSpace s)
    if a = [] then .ok (none, s) else if a.length < size then .ok (some (.str a), s) else .ub
  | .int, .int, s =>
    match scanInt (skipSpace s) with
    | (none, s) => .ok (none, s)
    | (some i, s) => if -2 ^ 31 ≤ i ∧ i < 2 ^ 31 then .ok (some (.int i), s) else .ub
  | .long, .long, s =>
    match scanInt (skipSpace s) with
    | (none, s) => .ok (none, s)
    | (some i, s) => if -2 ^ 63 ≤ i ∧ i < 2 ^ 63 then .ok (some (.int i), s) else .ub
  | .dbl, .dbl, s =>
    match scanNumber (skipSpace s) with
    | (none, s) => .ok (none, s)
    | (some x, s) => .ok (some (.dbl (N.dbl x)), s)
  | .flt, .flt, s =>
    match scanNumber (skipSpace s) with
    | (none, s) => .ok (none, s)
    | (some x, s) => .ok (some (.flt (N.flt x)), s)
  | .chr, .chr, [] => .ok (none, [])
  | .chr, .chr, c :: s => .ok (some (.chr c), s)
  | _, _, _ => .ub

/-- The directives one after the other, until one does not match. The values stored, and the rest of the input. -/
def scanDirs (N : Numerals R) : List Dir → List ScanDest → CStr → Outcome (List (ScanVal R) × CStr)
  | [], _, s => .ok ([], s)
  | .ws :: ds, dests, s => scanDirs N ds dests (skipSpace s)
  | .lit _ :: _, _, [] => .ok ([], [])
  | .lit c :: ds, dests, c' :: s => if c' = c then scanDirs N ds dests s else .ok ([], c' :: s)
  | _ :: _, [], _ => .ub
  | d :: ds, dest :: dests, s => do
    match ← scanConv N d dest s with
    | (none, s) => .ok ([], s)
    | (some v, s) =>
      let (vs, s) ← scanDirs N ds dests s
      .ok (v :: vs, s)

/-! ### The variables of `demo_write` -/

/-- The rest of the text, and the variables of oitable-demo.c:83-85 which are used for several tables; `none` is a
variable which has no value yet. -/
structure ScanState (R : FP) where
  input : CStr
  nrows : Option Int := none
  numrec : Option Int := none
  real : Option R.Flt := none
  imag : Option R.Flt := none

abbrev ScanM (R : FP) (α : Type) := StateT (ScanState R) Outcome α

/-- A call of `fscanf`: the values stored. Their number is what it returns (or -1 instead of 0 at the end of the text,
which the program does not distinguish). -/
def fscanf (N : Numerals R) (format : CStr) (dests : List ScanDest) : ScanM R (List (ScanVal R)) := fun st =>
  match scanDirs N (formatDirs .text format) dests st.input with
  | .ok (vs, s) => .ok (vs, { st with input := s })
  | .abort => .abort
  | .ub => .ub

/-- The use of a variable which has no value. -/
def indeterminate {α : Type} : ScanM R α := fun _ => .ub

/-- oitable-demo.c:32-41 `scan_opt_string`. -/
def scan_opt_string (N : Numerals R) (format : CStr) (size : Nat) : ScanM R (Bool × CStr) := do
  match ← fscanf N format [.chars size] with
  | [.str s] => pure (true, s)
  | _ => pure (false, [])

/-- oitable-demo.c:43-52 `scan_opt_int`. -/
def scan_opt_int (N : Numerals R) (format : CStr) (nullval : Int) : ScanM R Int := do
  match ← fscanf N format [.int] with
  | [.int i] => pure i
  | _ => pure nullval

/-- oitable-demo.c:54-64 `scan_opt_double`. -/
def scan_opt_double (N : Numerals R) (format : CStr) (nullval : R.Dbl) : ScanM R R.Dbl := do
  match ← fscanf N format [.dbl] with
  | [.dbl x] => pure x
  | _ => pure nullval

/-- A conversion to `nrows` with the given format, and the number of rows then allocated (alloc_fits.c:37-89). The
allocation of no bytes is refused, and so is that of a negative number of bytes, which is taken as a huge number. -/
def scanRows (N : Numerals R) (format : CStr) : ScanM R Nat := do
  match ← fscanf N format [.int] with
  | [.int n] => modify fun st => { st with nrows := some n }
  | _ => pure ()
  match (← get).nrows with
  | none => indeterminate
  | some n => if n ≤ 0 then fun _ => .abort else pure n.toNat

/-- The same for `numrec` (alloc_fits.c:97-233). -/
def scanNumrec (N : Numerals R) (format : CStr) : ScanM R Nat := do
  match ← fscanf N format [.long] with
  | [.int n] => modify fun st => { st with numrec := some n }
  | _ => pure ()
  match (← get).numrec with
  | none => indeterminate
  | some n => if n ≤ 0 then fun _ => .abort else pure n.toNat

/-- `for (i = 0; i < n; i++)`: the results. -/
def scanLoop {α : Type} (body : Nat → ScanM R α) : Nat → Nat → ScanM R (List α)
  | 0, _ => pure []
  | n + 1, i => do
    let x ← body i
    let xs ← scanLoop body n (i + 1)
    pure (x :: xs)

/-- A loop over `n` numbers of type `double`. -/
def scanDoubles (N : Numerals R) (n : Nat) : ScanM R (List R.Dbl) :=
  scanLoop (fun _ => do
    let [.dbl x] ← fscanf N "%lf " [.dbl] | indeterminate
    pure x) n 0

/-- A loop over `n` numbers of type `float`. -/
def scanFloats (N : Numerals R) (n : Nat) : ScanM R (List R.Flt) :=
  scanLoop (fun _ => do
    let [.flt x] ← fscanf N "%f " [.flt] | indeterminate
    pure x) n 0

/-- A loop over `n` numbers of type `int`. -/
def scanInts (N : Numerals R) (n : Nat) : ScanM R (List Int) :=
  scanLoop (fun _ => do
    let [.int x] ← fscanf N "%d " [.int] | indeterminate
    pure x) n 0

/-- oitable-demo.c:200-201 and the like: a complex number. What is not found keeps its value. -/
def scanComplex (N : Numerals R) : ScanM R (R.Flt × R.Flt) := do
  match ← fscanf N "%f %fi " [.flt, .flt] with
  | [.flt re, .flt im] => modify fun st => { st with real := some re, imag := some im }
  | [.flt re] => modify fun st => { st with real := some re }
  | _ => pure ()
  match (← get).real, (← get).imag with
  | some re, some im => pure (re, im)
  | _, _ => indeterminate

/-! ### The tables -/

/-- oitable-demo.c:104-111. -/
def scanElement (N : Numerals R) (i : Nat) : ScanM R (Element R) := do
  let [.str tel_name, .str sta_name] ← fscanf N "tel_name %16s sta_name %16s " [.chars 17, .chars 17] | indeterminate
  let [.dbl x, .dbl y, .dbl z, .flt diameter] ←
    fscanf N "staxyz %lf %lf %lf diameter %f " [.dbl, .dbl, .dbl, .flt] | indeterminate
  let [.dbl fov, .str fovtype] ← fscanf N "fov %lf fovtype %s " [.dbl, .chars 7] | indeterminate
  pure { tel_name, sta_name, sta_index := i + 1, diameter, staxyz := (x, y, z), fov, fovtype }

/-- oitable-demo.c:96-113. -/
def scanArray (N : Numerals R) : ScanM R (OiArray R) := do
  let [.str arrname] ← fscanf N "OI_ARRAY arrname %70s " [.chars FLEN_VALUE] | indeterminate
  let [.str frame] ← fscanf N "frame %70s " [.chars FLEN_VALUE] | indeterminate
  let [.dbl arrayx, .dbl arrayy, .dbl arrayz] ←
    fscanf N "arrayx %lf arrayy %lf arrayz %lf " [.dbl, .dbl, .dbl] | indeterminate
  let n ← scanRows N "nelement %d "
  let elem ← scanLoop (scanElement N) n 0
  pure { revision := OI_REVN_V2_ARRAY, arrname, frame, arrayx, arrayy, arrayz, elem }

/-- oitable-demo.c:121-140; whether a category is given is the second result. -/
def scanTarget (N : Numerals R) (_ : Nat) : ScanM R (Target R × Bool) := do
  let [.int target_id] ← fscanf N "target_id %d " [.int] | indeterminate
  let [.str target] ← fscanf N "target %16s " [.chars 33] | indeterminate
  let [.dbl raep0] ← fscanf N "raep0 %lf " [.dbl] | indeterminate
  let [.dbl decep0] ← fscanf N "decep0 %lf " [.dbl] | indeterminate
  let [.flt equinox] ← fscanf N "equinox %f " [.flt] | indeterminate
  let [.dbl ra_err] ← fscanf N "ra_err %lf " [.dbl] | indeterminate
  let [.dbl dec_err] ← fscanf N "dec_err %lf " [.dbl] | indeterminate
  let [.dbl sysvel] ← fscanf N "sysvel %lf " [.dbl] | indeterminate
  let [.str veltyp] ← fscanf N "veltyp %8s " [.chars 9] | indeterminate
  let [.str veldef] ← fscanf N "veldef %8s " [.chars 9] | indeterminate
  let [.dbl pmra] ← fscanf N "pmra %lf " [.dbl] | indeterminate
  let [.dbl pmdec] ← fscanf N "pmdec %lf " [.dbl] | indeterminate
  let [.dbl pmra_err] ← fscanf N "pmra_err %lf " [.dbl] | indeterminate
  let [.dbl pmdec_err] ← fscanf N "pmdec_err %lf " [.dbl] | indeterminate
  let [.flt parallax] ← fscanf N "parallax %f " [.flt] | indeterminate
  let [.flt para_err] ← fscanf N "para_err %f " [.flt] | indeterminate
  let [.str spectyp] ← fscanf N "spectyp %16s " [.chars 33] | indeterminate
  let (given, category) ← scan_opt_string N "category %3s" 4
  let _ ← fscanf N " " []
  pure ({ target_id, target, raep0, decep0, equinox, ra_err, dec_err, sysvel, veltyp, veldef, pmra, pmdec, pmra_err,
          pmdec_err, parallax, para_err, spectyp, category }, given)

/-- oitable-demo.c:116-142. -/
def scanTargets (N : Numerals R) : ScanM R (OiTarget R) := do
  let n ← scanRows N "OI_TARGET ntarget %d "
  let rows ← scanLoop (scanTarget N) n 0
  pure { revision := OI_REVN_V2_TARGET, targ := rows.map (·.1), usecategory := rows.any (·.2) }

/-- oitable-demo.c:145-158. -/
def scanWavelength (N : Numerals R) : ScanM R (OiWavelength R) := do
  let [.str insname] ← fscanf N "OI_WAVELENGTH insname %70s " [.chars FLEN_VALUE] | indeterminate
  let nwave ← scanRows N "nwave %d "
  let _ ← fscanf N "eff_wave " []
  let eff_wave ← scanFloats N nwave
  let _ ← fscanf N "eff_band " []
  let eff_band ← scanFloats N nwave
  pure { revision := OI_REVN_V2_WAVELENGTH, insname, nwave, eff_wave, eff_band }

/-- oitable-demo.c:161-180. -/
def scanCorr (N : Numerals R) : ScanM R (OiCorr R) := do
  let [.str corrname] ← fscanf N "OI_CORR corrname %70s " [.chars FLEN_VALUE] | indeterminate
  let [.int ndata] ← fscanf N "ndata %d " [.int] | indeterminate
  let ncorr ← scanRows N "ncorr %d "
  let _ ← fscanf N "iindx " []
  let iindx ← scanInts N ncorr
  let _ ← fscanf N "jindx " []
  let jindx ← scanInts N ncorr
  let _ ← fscanf N "corr " []
  let corr ← scanDoubles N ncorr
  pure { revision := OI_REVN_V2_CORR, corrname, ndata, ncorr, iindx, jindx, corr }

/-- oitable-demo.c:194-221. Simplified: `real + imag * I` is the pair of both numbers. -/
def scanInspolRecord (N : Numerals R) (nwave : Nat) (_ : Nat) : ScanM R (OiInspolRecord R) := do
  let [.int target_id, .str insname, .dbl mjd_obs] ←
    fscanf N "target_id %d insname %70s mjd_obs %lf " [.int, .chars FLEN_VALUE, .dbl] | indeterminate
  let [.dbl mjd_end] ← fscanf N "mjd_end %lf jxx " [.dbl] | indeterminate
  let jxx ← scanLoop (fun _ => scanComplex N) nwave 0
  let _ ← fscanf N "jyy " []
  let jyy ← scanLoop (fun _ => scanComplex N) nwave 0
  let _ ← fscanf N "jxy " []
  let jxy ← scanLoop (fun _ => scanComplex N) nwave 0
  let _ ← fscanf N "jyx " []
  let jyx ← scanLoop (fun _ => scanComplex N) nwave 0
  let [.int sta_index] ← fscanf N "sta_index %d " [.int] | indeterminate
  pure { target_id, insname, mjd_obs, mjd_end, jxx, jyy, jxy, jyx, sta_index }

/-- oitable-demo.c:183-223. -/
def scanInspol (N : Numerals R) (nwave : Nat) : ScanM R (OiInspol R) := do
  let [.str date_obs] ← fscanf N "OI_INSPOL date-obs %70s " [.chars FLEN_VALUE] | indeterminate
  let [.int npol] ← fscanf N "npol %d " [.int] | indeterminate
  let [.str arrname] ← fscanf N "arrname %70s " [.chars FLEN_VALUE] | indeterminate
  let [.str orient] ← fscanf N "orient %70s " [.chars FLEN_VALUE] | indeterminate
  let [.str model] ← fscanf N "model %70s " [.chars FLEN_VALUE] | indeterminate
  let n ← scanNumrec N "numrec %ld "
  let record ← scanLoop (scanInspolRecord N nwave) n 0
  pure { revision := OI_REVN_V2_INSPOL, date_obs, npol, arrname, orient, model, nwave, record }

/-- oitable-demo.c:240-271. The memory of `corrindx_rvis` and `corrindx_ivis` is not initialised. -/
def scanVisRecord (N : Numerals R) (u : Undef R) (nwave : Nat) (_ : Nat) : ScanM R (OiVisRecord R) := do
  let [.int target_id, .dbl time, .dbl mjd] ← fscanf N "target_id %d time %lf mjd %lf " [.int, .dbl, .dbl] | indeterminate
  let [.dbl int_time] ← fscanf N "int_time %lf visamp " [.dbl] | indeterminate
  let visamp ← scanDoubles N nwave
  let _ ← fscanf N "visamperr " []
  let visamperr ← scanDoubles N nwave
  let [.int corrindx_visamp] ← fscanf N "corrindx_visamp %d " [.int] | indeterminate
  let _ ← fscanf N "visphi " []
  let visphi ← scanDoubles N nwave
  let _ ← fscanf N "visphierr " []
  let visphierr ← scanDoubles N nwave
  let [.int corrindx_visphi] ← fscanf N "corrindx_visphi %d " [.int] | indeterminate
  let [.dbl ucoord, .dbl vcoord] ← fscanf N "ucoord %lf vcoord %lf " [.dbl, .dbl] | indeterminate
  let [.int sta1, .int sta2] ← fscanf N "sta_index %d %d " [.int, .int] | indeterminate
  pure { target_id, time, mjd, int_time, visamp, visamperr, corrindx_visamp, visphi, visphierr, corrindx_visphi
         visrefmap := none, rvis := none, rviserr := none, corrindx_rvis := u.int, ivis := none, iviserr := none
         corrindx_ivis := u.int, ucoord, vcoord, sta_index := (sta1, sta2), flag := List.replicate nwave false }

/-- oitable-demo.c:226-279. -/
def scanVis (N : Numerals R) (u : Undef R) (nwave : Nat) : ScanM R (OiVis R) := do
  let [.str date_obs] ← fscanf N "OI_VIS date-obs %70s " [.chars FLEN_VALUE] | indeterminate
  let [.str arrname, .str insname] ←
    fscanf N "arrname %70s insname %70s " [.chars FLEN_VALUE, .chars FLEN_VALUE] | indeterminate
  let [.str corrname] ← fscanf N "corrname %70s " [.chars FLEN_VALUE] | indeterminate
  let (_, amptyp) ← scan_opt_string N "amptyp %70s" FLEN_VALUE
  let (_, phityp) ← scan_opt_string N " phityp %70s" FLEN_VALUE
  let amporder ← scan_opt_int N " amporder %d" (-1)
  let phiorder ← scan_opt_int N " phiorder %d" (-1)
  let n ← scanNumrec N " numrec %ld "
  let record ← scanLoop (scanVisRecord N u nwave) n 0
  pure { revision := OI_REVN_V2_VIS, date_obs, arrname, insname, corrname, amptyp, phityp, amporder, phiorder
         usevisrefmap := false, usecomplex := false, complexunit := []
         ampunit := if amptyp = "correlated flux" then "Jy" else [], nwave, record }

/-- oitable-demo.c:292-312. -/
def scanVis2Record (N : Numerals R) (nwave : Nat) (_ : Nat) : ScanM R (OiVis2Record R) := do
  let [.int target_id, .dbl time, .dbl mjd] ← fscanf N "target_id %d time %lf mjd %lf " [.int, .dbl, .dbl] | indeterminate
  let [.dbl int_time] ← fscanf N "int_time %lf vis2data " [.dbl] | indeterminate
  let vis2data ← scanDoubles N nwave
  let _ ← fscanf N "vis2err " []
  let vis2err ← scanDoubles N nwave
  let [.int corrindx_vis2data] ← fscanf N "corrindx_vis2data %d " [.int] | indeterminate
  let [.dbl ucoord, .dbl vcoord] ← fscanf N "ucoord %lf vcoord %lf " [.dbl, .dbl] | indeterminate
  let [.int sta1, .int sta2] ← fscanf N "sta_index %d %d " [.int, .int] | indeterminate
  pure { target_id, time, mjd, int_time, vis2data, vis2err, corrindx_vis2data, ucoord, vcoord, sta_index := (sta1, sta2)
         flag := List.replicate nwave false }

/-- oitable-demo.c:283-314. -/
def scanVis2 (N : Numerals R) (nwave : Nat) : ScanM R (OiVis2 R) := do
  let [.str date_obs] ← fscanf N "OI_VIS2 date-obs %70s " [.chars FLEN_VALUE] | indeterminate
  let [.str arrname, .str insname] ←
    fscanf N "arrname %70s insname %70s " [.chars FLEN_VALUE, .chars FLEN_VALUE] | indeterminate
  let [.str corrname] ← fscanf N "corrname %70s " [.chars FLEN_VALUE] | indeterminate
  let n ← scanNumrec N "numrec %ld "
  let record ← scanLoop (scanVis2Record N nwave) n 0
  pure { revision := OI_REVN_V2_VIS2, date_obs, arrname, insname, corrname, nwave, record }

/-- oitable-demo.c:326-359. -/
def scanT3Record (N : Numerals R) (nwave : Nat) (_ : Nat) : ScanM R (OiT3Record R) := do
  let [.int target_id, .dbl time, .dbl mjd] ← fscanf N "target_id %d time %lf mjd %lf " [.int, .dbl, .dbl] | indeterminate
  let [.dbl int_time] ← fscanf N "int_time %lf t3amp " [.dbl] | indeterminate
  let t3amp ← scanDoubles N nwave
  let _ ← fscanf N "t3amperr " []
  let t3amperr ← scanDoubles N nwave
  let [.int corrindx_t3amp] ← fscanf N "corrindx_t3amp %d " [.int] | indeterminate
  let _ ← fscanf N "t3phi " []
  let t3phi ← scanDoubles N nwave
  let _ ← fscanf N "t3phierr " []
  let t3phierr ← scanDoubles N nwave
  let [.int corrindx_t3phi] ← fscanf N "corrindx_t3phi %d " [.int] | indeterminate
  let [.dbl u1coord, .dbl v1coord] ← fscanf N "u1coord %lf v1coord %lf " [.dbl, .dbl] | indeterminate
  let [.dbl u2coord, .dbl v2coord] ← fscanf N "u2coord %lf v2coord %lf " [.dbl, .dbl] | indeterminate
  let [.int sta1, .int sta2, .int sta3] ← fscanf N "sta_index %d %d %d " [.int, .int, .int] | indeterminate
  pure { target_id, time, mjd, int_time, t3amp, t3amperr, corrindx_t3amp, t3phi, t3phierr, corrindx_t3phi, u1coord, v1coord
         u2coord, v2coord, sta_index := (sta1, sta2, sta3), flag := List.replicate nwave false }

/-- oitable-demo.c:317-361. -/
def scanT3 (N : Numerals R) (nwave : Nat) : ScanM R (OiT3 R) := do
  let [.str date_obs] ← fscanf N "OI_T3 date-obs %70s " [.chars FLEN_VALUE] | indeterminate
  let [.str arrname, .str insname] ←
    fscanf N "arrname %70s insname %70s " [.chars FLEN_VALUE, .chars FLEN_VALUE] | indeterminate
  let [.str corrname] ← fscanf N "corrname %70s " [.chars FLEN_VALUE] | indeterminate
  let n ← scanNumrec N "numrec %ld "
  let record ← scanLoop (scanT3Record N nwave) n 0
  pure { revision := OI_REVN_V2_T3, date_obs, arrname, insname, corrname, nwave, record }

/-- oitable-demo.c:376-393. -/
def scanFluxRecord (N : Numerals R) (nwave : Nat) (_ : Nat) : ScanM R (OiFluxRecord R) := do
  let [.int target_id, .dbl mjd] ← fscanf N "target_id %d mjd %lf " [.int, .dbl] | indeterminate
  let [.dbl int_time] ← fscanf N "int_time %lf fluxdata " [.dbl] | indeterminate
  let fluxdata ← scanDoubles N nwave
  let _ ← fscanf N "fluxerr " []
  let fluxerr ← scanDoubles N nwave
  let [.int corrindx_fluxdata] ← fscanf N "corrindx_fluxdata %d " [.int] | indeterminate
  let sta_index ← scan_opt_int N "sta_index %d " (-1)
  pure { target_id, mjd, int_time, fluxdata, fluxerr, corrindx_fluxdata, sta_index, flag := List.replicate nwave false }

/-- oitable-demo.c:364-396. -/
def scanFlux (N : Numerals R) (nwave : Nat) : ScanM R (OiFlux R) := do
  let [.str date_obs] ← fscanf N "OI_FLUX date-obs %70s " [.chars FLEN_VALUE] | indeterminate
  let (_, arrname) ← scan_opt_string N "arrname %70s " FLEN_VALUE
  let [.str insname, .str corrname] ←
    fscanf N "insname %70s corrname %70s " [.chars FLEN_VALUE, .chars FLEN_VALUE] | indeterminate
  let fov ← scan_opt_double N "fov %lf " (R.lit 0)
  let (_, fovtype) ← scan_opt_string N "fovtype %6s " FLEN_VALUE
  let [.chr calstat] ← fscanf N "calstat %c " [.chr] | indeterminate
  let n ← scanNumrec N "numrec %ld "
  let record ← scanLoop (scanFluxRecord N nwave) n 0
  pure { revision := OI_REVN_V2_FLUX, date_obs, arrname, insname, corrname, fov, fovtype, calstat, fluxunit := "Jy", nwave
         record }

/-- oitable-demo.c:95-396: all tables. -/
def scanDemo (N : Numerals R) (u : Undef R) : ScanM R (DemoInput R) := do
  let array ← scanArray N
  let targets ← scanTargets N
  let wave ← scanWavelength N
  let corr ← scanCorr N
  let inspol ← scanInspol N wave.nwave
  let vis ← scanVis N u wave.nwave
  let vis2 ← scanVis2 N wave.nwave
  let t3 ← scanT3 N wave.nwave
  let flux ← scanFlux N wave.nwave
  pure { array, targets, wave, corr, inspol, vis, vis2, t3, flux }

/-- oitable-demo.c:69-458 `demo_write` with the content of the text file, `none` if it cannot be opened: `fscanf` is then
called with NULL. -/
def demo_write_text (N : Numerals R) (u : Undef R) (today : CStr) (exists_ : Bool) (text : Option CStr) :
    Outcome (Option (List (Hdu R)) × Status) :=
  match text with
  | none => .ub
  | some text => do
    let (d, _) ← scanDemo N u { input := text }
    demo_write today exists_ u.str u.str d

end Verif
