import Verif.Model.Format
import Verif.Model.Check
import Verif.Model.Filter
import Verif.Model.Merge
import Verif.Model.Write
import Verif.Model.Read

/-! The command-line programs. What they read and write is explicit: the files of the
system, what is printed on standard output, and the value given to `exit`. -/

namespace Verif
open Outcome
variable {R : FP}

/-- A file: HDUs, or something CFITSIO cannot open. -/
inductive FileData (R : FP) where
  | fits (hdus : List (Hdu R))
  | other

/-- All files, by name. -/
abbrev Files (R : FP) := CStr → Option (FileData R)

/-- The files with one of them replaced (or removed). -/
def Files.set (fs : Files R) (name : CStr) (d : Option (FileData R)) : Files R :=
  fun n => if n = name then d else fs n

/-- How a program ends. -/
inductive Exit where
  | code (n : Int)
  | abort
  | ub
deriving DecidableEq

/-- What a program leaves behind. -/
structure Final (R : FP) where
  exit : Exit
  out : CStr
  files : Files R

/-- What a running program has done so far: text printed, files, and `pGStr`. -/
structure World (R : FP) where
  out : CStr
  files : Files R
  buffer : Option CStr

/-- A program: it may end at any time, or go on with a value. -/
abbrev Prog (R : FP) (α : Type) := World R → Except (Final R) (α × World R)

instance : Monad (Prog R) where
  pure a := fun w => .ok (a, w)
  bind m f := fun w =>
    match m w with
    | .error e => .error e
    | .ok (a, w) => f a w

/-- `exit(n)`. -/
def exitWith {α : Type} (n : Int) : Prog R α := fun w => .error ⟨.code n, w.out, w.files⟩

/-- `EXIT_SUCCESS` and `EXIT_FAILURE` of the C library. -/
def EXIT_SUCCESS : Int := 0
@[inherit_doc EXIT_SUCCESS]
def EXIT_FAILURE : Int := 1

/-- `printf`. -/
def say (text : CStr) : Prog R Unit := fun w => .ok ((), { w with out := w.out ++ text })

/-- Call a function of the library which does no I/O. -/
def call {α : Type} (m : Outcome α) : Prog R α := fun w =>
  match m with
  | .ok a => .ok (a, w)
  | .abort => .error ⟨.abort, w.out, w.files⟩
  | .ub => .error ⟨.ub, w.out, w.files⟩

/-- Print a text made in `pGStr`. -/
def sayText (m : TextM CStr) : Prog R Unit := fun w =>
  match m w.buffer with
  | .ok (s, b) => .ok ((), { w with out := w.out ++ s, buffer := b })
  | .abort => .error ⟨.abort, w.out, w.files⟩
  | .ub => .error ⟨.ub, w.out, w.files⟩

/-- The `main` function; reaching its end is not possible in these programs. -/
def Prog.run (m : Prog R Unit) (files : Files R) : Final R :=
  match m ⟨[], files, none⟩ with
  | .error e => e
  | .ok (_, w) => ⟨.code 0, w.out, w.files⟩

/-- `FLEN_FILENAME` of CFITSIO's fitsio.h. -/
def FLEN_FILENAME : Nat := 1025

/-- As called at oifits-check.c:64, oifits-filter.c:70, oifits-merge.c:61, oifits-upgrade.c:52: `read_oi_fits(filename, &oi, &status)` with `status` 0. CFITSIO's syntax for selecting
HDUs or rows in a file name is not modelled. -/
def readFile (u : Undef R) (name : CStr) : Prog R (Option (OiFits R) × Status) := fun w =>
  call (read_oi_fits u (match w.files name with | some (.fits hdus) => some hdus | _ => none) .ok) w

/-- As called at oifits-filter.c:102, oifits-merge.c:75, oifits-upgrade.c:77: `write_oi_fits(filename, oi, &status)` with `status` 0. `fits_create_file` of CFITSIO
does not replace an existing file, except if the name is preceded by `!`. (Its other
special names, such as those of files in memory, are not modelled.) If the program aborts
while writing, an incomplete file is left. -/
def writeFile (today name : CStr) (oi : OiFits R) : Prog R Status := fun w =>
  let (path, there) := match name with
    | '!' :: path => (path, false)
    | path => (path, (w.files path).isSome)
  match write_oi_fits today there oi .ok with
  | .ok (some hdus, st) => .ok (st, { w with files := w.files.set path (some (.fits hdus)) })
  | .ok (none, st) => .ok (st, w)
  | .abort => .error ⟨.abort, w.out, w.files.set path (some .other)⟩
  | .ub => .error ⟨.ub, w.out, w.files.set path (some .other)⟩

/-! ### oifits-check -/

/-- oifits-check.c:34-48 `checks`. -/
def checkList : List (OiFits R → Outcome CheckResult) :=
  [check_tables, check_header, check_keywords, check_visrefmap, check_unique_targets, check_targets_present,
    check_arrname, check_elements_present, check_corr_present, check_flagging, check_t3amp, check_waveorder,
    check_time, check_flux]

/-- oifits-check.c:73-81, the loop over the checks; `worst` is returned. -/
def runChecks (oi : OiFits R) : List (OiFits R → Outcome CheckResult) → Level → Prog R Level
  | [], worst => pure worst
  | check :: checks, worst => do
    let result ← call (check oi)
    if result.level ≠ .none then
      let text ← call (print_check_result result)
      say text
      runChecks oi checks (if result.level.toNat > worst.toNat then result.level else worst)
    else runChecks oi checks worst

/-- oifits-check.c:31-90 `main`. -/
def oifits_check (u : Undef R) (argv : List CStr) : Prog R Unit := do
  match argv with
  | [_, file] =>
    let filename := strlcpy file FLEN_FILENAME
    let (oi, status) ← readFile u filename
    match oi with
    | none => exitWith EXIT_FAILURE
    | some oi =>
      if status ≠ .ok then exitWith EXIT_FAILURE
      else
        sayText (format_oi_fits_summary oi)
        let worst ← runChecks oi checkList .none
        if worst = .none then say ("All checks passed\n" : CStr)
        exitWith EXIT_SUCCESS
  | _ =>
    say (("Usage:\n" : CStr) ++ (argv.head?.getD []) ++ (" FILE\n" : CStr))
    exitWith 2

/-! ### oifits-filter -/

/-- The options of oifilter.c:50-92 `filterEntries`, with the value given. -/
inductive FilterOpt (R : FP) where
  | arrname (s : CStr)
  | insname (s : CStr)
  | corrname (s : CStr)
  | target_id (n : Int)
  | mjd_min (x : R.Dbl)
  | mjd_max (x : R.Dbl)
  | wave_min (x : R.Dbl)
  | wave_max (x : R.Dbl)
  | bas_min (x : R.Dbl)
  | bas_max (x : R.Dbl)
  | uvrad_min (x : R.Dbl)
  | uvrad_max (x : R.Dbl)
  | snr_min (x : R.Dbl)
  | snr_max (x : R.Dbl)
  | accept_vis (n : Int)
  | accept_vis2 (n : Int)
  | accept_t3amp (n : Int)
  | accept_t3phi (n : Int)
  | accept_flux (n : Int)
  | accept_flagged (n : Int)

/-- oifilter.c:38-46, the variables set when options are parsed. -/
structure ParseVars (R : FP) where
  parsedFilter : FilterSpec R
  arrname : Option CStr
  insname : Option CStr
  corrname : Option CStr
  waveMinNm : R.Dbl
  waveMaxNm : R.Dbl
  snrMin : R.Dbl
  snrMax : R.Dbl

/-- oifilter.c:100-114 `filter_pre_parse`. -/
def filter_pre_parse : ParseVars R :=
  let f := init_oi_filter R
  { parsedFilter := f
    arrname := none
    insname := none
    corrname := none
    waveMinNm := R.mul (R.lit 1000000000) (R.toD f.wave_range.1)
    waveMaxNm := R.mul (R.lit 1000000000) (R.toD f.wave_range.2)
    snrMin := R.toD f.snr_range.1
    snrMax := R.toD f.snr_range.2 }

/-- `g_option_context_parse` (GLib) for one option: the value is stored in the variable
the entry of oifilter.c:50-92 names. -/
def storeOption (v : ParseVars R) (o : FilterOpt R) : ParseVars R :=
  let f := v.parsedFilter
  match o with
  | .arrname s => { v with arrname := some s }
  | .insname s => { v with insname := some s }
  | .corrname s => { v with corrname := some s }
  | .target_id n => { v with parsedFilter := { f with target_id := n } }
  | .mjd_min x => { v with parsedFilter := { f with mjd_range := (x, f.mjd_range.2) } }
  | .mjd_max x => { v with parsedFilter := { f with mjd_range := (f.mjd_range.1, x) } }
  | .wave_min x => { v with waveMinNm := x }
  | .wave_max x => { v with waveMaxNm := x }
  | .bas_min x => { v with parsedFilter := { f with bas_range := (x, f.bas_range.2) } }
  | .bas_max x => { v with parsedFilter := { f with bas_range := (f.bas_range.1, x) } }
  | .uvrad_min x => { v with parsedFilter := { f with uvrad_range := (x, f.uvrad_range.2) } }
  | .uvrad_max x => { v with parsedFilter := { f with uvrad_range := (f.uvrad_range.1, x) } }
  | .snr_min x => { v with snrMin := x }
  | .snr_max x => { v with snrMax := x }
  | .accept_vis n => { v with parsedFilter := { f with accept_vis := n ≠ 0 } }
  | .accept_vis2 n => { v with parsedFilter := { f with accept_vis2 := n ≠ 0 } }
  | .accept_t3amp n => { v with parsedFilter := { f with accept_t3amp := n ≠ 0 } }
  | .accept_t3phi n => { v with parsedFilter := { f with accept_t3phi := n ≠ 0 } }
  | .accept_flux n => { v with parsedFilter := { f with accept_flux := n ≠ 0 } }
  | .accept_flagged n => { v with parsedFilter := { f with accept_flagged := n ≠ 0 } }

/-- oifilter.c:119-133 `filter_post_parse`. -/
def filter_post_parse (v : ParseVars R) : FilterSpec R :=
  let f := v.parsedFilter
  let f := match v.arrname with | none => f | some s => { f with arrname := strlcpy s FLEN_VALUE }
  let f := match v.insname with | none => f | some s => { f with insname := strlcpy s FLEN_VALUE }
  let f := match v.corrname with | none => f | some s => { f with corrname := strlcpy s FLEN_VALUE }
  { f with
    wave_range := (R.toF (R.mul (R.lit (mkRat 1 1000000000)) v.waveMinNm),
      R.toF (R.mul (R.lit (mkRat 1 1000000000)) v.waveMaxNm))
    snr_range := (R.toF v.snrMin, R.toF v.snrMax) }

/-- The filter which `get_user_oi_filter` (oifilter.c:465-469) returns after
`g_option_context_parse` has found the given options, in this order. -/
def userFilter (opts : List (FilterOpt R)) : FilterSpec R :=
  filter_post_parse (opts.foldl storeOption filter_pre_parse)

/-- oifits-filter.c:51-64. What `g_option_context_parse` (GLib) makes of a command line: an error, or the options
and the remaining arguments, starting with the name of the program. How options are
written is not modelled. -/
inductive CommandLine (R : FP) where
  | error (message : CStr)
  | args (opts : List (FilterOpt R)) (clobber : Bool) (argv : List CStr)

/-- oifits-filter.c:36-112 `main`. `removable` says whether `g_remove` would succeed. -/
def oifits_filter (u : Undef R) (today : CStr) (removable : CStr → Bool) (line : CommandLine R) : Prog R Unit := do
  match line with
  | .error message =>
    say (("Error parsing command-line options: " : CStr) ++ message ++ ("\n" : CStr))
    exitWith 2
  | .args opts clobber [_, infile, outfile] =>
    let inFilename := strlcpy infile FLEN_FILENAME
    let outFilename := strlcpy outfile FLEN_FILENAME
    let (inData, status) ← readFile u inFilename
    match inData with
    | none => exitWith EXIT_FAILURE
    | some inData =>
      if status ≠ .ok then exitWith EXIT_FAILURE
      else
        say ("=== INPUT DATA: ===\n" : CStr)
        sayText (format_oi_fits_summary inData)
        say ("=== Applying filter: ===\n" : CStr)
        sayText (format_oi_filter (userFilter opts))
        let outData ← call (apply_oi_filter inData (userFilter opts))
        say ("--> OUTPUT DATA: ===\n" : CStr)
        sayText (format_oi_fits_summary outData)
        let there ← fun w => .ok ((w.files outFilename).isSome, w)
        if there then
          if clobber = false then
            say (("Output file '" : CStr) ++ outFilename ++
              ("' exists and '--clobber' not specified -> Exiting...\n" : CStr))
            exitWith 1
          else if removable outFilename = false then
            say (("Failed to remove existing output file '" : CStr) ++ outFilename ++ ("'\n" : CStr))
            exitWith 1
          else fun w => .ok ((), { w with files := w.files.set outFilename none })
        let status ← writeFile today outFilename outData
        if status ≠ .ok then exitWith EXIT_FAILURE
        exitWith EXIT_SUCCESS
  | .args _ _ argv =>
    say (("Wrong number of command-line arguments\nEnter '" : CStr) ++ (argv.head?.getD []) ++
      (" --help' for usage information\n" : CStr))
    exitWith 2

/-! ### oifits-merge -/

/-- oifits-merge.c:56-67, the loop which reads the input files. -/
def readInputs (u : Undef R) : List CStr → Prog R (List (OiFits R))
  | [] => pure []
  | filename :: link => do
    let (oi, status) ← readFile u filename
    match oi with
    | none => exitWith EXIT_FAILURE
    | some oi =>
      if status ≠ .ok then exitWith EXIT_FAILURE
      else
        let more ← readInputs u link
        return oi :: more

/-- oifits-merge.c:31-95 `main`. -/
def oifits_merge (u : Undef R) (today : CStr) (argv : List CStr) : Prog R Unit := do
  match argv with
  | _ :: outFilename :: in1 :: in2 :: more =>
    let inOiList ← readInputs u (in1 :: in2 :: more)
    let outOi ← call (merge_oi_fits_list inOiList)
    say ("=== MERGED DATA: ===\n" : CStr)
    sayText (format_oi_fits_summary outOi)
    let status ← writeFile today outFilename outOi
    if status ≠ .ok then exitWith EXIT_FAILURE
    exitWith EXIT_SUCCESS
  | _ =>
    say (("Usage:\n" : CStr) ++ (argv.head?.getD []) ++ (" OUTFILE INFILE1 INFILE2...\n" : CStr))
    exitWith 2

/-! ### oifits-upgrade -/

/-- oifits-upgrade.c:67-69: `g_strlcpy(dest, src, FLEN_VALUE)`; with NULL for `src` GLib complains and leaves `dest`
as it is. -/
def copyArg (dest : CStr) (src : Option CStr) : CStr :=
  match src with
  | none => dest
  | some s => strlcpy s FLEN_VALUE

/-- oifits-upgrade.c:32-85 `main`. With five arguments `argv[5]` is NULL. -/
def oifits_upgrade (u : Undef R) (today : CStr) (argv : List CStr) : Prog R Unit := do
  match argv with
  | _ :: inFilename :: outFilename :: origin :: observer :: more =>
    let insmode := more.head?
    let (oi, status) ← readFile u inFilename
    match oi with
    | none => exitWith EXIT_FAILURE
    | some oi =>
      if status ≠ .ok then exitWith EXIT_FAILURE
      else if is_oi_fits_two oi then
        say ("Input datafile is already latest OIFITS version\n" : CStr)
        exitWith EXIT_FAILURE
      else if oi.numArray = 0 then
        say ("Input datafile has no OI_ARRAY table - cannot convert\n" : CStr)
        exitWith EXIT_FAILURE
      else
        let oi := { oi with header := { oi.header with
          origin := copyArg oi.header.origin (some origin)
          observer := copyArg oi.header.observer (some observer)
          insmode := copyArg oi.header.insmode insmode } }
        say ("=== INPUT DATA: ===\n" : CStr)
        sayText (format_oi_fits_summary oi)
        let status ← writeFile today outFilename oi
        if status ≠ .ok then exitWith EXIT_FAILURE
        exitWith EXIT_SUCCESS
  | _ =>
    say (("Usage:\n" : CStr) ++ (argv.head?.getD []) ++ (" INFILE OUTFILE ORIGIN OBSERVER INSMODE\n" : CStr))
    exitWith 2

end Verif
