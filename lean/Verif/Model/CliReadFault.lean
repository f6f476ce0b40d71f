import Verif.Model.Cli
import Verif.Model.ReadFault

/-!
# The programs when reading fails

As in `Cli`, with any function for reading files, and that function when calls which read a file
fail.
-/

namespace Verif
open Outcome

variable {R : FP}

/-- As called at oifits-check.c:64, oifits-filter.c:70, oifits-merge.c:61, oifits-upgrade.c:52. `readFile` of `Cli` with failing calls. What cannot be opened anyway gives the same error as there. -/
def readFileFailing (F : FileFaults) (u : Undef R) (name : CStr) : Prog R (Option (OiFits R) × Status) := fun w =>
  match w.files name with
  | some (.fits hdus) => call (read_oi_fits_failing u F hdus) w
  | _ => call (.ok (none, .other 104)) w

/-- oifits-check.c:31-90 `main`, as `oifits_check` in `Cli`. -/
def checkReading (read : CStr → Prog R (Option (OiFits R) × Status)) (argv : List CStr) : Prog R Unit := do
  match argv with
  | [_, file] =>
    let filename := strlcpy file FLEN_FILENAME
    let (oi, status) ← read filename
    match oi with
    | none => exitWith EXIT_FAILURE
    | some oi =>
      if status ≠ .ok then exitWith EXIT_FAILURE
      else
        sayText (format_oi_fits_summary oi)
        let worst ← runChecks oi checkList .none
        if worst = .none then say ("All checks passed\n" : CStr)
        exitWith EXIT_SUCCESS
  | _ =>
    say (("Usage:\n" : CStr) ++ (argv.head?.getD []) ++ (" FILE\n" : CStr))
    exitWith 2

/-- oifits-filter.c:36-112 `main`, as `oifits_filter` in `Cli`. -/
def filterReading (read : CStr → Prog R (Option (OiFits R) × Status)) (today : CStr) (removable : CStr → Bool)
    (line : CommandLine R) : Prog R Unit := do
  match line with
  | .error message =>
    say (("Error parsing command-line options: " : CStr) ++ message ++ ("\n" : CStr))
    exitWith 2
  | .args opts clobber [_, infile, outfile] =>
    let inFilename := strlcpy infile FLEN_FILENAME
    let outFilename := strlcpy outfile FLEN_FILENAME
    let (inData, status) ← read inFilename
    match inData with
    | none => exitWith EXIT_FAILURE
    | some inData =>
      if status ≠ .ok then exitWith EXIT_FAILURE
      else
        say ("=== INPUT DATA: ===\n" : CStr)
        sayText (format_oi_fits_summary inData)
        say ("=== Applying filter: ===\n" : CStr)
        sayText (format_oi_filter (userFilter opts))
        let outData ← call (apply_oi_filter inData (userFilter opts))
        say ("--> OUTPUT DATA: ===\n" : CStr)
        sayText (format_oi_fits_summary outData)
        let there ← fun w => .ok ((w.files outFilename).isSome, w)
        if there then
          if clobber = false then
            say (("Output file '" : CStr) ++ outFilename ++
              ("' exists and '--clobber' not specified -> Exiting...\n" : CStr))
            exitWith 1
          else if removable outFilename = false then
            say (("Failed to remove existing output file '" : CStr) ++ outFilename ++ ("'\n" : CStr))
            exitWith 1
          else fun w => .ok ((), { w with files := w.files.set outFilename none })
        let status ← writeFile today outFilename outData
        if status ≠ .ok then exitWith EXIT_FAILURE
        exitWith EXIT_SUCCESS
  | .args _ _ argv =>
    say (("Wrong number of command-line arguments\nEnter '" : CStr) ++ (argv.head?.getD []) ++
      (" --help' for usage information\n" : CStr))
    exitWith 2

/-- oifits-merge.c:56-67, as `readInputs` in `Cli`. The input files are numbered from `k` on. -/
def readInputsReading (read : Nat → CStr → Prog R (Option (OiFits R) × Status)) : Nat → List CStr → Prog R (List (OiFits R))
  | _, [] => pure []
  | k, filename :: link => do
    let (oi, status) ← read k filename
    match oi with
    | none => exitWith EXIT_FAILURE
    | some oi =>
      if status ≠ .ok then exitWith EXIT_FAILURE
      else
        let more ← readInputsReading read (k + 1) link
        return oi :: more

/-- oifits-merge.c:31-95 `main`, as `oifits_merge` in `Cli`. -/
def mergeReading (read : Nat → CStr → Prog R (Option (OiFits R) × Status)) (today : CStr) (argv : List CStr) :
    Prog R Unit := do
  match argv with
  | _ :: outFilename :: in1 :: in2 :: more =>
    let inOiList ← readInputsReading read 0 (in1 :: in2 :: more)
    let outOi ← call (merge_oi_fits_list inOiList)
    say ("=== MERGED DATA: ===\n" : CStr)
    sayText (format_oi_fits_summary outOi)
    let status ← writeFile today outFilename outOi
    if status ≠ .ok then exitWith EXIT_FAILURE
    exitWith EXIT_SUCCESS
  | _ =>
    say (("Usage:\n" : CStr) ++ (argv.head?.getD []) ++ (" OUTFILE INFILE1 INFILE2...\n" : CStr))
    exitWith 2

/-- oifits-upgrade.c:32-85 `main`, as `oifits_upgrade` in `Cli`. -/
def upgradeReading (read : CStr → Prog R (Option (OiFits R) × Status)) (today : CStr) (argv : List CStr) :
    Prog R Unit := do
  match argv with
  | _ :: inFilename :: outFilename :: origin :: observer :: more =>
    let insmode := more.head?
    let (oi, status) ← read inFilename
    match oi with
    | none => exitWith EXIT_FAILURE
    | some oi =>
      if status ≠ .ok then exitWith EXIT_FAILURE
      else if is_oi_fits_two oi then
        say ("Input datafile is already latest OIFITS version\n" : CStr)
        exitWith EXIT_FAILURE
      else if oi.numArray = 0 then
        say ("Input datafile has no OI_ARRAY table - cannot convert\n" : CStr)
        exitWith EXIT_FAILURE
      else
        let oi := { oi with header := { oi.header with
          origin := copyArg oi.header.origin (some origin)
          observer := copyArg oi.header.observer (some observer)
          insmode := copyArg oi.header.insmode insmode } }
        say ("=== INPUT DATA: ===\n" : CStr)
        sayText (format_oi_fits_summary oi)
        let status ← writeFile today outFilename oi
        if status ≠ .ok then exitWith EXIT_FAILURE
        exitWith EXIT_SUCCESS
  | _ =>
    say (("Usage:\n" : CStr) ++ (argv.head?.getD []) ++ (" INFILE OUTFILE ORIGIN OBSERVER INSMODE\n" : CStr))
    exitWith 2

/-- oifits-check.c:31-90 `main`: oifits-check when calls which read the file fail. -/
def checkUnread (F : FileFaults) (u : Undef R) (argv : List CStr) : Prog R Unit := checkReading (readFileFailing F u) argv

/-- oifits-filter.c:36-112 `main`: oifits-filter when calls which read the file fail. -/
def filterUnread (F : FileFaults) (u : Undef R) (today : CStr) (removable : CStr → Bool) (line : CommandLine R) :
    Prog R Unit := filterReading (readFileFailing F u) today removable line

/-- oifits-merge.c:31-95 `main`: oifits-merge when calls which read the files fail. -/
def mergeUnread (F : Nat → FileFaults) (u : Undef R) (today : CStr) (argv : List CStr) : Prog R Unit :=
  mergeReading (fun k => readFileFailing (F k) u) today argv

/-- oifits-upgrade.c:32-85 `main`: oifits-upgrade when calls which read the file fail. -/
def upgradeUnread (F : FileFaults) (u : Undef R) (today : CStr) (argv : List CStr) : Prog R Unit :=
  upgradeReading (readFileFailing F u) today argv

end Verif
