import Verif.Model.CliReadFault
import Verif.Model.Fault

/-!
# The programs when both reading and writing fail

As in `Cli`, with any functions for reading and writing files. `CliReadFault` and `Fault` have the programs in which
only one of these fails.
-/

namespace Verif
open Outcome

variable {R : FP}

/-- oifits-filter.c:36-112 `main`, as `oifits_filter` in `Cli`. -/
def filterWith (read : CStr → Prog R (Option (OiFits R) × Status)) (write : CStr → OiFits R → Prog R Status)
    (removable : CStr → Bool) (line : CommandLine R) : Prog R Unit := do
  match line with
  | .error message =>
    say (("Error parsing command-line options: " : CStr) ++ message ++ ("\n" : CStr))
    exitWith 2
  | .args opts clobber [_, infile, outfile] =>
    let inFilename := strlcpy infile FLEN_FILENAME
    let outFilename := strlcpy outfile FLEN_FILENAME
    let (inData, status) ← read inFilename
    match inData with
    | none => exitWith EXIT_FAILURE
    | some inData =>
      if status ≠ .ok then exitWith EXIT_FAILURE
      else
        say ("=== INPUT DATA: ===\n" : CStr)
        sayText (format_oi_fits_summary inData)
        say ("=== Applying filter: ===\n" : CStr)
        sayText (format_oi_filter (userFilter opts))
        let outData ← call (apply_oi_filter inData (userFilter opts))
        say ("--> OUTPUT DATA: ===\n" : CStr)
        sayText (format_oi_fits_summary outData)
        let there ← fun w => .ok ((w.files outFilename).isSome, w)
        if there then
          if clobber = false then
            say (("Output file '" : CStr) ++ outFilename ++
              ("' exists and '--clobber' not specified -> Exiting...\n" : CStr))
            exitWith 1
          else if removable outFilename = false then
            say (("Failed to remove existing output file '" : CStr) ++ outFilename ++ ("'\n" : CStr))
            exitWith 1
          else fun w => .ok ((), { w with files := w.files.set outFilename none })
        let status ← write outFilename outData
        if status ≠ .ok then exitWith EXIT_FAILURE
        exitWith EXIT_SUCCESS
  | .args _ _ argv =>
    say (("Wrong number of command-line arguments\nEnter '" : CStr) ++ (argv.head?.getD []) ++
      (" --help' for usage information\n" : CStr))
    exitWith 2

/-- oifits-merge.c:31-95 `main`, as `oifits_merge` in `Cli`. -/
def mergeWith (read : Nat → CStr → Prog R (Option (OiFits R) × Status)) (write : CStr → OiFits R → Prog R Status)
    (argv : List CStr) : Prog R Unit := do
  match argv with
  | _ :: outFilename :: in1 :: in2 :: more =>
    let inOiList ← readInputsReading read 0 (in1 :: in2 :: more)
    let outOi ← call (merge_oi_fits_list inOiList)
    say ("=== MERGED DATA: ===\n" : CStr)
    sayText (format_oi_fits_summary outOi)
    let status ← write outFilename outOi
    if status ≠ .ok then exitWith EXIT_FAILURE
    exitWith EXIT_SUCCESS
  | _ =>
    say (("Usage:\n" : CStr) ++ (argv.head?.getD []) ++ (" OUTFILE INFILE1 INFILE2...\n" : CStr))
    exitWith 2

/-- oifits-upgrade.c:32-85 `main`, as `oifits_upgrade` in `Cli`. -/
def upgradeWith (read : CStr → Prog R (Option (OiFits R) × Status)) (write : CStr → OiFits R → Prog R Status)
    (argv : List CStr) : Prog R Unit := do
  match argv with
  | _ :: inFilename :: outFilename :: origin :: observer :: more =>
    let insmode := more.head?
    let (oi, status) ← read inFilename
    match oi with
    | none => exitWith EXIT_FAILURE
    | some oi =>
      if status ≠ .ok then exitWith EXIT_FAILURE
      else if is_oi_fits_two oi then
        say ("Input datafile is already latest OIFITS version\n" : CStr)
        exitWith EXIT_FAILURE
      else if oi.numArray = 0 then
        say ("Input datafile has no OI_ARRAY table - cannot convert\n" : CStr)
        exitWith EXIT_FAILURE
      else
        let oi := { oi with header := { oi.header with
          origin := copyArg oi.header.origin (some origin)
          observer := copyArg oi.header.observer (some observer)
          insmode := copyArg oi.header.insmode insmode } }
        say ("=== INPUT DATA: ===\n" : CStr)
        sayText (format_oi_fits_summary oi)
        let status ← write outFilename oi
        if status ≠ .ok then exitWith EXIT_FAILURE
        exitWith EXIT_SUCCESS
  | _ =>
    say (("Usage:\n" : CStr) ++ (argv.head?.getD []) ++ (" INFILE OUTFILE ORIGIN OBSERVER INSMODE\n" : CStr))
    exitWith 2

/-- oifits-filter.c:36-112 `main`: oifits-filter when calls which read the input file (`F`) and write the output file (`W`) fail. -/
def filterFaulty (F : FileFaults) (W : Faults R) (u : Undef R) (today : CStr) (removable : CStr → Bool)
    (line : CommandLine R) : Prog R Unit := filterWith (readFileFailing F u) (writeFileFailing W today) removable line

/-- oifits-merge.c:31-95 `main`: oifits-merge when calls which read the input files and write the output file fail. -/
def mergeFaulty (F : Nat → FileFaults) (W : Faults R) (u : Undef R) (today : CStr) (argv : List CStr) : Prog R Unit :=
  mergeWith (fun k => readFileFailing (F k) u) (writeFileFailing W today) argv

/-- oifits-upgrade.c:32-85 `main`: oifits-upgrade when calls which read the input file and write the output file fail. -/
def upgradeFaulty (F : FileFaults) (W : Faults R) (u : Undef R) (today : CStr) (argv : List CStr) : Prog R Unit :=
  upgradeWith (readFileFailing F u) (writeFileFailing W today) argv

end Verif
