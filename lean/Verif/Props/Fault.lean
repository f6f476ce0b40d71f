import Verif.Spec.Fault
import Verif.Proof.Fault
import Verif.Props.Cli
import Verif.Props.ConformKept

/-! C110: errors while a file is written are never taken for success. -/

set_option Elab.async false

namespace Verif
open Outcome Spec
variable {R : FP}

/-! ### The function `write_oi_fits` -/

/-- If nothing fails, the calls of CFITSIO do what `Model/Write.lean` says. -/
theorem C110_faultless {F : Faults R} (h : NothingFails F) (today : CStr) (there : Bool) (oi : OiFits R) (st : Status) :
    write_oi_fits_failing F today there oi st = write_oi_fits today there oi st := by
  obtain ⟨c, k, l⟩ := F
  obtain ⟨rfl, h2, rfl⟩ := h
  rw [show k = fun _ _ => none from funext fun a => funext fun b => h2 a b]
  exact write_noFaults today there oi st

/-- C110. Whatever fails, and whatever the dataset: if the status is zero in the end, then the file is the same as if
nothing had failed. -/
theorem C110_success {F : Faults R} {today : CStr} {there : Bool} {oi : OiFits R} {st : Status}
    {o : Option (List (Hdu R))} (h : write_oi_fits_failing F today there oi st = .ok (o, .ok)) :
    write_oi_fits today there oi st = .ok (o, .ok) := write_failing_success h

/-- C110. A failing call does not make the function crash: if it succeeds without failures, then it always returns. -/
theorem C110_returns (F : Faults R) {today : CStr} {there : Bool} {oi : OiFits R} {st : Status}
    {o : Option (List (Hdu R))} (h : write_oi_fits today there oi st = .ok (o, .ok)) :
    ∃ o' st', write_oi_fits_failing F today there oi st = .ok (o', st') := write_failing_total h

/-- C110. The status is the error code of the first call which fails, and after it nothing more is written: the file is
what that call has left, or closing it. -/
theorem C110_first {F : Faults R} (today : CStr) {oi : OiFits R} (hs : oi.Storable) {i j : Nat} {f : Fault R}
    (hc : IsCall today oi i j) (hf : FailsFirst F i j f) :
    write_oi_fits_failing F today false oi .ok = .ok (some ((F.close.map Fault.left).getD f.left), f.code) := by
  obtain ⟨part, op, h1, h2, h3⟩ := hc
  obtain ⟨f1, f2, f3, f4⟩ := hf
  exact write_failing_first (write_oi_fits_eq today oi hs) f1 h1 h2 h3 f2 f3 f4

/-- C110. If the file cannot be created, the status is that error code. -/
theorem C110_create {F : Faults R} (today : CStr) (oi : OiFits R) {f : Fault R} {left : Option (FileData R)}
    (hf : F.create = some (f, left)) : write_oi_fits_failing F today false oi .ok = .ok (none, f.code) := by
  unfold write_oi_fits_failing
  rw [if_neg (by simp), if_neg (by simp), hf]

/-- C110. If only closing the file fails, the status is that error code. -/
theorem C110_close {F : Faults R} (today : CStr) {oi : OiFits R} (hs : oi.Storable) {f : Fault R} (h1 : F.create = none)
    (h2 : ∀ i j, F.calls i j = none) (h3 : F.close = some f) :
    write_oi_fits_failing F today false oi .ok = .ok (some f.left, f.code) :=
  write_failing_close (write_oi_fits_eq today oi hs) h1 h2 h3

/-! ### The programs -/

section
variable (F : Faults R) {u : Undef R} {fs : Files R} {today : CStr} {removable : CStr → Bool} {line : CommandLine R}
  {argv : List CStr}

/-- C110. If oifits-filter ends with exit code zero, then its output and the files are the same as if nothing had failed. -/
theorem C110_filter (h : ((filterFailing F u today removable line).run fs).exit = .code 0) :
    (filterFailing F u today removable line).run fs = (oifits_filter u today removable line).run fs :=
  sof_run (filterMain_rel (Rel := SameOrFails) sof_refl sof_bind (sof_last F today) u removable line) fs h

/-- C110. The same for oifits-merge. -/
theorem C110_merge (h : ((mergeFailing F u today argv).run fs).exit = .code 0) :
    (mergeFailing F u today argv).run fs = (oifits_merge u today argv).run fs :=
  sof_run (mergeMain_rel (Rel := SameOrFails) sof_refl sof_bind (sof_last F today) u argv) fs h

/-- C110. The same for oifits-upgrade. -/
theorem C110_upgrade (h : ((upgradeFailing F u today argv).run fs).exit = .code 0) :
    (upgradeFailing F u today argv).run fs = (oifits_upgrade u today argv).run fs :=
  sof_run (upgradeMain_rel (Rel := SameOrFails) sof_refl sof_bind (sof_last F today) u argv) fs h

/-- C110. If oifits-filter succeeds without failures, then with failures its exit code is zero or one. -/
theorem C110_filter_exit (h : ((oifits_filter u today removable line).run fs).exit = .code 0) :
    ((filterFailing F u today removable line).run fs).exit = .code 0 ∨
    ((filterFailing F u today removable line).run fs).exit = .code 1 :=
  zto_run (filterMain_rel (Rel := ZeroThenOne) zto_refl zto_bind (zto_last F today) u removable line) fs h

/-- C110. The same for oifits-merge. -/
theorem C110_merge_exit (h : ((oifits_merge u today argv).run fs).exit = .code 0) :
    ((mergeFailing F u today argv).run fs).exit = .code 0 ∨ ((mergeFailing F u today argv).run fs).exit = .code 1 :=
  zto_run (mergeMain_rel (Rel := ZeroThenOne) zto_refl zto_bind (zto_last F today) u argv) fs h

/-- C110. The same for oifits-upgrade. -/
theorem C110_upgrade_exit (h : ((oifits_upgrade u today argv).run fs).exit = .code 0) :
    ((upgradeFailing F u today argv).run fs).exit = .code 0 ∨ ((upgradeFailing F u today argv).run fs).exit = .code 1 :=
  zto_run (upgradeMain_rel (Rel := ZeroThenOne) zto_refl zto_bind (zto_last F today) u argv) fs h

/-! ### Files -/

/-- C110. Whatever fails, oifits-merge changes no file which exists. -/
theorem C110_merge_files (ho : ∀ file, argv[1]? = some file → file.head? ≠ some '!') {name : CStr} {d : FileData R}
    (hd : fs name = some d) : ((mergeFailing F u today argv).run fs).files name = some d :=
  run_obeys (T := KeepsExisting) (obeys_mergeMain keepsExisting_pre u argv fun file hf oi =>
    obeys_failing_keepsExisting (ho file hf) F today oi) fs name d hd

/-- C110. Whatever fails, oifits-upgrade changes no file which exists. -/
theorem C110_upgrade_files (ho : ∀ file, argv[2]? = some file → file.head? ≠ some '!') {name : CStr} {d : FileData R}
    (hd : fs name = some d) : ((upgradeFailing F u today argv).run fs).files name = some d :=
  run_obeys (T := KeepsExisting) (obeys_upgradeMain keepsExisting_pre u argv fun file hf oi =>
    obeys_failing_keepsExisting (ho file hf) F today oi) fs name d hd

/-- C110. Whatever fails, oifits-filter changes no file except the output file, -/
theorem C110_filter_others {opts : List (FilterOpt R)} {clobber : Bool} {prog infile outfile : CStr} (ho : PlainName outfile)
    {name : CStr} (hn : name ≠ outfile) :
    ((filterFailing F u today removable (.args opts clobber [prog, infile, outfile])).run fs).files name = fs name :=
  run_obeys (T := KeepsOthers outfile) (obeys_filterMain (keepsOthers_pre _) u removable _
    (fun _ _ _ _ _ e oi => by
      cases e; rw [strlcpy_short ho.short]; exact obeys_failing_keepsOthers ho.plain F today oi)
    (fun _ _ _ _ e f => by cases e; rw [strlcpy_short ho.short]; exact keepsOthers_set _ _ _)) fs name hn

/-- C110. and without `--clobber` not even that, if it exists. -/
theorem C110_filter_files {opts : List (FilterOpt R)} {prog infile outfile : CStr} (ho : PlainName outfile) {name : CStr}
    {d : FileData R} (hd : fs name = some d) :
    ((filterFailing F u today removable (.args opts false [prog, infile, outfile])).run fs).files name = some d :=
  run_obeys (T := KeepsExisting) (obeys_filterMain keepsExisting_pre u removable _
    (fun _ _ _ _ _ e oi => by
      cases e; rw [strlcpy_short ho.short]; exact obeys_failing_keepsExisting ho.plain F today oi)
    (fun _ _ _ _ e f => by cases e)) fs name d hd

end

/-! ### Examples -/

namespace Ex

/-- The disk is full (WRITE_ERROR) at one call. -/
def fullAt (i j : Nat) : Faults FP.ratFP :=
  ⟨none, fun a b => if a = i ∧ b = j then some ⟨.other 106, by decide, []⟩ else none, none⟩

theorem fullAt_first (i j : Nat) : FailsFirst (fullAt i j) i j ⟨.other 106, by decide, []⟩ := by
  refine ⟨rfl, fun a b h => ?_, fun b h => ?_, ?_⟩
  · exact if_neg fun e => by omega
  · exact if_neg fun e => by omega
  · exact if_pos ⟨rfl, rfl⟩

end Ex

-- The hypotheses of `C110_first` are met by each of the 286 calls between creating and closing the file: here for
-- the last one, which writes the checksum of the last table.
example : callCount "2016-01-01" Ex.good = 286 ∧ Ex.good.Storable ∧ IsCall "2016-01-01" Ex.good 9 21 ∧
    FailsFirst (Ex.fullAt 9 21) 9 21 ⟨.other 106, by decide, []⟩ ∧
    write_oi_fits_failing (Ex.fullAt 9 21) "2016-01-01" false Ex.good .ok = .ok (some [], .other 106) :=
  have h : IsCall "2016-01-01" Ex.good 9 21 := ⟨_, _, rfl, rfl, rfl⟩
  ⟨by decide +kernel, Ex.good_storable, h, Ex.fullAt_first 9 21,
    C110_first "2016-01-01" Ex.good_storable h (Ex.fullAt_first 9 21)⟩

-- With a failure oifits-merge ends with exit code one; a failure which does not come about does no harm.
example : ((mergeFailing (Ex.fullAt 3 5) Ex.undef "2016-01-02" ["oifits-merge", "out", "in", "in"]).run Ex.files).exit
      = .code 1 ∧
    ((mergeFailing (Ex.fullAt 30 5) Ex.undef "2016-01-02" ["oifits-merge", "out", "in", "in"]).run Ex.files).exit
      = .code 0 := by decide +kernel

-- The same for oifits-upgrade.
example : ((upgradeFailing (Ex.fullAt 3 5) Ex.undef "2016-01-02"
      ["oifits-upgrade", "first", "out", "ESO", "Me", "LOW"]).run Ex.files).exit = .code 1 ∧
    ((upgradeFailing (Ex.fullAt 30 5) Ex.undef "2016-01-02"
      ["oifits-upgrade", "first", "out", "ESO", "Me", "LOW"]).run Ex.files).exit = .code 0 := by decide +kernel

/-- C110: with `--clobber` oifits-filter removes the old output file before it writes the new one. If the disk is full
then both are lost. -/
theorem C110_clobber_loses : ∃ (F : Faults FP.ratFP) (fs : Files FP.ratFP) (line : CommandLine FP.ratFP) (name : CStr)
    (d : FileData FP.ratFP), fs name = some d ∧
    ((oifits_filter Ex.undef "2016-01-02" (fun _ => true) line).run fs).exit = .code 0 ∧
    ((filterFailing F Ex.undef "2016-01-02" (fun _ => true) line).run fs).exit = .code 1 ∧
    ((filterFailing F Ex.undef "2016-01-02" (fun _ => true) line).run fs).files name ≠ some d := by
  refine ⟨Ex.fullAt 3 5, Ex.files, .args [] true ["oifits-filter", "in", "old"], "old", .other, rfl, by decide +kernel,
    by decide +kernel, fun h => ?_⟩
  have h2 : Ex.isOther (((filterFailing (Ex.fullAt 3 5) Ex.undef "2016-01-02" (fun _ => true)
      (.args [] true ["oifits-filter", "in", "old"])).run Ex.files).files "old") = false := by decide +kernel
  rw [h] at h2
  cases h2

end Verif
