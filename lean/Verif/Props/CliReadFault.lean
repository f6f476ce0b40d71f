import Verif.Proof.CliReadFault
import Verif.Props.Cli

/-!
# C113: programs which cannot read their input
-/

set_option Elab.async false

namespace Verif
open Outcome Spec

variable {R : FP} {u : Undef R} {F : FileFaults} {G : Nat → FileFaults} {today : CStr} {removable : CStr → Bool}
  {line : CommandLine R} {argv : List CStr} {fs : Files R}

/-- C112: if calls fail only where the file is opened and closed, and its header, targets, arrays and wavelengths are
read, then success means that the dataset is the one which is read without errors. -/
theorem C112_complete {hdus : List (Hdu R)} {oi : OiFits R} (h0 : hdus ≠ []) (hn : ∀ h ∈ hdus, StringName h)
    (hF : FileFaults.Early F) (h : read_oi_fits_failing u F hdus = .ok (some oi, .ok)) :
    read_oi_fits u (some hdus) .ok = .ok (some oi, .ok) := read_complete h0 hn hF h

/-! ### Success -/

/-- C113. With such errors oifits-check does and prints the same as without, or it ends with an error, -/
theorem C113_check_partial (hs : Sound fs) (hF : FileFaults.Early F) :
    (checkUnread F u argv).run fs = (oifits_check u argv).run fs ∨
    (((checkUnread F u argv).run fs).exit = .code 1 ∨ ((checkUnread F u argv).run fs).exit = .abort) ∧
      ((checkUnread F u argv).run fs).files = fs := by
  refine sos_run ?_
  rw [show oifits_check u argv = checkReading (readFile u) argv from rfl]
  unfold checkUnread checkReading
  split
  · exact sos_read hs hF u _ (checks_usual _)
  · exact sos_refl fs _

/-- C113. and so do oifits-filter, -/
theorem C113_filter_partial (hs : Sound fs) (hF : FileFaults.Early F) :
    (filterUnread F u today removable line).run fs = (oifits_filter u today removable line).run fs ∨
    (((filterUnread F u today removable line).run fs).exit = .code 1 ∨
      ((filterUnread F u today removable line).run fs).exit = .abort) ∧
      ((filterUnread F u today removable line).run fs).files = fs := by
  refine sos_run ?_
  rw [show oifits_filter u today removable line = filterReading (readFile u) today removable line from rfl]
  unfold filterUnread filterReading
  split
  · exact sos_refl fs _
  · exact sos_read hs hF u _ (checks_usual _)
  · exact sos_refl fs _

/-- C113. oifits-merge, -/
theorem C113_merge_partial (hs : Sound fs) (hG : ∀ k, FileFaults.Early (G k)) :
    (mergeUnread G u today argv).run fs = (oifits_merge u today argv).run fs ∨
    (((mergeUnread G u today argv).run fs).exit = .code 1 ∨ ((mergeUnread G u today argv).run fs).exit = .abort) ∧
      ((mergeUnread G u today argv).run fs).files = fs := by
  refine sos_run ?_
  rcases argv with _ | ⟨a, _ | ⟨b, _ | ⟨c, _ | ⟨d, more⟩⟩⟩⟩
  all_goals try exact sos_refl fs _
  exact sos_bind (sos_inputs hs hG u _ 0) (fun w a w' h => inputs_files _ h) fun l => sos_refl fs _

/-- C113. and oifits-upgrade, and in the second case no file has changed. -/
theorem C113_upgrade_partial (hs : Sound fs) (hF : FileFaults.Early F) :
    (upgradeUnread F u today argv).run fs = (oifits_upgrade u today argv).run fs ∨
    (((upgradeUnread F u today argv).run fs).exit = .code 1 ∨ ((upgradeUnread F u today argv).run fs).exit = .abort) ∧
      ((upgradeUnread F u today argv).run fs).files = fs := by
  refine sos_run ?_
  rw [show oifits_upgrade u today argv = upgradeReading (readFile u) today argv from rfl]
  unfold upgradeUnread upgradeReading
  split
  · exact sos_read hs hF u _ (checks_usual _)
  · exact sos_refl fs _

/-! ### Errors -/

section
variable {hdus : List (Hdu R)} {prog file : CStr}

/-- C113. If one of these calls fails, whatever other calls fail, then oifits-check ends with an error. -/
theorem C113_check_noticed (hs : Sound fs) (hF : FileFaults.Plain F) (hl : file.length < FLEN_FILENAME)
    (hf : fs file = some (.fits hdus)) (hN : FileFaults.Noticed F hdus) :
    (((checkUnread F u [prog, file]).run fs).exit = .code 1 ∨ ((checkUnread F u [prog, file]).run fs).exit = .abort) ∧
      ((checkUnread F u [prog, file]).run fs).files = fs := by
  refine stops_run ?_
  obtain ⟨h0, hn⟩ := hs _ _ hf
  refine stops_read hF h0 hn ?_ hN (checks_usual _)
  rw [strlcpy_short hl]
  exact hf

/-- C113. The same for oifits-filter, -/
theorem C113_filter_noticed {opts : List (FilterOpt R)} {clobber : Bool} {outfile : CStr} (hs : Sound fs)
    (hF : FileFaults.Plain F) (hl : file.length < FLEN_FILENAME) (hf : fs file = some (.fits hdus))
    (hN : FileFaults.Noticed F hdus) :
    (((filterUnread F u today removable (.args opts clobber [prog, file, outfile])).run fs).exit = .code 1 ∨
      ((filterUnread F u today removable (.args opts clobber [prog, file, outfile])).run fs).exit = .abort) ∧
      ((filterUnread F u today removable (.args opts clobber [prog, file, outfile])).run fs).files = fs := by
  refine stops_run ?_
  obtain ⟨h0, hn⟩ := hs _ _ hf
  refine stops_read hF h0 hn ?_ hN (checks_usual _)
  rw [strlcpy_short hl]
  exact hf

/-- C113. oifits-merge, where it may be any of the input files, -/
theorem C113_merge_noticed {outfile in1 in2 : CStr} {more : List CStr} {j : Nat} (hs : Sound fs)
    (hG : ∀ k, FileFaults.Plain (G k)) (hj : (in1 :: in2 :: more)[j]? = some file) (hf : fs file = some (.fits hdus))
    (hN : FileFaults.Noticed (G j) hdus) :
    (((mergeUnread G u today (prog :: outfile :: in1 :: in2 :: more)).run fs).exit = .code 1 ∨
      ((mergeUnread G u today (prog :: outfile :: in1 :: in2 :: more)).run fs).exit = .abort) ∧
      ((mergeUnread G u today (prog :: outfile :: in1 :: in2 :: more)).run fs).files = fs := by
  refine stops_run (stops_bind ?_ _)
  exact stops_inputs hs _ 0 (fun k _ => hG _) ⟨j, file, hdus, hj, hf, by rwa [Nat.zero_add]⟩

/-- C113. and oifits-upgrade. No file is changed. -/
theorem C113_upgrade_noticed {outfile origin observer : CStr} {more : List CStr} (hs : Sound fs)
    (hF : FileFaults.Plain F) (hf : fs file = some (.fits hdus)) (hN : FileFaults.Noticed F hdus) :
    (((upgradeUnread F u today (prog :: file :: outfile :: origin :: observer :: more)).run fs).exit = .code 1 ∨
      ((upgradeUnread F u today (prog :: file :: outfile :: origin :: observer :: more)).run fs).exit = .abort) ∧
      ((upgradeUnread F u today (prog :: file :: outfile :: origin :: observer :: more)).run fs).files = fs := by
  refine stops_run ?_
  obtain ⟨h0, hn⟩ := hs _ _ hf
  exact stops_read hF h0 hn hf hN (checks_usual _)

end

/-! ### Examples -/

/-- The call which reads the first OI_FLUX table fails. -/
def Ex.fluxFault : FileFaults := { FileFaults.none with flux := ⟨none, [some ⟨.other 108, 9⟩]⟩ }

/-- The call which reads the OI_TARGET table fails. -/
def Ex.targetFault : FileFaults := { FileFaults.none with target := some (.other 108) }

theorem Ex.fluxFault_plain : FileFaults.Plain Ex.fluxFault := by
  have ht : TableFaults.Errors TableFaults.none := ⟨by rintro ⟨⟩, by rintro f ⟨⟩⟩
  have he : TableFaults.NotEof TableFaults.none := ⟨by rintro ⟨⟩, by rintro f ⟨⟩⟩
  refine ⟨⟨by rintro ⟨⟩, by rintro ⟨⟩, by rintro ⟨⟩, ht, ht, ht, ht, ht, ht, ht, ?_, by rintro ⟨⟩⟩, he, he⟩
  refine ⟨by rintro ⟨⟩, fun f hf => ?_⟩
  obtain rfl : f = ⟨.other 108, 9⟩ := by simpa [Ex.fluxFault] using hf
  decide

theorem Ex.targetFault_early : FileFaults.Early Ex.targetFault := by
  have ht : TableFaults.Errors TableFaults.none := ⟨by rintro ⟨⟩, by rintro f ⟨⟩⟩
  have he : TableFaults.NotEof TableFaults.none := ⟨by rintro ⟨⟩, by rintro f ⟨⟩⟩
  refine ⟨⟨⟨by rintro ⟨⟩, by rintro ⟨⟩, by rintro ⟨⟩, ht, ht, ht, ht, ht, ht, ht, ht, by rintro ⟨⟩⟩, he, he⟩,
    rfl, rfl, rfl, rfl, rfl, rfl⟩

/-- The only file. -/
def Ex.oneOnly : Files FP.ratFP := fun n => if n = ("one" : CStr) then some (.fits Ex.oneFile) else none

theorem Ex.oneOnly_sound : Sound Ex.oneOnly := by
  intro name hdus h
  unfold Ex.oneOnly at h
  split at h
  · cases h
    exact ⟨by decide, Ex.oneFile_names⟩
  · cases h

/-- The tables called OI_VIS2 in a file. -/
def Ex.countVis2 (d : Option (FileData FP.ratFP)) : Option Nat :=
  match d with
  | some (.fits hdus) => some (positions "OI_VIS2" hdus).length
  | _ => none

/-- Without the condition on the other tables: oifits-check prints that all checks are passed although the file does not
pass them, because the table which breaks a rule could not be read. -/
theorem C113_check_counterexample : ∃ (F : FileFaults) (fs : Files FP.ratFP) (argv : List CStr), FileFaults.Plain F ∧
    ((checkUnread F Ex.undef argv).run fs).exit = .code 0 ∧
    ("All checks passed\n" : CStr) <:+ ((checkUnread F Ex.undef argv).run fs).out ∧
    ¬ ("All checks passed\n" : CStr) <:+ ((oifits_check Ex.undef argv).run fs).out :=
  ⟨Ex.fluxFault, Ex.files, ["oifits-check", "in"], Ex.fluxFault_plain, by decide +kernel, by decide +kernel, by decide +kernel⟩

/-- In the same way oifits-filter makes a file which lacks a table, and ends with exit code zero. -/
theorem C113_filter_counterexample : ∃ (F : FileFaults) (fs : Files FP.ratFP) (line : CommandLine FP.ratFP),
    FileFaults.Errors F ∧
    ((filterUnread F Ex.undef "2016-01-02" (fun _ => true) line).run fs).exit = .code 0 ∧
    Ex.countVis2 (((filterUnread F Ex.undef "2016-01-02" (fun _ => true) line).run fs).files "out") = some 0 ∧
    Ex.countVis2 (((oifits_filter Ex.undef "2016-01-02" (fun _ => true) line).run fs).files "out") = some 1 := by
  refine ⟨Ex.vis2Fault, Ex.oneOnly, .args [] false ["oifits-filter", "one", "out"], ?_, by decide +kernel, by decide +kernel,
    by decide +kernel⟩
  have ht : TableFaults.Errors TableFaults.none := ⟨by rintro ⟨⟩, by rintro f ⟨⟩⟩
  refine ⟨by rintro ⟨⟩, by rintro ⟨⟩, by rintro ⟨⟩, ht, ht, ht, ht, ht, ?_, ht, ht, by rintro ⟨⟩⟩
  refine ⟨by rintro ⟨⟩, fun f hf => ?_⟩
  obtain rfl : f = ⟨.other 108, 9⟩ := by simpa [Ex.vis2Fault] using hf
  decide

/-- A failing call which meets the hypotheses, and what oifits-merge does. -/
example : Sound Ex.oneOnly ∧ FileFaults.Early Ex.targetFault ∧ FileFaults.Noticed Ex.targetFault Ex.oneFile ∧
    ((mergeUnread (fun k => if k = 1 then Ex.targetFault else FileFaults.none) Ex.undef "2016-01-02"
      ["oifits-merge", "out", "one", "one"]).run Ex.oneOnly).exit = .code 1 ∧
    ((oifits_merge Ex.undef "2016-01-02" ["oifits-merge", "out", "one", "one"]).run Ex.oneOnly).exit = .code 0 :=
  ⟨Ex.oneOnly_sound, Ex.targetFault_early, .inr (.inr (.inl (by simp [Ex.targetFault]))), by decide +kernel, by decide +kernel⟩

/-- And the other programs. -/
example : ((checkUnread Ex.targetFault Ex.undef ["oifits-check", "one"]).run Ex.oneOnly).exit = .code 1 ∧
    ((oifits_check Ex.undef ["oifits-check", "one"]).run Ex.oneOnly).exit = .code 0 ∧
    ((upgradeUnread Ex.targetFault Ex.undef "2016-01-02" ["oifits-upgrade", "one", "out", "ESO", "A. Person"]).run
      Ex.oneOnly).exit = .code 1 ∧
    ((oifits_upgrade Ex.undef "2016-01-02" ["oifits-upgrade", "one", "out", "ESO", "A. Person"]).run Ex.oneOnly).exit =
      .code 0 := by
  decide +kernel

end Verif
