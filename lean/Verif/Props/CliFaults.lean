import Verif.Proof.CliFaults
import Verif.Props.CliReadFault
import Verif.Props.Fault

/-!
# C114: programs when both reading and writing fail
-/

set_option Elab.async false

namespace Verif
open Outcome Spec

variable {R : FP} {u : Undef R} {F : FileFaults} {G : Nat → FileFaults} {W : Faults R} {today : CStr}
  {removable : CStr → Bool} {line : CommandLine R} {argv : List CStr} {fs : Files R}

/-! ### The output file is complete -/

/-- C114. Whatever calls fail: if oifits-filter ends with exit code zero, then its output and the files are the same as if
no call which writes had failed. -/
theorem C114_filter_written (h : ((filterFaulty F W u today removable line).run fs).exit = .code 0) :
    (filterFaulty F W u today removable line).run fs = (filterUnread F u today removable line).run fs :=
  sof_run (filterWith_rel (Rel := SameOrFails) sof_refl sof_bind (sof_last W today) _ removable line) fs h

/-- C114. The same for oifits-merge. -/
theorem C114_merge_written (h : ((mergeFaulty G W u today argv).run fs).exit = .code 0) :
    (mergeFaulty G W u today argv).run fs = (mergeUnread G u today argv).run fs :=
  sof_run (mergeWith_rel (Rel := SameOrFails) sof_refl sof_bind (sof_last W today) _ argv) fs h

/-- C114. The same for oifits-upgrade. -/
theorem C114_upgrade_written (h : ((upgradeFaulty F W u today argv).run fs).exit = .code 0) :
    (upgradeFaulty F W u today argv).run fs = (upgradeUnread F u today argv).run fs :=
  sof_run (upgradeWith_rel (Rel := SameOrFails) sof_refl sof_bind (sof_last W today) _ argv) fs h

/-! ### Success -/

/-- C114. If the calls which read and fail are those which open and close the file, or read its header, targets, arrays
and wavelengths, whatever calls which write fail: exit code zero means that oifits-filter has done and printed the same
as if nothing had failed. -/
theorem C114_filter_partial (hs : Sound fs) (hF : FileFaults.Early F)
    (h : ((filterFaulty F W u today removable line).run fs).exit = .code 0) :
    (filterFaulty F W u today removable line).run fs = (oifits_filter u today removable line).run fs := by
  have e := C114_filter_written h
  rw [e] at h ⊢
  rcases C113_filter_partial hs hF (u := u) (today := today) (removable := removable) (line := line) with h1 | ⟨h1 | h1, _⟩
  · exact h1
  · rw [h1] at h; cases h
  · rw [h1] at h; cases h

/-- C114. The same for oifits-merge. -/
theorem C114_merge_partial (hs : Sound fs) (hG : ∀ k, FileFaults.Early (G k))
    (h : ((mergeFaulty G W u today argv).run fs).exit = .code 0) :
    (mergeFaulty G W u today argv).run fs = (oifits_merge u today argv).run fs := by
  have e := C114_merge_written h
  rw [e] at h ⊢
  rcases C113_merge_partial hs hG (u := u) (today := today) (argv := argv) with h1 | ⟨h1 | h1, _⟩
  · exact h1
  · rw [h1] at h; cases h
  · rw [h1] at h; cases h

/-- C114. The same for oifits-upgrade. -/
theorem C114_upgrade_partial (hs : Sound fs) (hF : FileFaults.Early F)
    (h : ((upgradeFaulty F W u today argv).run fs).exit = .code 0) :
    (upgradeFaulty F W u today argv).run fs = (oifits_upgrade u today argv).run fs := by
  have e := C114_upgrade_written h
  rw [e] at h ⊢
  rcases C113_upgrade_partial hs hF (u := u) (today := today) (argv := argv) with h1 | ⟨h1 | h1, _⟩
  · exact h1
  · rw [h1] at h; cases h
  · rw [h1] at h; cases h

/-! ### Files -/

section
variable (F : FileFaults) (G : Nat → FileFaults) (W : Faults R)

/-- C114. Whatever fails, oifits-merge changes no file which exists. -/
theorem C114_merge_files (ho : ∀ file, argv[1]? = some file → file.head? ≠ some '!') {name : CStr} {d : FileData R}
    (hd : fs name = some d) : ((mergeFaulty G W u today argv).run fs).files name = some d :=
  run_obeys (T := KeepsExisting) (obeys_mergeWith keepsExisting_pre
    (fun k n => obeys_readFailing keepsExisting_pre (G k) u n) argv fun file hf oi =>
    obeys_failing_keepsExisting (ho file hf) W today oi) fs name d hd

/-- C114. Whatever fails, oifits-upgrade changes no file which exists. -/
theorem C114_upgrade_files (ho : ∀ file, argv[2]? = some file → file.head? ≠ some '!') {name : CStr} {d : FileData R}
    (hd : fs name = some d) : ((upgradeFaulty F W u today argv).run fs).files name = some d :=
  run_obeys (T := KeepsExisting) (obeys_upgradeWith keepsExisting_pre
    (fun n => obeys_readFailing keepsExisting_pre F u n) argv fun file hf oi =>
    obeys_failing_keepsExisting (ho file hf) W today oi) fs name d hd

/-- C114. Whatever fails, oifits-filter changes no file except the output file, -/
theorem C114_filter_others {opts : List (FilterOpt R)} {clobber : Bool} {prog infile outfile : CStr} (ho : PlainName outfile)
    {name : CStr} (hn : name ≠ outfile) :
    ((filterFaulty F W u today removable (.args opts clobber [prog, infile, outfile])).run fs).files name = fs name :=
  run_obeys (T := KeepsOthers outfile) (obeys_filterWith (keepsOthers_pre _)
    (fun n => obeys_readFailing (keepsOthers_pre _) F u n) removable _
    (fun _ _ _ _ _ e oi => by
      cases e; rw [strlcpy_short ho.short]; exact obeys_failing_keepsOthers ho.plain W today oi)
    (fun _ _ _ _ e f => by cases e; rw [strlcpy_short ho.short]; exact keepsOthers_set _ _ _)) fs name hn

/-- C114. and without `--clobber` not even that, if it exists. -/
theorem C114_filter_files {opts : List (FilterOpt R)} {prog infile outfile : CStr} (ho : PlainName outfile) {name : CStr}
    {d : FileData R} (hd : fs name = some d) :
    ((filterFaulty F W u today removable (.args opts false [prog, infile, outfile])).run fs).files name = some d :=
  run_obeys (T := KeepsExisting) (obeys_filterWith keepsExisting_pre
    (fun n => obeys_readFailing keepsExisting_pre F u n) removable _
    (fun _ _ _ _ _ e oi => by
      cases e; rw [strlcpy_short ho.short]; exact obeys_failing_keepsExisting ho.plain W today oi)
    (fun _ _ _ _ e f => by cases e)) fs name d hd

end

/-! ### Errors while reading -/

section
variable {hdus : List (Hdu R)} {prog file : CStr}

/-- C114. If a call which opens or closes the input file, or reads its header, targets, arrays or wavelengths fails, then
oifits-filter ends with an error and leaves all files as they are, even with `--clobber`: whatever other calls fail. -/
theorem C114_filter_noticed {opts : List (FilterOpt R)} {clobber : Bool} {outfile : CStr} (hs : Sound fs)
    (hF : FileFaults.Plain F) (hl : file.length < FLEN_FILENAME) (hf : fs file = some (.fits hdus))
    (hN : FileFaults.Noticed F hdus) :
    (((filterFaulty F W u today removable (.args opts clobber [prog, file, outfile])).run fs).exit = .code 1 ∨
      ((filterFaulty F W u today removable (.args opts clobber [prog, file, outfile])).run fs).exit = .abort) ∧
      ((filterFaulty F W u today removable (.args opts clobber [prog, file, outfile])).run fs).files = fs := by
  refine stops_run ?_
  obtain ⟨h0, hn⟩ := hs _ _ hf
  refine stops_read hF h0 hn ?_ hN (checks_usual _)
  rw [strlcpy_short hl]
  exact hf

/-- C114. The same for oifits-merge and any of its input files, -/
theorem C114_merge_noticed {outfile in1 in2 : CStr} {more : List CStr} {j : Nat} (hs : Sound fs)
    (hG : ∀ k, FileFaults.Plain (G k)) (hj : (in1 :: in2 :: more)[j]? = some file) (hf : fs file = some (.fits hdus))
    (hN : FileFaults.Noticed (G j) hdus) :
    (((mergeFaulty G W u today (prog :: outfile :: in1 :: in2 :: more)).run fs).exit = .code 1 ∨
      ((mergeFaulty G W u today (prog :: outfile :: in1 :: in2 :: more)).run fs).exit = .abort) ∧
      ((mergeFaulty G W u today (prog :: outfile :: in1 :: in2 :: more)).run fs).files = fs := by
  refine stops_run (stops_bind ?_ _)
  exact stops_inputs hs _ 0 (fun k _ => hG _) ⟨j, file, hdus, hj, hf, by rwa [Nat.zero_add]⟩

/-- C114. and for oifits-upgrade. -/
theorem C114_upgrade_noticed {outfile origin observer : CStr} {more : List CStr} (hs : Sound fs)
    (hF : FileFaults.Plain F) (hf : fs file = some (.fits hdus)) (hN : FileFaults.Noticed F hdus) :
    (((upgradeFaulty F W u today (prog :: file :: outfile :: origin :: observer :: more)).run fs).exit = .code 1 ∨
      ((upgradeFaulty F W u today (prog :: file :: outfile :: origin :: observer :: more)).run fs).exit = .abort) ∧
      ((upgradeFaulty F W u today (prog :: file :: outfile :: origin :: observer :: more)).run fs).files = fs := by
  refine stops_run ?_
  obtain ⟨h0, hn⟩ := hs _ _ hf
  exact stops_read hF h0 hn hf hN (checks_usual _)

end

/-! ### Examples -/

/-- What remains: a call which reads a table of data fails, the table is left out, and the rest is filtered and written
without an error. -/
theorem C114_filter_counterexample : ∃ (F : FileFaults) (W : Faults FP.ratFP) (fs : Files FP.ratFP)
    (line : CommandLine FP.ratFP),
    ((filterFaulty F W Ex.undef "2016-01-02" (fun _ => true) line).run fs).exit = .code 0 ∧
    Ex.countVis2 (((filterFaulty F W Ex.undef "2016-01-02" (fun _ => true) line).run fs).files "out") = some 0 ∧
    Ex.countVis2 (((oifits_filter Ex.undef "2016-01-02" (fun _ => true) line).run fs).files "out") = some 1 :=
  ⟨Ex.vis2Fault, Ex.fullAt 30 5, Ex.oneOnly, .args [] false ["oifits-filter", "one", "out"], by decide +kernel,
    by decide +kernel, by decide +kernel⟩

-- The hypotheses are met: nothing fails while reading, and a failure to write does or does not come about.
example : Sound Ex.oneOnly ∧ FileFaults.Early Ex.targetFault ∧
    ((filterFaulty FileFaults.none (Ex.fullAt 30 5) Ex.undef "2016-01-02" (fun _ => true)
      (.args [] false ["oifits-filter", "one", "out"])).run Ex.oneOnly).exit = .code 0 ∧
    ((filterFaulty FileFaults.none (Ex.fullAt 3 5) Ex.undef "2016-01-02" (fun _ => true)
      (.args [] false ["oifits-filter", "one", "out"])).run Ex.oneOnly).exit = .code 1 ∧
    ((filterFaulty Ex.targetFault (Ex.fullAt 30 5) Ex.undef "2016-01-02" (fun _ => true)
      (.args [] false ["oifits-filter", "one", "out"])).run Ex.oneOnly).exit = .code 1 :=
  ⟨Ex.oneOnly_sound, Ex.targetFault_early, by decide +kernel, by decide +kernel, by decide +kernel⟩

example : FileFaults.Early FileFaults.none := by
  have ht : TableFaults.Errors TableFaults.none := ⟨by rintro ⟨⟩, by rintro f ⟨⟩⟩
  have he : TableFaults.NotEof TableFaults.none := ⟨by rintro ⟨⟩, by rintro f ⟨⟩⟩
  exact ⟨⟨⟨by rintro ⟨⟩, by rintro ⟨⟩, by rintro ⟨⟩, ht, ht, ht, ht, ht, ht, ht, ht, by rintro ⟨⟩⟩, he, he⟩,
    rfl, rfl, rfl, rfl, rfl, rfl⟩

end Verif
