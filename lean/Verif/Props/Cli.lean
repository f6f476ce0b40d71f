import Verif.Proof.Cli
import Verif.Proof.MergeWF
import Verif.Spec.ExampleCli
import Verif.Props.Filter
import Verif.Props.Merge

/-! Properties of the texts for the user and of the command-line programs: C15, C56, and
C67 to C72. -/

set_option Elab.async false

namespace Verif
open Outcome Spec
variable {R : FP}

/-! ### C67: the summary of a dataset -/

/-- C67. Whatever the string buffer holds before, the summary is that of the dataset. -/
theorem C67_summary {oi : OiFits R} (h : oi.WF) (buffer : Option CStr) :
    format_oi_fits_summary oi buffer = .ok (summary oi, some (summary oi)) := summary_eq h buffer

/-- C67. The wavelengths in the summary are the smallest and largest of the table. -/
theorem C67_wavelengths (L : Lawful R) {w : OiWavelength R} (hw : w.WF) {top bot : Rat}
    (htop : L.val (R.toD (R.toF (R.lit 1.0e11))) = some top) (hbot : L.val (R.toD (R.toF (R.lit 0.0))) = some bot)
    (hn : ∀ x ∈ w.eff_wave, ∃ a, L.val (R.toD x) = some a ∧ bot ≤ a ∧ a ≤ top) :
    ∃ lo hi, L.val (R.toD (shortest w.eff_wave)) = some lo ∧ L.val (R.toD (longest w.eff_wave)) = some hi ∧
      (∃ x ∈ w.eff_wave, L.val (R.toD x) = some lo) ∧ (∃ x ∈ w.eff_wave, L.val (R.toD x) = some hi) ∧
      ∀ x ∈ w.eff_wave, ∀ b, L.val (R.toD x) = some b → lo ≤ b ∧ b ≤ hi := by
  obtain ⟨m, lo, h1, h2, h3, h4⟩ := C20_get_min_wavelength L w hw htop
    fun x hx => let ⟨a, ha, _, hb⟩ := hn x hx; ⟨a, ha, hb⟩
  obtain ⟨m', hi, k1, k2, k3, k4⟩ := C20_get_max_wavelength L w hw hbot
    fun x hx => let ⟨a, ha, hb, _⟩ := hn x hx; ⟨a, ha, hb⟩
  rw [get_min_wavelength_eq hw] at h1
  rw [get_max_wavelength_eq hw] at k1
  cases h1; cases k1
  exact ⟨lo, hi, h2, k2, h3, k3, fun x hx b hb => ⟨h4 x hx b hb, k4 x hx b hb⟩⟩

-- the last line of the summary of a dataset with tables of all types but OI_INSPOL
example : ("         1 records x   2 wavebands\n" : CStr) <:+ summary Ex.oic := by decide +kernel

example : Ex.wave.WF ∧ Ex.wave.eff_wave.length = 2 := ⟨Ex.oi_wf.wavelength _ (by simp [Ex.oi]), rfl⟩

/-! ### C68: the description of a filter -/

/-- C68. The text says what the filter accepts. -/
theorem C68_filter_text (f : FilterSpec R) (buffer : Option CStr) :
    format_oi_filter f buffer = .ok (filterText f, some (filterText f)) := filterText_eq f buffer

example : ("Filter accepts:\n  ARRNAME='*'\n  INSNAME='*'\n  CORRNAME='*'\n  [Any TARGET_ID]\n" : CStr) <+:
    filterText (init_oi_filter FP.ratFP) := by decide +kernel

/-! ### C69: options of oifits-filter -/

/-- C69. The filter which the program applies is the one its options describe: the last
value given for an option counts, and the default if there is none. -/
theorem C69_options (opts : List (FilterOpt R)) : MadeFrom opts (userFilter opts) where
  arrname := by from_option (fun v => v.arrname) some nameOr (user_arrname opts)
  insname := by from_option (fun v => v.insname) some nameOr (user_insname opts)
  corrname := by from_option (fun v => v.corrname) some nameOr (user_corrname opts)
  target_id := by from_option (fun v => v.parsedFilter.target_id) id id (post_rest _).1
  mjd_min := by from_option (fun v => v.parsedFilter.mjd_range.1) id id (congrArg Prod.fst (post_rest _).2.1)
  mjd_max := by from_option (fun v => v.parsedFilter.mjd_range.2) id id (congrArg Prod.snd (post_rest _).2.1)
  bas_min := by from_option (fun v => v.parsedFilter.bas_range.1) id id (congrArg Prod.fst (post_rest _).2.2.1)
  bas_max := by from_option (fun v => v.parsedFilter.bas_range.2) id id (congrArg Prod.snd (post_rest _).2.2.1)
  uvrad_min := by from_option (fun v => v.parsedFilter.uvrad_range.1) id id (congrArg Prod.fst (post_rest _).2.2.2.1)
  uvrad_max := by from_option (fun v => v.parsedFilter.uvrad_range.2) id id (congrArg Prod.snd (post_rest _).2.2.2.1)
  wave_min := by from_option (fun v => v.waveMinNm) id metres rfl
  wave_max := by from_option (fun v => v.waveMaxNm) id metres rfl
  snr_min := by from_option (fun v => v.snrMin) id R.toF rfl
  snr_max := by from_option (fun v => v.snrMax) id R.toF rfl
  accept_vis := by from_option (fun v => v.parsedFilter.accept_vis) (fun n => decide (n ≠ 0)) id (post_rest _).2.2.2.2.1
  accept_vis2 := by from_option (fun v => v.parsedFilter.accept_vis2) (fun n => decide (n ≠ 0)) id (post_rest _).2.2.2.2.2.1
  accept_t3amp := by from_option (fun v => v.parsedFilter.accept_t3amp) (fun n => decide (n ≠ 0)) id (post_rest _).2.2.2.2.2.2.1
  accept_t3phi := by from_option (fun v => v.parsedFilter.accept_t3phi) (fun n => decide (n ≠ 0)) id (post_rest _).2.2.2.2.2.2.2.1
  accept_flux := by from_option (fun v => v.parsedFilter.accept_flux) (fun n => decide (n ≠ 0)) id (post_rest _).2.2.2.2.2.2.2.2.1
  accept_flagged := by from_option (fun v => v.parsedFilter.accept_flagged) (fun n => decide (n ≠ 0)) id (post_rest _).2.2.2.2.2.2.2.2.2

-- the last of two values counts
example : (userFilter (R := FP.ratFP) [.target_id 3, .wave_min (some 1000), .target_id 5]).target_id = 5 :=
  (C69_options _).target_id.1 5 ⟨[.target_id 3, .wave_min (some 1000)], [], rfl, by simp⟩

/-! ### C15: oifits-check -/

/-- C15. The program prints the summary, what each check found, and that all passed if
none found anything. It then ends with status 0 and has changed no file. -/
theorem C15_report {u : Undef R} {fs : Files R} {prog file : CStr} {oi : OiFits R} (h : Holds u fs file oi)
    (hn : file.length < FLEN_FILENAME) (hs : ∀ bs ∈ breachLists oi, SameDescription bs) :
    (oifits_check u [prog, file]).run fs =
      ⟨.code 0, summary oi ++ (breachLists oi).flatMap reportText ++
        (if ∀ bs ∈ breachLists oi, bs = [] then ("All checks passed\n" : CStr) else []), fs⟩ := by
  have hw := h.wf
  obtain ⟨worst, h1, h2⟩ := runChecks_ok (checks_find hw) (levels_real oi) hs .none
    ⟨summary oi, fs, some (summary oi)⟩
  rw [show (Level.none = Level.none ∧ ∀ bs ∈ breachLists oi, bs = []) ↔ ∀ bs ∈ breachLists oi, bs = [] by simp] at h2
  have key : oifits_check u [prog, file] ⟨[], fs, none⟩ = .error ⟨.code 0, summary oi ++ (breachLists oi).flatMap reportText ++
        (if ∀ bs ∈ breachLists oi, bs = [] then ("All checks passed\n" : CStr) else []), fs⟩ := by
    unfold oifits_check
    refine prog_ok (a := (some oi, .ok)) (w' := ⟨[], fs, none⟩) (by rw [strlcpy_short hn]; exact readFile_holds h) ?_
    refine prog_else (fun h => h rfl) ?_
    refine prog_ok (sayText_start (summary_eq hw none)) ?_
    refine prog_ok h1 ?_
    by_cases hall : ∀ bs ∈ breachLists oi, bs = []
    · rw [if_pos hall]
      exact prog_then (h2.mpr hall) rfl
    · rw [if_neg hall, List.append_nil]
      exact prog_else (fun e => hall (h2.mp e)) rfl
  unfold Prog.run
  rw [key]

/-- C15. If a check finds breaches of different kinds the process is aborted when it
makes this check, before anything is said about it or later checks. -/
theorem C15_abort {u : Undef R} {fs : Files R} {prog file : CStr} {oi : OiFits R} (h : Holds u fs file oi)
    (hn : file.length < FLEN_FILENAME) (hs : ∃ bs ∈ breachLists oi, ¬ SameDescription bs) :
    ∃ before bad after, breachLists oi = before ++ bad :: after ∧ ¬ SameDescription bad ∧
      (∀ bs ∈ before, SameDescription bs) ∧
      (oifits_check u [prog, file]).run fs = ⟨.abort, summary oi ++ before.flatMap reportText, fs⟩ := by
  have hw := h.wf
  obtain ⟨before, bad, after, h1, h2, h3, h4⟩ := runChecks_abort (checks_find hw) (levels_real oi) hs .none
    ⟨summary oi, fs, some (summary oi)⟩
  refine ⟨before, bad, after, h1, h2, h3, ?_⟩
  have key : oifits_check u [prog, file] ⟨[], fs, none⟩ = .error ⟨.abort, summary oi ++ before.flatMap reportText, fs⟩ := by
    unfold oifits_check
    refine prog_ok (a := (some oi, .ok)) (w' := ⟨[], fs, none⟩) (by rw [strlcpy_short hn]; exact readFile_holds h) ?_
    refine prog_else (fun h => h rfl) ?_
    refine prog_ok (sayText_start (summary_eq hw none)) ?_
    exact prog_error h4
  unfold Prog.run
  rw [key]

/-- C15. If the file cannot be read, nothing is printed and the status is 1. -/
theorem C15_unreadable {u : Undef R} {fs : Files R} {prog file : CStr} (h : Unreadable u fs file)
    (hn : file.length < FLEN_FILENAME) : (oifits_check u [prog, file]).run fs = ⟨.code 1, [], fs⟩ := by
  have key : oifits_check u [prog, file] ⟨[], fs, none⟩ = .error ⟨.code 1, [], fs⟩ := by
    unfold oifits_check
    obtain ⟨oi, st, h1, h2⟩ := readFile_unreadable (w := ⟨[], fs, none⟩) h
    refine prog_ok (a := (oi, st)) (w' := ⟨[], fs, none⟩) (by rw [strlcpy_short hn]; exact h1) ?_
    cases oi with
    | none => rfl
    | some oi =>
      have : st ≠ .ok := h2.resolve_left (by simp)
      exact prog_then this rfl
  unfold Prog.run
  rw [key]

/-- C15. Without exactly one argument the program explains its usage, with status 2. -/
theorem C15_usage (u : Undef R) (fs : Files R) {argv : List CStr} (h : argv.length ≠ 2) :
    ((oifits_check u argv).run fs).exit = .code 2 := by
  unfold oifits_check
  split
  · exact absurd rfl h
  · rfl

/-- C15. The program never changes a file. -/
theorem C15_files (u : Undef R) (fs : Files R) (argv : List CStr) : ((oifits_check u argv).run fs).files = fs :=
  run_obeys (obeys_oifits_check untouched_pre u argv) fs

/-- The files the examples need. -/
theorem Ex.in_holds : ∃ oi, Holds Ex.undef Ex.files ("in" : CStr) oi ∧ oi.visList = [Ex.vis] := by
  obtain ⟨hdus, h1, oi', h2, -, -, -, -, -, -, h3, -⟩ :=
    C50_exact_partial "2016-01-01" Ex.oic_storable Ex.undef (Ex.oic_exact _)
  rw [write_oi_fits_eq _ _ Ex.oic_storable] at h1
  cases h1
  exact ⟨oi', ⟨_, rfl, h2⟩, h3⟩

-- a file which breaches one check
example : ∃ oi, Holds Ex.undef Ex.files ("in" : CStr) oi ∧ (∀ bs ∈ breachLists oi, SameDescription bs) ∧
    ¬ ∀ bs ∈ breachLists oi, bs = [] := by
  obtain ⟨oi, h, -⟩ := Ex.in_holds
  have hs : ∀ bs ∈ breachLists oi, SameDescription bs := by
    intro bs hbs
    refine Classical.byContradiction fun hc => ?_
    obtain ⟨_, _, _, _, _, _, h2⟩ := C15_abort (prog := "oifits-check") h (by decide) ⟨bs, hbs, hc⟩
    have h3 : ((oifits_check Ex.undef ["oifits-check", "in"]).run Ex.files).exit = .code 0 := by decide +kernel
    rw [h2] at h3
    cases h3
  refine ⟨oi, h, hs, fun hn => ?_⟩
  have h2 := C15_report (prog := "oifits-check") h (by decide) hs
  have h3 : ¬ ("All checks passed\n" : CStr) <:+ ((oifits_check Ex.undef ["oifits-check", "in"]).run Ex.files).out := by
    decide +kernel
  rw [if_pos hn] at h2
  exact h3 (by rw [h2]; exact ⟨_, rfl⟩)

-- a file for which the program is aborted
example : ((oifits_check Ex.undef ["oifits-check", "bad"]).run Ex.files).exit = .abort := by decide +kernel

-- files which cannot be read
example : Unreadable Ex.undef Ex.files ("old" : CStr) ∧ Unreadable Ex.undef Ex.files ("missing" : CStr) :=
  ⟨.inl (fun _ h => by cases h), .inl (fun _ h => by cases h)⟩

/-! ### C56: oifits-filter does not overwrite -/

theorem head_strlcpy {s : CStr} : (strlcpy s FLEN_FILENAME).head? = s.head? := by
  cases s <;> rfl

/-- C56, if the name of the output file does not begin with `!`: without `--clobber` no
file which exists is changed or removed. -/
theorem C56_partial (u : Undef R) (today : CStr) (removable : CStr → Bool) (fs : Files R) (opts : List (FilterOpt R))
    (argv : List CStr) (hn : ∀ outfile, argv[2]? = some outfile → outfile.head? ≠ some '!') {name : CStr}
    {d : FileData R} (hd : fs name = some d) :
    ((oifits_filter u today removable (.args opts false argv)).run fs).files name = some d := by
  refine run_obeys (T := KeepsExisting) (obeys_oifits_filter keepsExisting_pre u today removable _ ?_ ?_) fs name d hd
  · intro opts' clobber prog infile outfile e oi
    cases e
    refine obeys_writeFile_keepsExisting ?_ today oi
    rw [head_strlcpy]
    exact hn outfile rfl
  · intro opts' prog infile outfile e
    cases e

/-- C56 is false of a name beginning with `!`, which CFITSIO takes as a request to
overwrite. -/
theorem C56_counterexample : ∃ (fs : Files FP.ratFP) (argv : List CStr) (name : CStr) (d : FileData FP.ratFP),
    fs name = some d ∧
      ((oifits_filter Ex.undef "2016-01-02" (fun _ => true) (.args [] false argv)).run fs).files name ≠ some d := by
  refine ⟨Ex.files, ["oifits-filter", "in", "!old"], "old", .other, rfl, fun h => ?_⟩
  have h2 : Ex.isOther (((oifits_filter Ex.undef "2016-01-02" (fun _ => true)
      (.args [] false ["oifits-filter", "in", "!old"])).run Ex.files).files "old") = false := by decide +kernel
  rw [h] at h2
  cases h2

/-! ### C70: oifits-filter -/

section
variable {u : Undef R} {fs : Files R} {today prog infile outfile : CStr} {opts : List (FilterOpt R)} {clobber : Bool}
  {removable : CStr → Bool} {oi out : OiFits R} {hdus : List (Hdu R)}

/-- C70. The program reads the dataset, filters it and writes the result. An existing
output file must be removed first, which needs `--clobber`. -/
theorem C70_run (h : Holds u fs infile oi) (hi : infile.length < FLEN_FILENAME) (ho : PlainName outfile)
    (hf : apply_oi_filter oi (userFilter opts) = .ok out) (hw : out.WF)
    (hs : write_oi_fits today false out .ok = .ok (some hdus, .ok))
    (hx : fs outfile = none ∨ clobber = true ∧ removable outfile = true) :
    (oifits_filter u today removable (.args opts clobber [prog, infile, outfile])).run fs =
      ⟨.code 0, filterOutput oi (userFilter opts) out, fs.set outfile (some (.fits hdus))⟩ := by
  have key : oifits_filter u today removable (.args opts clobber [prog, infile, outfile]) ⟨[], fs, none⟩ =
      .error ⟨.code 0, filterOutput oi (userFilter opts) out, fs.set outfile (some (.fits hdus))⟩ := by
    unfold oifits_filter
    refine prog_ok (a := (some oi, .ok)) (w' := ⟨[], fs, none⟩) (by rw [strlcpy_short hi]; exact readFile_holds h) ?_
    refine prog_else (fun h => h rfl) ?_
    refine prog_ok rfl ?_
    refine prog_ok (sayText_ok (summary_eq h.wf _)) ?_
    refine prog_ok rfl ?_
    refine prog_ok (sayText_ok (filterText_eq _ _)) ?_
    refine prog_ok (by rw [hf]; exact call_ok _ _) ?_
    refine prog_ok rfl ?_
    refine prog_ok (sayText_ok (summary_eq hw _)) ?_
    have hn := ho.plain
    have hout : strlcpy outfile FLEN_FILENAME = outfile := strlcpy_short ho.short
    simp only [hout]
    refine prog_ok (a := (fs outfile).isSome) rfl ?_
    cases hc : fs outfile with
    | none =>
      refine prog_else (fun h => Bool.noConfusion h) ?_
      exact prog_ok (writeFile_new hn hc hs) rfl
    | some d =>
      obtain ⟨rfl, hr⟩ := hx.resolve_left (by rw [hc]; exact fun h => by cases h)
      refine prog_then rfl ?_
      refine prog_else (fun h => Bool.noConfusion h) ?_
      refine prog_else (by rw [hr]; exact fun h => Bool.noConfusion h) ?_
      refine prog_ok rfl ?_
      refine prog_ok (writeFile_new hn (set_same _ _ _) hs) ?_
      refine prog_else (fun h => h rfl) ?_
      unfold exitWith filterOutput
      simp only [set_set]
      rfl
  unfold Prog.run
  rw [key]

/-- C70. If the program ends with status 0, the output file holds the filtered dataset.
Before, there was no such file, or `--clobber` allowed to replace it. -/
theorem C70_success (hi : infile.length < FLEN_FILENAME) (ho : PlainName outfile)
    (h : ((oifits_filter u today removable (.args opts clobber [prog, infile, outfile])).run fs).exit = .code 0) :
    ∃ oi out, Holds u fs infile oi ∧ apply_oi_filter oi (userFilter opts) = .ok out ∧
      Stored today ((oifits_filter u today removable (.args opts clobber [prog, infile, outfile])).run fs).files outfile out ∧
      (fs outfile = none ∨ clobber = true) := by
  have key : EndsIn (oifits_filter u today removable (.args opts clobber [prog, infile, outfile])) ⟨[], fs, none⟩
      (OnSuccess fun files => ∃ oi out, Holds u fs infile oi ∧ apply_oi_filter oi (userFilter opts) = .ok out ∧
        Stored today files outfile out ∧ (fs outfile = none ∨ clobber = true)) := by
    unfold oifits_filter
    have hout : strlcpy outfile FLEN_FILENAME = outfile := strlcpy_short ho.short
    have hin : strlcpy infile FLEN_FILENAME = infile := strlcpy_short hi
    simp only [hout, hin]
    refine ends_readFile fun oi st hr => ?_
    cases oi with
    | none => exact ends_failure (by decide)
    | some oi =>
      refine ends_ite (fun _ => ends_failure (by decide)) fun hst => ?_
      have hst : st = .ok := Decidable.byContradiction hst
      have hh : Holds u fs infile oi := by
        rcases hr with h | h | ⟨x, h1, h2⟩
        · cases h
        · exact absurd hst h
        · cases h1; exact h2
      refine ends_say fun _ => ends_sayText fun _ _ => ends_say fun _ => ends_sayText fun _ _ => ?_
      refine ends_call fun out hf => ends_say fun _ => ends_sayText fun _ _ => ?_
      refine ends_bind (fun e he => by cases he) fun there w' h' => ?_
      cases h'
      change EndsIn _ ⟨_, fs, _⟩ _
      have last : ∀ w' : World R, (fs outfile = none ∨ clobber = true) → EndsIn (do
          let status ← writeFile today outfile out
          if status ≠ .ok then exitWith EXIT_FAILURE
          exitWith EXIT_SUCCESS : Prog R Unit) w' (OnSuccess fun files => ∃ oi out, Holds u fs infile oi ∧
            apply_oi_filter oi (userFilter opts) = .ok out ∧ Stored today files outfile out ∧
            (fs outfile = none ∨ clobber = true)) := fun w' hc =>
        ends_write ho.plain fun _ hdus hw => ⟨oi, out, hh, hf, ⟨hdus, hw, set_same _ _ _⟩, hc⟩
      refine ends_ite (fun hc => ?_) fun hc => ?_
      · refine ends_ite (fun _ => ?_) fun hcl => ?_
        · exact ends_say fun _ => ends_bind (ends_failure (by decide)) fun a w'' h'' => by cases h''
        · refine ends_ite (fun _ => ?_) fun _ => ?_
          · exact ends_say fun _ => ends_bind (ends_failure (by decide)) fun a w'' h'' => by cases h''
          · refine ends_bind (fun e he => by cases he) fun a w'' _ => last w'' (.inr ?_)
            cases clobber with
            | true => rfl
            | false => exact absurd rfl hcl
      · refine last _ (.inl ?_)
        cases hx : fs outfile with
        | none => rfl
        | some d => exact absurd (by change (fs outfile).isSome = true; rw [hx]; rfl) hc
  exact on_success key (noReturn_oifits_filter _ _ _ _) h

/-- C70. If the input file cannot be read the status is 1, and nothing is changed. -/
theorem C70_unreadable (h : Unreadable u fs infile) (hi : infile.length < FLEN_FILENAME) :
    (oifits_filter u today removable (.args opts clobber [prog, infile, outfile])).run fs = ⟨.code 1, [], fs⟩ := by
  have key : oifits_filter u today removable (.args opts clobber [prog, infile, outfile]) ⟨[], fs, none⟩ =
      .error ⟨.code 1, [], fs⟩ := by
    unfold oifits_filter
    obtain ⟨oi, st, h1, h2⟩ := readFile_unreadable (w := ⟨[], fs, none⟩) h
    refine prog_ok (a := (oi, st)) (w' := ⟨[], fs, none⟩) (by rw [strlcpy_short hi]; exact h1) ?_
    cases oi with
    | none => rfl
    | some oi =>
      have : st ≠ .ok := h2.resolve_left (by simp)
      exact prog_then this rfl
  unfold Prog.run
  rw [key]

/-- C70. Whatever happens, only the output file is changed. -/
theorem C70_others (line : CommandLine R)
    (ho : ∀ opts clobber prog infile file, line = .args opts clobber [prog, infile, file] → file = outfile)
    (hn : PlainName outfile) {name : CStr} (hd : name ≠ outfile) :
    ((oifits_filter u today removable line).run fs).files name = fs name := by
  refine run_obeys (T := KeepsOthers outfile) (obeys_oifits_filter (keepsOthers_pre _) u today removable _ ?_ ?_) fs name hd
  · intro opts clobber prog infile file e oi
    rw [ho _ _ _ _ _ e, strlcpy_short hn.short]
    exact obeys_writeFile_keepsOthers hn.plain today oi
  · intro opts prog infile file e f
    rw [ho _ _ _ _ _ e, strlcpy_short hn.short]
    exact keepsOthers_set _ _ _

end

-- successful runs, with and without existing file
example : ((oifits_filter Ex.undef "2016-01-02" (fun _ => true)
    (.args [.target_id 2] false ["oifits-filter", "in", "out"])).run Ex.files).exit = .code 0 := by decide +kernel

example : ((oifits_filter Ex.undef "2016-01-02" (fun _ => true)
    (.args [] true ["oifits-filter", "in", "old"])).run Ex.files).exit = .code 0 := by decide +kernel

/-- C70 promises nothing about the old output file if the program fails: with `--clobber`
it is removed before it is known whether the new one can be written. -/
theorem C70_clobber_loses : ∃ (fs : Files FP.ratFP) (argv : List CStr) (name : CStr) (d : FileData FP.ratFP),
    fs name = some d ∧
    ((oifits_filter Ex.undef "2016-01-02" (fun _ => true) (.args [] true argv)).run fs).exit = .code 1 ∧
    ((oifits_filter Ex.undef "2016-01-02" (fun _ => true) (.args [] true argv)).run fs).files name ≠ some d := by
  refine ⟨Ex.files, ["oifits-filter", "wide", "old"], "old", .other, rfl, by decide +kernel, fun h => ?_⟩
  have h2 : Ex.isOther (((oifits_filter Ex.undef "2016-01-02" (fun _ => true)
      (.args [] true ["oifits-filter", "wide", "old"])).run Ex.files).files "old") = false := by decide +kernel
  rw [h] at h2
  cases h2

/-! ### C71: oifits-merge -/

section
variable {u : Undef R} {fs : Files R} {today prog outfile in1 in2 : CStr} {more : List CStr}
  {ois : List (OiFits R)} {out : OiFits R} {hdus : List (Hdu R)}

/-- C71. The program reads all datasets, merges them and writes the result to a new file. -/
theorem C71_run (h : Pairwise₂ (Holds u fs) (in1 :: in2 :: more) ois) (ho : outfile.head? ≠ some '!')
    (hm : merge_oi_fits_list ois = .ok out) (hs : write_oi_fits today false out .ok = .ok (some hdus, .ok))
    (hx : fs outfile = none) :
    (oifits_merge u today (prog :: outfile :: in1 :: in2 :: more)).run fs =
      ⟨.code 0, mergeOutput out, fs.set outfile (some (.fits hdus))⟩ := by
  have hw : out.WF := merge_wf (fun oi hoi => by
    obtain ⟨i, hi, he⟩ := List.mem_iff_getElem.mp hoi
    have hi' : i < (in1 :: in2 :: more).length := by rw [h.1]; exact hi
    exact (h.2 i _ _ (List.getElem?_eq_getElem hi') (by rw [List.getElem?_eq_getElem hi, he])).wf) hm
  have key : oifits_merge u today (prog :: outfile :: in1 :: in2 :: more) ⟨[], fs, none⟩ =
      .error ⟨.code 0, mergeOutput out, fs.set outfile (some (.fits hdus))⟩ := by
    unfold oifits_merge
    refine prog_ok (readInputs_holds h) ?_
    refine prog_ok (by rw [hm]; exact call_ok _ _) ?_
    refine prog_ok rfl ?_
    refine prog_ok (sayText_ok (summary_eq hw _)) ?_
    exact prog_ok (writeFile_new ho hx hs) rfl
  unfold Prog.run
  rw [key]

/-- C71. If the program ends with status 0, all input files were read, and the output
file holds the merged dataset. There was no such file before. -/
theorem C71_success (ho : outfile.head? ≠ some '!')
    (h : ((oifits_merge u today (prog :: outfile :: in1 :: in2 :: more)).run fs).exit = .code 0) :
    ∃ ois out, Pairwise₂ (Holds u fs) (in1 :: in2 :: more) ois ∧ merge_oi_fits_list ois = .ok out ∧ fs outfile = none ∧
      Stored today ((oifits_merge u today (prog :: outfile :: in1 :: in2 :: more)).run fs).files outfile out := by
  have key : EndsIn (oifits_merge u today (prog :: outfile :: in1 :: in2 :: more)) ⟨[], fs, none⟩
      (OnSuccess fun files => ∃ ois out, Pairwise₂ (Holds u fs) (in1 :: in2 :: more) ois ∧
        merge_oi_fits_list ois = .ok out ∧ fs outfile = none ∧ Stored today files outfile out) := by
    unfold oifits_merge
    refine ends_bind (fun e he hc => absurd hc (readInputs_exit he)) fun ois w' h' => ?_
    obtain ⟨rfl, hh⟩ := readInputs_inv h'
    refine ends_call fun out hf => ends_say fun _ => ends_sayText fun _ _ => ?_
    exact ends_write ho fun hx hdus hw => ⟨ois, out, hh, hf, hx, hdus, hw, set_same _ _ _⟩
  exact on_success key (noReturn_oifits_merge _ _ _) h

/-- C71. If one of the input files cannot be read, and those before it can, the status is 1
and nothing is changed. -/
theorem C71_unreadable {before after : List CStr} {name : CStr} (hb : ∀ n ∈ before, ∃ oi, Holds u fs n oi)
    (h : Unreadable u fs name) (hl : before ++ name :: after = in1 :: in2 :: more) :
    (oifits_merge u today (prog :: outfile :: in1 :: in2 :: more)).run fs = ⟨.code 1, [], fs⟩ := by
  have key : oifits_merge u today (prog :: outfile :: in1 :: in2 :: more) ⟨[], fs, none⟩ = .error ⟨.code 1, [], fs⟩ := by
    unfold oifits_merge
    refine prog_error ?_
    rw [← hl]
    exact readInputs_unreadable (w := ⟨[], fs, none⟩) hb h
  unfold Prog.run
  rw [key]

/-- C71. Whatever happens, a file which exists is not changed. -/
theorem C71_files (argv : List CStr) (ho : ∀ file, argv[1]? = some file → file.head? ≠ some '!') {name : CStr}
    {d : FileData R} (hd : fs name = some d) : ((oifits_merge u today argv).run fs).files name = some d :=
  run_obeys (T := KeepsExisting) (obeys_oifits_merge keepsExisting_pre u today argv fun file hf oi =>
    obeys_writeFile_keepsExisting (ho file hf) today oi) fs name d hd

/-- C71. Whatever happens, only the output file is made. -/
theorem C71_others (argv : List CStr) (hf : argv[1]? = some outfile) (ho : outfile.head? ≠ some '!') {name : CStr}
    (hd : name ≠ outfile) : ((oifits_merge u today argv).run fs).files name = fs name :=
  run_obeys (T := KeepsOthers outfile) (obeys_oifits_merge (keepsOthers_pre _) u today argv fun file hf' oi => by
    rw [hf] at hf'
    cases hf'
    exact obeys_writeFile_keepsOthers ho today oi) fs name hd

/-- C71. With less than two input files the program explains its usage, with status 2. -/
theorem C71_usage {argv : List CStr} (h : argv.length < 4) :
    ((oifits_merge u today argv).run fs).exit = .code 2 ∧ ((oifits_merge u today argv).run fs).files = fs := by
  unfold oifits_merge
  split
  · exact absurd h (by simp)
  · exact ⟨rfl, rfl⟩

end

-- a successful run
example : ((oifits_merge Ex.undef "2016-01-02" ["oifits-merge", "out", "in", "in"]).run Ex.files).exit = .code 0 := by
  decide +kernel

/-! ### C72: oifits-upgrade -/

section
variable {u : Undef R} {fs : Files R} {today prog infile outfile origin observer insmode : CStr} {more : List CStr}
  {oi : OiFits R} {hdus : List (Hdu R)}

/-- C72. The program adds the keywords and writes the dataset to a new file. -/
theorem C72_run (h : Holds u fs infile oi) (ho : outfile.head? ≠ some '!') (hv : is_oi_fits_two oi = false)
    (ha : oi.arrayList ≠ [])
    (hs : write_oi_fits today false (withKeywords oi origin observer insmode) .ok = .ok (some hdus, .ok))
    (hx : fs outfile = none) :
    (oifits_upgrade u today (prog :: infile :: outfile :: origin :: observer :: insmode :: more)).run fs =
      ⟨.code 0, upgradeOutput (withKeywords oi origin observer insmode), fs.set outfile (some (.fits hdus))⟩ := by
  have hw : (withKeywords oi origin observer insmode).WF := ⟨⟨h.wf.counts.1, h.wf.counts.2, h.wf.counts.3, h.wf.counts.4,
    h.wf.counts.5, h.wf.counts.6, h.wf.counts.7, h.wf.counts.8⟩, h.wf.2, h.wf.3, h.wf.4, h.wf.5, h.wf.6, h.wf.7, h.wf.8,
    h.wf.9⟩
  have hn : ¬ oi.numArray = 0 := by
    rw [h.wf.counts.array]
    cases hl : oi.arrayList with
    | nil => exact absurd hl ha
    | cons a l => simp only [List.length_cons]; omega
  have key : oifits_upgrade u today (prog :: infile :: outfile :: origin :: observer :: insmode :: more) ⟨[], fs, none⟩ =
      .error ⟨.code 0, upgradeOutput (withKeywords oi origin observer insmode), fs.set outfile (some (.fits hdus))⟩ := by
    unfold oifits_upgrade
    refine prog_ok (readFile_holds h) ?_
    refine prog_else (fun h => h rfl) ?_
    refine prog_else (by rw [hv]; exact fun h => Bool.noConfusion h) ?_
    refine prog_else hn ?_
    refine prog_ok rfl ?_
    refine prog_ok (sayText_ok (summary_eq hw _)) ?_
    exact prog_ok (writeFile_new ho hx hs) rfl
  unfold Prog.run
  rw [key]

/-- C72. If the program ends with status 0, the output file, which is new, holds the
dataset with the keywords given, and this is a version 1 dataset with an array. -/
theorem C72_success (ho : outfile.head? ≠ some '!')
    (h : ((oifits_upgrade u today (prog :: infile :: outfile :: origin :: observer :: insmode :: more)).run fs).exit =
      .code 0) :
    ∃ oi, Holds u fs infile oi ∧ is_oi_fits_two oi = false ∧ oi.arrayList ≠ [] ∧ fs outfile = none ∧
      Stored today
        ((oifits_upgrade u today (prog :: infile :: outfile :: origin :: observer :: insmode :: more)).run fs).files
        outfile (withKeywords oi origin observer insmode) := by
  have key : EndsIn (oifits_upgrade u today (prog :: infile :: outfile :: origin :: observer :: insmode :: more))
      ⟨[], fs, none⟩ (OnSuccess fun files => ∃ oi, Holds u fs infile oi ∧ is_oi_fits_two oi = false ∧ oi.arrayList ≠ [] ∧
        fs outfile = none ∧ Stored today files outfile (withKeywords oi origin observer insmode)) := by
    unfold oifits_upgrade
    refine ends_readFile fun oi st hr => ?_
    cases oi with
    | none => exact ends_failure (by decide)
    | some oi =>
      refine ends_ite (fun _ => ends_failure (by decide)) fun hst => ?_
      have hst : st = .ok := Decidable.byContradiction hst
      have hh : Holds u fs infile oi := by
        rcases hr with h | h | ⟨x, h1, h2⟩
        · cases h
        · exact absurd hst h
        · cases h1; exact h2
      refine ends_ite (fun _ => ends_say fun _ => ends_failure (by decide)) fun hv => ?_
      refine ends_ite (fun _ => ends_say fun _ => ends_failure (by decide)) fun ha => ?_
      refine ends_say fun _ => ends_sayText fun _ _ => ?_
      refine ends_write ho fun hx hdus hw => ⟨oi, hh, by simpa using hv, fun e => ha ?_, hx, hdus, hw, set_same _ _ _⟩
      rw [hh.wf.counts.array, e]
      rfl
  exact on_success key (noReturn_oifits_upgrade _ _ _) h

/-- C72. If INSMODE is not given and the program nevertheless ends with status 0, INSMODE is as it was
read, and all else as with INSMODE. -/
theorem C72_success_without (ho : outfile.head? ≠ some '!')
    (h : ((oifits_upgrade u today (prog :: infile :: outfile :: origin :: [observer])).run fs).exit =
      .code 0) :
    ∃ oi, Holds u fs infile oi ∧ is_oi_fits_two oi = false ∧ oi.arrayList ≠ [] ∧ fs outfile = none ∧
      Stored today
        ((oifits_upgrade u today (prog :: infile :: outfile :: origin :: [observer])).run fs).files
        outfile ({ oi with header := { oi.header with origin := origin.take 70, observer := observer.take 70 } }) := by
  have key : EndsIn (oifits_upgrade u today (prog :: infile :: outfile :: origin :: [observer]))
      ⟨[], fs, none⟩ (OnSuccess fun files => ∃ oi, Holds u fs infile oi ∧ is_oi_fits_two oi = false ∧ oi.arrayList ≠ [] ∧
        fs outfile = none ∧ Stored today files outfile ({ oi with header := { oi.header with origin := origin.take 70, observer := observer.take 70 } })) := by
    unfold oifits_upgrade
    refine ends_readFile fun oi st hr => ?_
    cases oi with
    | none => exact ends_failure (by decide)
    | some oi =>
      refine ends_ite (fun _ => ends_failure (by decide)) fun hst => ?_
      have hst : st = .ok := Decidable.byContradiction hst
      have hh : Holds u fs infile oi := by
        rcases hr with h | h | ⟨x, h1, h2⟩
        · cases h
        · exact absurd hst h
        · cases h1; exact h2
      refine ends_ite (fun _ => ends_say fun _ => ends_failure (by decide)) fun hv => ?_
      refine ends_ite (fun _ => ends_say fun _ => ends_failure (by decide)) fun ha => ?_
      refine ends_say fun _ => ends_sayText fun _ _ => ?_
      refine ends_write ho fun hx hdus hw => ⟨oi, hh, by simpa using hv, fun e => ha ?_, hx, hdus, hw, set_same _ _ _⟩
      rw [hh.wf.counts.array, e]
      rfl
  exact on_success key (noReturn_oifits_upgrade _ _ _) h

/-- C72. Whatever happens, a file which exists is not changed, and only the output file is
made. -/
theorem C72_files (argv : List CStr) (ho : ∀ file, argv[2]? = some file → file.head? ≠ some '!') {name : CStr}
    {d : FileData R} (hd : fs name = some d) : ((oifits_upgrade u today argv).run fs).files name = some d :=
  run_obeys (T := KeepsExisting) (obeys_oifits_upgrade keepsExisting_pre u today argv fun file hf oi =>
    obeys_writeFile_keepsExisting (ho file hf) today oi) fs name d hd

@[inherit_doc C72_files]
theorem C72_others (argv : List CStr) (hf : argv[2]? = some outfile) (ho : outfile.head? ≠ some '!') {name : CStr}
    (hd : name ≠ outfile) : ((oifits_upgrade u today argv).run fs).files name = fs name :=
  run_obeys (T := KeepsOthers outfile) (obeys_oifits_upgrade (keepsOthers_pre _) u today argv fun file hf' oi => by
    rw [hf] at hf'
    cases hf'
    exact obeys_writeFile_keepsOthers ho today oi) fs name hd

/-- C72. A dataset of version 2, or without array, or which cannot be read, is refused. -/
theorem C72_refused (h : Unreadable u fs infile ∨ ∃ oi, Holds u fs infile oi ∧
      (is_oi_fits_two oi = true ∨ oi.arrayList = [])) :
    ((oifits_upgrade u today (prog :: infile :: outfile :: origin :: observer :: more)).run fs).exit = .code 1 ∧
    ((oifits_upgrade u today (prog :: infile :: outfile :: origin :: observer :: more)).run fs).files = fs := by
  have key : ∃ text, oifits_upgrade u today (prog :: infile :: outfile :: origin :: observer :: more) ⟨[], fs, none⟩ =
      .error ⟨.code 1, text, fs⟩ := by
    unfold oifits_upgrade
    rcases h with h | ⟨oi, h, hv⟩
    · obtain ⟨oi, st, h1, h2⟩ := readFile_unreadable (w := ⟨[], fs, none⟩) h
      refine ⟨[], prog_ok h1 ?_⟩
      cases oi with
      | none => rfl
      | some oi => exact prog_then (h2.resolve_left (by simp)) rfl
    · by_cases h2 : is_oi_fits_two oi = true
      · refine ⟨("Input datafile is already latest OIFITS version\n" : CStr), prog_ok (readFile_holds h) ?_⟩
        refine prog_else (fun h => h rfl) ?_
        refine prog_then h2 rfl
      · refine ⟨("Input datafile has no OI_ARRAY table - cannot convert\n" : CStr), prog_ok (readFile_holds h) ?_⟩
        refine prog_else (fun h => h rfl) ?_
        refine prog_else h2 ?_
        refine prog_then ?_ rfl
        rw [h.wf.counts.array, hv.resolve_left h2]
        rfl
  obtain ⟨text, key⟩ := key
  unfold Prog.run
  rw [key]
  exact ⟨rfl, rfl⟩

/-- C72. With less than four arguments the program explains its usage, with status 2. -/
theorem C72_usage {argv : List CStr} (h : argv.length < 5) :
    ((oifits_upgrade u today argv).run fs).exit = .code 2 ∧ ((oifits_upgrade u today argv).run fs).files = fs := by
  unfold oifits_upgrade
  split
  · exact absurd h (by simp)
  · exact ⟨rfl, rfl⟩

-- a successful run
example : ((oifits_upgrade Ex.undef "2016-01-02" ["oifits-upgrade", "first", "out", "ESO", "Me", "LOW"]).run
    Ex.files).exit = .code 0 := by decide +kernel

/-- C72. According to its usage message the program needs INSMODE, but it also runs without. -/
theorem C72_insmode_counterexample : ∃ (fs : Files FP.ratFP) (argv : List CStr), argv.length = 5 ∧
    ((oifits_upgrade Ex.undef "2016-01-02" argv).run fs).exit = .code 0 :=
  ⟨Ex.files, ["oifits-upgrade", "first", "out", "ESO", "Me"], rfl, by decide +kernel⟩

end

end Verif
