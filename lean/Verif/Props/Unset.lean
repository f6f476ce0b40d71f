import Verif.Proof.UnsetFile
import Verif.Props.FilterFile

/-! C96: what the programs do depends on their input files alone, not on what happened to be in the memory they
are given. The argument `Undef` of the functions which read stands for that. -/

set_option Elab.async false

namespace Verif
open Outcome Spec
variable {R : FP}

/-- C96 for reading a file which has what its tables need: whether it can be read does not depend on what was
in memory, nor does the dataset, but for the members which mean nothing: categories of targets without the column
CATEGORY, indices into no matrix, and the unit of data which are not there. -/
theorem C96_read_partial (u u' : Undef R) {hdus : List (Hdu R)} (hf : Filled hdus) :
    (∃ a b, read_oi_fits u (some hdus) .ok = .ok (some a, .ok) ∧ read_oi_fits u' (some hdus) .ok = .ok (some b, .ok) ∧
      a.blank = b.blank) ∨
    ∃ st st', st ≠ .ok ∧ st' ≠ .ok ∧ read_oi_fits u (some hdus) .ok = .ok (none, st) ∧
      read_oi_fits u' (some hdus) .ok = .ok (none, st') := by
  rcases C63_ends u hf.primary with ⟨a, h1⟩ | ⟨st, hs, h1⟩ | ⟨-, h1⟩
  · obtain ⟨b, h2⟩ := read_again u u' hf h1
    exact .inl ⟨a, b, h1, h2, read_alike hf h1 h2⟩
  · rcases C63_ends u' hf.primary with ⟨b, h2⟩ | ⟨st', hs', h2⟩ | ⟨-, h2⟩
    · obtain ⟨a, h3⟩ := read_again u' u hf h2
      rw [h1] at h3
      cases h3
    · exact .inr ⟨st, st', hs, hs', h1, h2⟩
    · exact absurd hf.tables h2
  · exact absurd hf.tables h1

/-- C96. The members which mean nothing have no effect on what is made of a dataset: its summary, the result of each
check, and the file written. Filtered and merged datasets differ in nothing else either. -/
theorem C96_use {a b : OiFits R} (h : a.blank = b.blank) :
    format_oi_fits_summary a = format_oi_fits_summary b ∧
    (∀ check ∈ checkList, check a = check b) ∧
    (∀ today there st, write_oi_fits today there a st = write_oi_fits today there b st) ∧
    (∀ f out, apply_oi_filter a f = .ok out → ∃ out', apply_oi_filter b f = .ok out' ∧ out.blank = out'.blank) ∧
    (∀ before after out, merge_oi_fits_list (before ++ a :: after) = .ok out →
      ∃ out', merge_oi_fits_list (before ++ b :: after) = .ok out' ∧ out.blank = out'.blank) := by
  have split : ∀ {m m' : Outcome (OiFits R)}, bl m = bl m' → ∀ out, m = .ok out → ∃ out', m' = .ok out' ∧ out.blank = out'.blank := by
    intro m m' e out he
    subst he
    cases m' <;> first | cases e | skip
    exact ⟨_, rfl, Outcome.ok.inj e⟩
  refine ⟨summary_alike h, fun c hc => ?_, fun today there st => write_alike h today there st,
    fun f => split (filter_alike h f), fun before after => split (merge_alike ?_)⟩
  · rw [← checkList_blank a c hc, h, checkList_blank b c hc]
  · rw [List.map_append, List.map_append, List.map_cons, List.map_cons, h]

/-- C96 for oifits-check: exit status and output are the same whenever it is run. -/
theorem C96_check_partial (u u' : Undef R) {fs : Files R} {file : CStr} (prog : CStr)
    (hf : FilledAt fs (strlcpy file FLEN_FILENAME)) :
    (oifits_check u [prog, file]).run fs = (oifits_check u' [prog, file]).run fs :=
  check_any u u' prog hf

/-- C96 for oifits-filter: exit status, output and output file are the same whenever it is run on the same day. -/
theorem C96_filter_partial (u u' : Undef R) (today : CStr) (removable : CStr → Bool) (opts : List (FilterOpt R))
    (clobber : Bool) {fs : Files R} {infile : CStr} (prog outfile : CStr)
    (hf : FilledAt fs (strlcpy infile FLEN_FILENAME)) :
    (oifits_filter u today removable (.args opts clobber [prog, infile, outfile])).run fs
      = (oifits_filter u' today removable (.args opts clobber [prog, infile, outfile])).run fs :=
  filter_any u u' today removable opts clobber prog outfile hf

/-- C96 for oifits-merge. -/
theorem C96_merge_partial (u u' : Undef R) (today : CStr) {fs : Files R} {in1 in2 : CStr} {more : List CStr}
    (prog outfile : CStr) (hf : ∀ name ∈ in1 :: in2 :: more, FilledAt fs name) :
    (oifits_merge u today (prog :: outfile :: in1 :: in2 :: more)).run fs
      = (oifits_merge u' today (prog :: outfile :: in1 :: in2 :: more)).run fs :=
  merge_any u u' today prog outfile hf

/-- C96 for oifits-upgrade. -/
theorem C96_upgrade_partial (u u' : Undef R) (today : CStr) {fs : Files R} {infile : CStr} (prog : CStr) (rest : List CStr)
    (hf : FilledAt fs infile) :
    (oifits_upgrade u today (prog :: infile :: rest)).run fs = (oifits_upgrade u' today (prog :: infile :: rest)).run fs :=
  upgrade_any u u' today prog rest hf

/-- C96. All files which the library writes meet the condition of the theorems above. -/
theorem C96_written {today : CStr} {oi : OiFits R} (h : oi.Storable) {hdus : List (Hdu R)} {st : Status}
    (hw : write_oi_fits today false oi .ok = .ok (some hdus, st)) : Filled hdus := by
  rw [write_oi_fits_eq _ _ h] at hw
  cases hw
  exact filled_fileOf today h

/-! ### Examples -/

theorem Ex.oneFile_filled : Filled Ex.oneFile :=
  ⟨by decide, Ex.oneFile_names, Ex.oneFile_full, Ex.oneFile_vis, Ex.oneFile_flux⟩

/-- Other contents of the memory. -/
def Ex.undef' : Undef FP.ratFP := { Ex.undef with int := Ex.undef.int + 1, dbl := some 7, str := "junk" }

/-- The values read for members which mean nothing. -/
def Ex.meaningless (m : Outcome (Option (OiFits FP.ratFP) × Status)) : List Int :=
  match m with
  | .ok (some oi, .ok) => oi.visList.flatMap fun t => t.record.map fun r => r.corrindx_visamp
  | _ => []

-- A file of version 1 meets the condition. It can be read, and members which mean nothing are different.
example : Filled Ex.oneFile ∧ Ex.isRead (read_oi_fits Ex.undef (some Ex.oneFile) .ok) = true ∧
    Ex.meaningless (read_oi_fits Ex.undef (some Ex.oneFile) .ok) ≠ Ex.meaningless (read_oi_fits Ex.undef' (some Ex.oneFile) .ok) :=
  ⟨Ex.oneFile_filled, Ex.oneFile_isRead, by decide +kernel⟩

-- So does a file with tables of all types but OI_INSPOL.
example : Filled (fileOf "2016-01-01" Ex.oic) := C96_written Ex.oic_storable (write_oi_fits_eq _ _ Ex.oic_storable)

/-- Files of both versions, and those of the counterexamples. -/
def Ex.files4 : Files FP.ratFP := fun n =>
  if n = ("one" : CStr) then some (.fits Ex.oneFile)
  else if n = ("two" : CStr) then some (.fits (fileOf "2016-01-01" Ex.oic))
  else if n = ("nomjd" : CStr) then some (.fits Ex.noMjd)
  else if n = ("noindex" : CStr) then some (.fits Ex.unindexed)
  else none

theorem Ex.files4_filled : ∀ name ∈ [("one" : CStr), "two"], FilledAt Ex.files4 name := by
  intro name hn hdus hh
  simp only [List.mem_cons, List.not_mem_nil, or_false] at hn
  rcases hn with rfl | rfl
  · cases hh
    exact Ex.oneFile_filled
  · cases hh
    exact filled_fileOf _ Ex.oic_storable

theorem Ex.files4_merged :
    ((oifits_merge Ex.undef "2016-01-02" ["oifits-merge", "out", "one", "two"]).run Ex.files4).exit = .code 0 := by
  decide +kernel

-- Merging them succeeds, and makes the same file whatever is in memory.
example (u : Undef FP.ratFP) : ((oifits_merge u "2016-01-02" ["oifits-merge", "out", "one", "two"]).run Ex.files4).exit
    = .code 0 := by
  rw [C96_merge_partial u Ex.undef "2016-01-02" "oifits-merge" "out" Ex.files4_filled]
  exact Ex.files4_merged

/-! ### Counterexamples -/

/-- The times of the OI_FLUX records in a file. -/
def Ex.fluxTimes (d : Option (FileData FP.ratFP)) : List (Option Rat) :=
  match read_oi_fits Ex.undef (some (Ex.parts d)) .ok with
  | .ok (some oi, .ok) => oi.fluxList.flatMap fun t => t.record.map fun r => r.mjd
  | _ => []

/-- The indices of the OI_VIS records in a file. -/
def Ex.visIndices (d : Option (FileData FP.ratFP)) : List Int :=
  match read_oi_fits Ex.undef (some (Ex.parts d)) .ok with
  | .ok (some oi, .ok) => oi.visList.flatMap fun t => t.record.map fun r => r.corrindx_visamp
  | _ => []

/-- oifits-filter without options. -/
def Ex.filtered (u : Undef FP.ratFP) (name : CStr) : Final FP.ratFP :=
  (oifits_filter u "2016-01-02" (fun _ => true) (.args [] false ["oifits-filter", name, "out"])).run Ex.files4

theorem Ex.filtered_mjd : ((Ex.filtered Ex.undef "nomjd").exit = .code 0 ∧ (Ex.filtered Ex.undef' "nomjd").exit = .code 0) ∧
    Ex.fluxTimes ((Ex.filtered Ex.undef "nomjd").files "out") ≠ Ex.fluxTimes ((Ex.filtered Ex.undef' "nomjd").files "out") := by
  decide +kernel

theorem Ex.filtered_index : ((Ex.filtered Ex.undef "noindex").exit = .code 0 ∧ (Ex.filtered Ex.undef' "noindex").exit = .code 0) ∧
    Ex.visIndices ((Ex.filtered Ex.undef "noindex").files "out") ≠ Ex.visIndices ((Ex.filtered Ex.undef' "noindex").files "out") := by
  decide +kernel

/-- C96 is false of a file with an OI_FLUX table without the column MJD: oifits-filter succeeds, but which file it
makes depends on what was in memory. -/
theorem C96_mjd_counterexample : ∃ (u u' : Undef FP.ratFP) (fs : Files FP.ratFP) (infile outfile : CStr),
    let r := (oifits_filter u "2016-01-02" (fun _ => true) (.args [] false ["oifits-filter", infile, outfile])).run fs
    let r' := (oifits_filter u' "2016-01-02" (fun _ => true) (.args [] false ["oifits-filter", infile, outfile])).run fs
    r.exit = .code 0 ∧ r'.exit = .code 0 ∧ r.files outfile ≠ r'.files outfile := by
  have h := Ex.filtered_mjd
  have h3 := fun e => h.2 (congrArg Ex.fluxTimes e)
  have h1 := h.1.1
  have h2 := h.1.2
  unfold Ex.filtered at h1 h2 h3
  exact ⟨Ex.undef, Ex.undef', Ex.files4, "nomjd", "out", h1, h2, h3⟩

/-- C96 is false of a file with an OI_VIS table which names an OI_CORR table but has no column
CORRINDX_VISAMP. -/
theorem C96_index_counterexample : ∃ (u u' : Undef FP.ratFP) (fs : Files FP.ratFP) (infile outfile : CStr),
    let r := (oifits_filter u "2016-01-02" (fun _ => true) (.args [] false ["oifits-filter", infile, outfile])).run fs
    let r' := (oifits_filter u' "2016-01-02" (fun _ => true) (.args [] false ["oifits-filter", infile, outfile])).run fs
    r.exit = .code 0 ∧ r'.exit = .code 0 ∧ r.files outfile ≠ r'.files outfile := by
  have h := Ex.filtered_index
  have h3 := fun e => h.2 (congrArg Ex.visIndices e)
  have h1 := h.1.1
  have h2 := h.1.2
  unfold Ex.filtered at h1 h2 h3
  exact ⟨Ex.undef, Ex.undef', Ex.files4, "noindex", "out", h1, h2, h3⟩

end Verif
