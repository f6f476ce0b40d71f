import Verif.Props.EndToEnd
import Verif.Proof.Conform
import Verif.Spec.ExampleConform

/-! C74: oifits-check says that all checks have passed if, and only if, the file conforms to the standard. -/

set_option Elab.async false

namespace Verif
open Outcome Spec
variable {R : FP}

/-- What a check prints begins with three asterisks, if it has found anything. -/
theorem reports_begin : ∀ {bss : List (List Breach)}, (∃ bs ∈ bss, bs ≠ []) →
    ("*** " : CStr) <+: bss.flatMap reportText
  | [], h => by obtain ⟨_, h, -⟩ := h; cases h
  | [] :: bss, h => by
    rw [List.flatMap_cons, reportText, List.nil_append]
    refine reports_begin ?_
    obtain ⟨bs, h1, h2⟩ := h
    rcases List.mem_cons.mp h1 with rfl | h1
    · exact absurd rfl h2
    · exact ⟨bs, h1, h2⟩
  | (b :: bs) :: bss, _ => by
    rw [List.flatMap_cons, reportText]
    simp only [List.append_assoc]
    refine List.IsPrefix.trans ?_ (List.prefix_append _ _)
    unfold line
    rw [List.flatten_cons, List.append_assoc]
    exact List.prefix_append _ _

/-- C74. The program says that all checks have passed if, and only if, the dataset in the file conforms. -/
theorem C74_passes {u : Undef R} {fs : Files R} {prog file : CStr} {oi : OiFits R} (h : Holds u fs file oi)
    (hn : file.length < FLEN_FILENAME) :
    (oifits_check u [prog, file]).run fs = ⟨.code 0, summary oi ++ ("All checks passed\n" : CStr), fs⟩ ↔ Conforms oi := by
  rw [← nothingFound_iff h.wf.wavelength]
  unfold NothingFound
  constructor
  · intro hr
    refine Classical.byContradiction fun hc => ?_
    by_cases hs : ∀ bs ∈ breachLists oi, SameDescription bs
    · rw [C15_report h hn hs, if_neg hc, List.append_nil] at hr
      have hr := List.append_cancel_left (congrArg Final.out hr)
      have hb : ("*** " : CStr) <+: (breachLists oi).flatMap reportText := by
        refine reports_begin (Classical.byContradiction fun hx => hc fun bs hbs => ?_)
        exact Classical.byContradiction fun hne => hx ⟨bs, hbs, hne⟩
      rw [hr] at hb
      exact absurd hb (by decide)
    · obtain ⟨_, _, _, _, _, _, h2⟩ := C15_abort (prog := prog) h hn (by
        refine Classical.byContradiction fun hx => hs fun bs hbs => ?_
        exact Classical.byContradiction fun hne => hx ⟨bs, hbs, hne⟩)
      rw [h2] at hr
      cases congrArg Final.exit hr
  · intro hc
    have h2 := C15_report (prog := prog) h hn (fun bs hbs => by
      rw [hc bs hbs]
      intro _ h
      cases h)
    have h3 : (breachLists oi).flatMap reportText = [] := by
      rw [List.flatMap_eq_nil_iff]
      intro bs hbs
      rw [hc bs hbs, reportText]
    rw [h2, if_pos hc, h3, List.append_nil]

/-- C74. If it does not conform the process is aborted, or what follows the summary begins with three asterisks. -/
theorem C74_fails {u : Undef R} {fs : Files R} {prog file : CStr} {oi : OiFits R} (h : Holds u fs file oi)
    (hn : file.length < FLEN_FILENAME) (hc : ¬ Conforms oi) :
    let r := (oifits_check u [prog, file]).run fs
    r.exit = .abort ∨ r.exit = .code 0 ∧ ∃ s, r.out = summary oi ++ ("*** " : CStr) ++ s := by
  intro r
  rw [← nothingFound_iff h.wf.wavelength] at hc
  unfold NothingFound at hc
  by_cases hs : ∀ bs ∈ breachLists oi, SameDescription bs
  · right
    have hr : r = _ := C15_report h hn hs
    obtain ⟨s, hb⟩ : ("*** " : CStr) <+: (breachLists oi).flatMap reportText := by
      refine reports_begin (Classical.byContradiction fun hx => hc fun bs hbs => ?_)
      exact Classical.byContradiction fun hne => hx ⟨bs, hbs, hne⟩
    rw [hr, if_neg hc, List.append_nil]
    exact ⟨rfl, s, by rw [List.append_assoc, hb]⟩
  · left
    obtain ⟨_, _, _, _, _, _, h2⟩ := C15_abort (prog := prog) h hn (by
      refine Classical.byContradiction fun hx => hs fun bs hbs => ?_
      exact Classical.byContradiction fun hne => hx ⟨bs, hbs, hne⟩)
    have hr : r = _ := h2
    rw [hr]

/-- The dataset in the file called good. -/
def Ex.goodRead : OiFits FP.ratFP :=
  match read_oi_fits Ex.undef (some (fileOf "2016-01-01" Ex.good)) .ok with
  | .ok (some oi, .ok) => oi
  | _ => Ex.oic

theorem Ex.good_facts : Ex.isRead (read_oi_fits Ex.undef (some (fileOf "2016-01-01" Ex.good)) .ok) = true ∧
    (breachLists Ex.goodRead).all List.isEmpty = true ∧ Ex.goodRead.visList.length = 1 ∧
    Ex.goodRead.fluxList.length = 1 := by
  decide +kernel

theorem Ex.good_holds : Holds Ex.undef Ex.files2 "good" Ex.goodRead := by
  refine ⟨fileOf "2016-01-01" Ex.good, rfl, ?_⟩
  have h := Ex.good_facts.1
  unfold Ex.goodRead
  match read_oi_fits Ex.undef (some (fileOf "2016-01-01" Ex.good)) .ok, h with
  | .ok (some oi, .ok), _ => rfl

theorem Ex.good_conforms : Conforms Ex.goodRead := by
  rw [← nothingFound_iff Ex.good_holds.wf.wavelength]
  intro bs hbs
  simpa using List.all_eq_true.mp Ex.good_facts.2.1 bs hbs

-- A file which conforms, with data of each kind.
example : Holds Ex.undef Ex.files2 "good" Ex.goodRead ∧ Conforms Ex.goodRead ∧ Ex.goodRead.visList ≠ [] ∧
    (oifits_check Ex.undef ["oifits-check", "good"]).run Ex.files2 =
      ⟨.code 0, summary Ex.goodRead ++ ("All checks passed\n" : CStr), Ex.files2⟩ := by
  refine ⟨Ex.good_holds, Ex.good_conforms, fun h => ?_, (C74_passes Ex.good_holds (by decide)).mpr Ex.good_conforms⟩
  exact absurd (congrArg List.length h) (by rw [Ex.good_facts.2.2.1]; decide)

-- A file which does not: its spectrum has a FOVTYPE.
example : ∃ oi, Holds Ex.undef Ex.files "in" oi ∧ ¬ Conforms oi := by
  obtain ⟨oi, h, -, -, -, -, -, -, -, h8, -⟩ := Ex.holds_in
  refine ⟨oi, h, fun hc => ?_⟩
  exact absurd (hc.fluxU _ (by rw [h8]; exact List.mem_singleton.mpr rfl) rfl).2.2 (by decide)

end Verif
