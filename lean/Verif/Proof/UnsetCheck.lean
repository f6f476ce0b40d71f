import Verif.Proof.UnsetRead
import Verif.Model.Check
import Verif.Model.Format
import Verif.Model.Cli

/-! Checks and summaries do not look at the members which are not set. -/

namespace Verif
open Spec Outcome

variable {R : FP} {α β : Type}

/-! ### Checks -/

theorem enumFromM_map (g : α → β) (f : Nat → β → CheckM Unit) (l : List α) (k : Nat) :
    enumFromM k f (l.map g) = enumFromM k (fun k x => f k (g x)) l := by
  induction l generalizing k with
  | nil => rfl
  | cons x l ih => simp only [List.map_cons, enumFromM, ih]

theorem enumM_map (g : α → β) (f : Nat → β → CheckM Unit) (l : List α) :
    enumM (l.map g) f = enumM l (fun k x => f k (g x)) := enumFromM_map g f l 0

theorem isNone_target_blank (oi : OiFits R) (id : Int) :
    (oi_fits_lookup_target oi.blank id).isNone = (oi_fits_lookup_target oi id).isNone := by
  unfold oi_fits_lookup_target OiFits.blank OiTarget.blank
  simp only [List.find?_map, Option.isNone_map]
  rfl

theorem checkTargetIds_blank {ρ : Type} (oi : OiFits R) (name : CStr) (id : ρ → Int) (k : Nat) (l : List ρ) :
    checkTargetIds oi.blank name id k l = checkTargetIds oi name id k l := by
  unfold checkTargetIds
  simp only [isNone_target_blank]

theorem checkUnique_blank (c : Target R → CStr) (l : List (Target R)) (ids : List CStr) :
    checkUniqueLoop ids (l.map fun t => { t with category := c t }) = checkUniqueLoop ids l := by
  induction l generalizing ids with
  | nil => rfl
  | cons t l ih => simp only [List.map_cons, checkUniqueLoop, ih]

theorem check_tables_blank (oi : OiFits R) : check_tables oi.blank = check_tables oi := by
  unfold check_tables checkBadTabRevision
  simp only [OiFits.blank, enumM_map]
  rfl

theorem check_keywords_blank (oi : OiFits R) : check_keywords oi.blank = check_keywords oi := by
  unfold check_keywords
  simp only [OiFits.blank, enumM_map]
  rfl

theorem check_visrefmap_blank (oi : OiFits R) : check_visrefmap oi.blank = check_visrefmap oi := by
  unfold check_visrefmap
  simp only [OiFits.blank, enumM_map]
  rfl

theorem check_unique_targets_blank (oi : OiFits R) : check_unique_targets oi.blank = check_unique_targets oi := by
  unfold check_unique_targets
  rw [show oi.blank.targets.targ = oi.targets.targ.map fun t => { t with
    category := (fun t : Target R => if oi.targets.usecategory then t.category else []) t } from rfl, checkUnique_blank]

theorem check_targets_present_blank (oi : OiFits R) : check_targets_present oi.blank = check_targets_present oi := by
  unfold check_targets_present
  simp only [checkTargetIds_blank]
  unfold checkTargetIds
  simp only [OiFits.blank, OiVis.blank, OiVis2.blank, OiT3.blank, OiFlux.blank, enumM_map]

theorem check_arrname_blank (oi : OiFits R) : check_arrname oi.blank = check_arrname oi := by
  unfold check_arrname
  simp only [OiFits.blank, enumM_map]
  rfl

theorem checkElement_blank (oi : OiFits R) (a n : CStr) (k i : Nat) (s : Int) :
    checkElement oi.blank a n k i s = checkElement oi a n k i s := rfl

theorem check_elements_present_blank (oi : OiFits R) : check_elements_present oi.blank = check_elements_present oi := by
  unfold check_elements_present
  simp only [checkElement_blank]
  simp only [OiFits.blank, OiVis.blank, OiVis2.blank, OiT3.blank, OiFlux.blank, enumM_map]
  rfl

theorem check_corr_present_blank (oi : OiFits R) : check_corr_present oi.blank = check_corr_present oi := by
  unfold check_corr_present
  have e : ∀ c n k, checkCorrname oi.blank c n k = checkCorrname oi c n k := fun _ _ _ => rfl
  simp only [e]
  simp only [OiFits.blank, enumM_map]
  rfl

theorem check_flagging_blank (oi : OiFits R) : check_flagging oi.blank = check_flagging oi := by
  unfold check_flagging
  simp only [OiFits.blank, OiVis.blank, OiVis2.blank, OiT3.blank, enumM_map]

theorem check_t3amp_blank (oi : OiFits R) : check_t3amp oi.blank = check_t3amp oi := by
  unfold check_t3amp
  simp only [OiFits.blank, OiT3.blank, enumM_map]

theorem check_time_blank (oi : OiFits R) : check_time oi.blank = check_time oi := by
  unfold check_time
  rw [show is_oi_fits_two oi.blank = is_oi_fits_two oi from rfl]
  simp only [OiFits.blank, OiVis.blank, OiVis2.blank, OiT3.blank, enumM_map]

theorem readAt_map_bind (g : α → β) (l : List α) (i : Nat) (f : β → CheckM Unit) :
    (readAt (l.map g) i >>= f) = (readAt l i >>= fun x => f (g x)) := by
  unfold readAt index
  rw [List.getElem?_map]
  cases l[i]? <;> rfl

theorem check_flux_blank (oi : OiFits R) : check_flux oi.blank = check_flux oi := by
  unfold check_flux checkFluxCal checkFluxUncal
  simp only [OiFits.blank, OiFlux.blank, enumM_map, readAt_map_bind]
  rfl

theorem checkList_blank (oi : OiFits R) : ∀ c ∈ (checkList : List (OiFits R → Outcome CheckResult)), c oi.blank = c oi := by
  intro c hc
  simp only [checkList, List.mem_cons, List.not_mem_nil, or_false] at hc
  rcases hc with rfl | rfl | rfl | rfl | rfl | rfl | rfl | rfl | rfl | rfl | rfl | rfl | rfl | rfl
  · exact check_tables_blank oi
  · rfl
  · exact check_keywords_blank oi
  · exact check_visrefmap_blank oi
  · exact check_unique_targets_blank oi
  · exact check_targets_present_blank oi
  · exact check_arrname_blank oi
  · exact check_elements_present_blank oi
  · exact check_corr_present_blank oi
  · exact check_flagging_blank oi
  · exact check_t3amp_blank oi
  · rfl
  · exact check_time_blank oi
  · exact check_flux_blank oi

theorem runChecks_blank (oi : OiFits R) (l : List (OiFits R → Outcome CheckResult)) (hl : ∀ c ∈ l, c oi.blank = c oi)
    (w : Level) : runChecks oi.blank l w = runChecks oi l w := by
  induction l generalizing w with
  | nil => rfl
  | cons c l ih =>
    have ih' := ih fun c hc => hl c (List.mem_cons_of_mem _ hc)
    unfold runChecks
    rw [hl c List.mem_cons_self]
    simp only [ih']

/-! ### Summaries -/

theorem numberedList_map (g : α → β) (f : Int → β → TextM Unit) (l : List α) (n : Int) :
    numberedList f n (l.map g) = numberedList (fun n x => f n (g x)) n l := by
  induction l generalizing n with
  | nil => rfl
  | cons x l ih => simp only [List.map_cons, numberedList, ih]

theorem summary_blank (oi : OiFits R) : format_oi_fits_summary oi.blank = format_oi_fits_summary oi := by
  unfold format_oi_fits_summary
  rw [show is_oi_fits_two oi.blank = is_oi_fits_two oi from rfl]
  simp only [OiFits.blank, OiVis.blank, OiVis2.blank, OiT3.blank, OiFlux.blank, numberedList_map, List.length_map]

end Verif
