import Verif.Spec.MergeFile
import Verif.Spec.EndToEnd
import Verif.Proof.UnsetMerge
import Verif.Proof.FitsExact

/-! Merging a dataset which has been written to a file and read back. -/

namespace Verif
open Spec Outcome
variable {R : FP}

/-- The dataset without what merging does not look at: numbers of tables, hash tables, DATE and CONTENT. -/
def OiFits.trim (oi : OiFits R) : OiFits R :=
  { oi with
    numArray := 0, numWavelength := 0, numCorr := 0, numInspol := 0, numVis := 0, numVis2 := 0, numT3 := 0, numFlux := 0
    header := { oi.header with date := [], content := [] }
    arrayHash := HMap.empty, wavelengthHash := HMap.empty, corrHash := HMap.empty }

theorem header_map_trim (ins : List (OiFits R)) (out : OiFits R) :
    merge_oi_header (ins.map OiFits.trim) out = merge_oi_header ins out := by
  have e : files_min_mjd (ins.map OiFits.trim) = files_min_mjd ins := by
    unfold files_min_mjd
    rw [List.foldlM_map]
    rfl
  unfold merge_oi_header
  simp only [e, List.map_map, Function.comp_def]
  rfl

theorem target_map_trim (ins : List (OiFits R)) : ∀ st, mergeTargetLoop (ins.map OiFits.trim) st = mergeTargetLoop ins st := by
  induction ins with
  | nil => intro st; rfl
  | cons i ins ih =>
    intro st
    rw [List.map_cons]
    unfold mergeTargetLoop
    refine congrArg₂ Bind.bind rfl (funext fun st => ih _)

theorem mergeNames_trim {τ : Type} {tabs : OiFits R → List τ}
    {step : OiFits R × HMap CStr → τ → Outcome (OiFits R × HMap CStr)} (ht : ∀ i, tabs (OiFits.trim i) = tabs i)
    (ins : List (OiFits R)) : ∀ x l, mergeNames tabs step (ins.map OiFits.trim) x l = mergeNames tabs step ins x l := by
  induction ins with
  | nil => intro x l; rfl
  | cons i ins ih =>
    intro x l
    rw [List.map_cons]
    unfold mergeNames
    rw [ht]
    exact congrArg₂ Bind.bind rfl (funext fun p => ih _ _)

theorem mergeData_trim {τ : Type} {tabs : OiFits R → List τ}
    {step : OiFits R → HMap CStr → HMap CStr → HMap CStr → OiFits R → τ → Outcome (OiFits R)}
    (ht : ∀ i, tabs (OiFits.trim i) = tabs i) (hs : ∀ i, step (OiFits.trim i) = step i) (ins : List (OiFits R)) :
    ∀ as is cs x, mergeData tabs step (ins.map OiFits.trim) as is cs x = mergeData tabs step ins as is cs x := by
  induction ins with
  | nil => intro as is cs x; rfl
  | cons i ins ih =>
    intro as is cs x
    rw [List.map_cons]
    cases as with
    | nil => rfl
    | cons a as =>
      cases is with
      | nil => rfl
      | cons s is =>
        cases cs with
        | nil => rfl
        | cons c cs =>
          unfold mergeData
          rw [ht, hs]
          exact congrArg₂ Bind.bind rfl (funext fun out => ih _ _ _ _)

theorem inspol_map_trim (ids : HMap Int) (ins : List (OiFits R)) :
    ∀ as is x, merge_all_oi_inspol ids (ins.map OiFits.trim) as is x = merge_all_oi_inspol ids ins as is x := by
  induction ins with
  | nil => intro as is x; rfl
  | cons i ins ih =>
    intro as is x
    rw [List.map_cons]
    cases as with
    | nil => rfl
    | cons a as =>
      cases is with
      | nil => rfl
      | cons s is =>
        unfold merge_all_oi_inspol
        exact congrArg₂ Bind.bind rfl (funext fun out => ih _ _ _)

theorem merge_map_trim (ins : List (OiFits R)) : merge_oi_fits_list (ins.map OiFits.trim) = merge_oi_fits_list ins := by
  have h1 : ∀ ids as is cs x, merge_all_oi_vis ids (ins.map OiFits.trim) as is cs x = merge_all_oi_vis ids ins as is cs x :=
    fun _ => mergeData_trim (fun _ => rfl) (fun _ => rfl) ins
  have h2 : ∀ ids as is cs x, merge_all_oi_vis2 ids (ins.map OiFits.trim) as is cs x = merge_all_oi_vis2 ids ins as is cs x :=
    fun _ => mergeData_trim (fun _ => rfl) (fun _ => rfl) ins
  have h3 : ∀ ids as is cs x, merge_all_oi_t3 ids (ins.map OiFits.trim) as is cs x = merge_all_oi_t3 ids ins as is cs x :=
    fun _ => mergeData_trim (fun _ => rfl) (fun _ => rfl) ins
  have h4 : ∀ ids as is cs x, merge_all_oi_flux ids (ins.map OiFits.trim) as is cs x = merge_all_oi_flux ids ins as is cs x :=
    fun _ => mergeData_trim (fun _ => rfl) (fun _ => rfl) ins
  unfold merge_oi_fits_list merge_oi_target merge_all_oi_array merge_all_oi_wavelength merge_all_oi_corr
  simp only [header_map_trim, target_map_trim, inspol_map_trim, h1, h2, h3, h4]
  simp only [mergeNames_trim (tabs := OiFits.arrayList) (fun _ => rfl), mergeNames_trim (tabs := OiFits.wavelengthList) (fun _ => rfl),
    mergeNames_trim (tabs := OiFits.corrList) (fun _ => rfl)]

theorem merge_trim {as bs : List (OiFits R)} (h : as.map OiFits.trim = bs.map OiFits.trim) :
    merge_oi_fits_list as = merge_oi_fits_list bs := by
  rw [← merge_map_trim as, h, merge_map_trim]

theorem targets_kept {t : OiTarget R} (junk : CStr) (h : t.blank.Exact []) : (t.asRead junk).blank = t.blank := by
  refine Eq.trans ?_ h.eq
  unfold OiTarget.asRead OiTarget.blank
  cases t.usecategory <;> simp [List.map_map, Function.comp_def]

theorem vis_kept {t : OiVis R} (junk : Int) (h : t.blank.Exact 0) : (t.asRead junk).blank = t.blank := by
  refine Eq.trans ?_ h.eq
  have e : keyStr t.corrname = t.corrname := h.corrname.eq
  obtain ⟨⟩ := t
  rename_i corrname _ _ _ _ _ usecomplex _ _ _ _
  dsimp only at e
  unfold OiVis.asRead OiVis.blank
  simp only [List.map_map, Function.comp_def, e]
  by_cases hc : corrname = [] <;> cases usecomplex <;>
    simp only [hc, ne_eq, not_true_eq_false, not_false_eq_true, and_true, and_false, Bool.false_eq_true,
      if_true, if_false]

theorem vis2_kept {t : OiVis2 R} (junk : Int) (h : t.blank.Exact 0) : (t.asRead junk).blank = t.blank := by
  refine Eq.trans ?_ h.eq
  have e : keyStr t.corrname = t.corrname := h.corrname.eq
  unfold OiVis2.asRead OiVis2.blank
  simp only [List.map_map, Function.comp_def, e]
  by_cases hc : t.corrname = [] <;> simp [hc]

theorem t3_kept {t : OiT3 R} (junk : Int) (h : t.blank.Exact 0) : (t.asRead junk).blank = t.blank := by
  refine Eq.trans ?_ h.eq
  have e : keyStr t.corrname = t.corrname := h.corrname.eq
  unfold OiT3.asRead OiT3.blank
  simp only [List.map_map, Function.comp_def, e]
  by_cases hc : t.corrname = [] <;> simp [hc]

theorem flux_kept {t : OiFlux R} (junk : Int) (h : t.blank.Exact 0) : (t.asRead junk).blank = t.blank := by
  refine Eq.trans ?_ h.eq
  have e : keyStr t.corrname = t.corrname := h.corrname.eq
  unfold OiFlux.asRead OiFlux.blank
  simp only [List.map_map, Function.comp_def, e]
  by_cases hc : t.corrname = [] <;> simp [hc]

theorem list_kept {τ : Type} {l : List τ} {asRead blank : τ → τ} (h : ∀ t ∈ l, blank (asRead t) = blank t) :
    (l.map asRead).map blank = l.map blank := by
  rw [List.map_map]
  exact List.map_congr_left h

/-- Merging a dataset which a file holds without loss, as read from that file, gives the same as merging the
dataset. -/
theorem merge_saved {today : CStr} {u : Undef R} {m x : OiFits R} (hk : Kept m) (hs : SavedAs today u m x)
    (ins : List (OiFits R)) : bl (merge_oi_fits_list (x :: ins)) = bl (merge_oi_fits_list (m :: ins)) := by
  have k := fun s hm => (hk.header s hm).eq
  simp only [List.forall_mem_cons] at k
  obtain ⟨k1, k2, k3, k4, k5, k6, k7, k8, k9, k10, k11, k12, -⟩ := k
  have e : merge_oi_fits_list (x :: ins) = merge_oi_fits_list ({ m with
      targets := x.targets, visList := x.visList, vis2List := x.vis2List, t3List := x.t3List,
      fluxList := x.fluxList } :: ins) := by
    apply merge_trim
    rw [List.map_cons, List.map_cons]
    congr 1
    unfold OiFits.trim
    simp only
    congr 1
    · rw [hs.header]
      simp only [OiHeader.asRead, k1, k2, k3, k4, k5, k6, k7, k8, k9, k10, k11, k12]
    · rw [hs.array]; exact map_same fun t ht => (hk.array t ht).eq
    · rw [hs.wavelength]; exact map_same fun t ht => (hk.wavelength t ht).eq
    · rw [hs.corr]; exact map_same fun t ht => (hk.corr t ht).eq
    · rw [hs.inspol, hk.inspol]; rfl
  rw [e]
  apply merge_alike
  rw [List.map_cons, List.map_cons]
  congr 1
  unfold OiFits.blank
  simp only [hs.targets, hs.vis, hs.vis2, hs.t3, hs.flux]
  rw [targets_kept _ hk.targets, list_kept fun t ht => vis_kept _ (hk.vis t ht), list_kept fun t ht => vis2_kept _ (hk.vis2 t ht),
    list_kept fun t ht => t3_kept _ (hk.t3 t ht), list_kept fun t ht => flux_kept _ (hk.flux t ht)]

end Verif
