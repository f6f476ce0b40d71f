import Verif.Proof.UnsetCli
import Verif.Props.WriteFile

/-! Files which the library writes have what their tables need. -/

namespace Verif
open Spec Outcome

variable {R : FP} {α β : Type}

theorem rep_intsCol (name : CStr) (ty : ColType) (n : Nat) (recs : List α) (f : α → List Int) :
    (intsCol (R := R) name ty n recs f).rep = n := rfl

theorem rep_dblsCol (name : CStr) (n : Nat) (unit : Option CStr) (recs : List α) (f : α → List R.Dbl) :
    (dblsCol (R := R) name n unit recs f).rep = n := rfl

theorem rep_fltsCol (name : CStr) (n : Nat) (unit : Option CStr) (recs : List α) (f : α → List R.Flt) :
    (fltsCol (R := R) name n unit recs f).rep = n := rfl

theorem rep_cpxsCol (name : CStr) (n : Nat) (recs : List α) (f : α → List (R.Flt × R.Flt)) :
    (cpxsCol (R := R) name n recs f).rep = n := rfl

theorem rep_logsCol (name : CStr) (n : Nat) (tdim : Option CStr) (recs : List α) (f : α → List Bool) :
    (logsCol (R := R) name n tdim recs f).rep = n := rfl

theorem rep_strCol (name : CStr) (n : Nat) (recs : List α) (f : α → CStr) : (strCol (R := R) name n recs f).rep = n := rfl

/-- What one HDU of a file needs. -/
structure FilledHdu (h : Hdu R) : Prop where
  name : StringName h
  rows : h.type = .binary → h.nrows ≠ 0 ∧ ∀ c ∈ h.cols, c.rep ≠ 0
  vis : isTable "OI_VIS" h = true → Correlated h →
    hasColumn "CORRINDX_VISAMP" h = true ∧ hasColumn "CORRINDX_VISPHI" h = true
  flux : isTable "OI_FLUX" h = true →
    Complete "OI_FLUX" h ∧ (Correlated h → hasColumn "CORRINDX_FLUXDATA" h = true)

theorem optCols_rep {b : Bool} {l : List (Col R)} (h : ∀ c ∈ l, c.rep ≠ 0) : ∀ c ∈ optCols b l, c.rep ≠ 0 := by
  unfold optCols
  cases b
  · intro c hc; cases hc
  · exact h

theorem filled_primary (today : CStr) (t : OiHeader) : FilledHdu (hduPrimary (R := R) today t) where
  name := by
    intro v hv
    unfold hduPrimary optKey at hv
    simp only [] at hv
    split at hv <;> split at hv <;> split at hv <;> split at hv <;> split at hv <;> cases hv
  rows := fun h => by cases h
  vis := fun h => by cases h
  flux := fun h => by cases h

theorem filled_target {t : OiTarget R} (h : t.Storable) : FilledHdu (hduTarget t) where
  name := fun v hv => ⟨_, (Option.some.inj hv).symm⟩
  rows := fun _ => ⟨fun e => h.rows (List.length_eq_zero_iff.mp e), by
    unfold hduTarget
    rw [List.forall_mem_append]
    refine ⟨?_, optCols_rep ?_⟩ <;> simp [rep_intsCol, rep_dblsCol, rep_fltsCol, rep_strCol]⟩
  vis := fun h => by cases h
  flux := fun h => by cases h

theorem filled_array {t : OiArray R} (h : t.Storable) (v : Int) : FilledHdu (hduArray t v) where
  name := fun v hv => ⟨_, (Option.some.inj hv).symm⟩
  rows := fun _ => ⟨fun e => h.wf.rows (List.length_eq_zero_iff.mp e), by
    unfold hduArray
    simp [rep_intsCol, rep_dblsCol, rep_fltsCol, rep_strCol]⟩
  vis := fun h => by cases h
  flux := fun h => by cases h

theorem filled_wavelength {t : OiWavelength R} (h : t.WF) (v : Int) : FilledHdu (hduWavelength t v) where
  name := fun v hv => ⟨_, (Option.some.inj hv).symm⟩
  rows := fun _ => ⟨h.chans, by
    unfold hduWavelength
    simp [rep_fltsCol]⟩
  vis := fun h => by cases h
  flux := fun h => by cases h

theorem filled_corr {t : OiCorr R} (h : t.WF) (v : Int) : FilledHdu (hduCorr t v) where
  name := fun v hv => ⟨_, (Option.some.inj hv).symm⟩
  rows := fun _ => ⟨h.rows, by
    unfold hduCorr
    simp [rep_intsCol, rep_dblsCol]⟩
  vis := fun h => by cases h
  flux := fun h => by cases h

theorem filled_inspol {t : OiInspol R} (h : t.Storable) (v : Int) : FilledHdu (hduInspol t v) where
  name := fun v hv => ⟨_, (Option.some.inj hv).symm⟩
  rows := fun _ => ⟨fun e => h.wf.rows (List.length_eq_zero_iff.mp e), by
    have := h.wf.chans
    unfold hduInspol
    simp [rep_intsCol, rep_dblsCol, rep_strCol, rep_cpxsCol, this]⟩
  vis := fun h => by cases h
  flux := fun h => by cases h

theorem visCols_rep {t : OiVis R} (hw : t.nwave ≠ 0) : ∀ c ∈ visCols t, c.rep ≠ 0 := by
  have h2 : t.nwave * t.nwave ≠ 0 := Nat.mul_ne_zero hw hw
  unfold visCols
  by_cases hc : t.corrname = []
  · rw [if_pos hc]
    simp only [List.forall_mem_append]
    refine ⟨⟨⟨⟨⟨?_, ?_⟩, optCols_rep ?_⟩, ?_⟩, optCols_rep ?_⟩, ?_⟩ <;>
      simp only [List.forall_mem_append, List.forall_mem_cons, rep_intsCol, rep_dblsCol, rep_logsCol, ne_eq, hw, h2,
        not_false_eq_true, List.not_mem_nil, false_imp_iff, implies_true, and_self, Nat.one_ne_zero, OfNat.ofNat_ne_zero]
  · rw [if_neg hc]
    simp only [List.forall_mem_append]
    refine ⟨⟨⟨⟨⟨⟨?_, ?_⟩, optCols_rep ?_⟩, ?_⟩, optCols_rep ?_⟩, ?_⟩, ?_⟩ <;>
      simp only [List.forall_mem_append, List.forall_mem_cons, rep_intsCol, rep_dblsCol, rep_logsCol, ne_eq, hw, h2,
        not_false_eq_true, List.not_mem_nil, false_imp_iff, implies_true, and_self, Nat.one_ne_zero, OfNat.ofNat_ne_zero]

theorem indexed_vis (t : OiVis R) (v : Int) (hc : Correlated (hduVis t v)) :
    hasColumn "CORRINDX_VISAMP" (hduVis t v) = true ∧ hasColumn "CORRINDX_VISPHI" (hduVis t v) = true := by
  have k : (hduVis t v).keys.lookup ("CORRNAME" : CStr) = if t.corrname = [] then none else some (.str (keyStr t.corrname)) := by
    rw [vis_keys]; lk_skip; exact lookup_opt_hit (by lk_skip; rfl)
  unfold Correlated hasKeyword at hc
  rw [k] at hc
  obtain ⟨_, _, _, _, corrname, _, _, _, _, cplx, refmap, _, _, _, _⟩ := t
  cases corrname with
  | nil => cases hc
  | cons => cases cplx <;> cases refmap <;> exact ⟨rfl, rfl⟩

theorem filled_vis {t : OiVis R} (h : t.Storable) (v : Int) : FilledHdu (hduVis t v) where
  name := fun v hv => ⟨_, (Option.some.inj hv).symm⟩
  rows := fun _ => ⟨fun e => h.wf.rows (List.length_eq_zero_iff.mp e), visCols_rep h.wf.chans⟩
  vis := fun _ => indexed_vis t v
  flux := fun h => by cases h

theorem filled_vis2 {t : OiVis2 R} (h : t.Storable) (v : Int) : FilledHdu (hduVis2 t v) where
  name := fun v hv => ⟨_, (Option.some.inj hv).symm⟩
  rows := fun _ => ⟨fun e => h.wf.rows (List.length_eq_zero_iff.mp e), by
    have := h.wf.chans
    unfold hduVis2
    rw [List.forall_mem_append, List.forall_mem_append]
    refine ⟨⟨?_, optCols_rep ?_⟩, ?_⟩ <;> simp [rep_intsCol, rep_dblsCol, rep_logsCol, this]⟩
  vis := fun h => by cases h
  flux := fun h => by cases h

theorem filled_t3 {t : OiT3 R} (h : t.Storable) (v : Int) : FilledHdu (hduT3 t v) where
  name := fun v hv => ⟨_, (Option.some.inj hv).symm⟩
  rows := fun _ => ⟨fun e => h.wf.rows (List.length_eq_zero_iff.mp e), by
    have := h.wf.chans
    unfold hduT3
    rw [List.forall_mem_append, List.forall_mem_append, List.forall_mem_append, List.forall_mem_append]
    refine ⟨⟨⟨⟨?_, optCols_rep ?_⟩, ?_⟩, optCols_rep ?_⟩, ?_⟩ <;> simp [rep_intsCol, rep_dblsCol, rep_logsCol, this]⟩
  vis := fun h => by cases h
  flux := fun h => by cases h

theorem filled_flux {t : OiFlux R} (h : t.Storable) (v : Int) : FilledHdu (hduFlux t v) where
  name := fun v hv => ⟨_, (Option.some.inj hv).symm⟩
  rows := fun _ => ⟨fun e => h.wf.rows (List.length_eq_zero_iff.mp e), by
    have := h.wf.chans
    unfold hduFlux
    rw [List.forall_mem_append, List.forall_mem_append]
    refine ⟨⟨?_, ?_⟩, ?_⟩
    · simp [rep_intsCol, rep_dblsCol, this]
    · split
      · rw [List.forall_mem_append]
        refine ⟨?_, optCols_rep ?_⟩ <;> simp [rep_intsCol, rep_dblsCol, this]
      · rw [List.forall_mem_append, List.forall_mem_append]
        refine ⟨⟨?_, optCols_rep ?_⟩, ?_⟩ <;> simp [rep_intsCol, rep_dblsCol, this]
    · simp [rep_logsCol, this]⟩
  vis := fun h => by cases h
  flux := fun _ => by
    refine ⟨complete_flux t v, fun hc => ?_⟩
    have k : (hduFlux t v).keys.lookup ("CORRNAME" : CStr) = if t.corrname = [] then none else some (.str (keyStr t.corrname)) := by
      cases h : t.arrname <;> cases h' : t.corrname <;> cases h'' : t.fovtype <;>
        (simp only [hduFlux, h, h', h'']; rfl)
    unfold Correlated hasKeyword at hc
    rw [k] at hc
    obtain ⟨_, _, arrname, _, corrname, _, _, _, _, _, _⟩ := t
    cases corrname with
    | nil => cases hc
    | cons => cases arrname <;> rfl

theorem filledHdu_of_mem {today : CStr} {oi : OiFits R} (h : oi.Storable) : ∀ x ∈ fileOf today oi, FilledHdu x := by
  intro x hx
  unfold fileOf at hx
  simp only [List.mem_cons, List.mem_append, List.mem_mapIdx] at hx
  rcases hx with rfl | rfl | ((((((⟨i, hi, rfl⟩ | ⟨i, hi, rfl⟩) | ⟨i, hi, rfl⟩) | ⟨i, hi, rfl⟩) | ⟨i, hi, rfl⟩) |
    ⟨i, hi, rfl⟩) | ⟨i, hi, rfl⟩) | ⟨i, hi, rfl⟩
  · exact filled_primary today oi.header
  · exact filled_target h.targets
  · exact filled_array (h.array _ (List.getElem_mem hi)) _
  · exact filled_wavelength (h.wavelength _ (List.getElem_mem hi)) _
  · exact filled_corr (h.corr _ (List.getElem_mem hi)) _
  · exact filled_inspol (h.inspol _ (List.getElem_mem hi)) _
  · exact filled_vis (h.vis _ (List.getElem_mem hi)) _
  · exact filled_vis2 (h.vis2 _ (List.getElem_mem hi)) _
  · exact filled_t3 (h.t3 _ (List.getElem_mem hi)) _
  · exact filled_flux (h.flux _ (List.getElem_mem hi)) _

/-- The files of datasets which can be stored have what their tables need. -/
theorem filled_fileOf (today : CStr) {oi : OiFits R} (h : oi.Storable) : Filled (fileOf today oi) where
  primary := by unfold fileOf; exact List.cons_ne_nil _ _
  names := fun x hx => (filledHdu_of_mem h x hx).name
  tables := fun x hx => (filledHdu_of_mem h x hx).rows
  vis := fun x hx ht _ => (filledHdu_of_mem h x hx).vis ht
  flux := fun x hx => (filledHdu_of_mem h x hx).flux

end Verif
