import Verif.Proof.UnsetMerge
import Verif.Model.Write

/-! Writing does not look at the members which are not set. -/

namespace Verif
open Spec Outcome

variable {R : FP} {α β : Type}

theorem forEach_map (g : α → β) (l : List α) (body : Nat → β → FitsM R Unit) :
    ∀ n, forEach n (l.map g) body = forEach n l fun i x => body i (g x) := by
  induction l with
  | nil => intro n; rfl
  | cons a l ih =>
    intro n
    rw [List.map_cons]
    unfold forEach
    rw [ih]

theorem write_target_blank (t : OiTarget R) : write_oi_target t.blank = write_oi_target t := by
  have h1 : forEach 1 t.blank.targ writeTarget = forEach 1 t.targ writeTarget := by
    unfold OiTarget.blank
    rw [forEach_map]
    rfl
  have h2 : writeCategory t.blank = writeCategory t := by
    unfold writeCategory
    rw [show t.blank.usecategory = t.usecategory from rfl]
    by_cases hc : t.usecategory
    · rw [if_pos hc, if_pos hc]
      unfold OiTarget.blank
      simp only [hc, if_true]
      rw [forEach_map]
    · rw [if_neg hc, if_neg hc]
  unfold write_oi_target
  rw [h1, h2]

theorem pos_ne_nil {c : CStr} (h : c.length > 0) : c ≠ [] := List.ne_nil_of_length_pos h

theorem write_vis_blank (t : OiVis R) : write_oi_vis t.blank = write_oi_vis t := by
  funext extver
  have hr : t.blank.record = t.record.map (visBlank t.usecomplex t.corrname) := rfl
  have h1 : forEach 1 t.blank.record (writeVisRecord t.blank.nwave) = forEach 1 t.record (writeVisRecord t.nwave) := by
    rw [hr, forEach_map]
    rfl
  have h2 : writeVisCorr t.blank = writeVisCorr t := by
    unfold writeVisCorr
    rw [show t.blank.corrname = t.corrname from rfl]
    by_cases hc : t.corrname.length > 0
    · rw [if_pos hc, if_pos hc, hr, forEach_map]
      simp only [visBlank, pos_ne_nil hc, if_false]
    · rw [if_neg hc, if_neg hc]
  have h3 : writeVisRefmap t.blank = writeVisRefmap t := by
    unfold writeVisRefmap
    rw [hr, forEach_map]
    rfl
  have h4 : writeVisComplex t.blank = writeVisComplex t := by
    unfold writeVisComplex
    rw [show t.blank.usecomplex = t.usecomplex from rfl]
    by_cases hu : t.usecomplex
    · have h5 : writeVisComplexCorr t.blank = writeVisComplexCorr t := by
        unfold writeVisComplexCorr
        rw [show t.blank.corrname = t.corrname from rfl]
        by_cases hc : t.corrname.length > 0
        · rw [if_pos hc, if_pos hc, hr, forEach_map]
          simp only [visBlank, pos_ne_nil hc, hu, ne_eq, not_false_eq_true, and_self, if_true]
        · rw [if_neg hc, if_neg hc]
      have h6 : t.blank.complexunit = t.complexunit := if_pos hu
      rw [if_pos hu, if_pos hu, h5, h6, hr, forEach_map]
      rfl
    · rw [if_neg hu, if_neg hu]
  unfold write_oi_vis write_oi_vis_opt
  rw [h1, h2, h3, h4]
  rfl

theorem write_vis2_blank (t : OiVis2 R) : write_oi_vis2 t.blank = write_oi_vis2 t := by
  funext extver
  have hr : t.blank.record = t.record.map (vis2Blank t.corrname) := rfl
  have h1 : forEach 1 t.blank.record (writeVis2Record t.blank.nwave) = forEach 1 t.record (writeVis2Record t.nwave) := by
    rw [hr, forEach_map]
    rfl
  have h2 : writeVis2Corr t.blank = writeVis2Corr t := by
    unfold writeVis2Corr
    rw [show t.blank.corrname = t.corrname from rfl]
    by_cases hc : t.corrname.length > 0
    · rw [if_pos hc, if_pos hc, hr, forEach_map]
      simp only [vis2Blank, pos_ne_nil hc, if_false]
    · rw [if_neg hc, if_neg hc]
  unfold write_oi_vis2
  rw [h1, h2]
  rfl

theorem write_t3_blank (t : OiT3 R) : write_oi_t3 t.blank = write_oi_t3 t := by
  funext extver
  have hr : t.blank.record = t.record.map (t3Blank t.corrname) := rfl
  have h1 : forEach 1 t.blank.record (writeT3Record t.blank.nwave) = forEach 1 t.record (writeT3Record t.nwave) := by
    rw [hr, forEach_map]
    rfl
  have h2 : writeT3Corr t.blank = writeT3Corr t := by
    unfold writeT3Corr
    rw [show t.blank.corrname = t.corrname from rfl]
    by_cases hc : t.corrname.length > 0
    · rw [if_pos hc, if_pos hc, hr, forEach_map]
      simp only [t3Blank, pos_ne_nil hc, if_false]
    · rw [if_neg hc, if_neg hc]
  unfold write_oi_t3
  rw [h1, h2]
  rfl

theorem write_flux_blank (t : OiFlux R) : write_oi_flux t.blank = write_oi_flux t := by
  funext extver
  have hr : t.blank.record = t.record.map (fluxBlank t.corrname) := rfl
  have h1 : forEach 1 t.blank.record (writeFluxRecord t.blank.nwave) = forEach 1 t.record (writeFluxRecord t.nwave) := by
    rw [hr, forEach_map]
    rfl
  have h2 : writeFluxCorr t.blank = writeFluxCorr t := by
    unfold writeFluxCorr
    rw [show t.blank.corrname = t.corrname from rfl]
    by_cases hc : t.corrname.length > 0
    · rw [if_pos hc, if_pos hc, hr, forEach_map]
      simp only [fluxBlank, pos_ne_nil hc, if_false]
    · rw [if_neg hc, if_neg hc]
  have h3 : writeFluxSta t.blank = writeFluxSta t := by
    unfold writeFluxSta
    rw [hr, forEach_map]
    rfl
  unfold write_oi_flux
  rw [h1, h2, h3]
  rfl

theorem writeList_map {α : Type} {g : α → α} {write : α → Int → FitsM R Unit} (h : ∀ t, write (g t) = write t) (l : List α) :
    writeList (l.map g) write = writeList l write := by
  unfold writeList
  rw [forEach_map]
  simp only [h]

/-- Writing does not look at what is not set. -/
theorem write_blank (today : CStr) (there : Bool) (oi : OiFits R) (st : Status) :
    write_oi_fits today there oi.blank st = write_oi_fits today there oi st := by
  have hb : writeBody today oi.blank = writeBody today oi := by
    unfold writeBody
    rw [show oi.blank.visList = oi.visList.map OiVis.blank from rfl, show oi.blank.vis2List = oi.vis2List.map OiVis2.blank from rfl,
      show oi.blank.t3List = oi.t3List.map OiT3.blank from rfl, show oi.blank.fluxList = oi.fluxList.map OiFlux.blank from rfl,
      show oi.blank.targets = oi.targets.blank from rfl,
      writeList_map write_vis_blank, writeList_map write_vis2_blank, writeList_map write_t3_blank, writeList_map write_flux_blank,
      write_target_blank]
    rfl
  unfold write_oi_fits
  rw [hb]

theorem write_alike {a b : OiFits R} (h : a.blank = b.blank) (today : CStr) (there : Bool) (st : Status) :
    write_oi_fits today there a st = write_oi_fits today there b st := by
  rw [← write_blank, h, write_blank]

end Verif
