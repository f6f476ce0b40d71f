import Verif.Proof.FitsWrite

/-! The HDUs of a file written by `write_oi_fits`. -/

namespace Verif
open Outcome

variable {R : FP} {α : Type}

theorem write_oi_header_eq (today : CStr) (header : OiHeader) (cur : Nat) :
    write_oi_header today header (⟨[], cur, .ok⟩ : FState R)
      = .ok ((), endState [] (Spec.hduPrimary today header)) := by
  rw [write_oi_header, guardStatus_ok rfl]
  rw [FitsM.bind_ok (show fits_get_num_hdus (⟨[], cur, .ok⟩ : FState R) = .ok (0, ⟨[], cur, .ok⟩) from rfl)]
  rw [FitsM.bind_ok (show primaryHdu 0 (⟨[], cur, .ok⟩ : FState R) = .ok ((), endState [] ⟨.image, [], [], 0⟩) from rfl)]
  rw [fits_write_date]
  rw [FitsM.bind_ok (write_key_str _ _ _ _), FitsM.bind_ok (write_key_str _ _ _ _),
    FitsM.bind_ok (write_key_str _ _ _ _), FitsM.bind_ok (write_key_str _ _ _ _),
    FitsM.bind_ok (write_key_str _ _ _ _), FitsM.bind_ok (write_key_str _ _ _ _),
    FitsM.bind_ok (write_key_str _ _ _ _), FitsM.bind_ok (write_key_str _ _ _ _),
    FitsM.bind_ok (write_key_str _ _ _ _),
    FitsM.bind_ok (writeOptKey_end _ _ _ _), FitsM.bind_ok (writeOptKey_end _ _ _ _),
    FitsM.bind_ok (writeOptKey_end _ _ _ _), FitsM.bind_ok (writeOptKey_end _ _ _ _), writeOptKey_end]
  have hk : keyStr ("OIFITS2" : CStr) = "OIFITS2" := rfl
  simp only [Spec.hduPrimary, hk, List.cons_append, List.nil_append, List.append_assoc]

theorem endState_hdus (pre : List (Hdu R)) (h : Hdu R) : (endState pre h).hdus = pre ++ [h] := rfl

/-- A state in which the file has the HDUs `l`, the last of which is the current one. -/
def fileState (l : List (Hdu R)) : FState R := ⟨l, l.length - 1, .ok⟩

theorem endState_eq_fileState (pre : List (Hdu R)) (h : Hdu R) : endState pre h = fileState (pre ++ [h]) := by
  simp [endState, fileState]

theorem primed_ne_nil {l : List (Hdu R)} (h : l ≠ []) : primed l = l := by
  cases l with
  | nil => exact absurd rfl h
  | cons => rfl

/-- The tables of one type, numbered from `first`. -/
def numbered {β γ : Type} (f : β → Int → γ) (first : Nat) : List β → List γ
  | [] => []
  | x :: xs => f x first :: numbered f (first + 1) xs

theorem numbered_eq {β γ : Type} (f : β → Int → γ) (first : Nat) (l : List β) :
    numbered f first l = l.mapIdx fun k t => f t ((first + k : Nat) : Int) := by
  induction l generalizing first with
  | nil => rfl
  | cons x xs ih =>
    rw [numbered, ih, List.mapIdx_cons]
    simp only [Nat.add_zero, List.cons.injEq, true_and]
    congr 1
    funext k t
    congr 2
    omega

theorem writeList_eq {write : α → Int → FitsM R Unit} {hdu : α → Int → Hdu R} (l : List α)
    (h : ∀ t ∈ l, ∀ v (s : FState R), s.status = .ok →
      write t v s = .ok ((), endState (primed s.hdus) (hdu t v)))
    (hdus : List (Hdu R)) (hne : hdus ≠ []) :
    writeList l write (fileState hdus) = .ok ((), fileState (hdus ++ numbered hdu 1 l)) := by
  have key : ∀ first, forEach first l (fun extver t => write t extver) (fileState hdus)
      = .ok ((), fileState (hdus ++ numbered hdu first l)) := by
    induction l generalizing hdus with
    | nil => intro first; simp [forEach, numbered]
    | cons x xs ih =>
      intro first
      rw [forEach, FitsM.bind_ok (h x (by simp) first _ rfl), show (fileState hdus).hdus = hdus from rfl,
        primed_ne_nil hne, endState_eq_fileState, ih (fun t ht => h t (by simp [ht])) _ (by simp), numbered]
      simp
  exact key 1

theorem numbered_one {β γ : Type} (f : β → Int → γ) (l : List β) :
    numbered f 1 l = l.mapIdx fun k t => f t (k + 1) := by
  rw [numbered_eq]
  congr 1
  funext k t
  congr 1
  omega

theorem writeBody_eq (today : CStr) (oi : OiFits R) (h : oi.Storable) :
    writeBody today oi ⟨[], 0, .ok⟩ = .ok ((), fileState (Spec.fileOf today oi)) := by
  rw [writeBody, FitsM.bind_ok (write_oi_header_eq _ _ _), endState_eq_fileState,
    FitsM.bind_ok (write_oi_target_eq _ h.targets _ rfl)]
  rw [show (fileState ([] ++ [Spec.hduPrimary today oi.header])).hdus
    = [Spec.hduPrimary (R := R) today oi.header] from rfl, primed_ne_nil (by simp), endState_eq_fileState]
  rw [FitsM.bind_ok (writeList_eq (hdu := Spec.hduArray) _
      (fun t ht v s hs => write_oi_array_eq t (h.array t ht) v s hs) _ (by simp)),
    FitsM.bind_ok (writeList_eq (hdu := Spec.hduWavelength) _
      (fun t ht v s hs => write_oi_wavelength_eq t (h.wavelength t ht) v s hs) _ (by simp)),
    FitsM.bind_ok (writeList_eq (hdu := Spec.hduCorr) _
      (fun t ht v s hs => write_oi_corr_eq t (h.corr t ht) v s hs) _ (by simp)),
    FitsM.bind_ok (writeList_eq (hdu := Spec.hduInspol) _
      (fun t ht v s hs => write_oi_inspol_eq t (h.inspol t ht) v s hs) _ (by simp)),
    FitsM.bind_ok (writeList_eq (hdu := Spec.hduVis) _
      (fun t ht v s hs => write_oi_vis_eq t (h.vis t ht) v s hs) _ (by simp)),
    FitsM.bind_ok (writeList_eq (hdu := Spec.hduVis2) _
      (fun t ht v s hs => write_oi_vis2_eq t (h.vis2 t ht) v s hs) _ (by simp)),
    FitsM.bind_ok (writeList_eq (hdu := Spec.hduT3) _
      (fun t ht v s hs => write_oi_t3_eq t (h.t3 t ht) v s hs) _ (by simp)),
    writeList_eq (hdu := Spec.hduFlux) _
      (fun t ht v s hs => write_oi_flux_eq t (h.flux t ht) v s hs) _ (by simp)]
  simp only [numbered_one, Spec.fileOf, List.append_assoc, List.cons_append, List.nil_append]

theorem write_oi_fits_eq (today : CStr) (oi : OiFits R) (h : oi.Storable) :
    write_oi_fits today false oi .ok = .ok (some (Spec.fileOf today oi), .ok) := by
  simp [write_oi_fits, writeBody_eq today oi h, fileState]

end Verif
