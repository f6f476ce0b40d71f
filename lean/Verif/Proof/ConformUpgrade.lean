import Verif.Proof.ConformMergeFile
import Verif.Proof.SavedConform

/-! A dataset of version 1, with the keywords which oifits-upgrade adds, has what version 2 requires. -/

namespace Verif
open Outcome Spec
variable {R : FP}

theorem take70 {s : CStr} (h : CardText s) : s.take 70 = s := by
  refine List.take_of_length_le ?_
  have h1 := h.fits
  have : s.length ≤ (s.map fun c => if c = '\'' then 2 else 1).sum := by
    clear h1 h
    induction s with
    | nil => exact Nat.le_refl _
    | cons c s ih =>
      simp only [List.map_cons, List.sum_cons, List.length_cons]
      split <;> omega
  omega

theorem strlcpy_ne {s : CStr} (h : s ≠ []) : strlcpy s FLEN_VALUE ≠ [] := by
  cases s with
  | nil => exact absurd rfl h
  | cons c s => unfold strlcpy FLEN_VALUE; simp

/-- The header of a dataset which was read from a file of version 1. -/
theorem v1_header {u : Undef R} {fs : Files R} {name : CStr} {oi : OiFits R} (h : Holds u fs name oi) (hv : ¬ V2 oi) :
    headerTelescop oi = .ok oi.header.telescop ∧ headerInstrume oi = .ok oi.header.instrume ∧
      oi.header.object = headerObject oi ∧
      oi.header.date_obs = snprintf FLEN_VALUE (fmtDate (mjd2date (R.floor (get_min_mjd oi)))) := by
  obtain ⟨hdus, -, hr⟩ := h
  have h0 : hdus ≠ [] := by
    rintro rfl
    obtain ⟨st, e⟩ := read_empty u
    rw [e] at hr
    cases hr
  obtain ⟨-, hd, -, -, -, h1⟩ := C66_header h0 hr
  by_cases hc : hd.content = ("OIFITS2" : CStr)
  · rw [if_pos hc] at h1
    exact absurd (by unfold V2; rw [h1]; exact hc) hv
  · rw [if_neg hc] at h1
    unfold set_oi_header at h1
    have e1 : headerTelescop { oi with header := hd } = headerTelescop oi := rfl
    have e2 : headerInstrume { oi with header := hd } = headerInstrume oi := rfl
    rw [e1, e2] at h1
    cases h2 : headerTelescop oi with
    | abort => rw [h2] at h1; cases h1
    | ub => rw [h2] at h1; cases h1
    | ok tel =>
      cases h3 : headerInstrume oi with
      | abort => rw [h2, h3] at h1; cases h1
      | ub => rw [h2, h3] at h1; cases h1
      | ok ins =>
        rw [h2, h3] at h1
        have h1 := congrArg OiFits.header (Outcome.ok.inj h1)
        have a1 := congrArg OiHeader.telescop h1
        have a2 := congrArg OiHeader.instrume h1
        have a3 := congrArg OiHeader.object h1
        have a4 := congrArg OiHeader.date_obs h1
        exact ⟨congrArg Outcome.ok a1, congrArg Outcome.ok a2, a3.symm, a4.symm⟩

theorem telescop_ne {oi : OiFits R} {s : CStr} (hn : ∀ t ∈ oi.arrayList, t.arrname ≠ []) (h : headerTelescop oi = .ok s) :
    s ≠ [] := by
  unfold headerTelescop at h
  split at h
  · cases h; exact strlcpy_ne (by decide)
  · split at h
    · cases hl : oi.arrayList with
      | nil => rw [hl] at h; cases h
      | cons a l =>
        rw [hl] at h
        cases h
        exact strlcpy_ne (hn a (by rw [hl]; exact List.mem_cons_self ..))
    · cases h; exact strlcpy_ne (by decide)

theorem instrume_ne {oi : OiFits R} {s : CStr} (hn : ∀ t ∈ oi.wavelengthList, t.insname ≠ []) (h : headerInstrume oi = .ok s) :
    s ≠ [] := by
  unfold headerInstrume at h
  split at h
  · cases hl : oi.wavelengthList with
    | nil => rw [hl] at h; cases h
    | cons a l =>
      rw [hl] at h
      cases h
      exact strlcpy_ne (hn a (by rw [hl]; exact List.mem_cons_self ..))
  · cases h; exact strlcpy_ne (by decide)

theorem object_ne {oi : OiFits R} (hn : ∀ x ∈ oi.targets.targ, x.target ≠ []) : headerObject oi ≠ [] := by
  unfold headerObject
  split
  · next t e => exact strlcpy_ne (hn t (by rw [e]; exact List.mem_cons_self ..))
  · exact strlcpy_ne (by decide)

theorem fmtDate_ne (d : Date) : snprintf FLEN_VALUE (fmtDate d) ≠ [] := by
  unfold snprintf FLEN_VALUE fmtDate
  cases fmtIntW 4 d.year with
  | nil => simp
  | cons c s => simp

theorem upgraded_meets {u : Undef R} {fs : Files R} {name origin observer insmode : CStr} {oi : OiFits R}
    (h : Holds u fs name oi) (hv : ¬ V2 oi) (hu : Upgradable oi)
    (hk : ∀ s ∈ [origin, observer, insmode], CardText s ∧ s ≠ []) :
    MeetsV2 (withKeywords oi origin observer insmode) where
  header := by
    obtain ⟨h1, h2, h3, h4⟩ := v1_header h hv
    simp only [List.mem_cons, List.not_mem_nil, or_false, forall_eq_or_imp, forall_eq] at hk ⊢
    obtain ⟨k1, k2, k3⟩ := hk
    refine ⟨?_, ?_, telescop_ne hu.named.1 h1, instrume_ne hu.named.2.1 h2, ?_, ?_, ?_⟩
    · show origin.take 70 ≠ []
      rw [take70 k1.1]; exact k1.2
    · show oi.header.date_obs ≠ []
      rw [h4]; exact fmtDate_ne _
    · show observer.take 70 ≠ []
      rw [take70 k2.1]; exact k2.2
    · show insmode.take 70 ≠ []
      rw [take70 k3.1]; exact k3.2
    · show oi.header.object ≠ []
      rw [h3]; exact object_ne hu.named.2.2
  arrays := hu.arrays
  vis := hu.vis
  vis2 := hu.vis2
  t3 := hu.t3

theorem upgraded_conforms {oi : OiFits R} (origin observer insmode : CStr) (hv : ¬ V2 oi) (hc : Conforms oi) :
    Conforms (withKeywords oi origin observer insmode) :=
  { hc with header := fun h => absurd h hv }

theorem upgraded_texts {oi : OiFits R} {origin observer insmode : CStr} (ht : TextsFit oi)
    (hk : ∀ s ∈ [origin, observer, insmode], CardText s ∧ s ≠ []) :
    TextsFit (withKeywords oi origin observer insmode) :=
  { ht with
    header := by
      have hh := ht.header
      simp only [List.mem_cons, List.not_mem_nil, or_false, forall_eq_or_imp, forall_eq] at hk hh ⊢
      obtain ⟨k1, k2, k3⟩ := hk
      obtain ⟨a1, a2, a3, a4, a5, a6, a7⟩ := hh
      refine ⟨?_, a2, a3, a4, ?_, ?_, a7⟩
      · show CardText (origin.take 70)
        rw [take70 k1.1]; exact k1.1
      · show CardText (observer.take 70)
        rw [take70 k2.1]; exact k2.1
      · show CardText (insmode.take 70)
        rw [take70 k3.1]; exact k3.1 }

end Verif
