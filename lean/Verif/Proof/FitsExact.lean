import Verif.Spec.Exact

/-! Tables which can be stored without loss come back unchanged. -/

namespace Verif
variable {R : FP}
open Spec

theorem rtrim_of_last {s : CStr} (h : s.getLast? ≠ some ' ') : rtrim s = s := by
  unfold rtrim
  cases hs : s.reverse with
  | nil => simpa using hs.symm
  | cons c r =>
    have hl : s.getLast? = some c := by
      rw [← List.head?_reverse, hs]; rfl
    have hc : (c == ' ') = false := by
      rw [beq_eq_false_iff_ne]
      intro h'
      exact h (by rw [hl, h'])
    rw [List.dropWhile_cons, hc]
    simp [← hs]

theorem cardFit_of_sum (n : Nat) (s : CStr) (h : (s.map fun c => if c = '\'' then 2 else 1).sum ≤ n) :
    cardFit n s = s := by
  induction s generalizing n with
  | nil => simp [cardFit]
  | cons c s ih =>
    rw [List.map_cons, List.sum_cons] at h
    rw [cardFit]
    rw [if_pos (by omega), ih _ (by omega)]

theorem Spec.CardText.eq {s : CStr} (h : CardText s) : keyStr s = s := by
  unfold keyStr
  rw [cardFit_of_sum _ _ h.fits, rtrim_of_last h.last]

theorem Spec.ColText.eq {w : Nat} {s : CStr} (h : ColText w s) : colStr w s = s := by
  unfold colStr
  rw [List.take_of_length_le h.fits, rtrim_of_last h.last]

theorem Spec.CardNum.eq {x : R.Dbl} (h : CardNum x) : asKey x = x := by
  unfold asKey
  rw [show R.keyD x = some x from h]; rfl

theorem map_same {α : Type} {l : List α} {f : α → α} (h : ∀ x ∈ l, f x = x) : l.map f = l := by
  rw [List.map_congr_left h, List.map_id']

theorem OiArray.Exact.eq {t : OiArray R} (h : t.Exact) : t.asRead = t := by
  unfold OiArray.asRead
  rw [h.arrname.eq, h.frame.eq, h.arrayx.eq, h.arrayy.eq, h.arrayz.eq, map_same, ← h.revision]
  intro e he
  obtain ⟨h1, h2, h3⟩ := h.elem e he
  rw [h1.eq, h2.eq, h3.eq]

theorem OiTarget.Exact.eq {junk : CStr} {t : OiTarget R} (h : t.Exact junk) : t.asRead junk = t := by
  unfold OiTarget.asRead
  rw [map_same, ← h.revision]
  intro e he
  obtain ⟨h1, h2, h3, h4⟩ := h.targ e he
  have h5 := h.category e he
  rw [h1.eq, h2.eq, h3.eq, h4.eq]
  split
  · rename_i hu
    rw [if_pos hu] at h5
    rw [h5.eq]
  · rename_i hu
    rw [if_neg hu] at h5
    rw [← h5]

theorem OiWavelength.Exact.eq {t : OiWavelength R} (h : t.Exact) : t.asRead = t := by
  unfold OiWavelength.asRead
  rw [h.insname.eq, ← h.revision]

theorem OiCorr.Exact.eq {t : OiCorr R} (h : t.Exact) : t.asRead = t := by
  unfold OiCorr.asRead
  rw [h.corrname.eq, ← h.revision]

theorem OiVis2.Exact.eq {junk : Int} {t : OiVis2 R} (h : t.Exact junk) : t.asRead junk = t := by
  unfold OiVis2.asRead
  rw [h.date_obs.eq, h.arrname.eq, h.insname.eq, h.corrname.eq, map_same, ← h.revision]
  intro r hr
  rw [← h.time r hr]
  split
  · rw [← h.corrindx (by assumption) r hr]
  · rfl

theorem OiT3.Exact.eq {junk : Int} {t : OiT3 R} (h : t.Exact junk) : t.asRead junk = t := by
  unfold OiT3.asRead
  rw [h.date_obs.eq, h.arrname.eq, h.insname.eq, h.corrname.eq, map_same, ← h.revision]
  intro r hr
  rw [← h.time r hr]
  split
  · obtain ⟨h1, h2⟩ := h.corrindx (by assumption) r hr
    cases r; simp_all
  · rfl

theorem OiVis.Exact.eq {junk : Int} {t : OiVis R} (h : t.Exact junk) : t.asRead junk = t := by
  unfold OiVis.asRead
  have e1 : (if t.amporder ≥ 0 then t.amporder else -1) = t.amporder := by
    have := h.amporder; split <;> omega
  have e2 : (if t.phiorder ≥ 0 then t.phiorder else -1) = t.phiorder := by
    have := h.phiorder; split <;> omega
  have e3 : (if t.amptyp = ("correlated flux" : CStr) then keyStr t.ampunit else []) = t.ampunit := by
    have := h.ampunit
    split <;> rename_i hc
    · rw [if_pos hc] at this; exact this.eq
    · rw [if_neg hc] at this; exact this.symm
  have e4 : (if t.usecomplex then keyStr t.complexunit else []) = t.complexunit := by
    have := h.complexunit
    split <;> rename_i hc
    · rw [if_pos hc] at this; exact this.eq
    · rw [if_neg hc] at this; exact this.symm
  rw [e1, e2, e3, e4, h.date_obs.eq, h.arrname.eq, h.insname.eq, h.corrname.eq, h.amptyp.eq, h.phityp.eq,
    map_same, ← h.revision]
  intro r hr
  rw [← h.time r hr]
  have f1 : (if t.corrname = [] then junk else r.corrindx_visamp) = r.corrindx_visamp := by
    split <;> rename_i hc
    · exact (h.corrindx hc r hr).1.symm
    · rfl
  have f2 : (if t.corrname = [] then junk else r.corrindx_visphi) = r.corrindx_visphi := by
    split <;> rename_i hc
    · exact (h.corrindx hc r hr).2.symm
    · rfl
  have f3 : (if t.usecomplex = true ∧ t.corrname ≠ [] then r.corrindx_rvis else junk) = r.corrindx_rvis := by
    split <;> rename_i hc
    · rfl
    · exact (h.corrindx' hc r hr).1.symm
  have f4 : (if t.usecomplex = true ∧ t.corrname ≠ [] then r.corrindx_ivis else junk) = r.corrindx_ivis := by
    split <;> rename_i hc
    · rfl
    · exact (h.corrindx' hc r hr).2.symm
  rw [f1, f2, f3, f4]

theorem OiFlux.Exact.eq {junk : Int} {t : OiFlux R} (h : t.Exact junk) : t.asRead junk = t := by
  unfold OiFlux.asRead
  have e1 : (if t.fovtype = [] then R.nan else asKey t.fov) = t.fov := by
    have := h.fov
    split <;> rename_i hc
    · rw [if_pos hc] at this; exact this.symm
    · rw [if_neg hc] at this; exact this.eq
  rw [e1, if_neg h.calstat, h.date_obs.eq, h.arrname.eq, h.insname.eq, h.corrname.eq, h.fovtype.eq, h.fluxunit.eq,
    map_same, ← h.revision]
  intro r hr
  have f1 : (if t.corrname = [] then junk else r.corrindx_fluxdata) = r.corrindx_fluxdata := by
    split <;> rename_i hc
    · exact (h.corrindx hc r hr).symm
    · rfl
  have f2 : (if t.arrname = [] then -1 else r.sta_index) = r.sta_index := by
    split <;> rename_i hc
    · exact (h.sta_index hc r hr).symm
    · rfl
  rw [f1, f2]

theorem OiHeader.Exact.eq {today : CStr} {t : OiHeader} (h : t.Exact today) : t.asRead today = t := by
  unfold OiHeader.asRead
  have k : ∀ s ∈ [t.origin, t.date, t.date_obs, t.telescop, t.instrume, t.observer, t.insmode, t.object,
    t.referenc, t.author, t.prog_id, t.procsoft, t.obstech], keyStr s = s := fun s hs => (h.card s hs).eq
  simp only [List.forall_mem_cons] at k
  obtain ⟨k1, k2, k3, k4, k5, k6, k7, k8, k9, k10, k11, k12, k13, -⟩ := k
  rw [← h.date, k1, k2, k3, k4, k5, k6, k7, k8, k9, k10, k11, k12, k13, ← h.content]

end Verif
