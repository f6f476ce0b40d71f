import Verif.Props.Merge

/-! The merged dataset is well formed. -/

namespace Verif
open Outcome Spec
variable {R : FP} {ins : List (OiFits R)} {out : OiFits R}

/-- A property of all input tables which merging one of them preserves. -/
theorem all_merged {τ : Type} {tabs : OiFits R → List τ} {P : OiFits R → τ → τ → Prop} (h : Corresponds tabs ins out P)
    {Q : τ → Prop} (hq : ∀ oi ∈ ins, ∀ t ∈ tabs oi, ∀ t', P oi t t' → Q t') : ∀ t ∈ tabs out, Q t := by
  intro t' ht'
  obtain ⟨i, hi, he⟩ := List.mem_iff_getElem.mp ht'
  have hi' : i < (tablesOf tabs ins).length := by rw [h.1]; exact hi
  have hm := mem_tablesOf (List.getElem_mem hi')
  exact hq _ hm.1 _ hm.2 t' (h.2 i _ _ (List.getElem?_eq_getElem hi') (by rw [List.getElem?_eq_getElem hi, he]))

/-- The same for records. -/
theorem all_records {ρ : Type} {l l' : List ρ} {P : ρ → ρ → Prop} (h : Pairwise₂ P l l') {Q : ρ → Prop}
    (hq : ∀ r ∈ l, ∀ r', P r r' → Q r') : ∀ r ∈ l', Q r := by
  intro r' hr'
  obtain ⟨i, hi, he⟩ := List.mem_iff_getElem.mp hr'
  have hi' : i < l.length := by rw [h.1]; exact hi
  exact hq _ (List.getElem_mem hi') r' (h.2 i _ _ (List.getElem?_eq_getElem hi') (by rw [List.getElem?_eq_getElem hi, he]))

theorem records_left {ρ : Type} {l l' : List ρ} {P : ρ → ρ → Prop} (h : Pairwise₂ P l l') (hl : l ≠ []) : l' ≠ [] := by
  intro e
  rw [e] at h
  exact hl (List.eq_nil_of_length_eq_zero h.1)

theorem inspolSame_wf {t t' : OiInspol R} (h : InspolSame t t') (hw : t.WF) : t'.WF := by
  obtain ⟨h1, h2⟩ := h
  refine ⟨records_left h2 hw.rows, ?_, all_records h2 fun r hr r' e => ?_⟩
  · rw [h1]; exact hw.chans
  · rw [h1, e]
    have := hw.recs r hr
    exact ⟨this.jxx, this.jyy, this.jxy, this.jyx⟩

theorem visSame_wf {t t' : OiVis R} (h : VisSameButIviserr t t') (hw : t.WF) : t'.WF := by
  obtain ⟨h1, h2⟩ := h
  refine ⟨records_left h2 hw.rows, ?_, all_records h2 fun r hr r' e => ?_⟩
  · rw [h1]; exact hw.chans
  · rw [h1, e]
    have := hw.recs r hr
    refine ⟨this.visamp, this.visamperr, this.visphi, this.visphierr, this.visrefmap, this.rvis, this.rviserr, this.ivis, ?_,
      this.flag⟩
    by_cases hc : t.usecomplex = true
    · simp only [hc, if_true]
      have := this.rviserr
      rw [hc] at this
      exact this
    · change OptArray t.usecomplex t.nwave (if t.usecomplex = true then r.rviserr else r.iviserr)
      rw [if_neg hc]
      exact this.iviserr

theorem vis2Same_wf {t t' : OiVis2 R} (h : Vis2Same t t') (hw : t.WF) : t'.WF := by
  obtain ⟨h1, h2⟩ := h
  refine ⟨records_left h2 hw.rows, ?_, all_records h2 fun r hr r' e => ?_⟩
  · rw [h1]; exact hw.chans
  · rw [h1, e]
    have := hw.recs r hr
    exact ⟨this.vis2data, this.vis2err, this.flag⟩

theorem t3Same_wf {t t' : OiT3 R} (h : T3Same t t') (hw : t.WF) : t'.WF := by
  obtain ⟨h1, h2⟩ := h
  refine ⟨records_left h2 hw.rows, ?_, all_records h2 fun r hr r' e => ?_⟩
  · rw [h1]; exact hw.chans
  · rw [h1, e]
    have := hw.recs r hr
    exact ⟨this.t3amp, this.t3amperr, this.t3phi, this.t3phierr, this.flag⟩

theorem fluxSame_wf {t t' : OiFlux R} (h : FluxSame t t') (hw : t.WF) : t'.WF := by
  obtain ⟨h1, h2⟩ := h
  refine ⟨records_left h2 hw.rows, ?_, all_records h2 fun r hr r' e => ?_⟩
  · rw [h1]; exact hw.chans
  · rw [h1, e]
    have := hw.recs r hr
    exact ⟨this.fluxdata, this.fluxerr, this.flag⟩

/-- All merged tables of a type come from the inputs' tables. -/
theorem ninv_all {τ : Type} {o : Ops τ} {done : List τ} {st : NS τ} (h : NInv o done st) {Q : τ → Prop}
    (hq : ∀ x ∈ done, ∀ d n, o.dup x = .ok d → Q (o.setName d n)) : ∀ t ∈ st.list, Q t := by
  intro t ht
  obtain ⟨i, hi, he⟩ := List.mem_iff_getElem.mp ht
  obtain ⟨x, hx, d, n, hd, e, -⟩ := h.src i t (by rw [List.getElem?_eq_getElem hi, he])
  rw [e]
  exact hq x hx d n hd

theorem merge_wf (hw : ∀ oi ∈ ins, oi.WF) (h : merge_oi_fits_list ins = .ok out) : out.WF := by
  obtain ⟨mjd, st, sa, si, sc, as, is, cs, hf⟩ := merge_full h
  constructor
  · exact C47_merge_counts h
  · rw [hf.arrays.1]
    refine ninv_all hf.ainv fun x hx d n hd => ?_
    obtain ⟨oi, hoi, hx⟩ := List.mem_flatMap.mp hx
    have hx := (hw oi hoi).array x hx
    change upgrade_oi_array <$> dup_oi_array x = .ok d at hd
    rw [C22_dup_oi_array x hx] at hd
    cases hd
    unfold upgrade_oi_array
    split <;> exact ⟨hx.rows⟩
  · rw [hf.waves.1]
    refine ninv_all hf.iinv fun x hx d n hd => ?_
    obtain ⟨oi, hoi, hx⟩ := List.mem_flatMap.mp hx
    have hx := (hw oi hoi).wavelength x hx
    change upgrade_oi_wavelength <$> dup_oi_wavelength x = .ok d at hd
    rw [C22_dup_oi_wavelength x hx] at hd
    cases hd
    unfold upgrade_oi_wavelength
    split <;> exact ⟨hx.chans, hx.eff_wave, hx.eff_band⟩
  · rw [hf.corrs.1]
    refine ninv_all hf.cinv fun x hx d n hd => ?_
    obtain ⟨oi, hoi, hx⟩ := List.mem_flatMap.mp hx
    have hx := (hw oi hoi).corr x hx
    change dup_oi_corr x = .ok d at hd
    rw [C22_dup_oi_corr x hx] at hd
    cases hd
    exact ⟨hx.rows, hx.iindx, hx.jindx, hx.corr⟩
  · exact all_merged (C40_inspol_preserved hw h) fun oi hoi t ht t' e => inspolSame_wf e ((hw oi hoi).inspol t ht)
  · exact all_merged (C40_vis_preserved_partial hw h) fun oi hoi t ht t' e => visSame_wf e.1 ((hw oi hoi).vis t ht)
  · exact all_merged (C40_vis2_preserved hw h) fun oi hoi t ht t' e => vis2Same_wf e ((hw oi hoi).vis2 t ht)
  · exact all_merged (C40_t3_preserved hw h) fun oi hoi t ht t' e => t3Same_wf e ((hw oi hoi).t3 t ht)
  · exact all_merged (C40_flux_preserved hw h) fun oi hoi t ht t' e => fluxSame_wf e ((hw oi hoi).flux t ht)

end Verif
