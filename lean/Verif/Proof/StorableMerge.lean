import Verif.Proof.MergeWF
import Verif.Proof.Storable

/-! Merged datasets can be written to a file if their inputs can. -/

namespace Verif
open Outcome Spec

variable {R : FP} {ins : List (OiFits R)} {out : OiFits R}

theorem allTargets_ne_nil (hne : ins ≠ []) (hs : ∀ oi ∈ ins, oi.Storable) : allTargets ins ≠ [] := by
  cases ins with
  | nil => exact absurd rfl hne
  | cons oi l =>
    intro e
    have := List.append_eq_nil_iff.mp (show oi.targets.targ ++ allTargets l = [] from e)
    exact (hs oi List.mem_cons_self).targets.rows this.1

theorem merge_targets_storable (hne : ins ≠ []) (hs : ∀ oi ∈ ins, oi.Storable)
    (hn : (distinct ((allTargets ins).map (·.target))).length < 100)
    (h : merge_oi_fits_list ins = .ok out) : out.targets.Storable := by
  obtain ⟨h1, h2, -⟩ := C38_merged_targets h
  have hlen : out.targets.targ.length < 100 := by
    have := congrArg List.length h1
    rw [List.length_map] at this
    omega
  constructor
  · intro e
    rw [e] at h1
    cases hl : allTargets ins with
    | nil => exact allTargets_ne_nil hne hs hl
    | cons t l =>
      have : t.target ∈ distinct ((allTargets ins).map (·.target)) :=
        mem_distinct.mpr (List.mem_map_of_mem (by rw [hl]; exact List.mem_cons_self))
      rw [← h1] at this
      cases this
  · intro x hx
    obtain ⟨i, hi, he⟩ := List.mem_iff_getElem.mp hx
    have := h2 i x (by rw [List.getElem?_eq_getElem hi, he])
    unfold Spec.Int16
    omega

theorem sameTargets_int16 (ht : out.targets.Storable) {ρ : Type} {id : ρ → Int} {inp : OiFits R} {l l' : List ρ}
    (h : SameTargets id inp out l l') : ∀ r ∈ l', Int16 (id r) :=
  all_records h fun r _ r' ⟨_, _, t, hf, _⟩ => by
    obtain ⟨a, b, e, he, _⟩ := hf
    have : t ∈ out.targets.targ := by rw [e]; simp
    rw [← he]
    exact ht.target_id t this

theorem merge_storable (hne : ins ≠ []) (hw : ∀ oi ∈ ins, oi.WF) (hs : ∀ oi ∈ ins, oi.Storable)
    (hn : (distinct ((allTargets ins).map (·.target))).length < 100)
    (h : merge_oi_fits_list ins = .ok out) : out.Storable := by
  have wf := merge_wf hw h
  have ht := merge_targets_storable hne hs hn h
  obtain ⟨s1, s2, s3, s4, s5⟩ := C39_same_targets hw h
  obtain ⟨mjd, st, sa, si, sc, as, is, cs, hf⟩ := merge_full h
  constructor
  · exact ht
  · rw [hf.arrays.1]
    refine ninv_all hf.ainv fun x hx d n hd => ?_
    obtain ⟨oi, hoi, hx⟩ := List.mem_flatMap.mp hx
    have hx := (hs oi hoi).array x hx
    change upgrade_oi_array <$> dup_oi_array x = .ok d at hd
    rw [C22_dup_oi_array x hx.wf] at hd
    cases hd
    unfold upgrade_oi_array
    split <;> exact ⟨⟨hx.wf.rows⟩, hx.arrayx, hx.arrayy, hx.arrayz, hx.sta_index⟩
  · exact wf.wavelength
  · exact wf.corr
  · intro t' ht'
    refine ⟨wf.inspol t' ht', ?_, ?_, ?_⟩
    · exact all_merged (C40_inspol_preserved hw h) (Q := fun t => t.nwave < 10000)
        (fun oi hoi t ht t' e => by rw [e.1]; exact ((hs oi hoi).inspol t ht).nwave) t' ht'
    · exact all_merged s1 (Q := fun t => ∀ r ∈ t.record, Int16 r.target_id)
        (fun oi hoi t _ t' e => sameTargets_int16 ht e) t' ht'
    · exact all_merged (C40_inspol_preserved hw h) (Q := fun t => ∀ r ∈ t.record, Int16 r.sta_index)
        (fun oi hoi t ht t' e => all_records e.2 fun r hr r' er => by
          rw [er]; exact ((hs oi hoi).inspol t ht).sta_index r hr) t' ht'
  · intro t' ht'
    refine ⟨wf.vis t' ht', ?_, ?_, ?_⟩
    · exact all_merged (C40_vis_preserved_partial hw h) (Q := fun t => t.nwave < 10000)
        (fun oi hoi t ht t' e => by rw [e.1.1]; exact ((hs oi hoi).vis t ht).nwave) t' ht'
    · exact all_merged s2 (Q := fun t => ∀ r ∈ t.record, Int16 r.target_id)
        (fun oi hoi t _ t' e => sameTargets_int16 ht e) t' ht'
    · exact all_merged (C40_vis_preserved_partial hw h)
        (Q := fun t => ∀ r ∈ t.record, Int16 r.sta_index.1 ∧ Int16 r.sta_index.2)
        (fun oi hoi t ht t' e => all_records e.1.2 fun r hr r' er => by
          rw [er]; exact ((hs oi hoi).vis t ht).sta_index r hr) t' ht'
  · intro t' ht'
    refine ⟨wf.vis2 t' ht', ?_, ?_, ?_⟩
    · exact all_merged (C40_vis2_preserved hw h) (Q := fun t => t.nwave < 10000)
        (fun oi hoi t ht t' e => by rw [e.1]; exact ((hs oi hoi).vis2 t ht).nwave) t' ht'
    · exact all_merged s3 (Q := fun t => ∀ r ∈ t.record, Int16 r.target_id)
        (fun oi hoi t _ t' e => sameTargets_int16 ht e) t' ht'
    · exact all_merged (C40_vis2_preserved hw h)
        (Q := fun t => ∀ r ∈ t.record, Int16 r.sta_index.1 ∧ Int16 r.sta_index.2)
        (fun oi hoi t ht t' e => all_records e.2 fun r hr r' er => by
          rw [er]; exact ((hs oi hoi).vis2 t ht).sta_index r hr) t' ht'
  · intro t' ht'
    refine ⟨wf.t3 t' ht', ?_, ?_, ?_⟩
    · exact all_merged (C40_t3_preserved hw h) (Q := fun t => t.nwave < 10000)
        (fun oi hoi t ht t' e => by rw [e.1]; exact ((hs oi hoi).t3 t ht).nwave) t' ht'
    · exact all_merged s4 (Q := fun t => ∀ r ∈ t.record, Int16 r.target_id)
        (fun oi hoi t _ t' e => sameTargets_int16 ht e) t' ht'
    · exact all_merged (C40_t3_preserved hw h)
        (Q := fun t => ∀ r ∈ t.record, Int16 r.sta_index.1 ∧ Int16 r.sta_index.2.1 ∧ Int16 r.sta_index.2.2)
        (fun oi hoi t ht t' e => all_records e.2 fun r hr r' er => by
          rw [er]; exact ((hs oi hoi).t3 t ht).sta_index r hr) t' ht'
  · intro t' ht'
    obtain ⟨d1, d2, d3, d4, d5⟩ := hf.data _ _ _ hf.ah hf.ih hf.ch
    have hflux : Corresponds OiFits.fluxList ins out fun _ t t' =>
        FluxSame t t' ∧ (t.arrname = [] → t'.arrname = []) := by
      refine corresponds_of d5 ?_
      rintro inp hi t ht t' ⟨a, i, c, -, -, -, he⟩
      have := mergedFlux_spec ((hw inp hi).flux t ht) he
      refine ⟨this.1, fun e => ?_⟩
      rw [this.2.2.1, e]
      rfl
    refine ⟨wf.flux t' ht', ?_, ?_, ?_, ?_⟩
    · exact all_merged hflux (Q := fun t => t.nwave < 10000)
        (fun oi hoi t ht t' e => by rw [e.1.1]; exact ((hs oi hoi).flux t ht).nwave) t' ht'
    · exact all_merged hflux (Q := fun t => t.fovtype ≠ [] → (R.keyD t.fov).isSome)
        (fun oi hoi t ht t' e => by rw [e.1.1]; exact ((hs oi hoi).flux t ht).fov) t' ht'
    · exact all_merged s5 (Q := fun t => ∀ r ∈ t.record, Int16 r.target_id)
        (fun oi hoi t _ t' e => sameTargets_int16 ht e) t' ht'
    · exact all_merged hflux (Q := fun t => t.arrname ≠ [] → ∀ r ∈ t.record, Int16 r.sta_index)
        (fun oi hoi t ht t' e hne => all_records e.1.2 fun r hr r' er => by
          rw [er]; exact ((hs oi hoi).flux t ht).sta_index (fun e' => hne (e.2 e')) r hr) t' ht'

end Verif
