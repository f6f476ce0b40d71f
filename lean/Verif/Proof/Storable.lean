import Verif.Proof.FilterAgain
import Verif.Spec.EndToEnd

/-! Filtered and merged datasets can be written to a file if their inputs can. -/

namespace Verif
open Outcome Spec Classical

variable {R : FP} {f : FilterSpec R} {oi out : OiFits R}

/-! ### Filtering -/

theorem keptChans_length (w : OiWavelength R) : (keptChans f w).length ≤ w.nwave := by
  have := List.length_filter_le (fun j => decide (WaveOk f w j)) (List.range w.nwave)
  rwa [List.length_range] at this

theorem targetIdOut_int16 {id : Int} (h : Int16 id) : Int16 (targetIdOut f id) := by
  unfold targetIdOut
  split
  · exact by decide
  · exact h

theorem filter_storable (hf : Filterable f oi) (hun : ∀ t ∈ oi.inspolList, InspolUniform f oi t)
    (ho : Filtered f oi out) (hi : InspolFiltered f oi out) (hs : oi.Storable) (ht : TargetThere f oi) :
    out.Storable where
  targets := by
    rw [ho.targets, targetsOut]
    by_cases hc : f.target_id < 0
    · rw [if_pos hc]; exact hs.targets
    · rw [if_neg hc]
      obtain ⟨x, hx, he⟩ := ht.resolve_left hc
      cases hfind : oi.targets.targ.reverse.find? fun x => x.target_id == f.target_id with
      | none =>
        have := List.find?_eq_none.mp hfind x (List.mem_reverse.mpr hx)
        simp [he] at this
      | some y =>
        exact ⟨List.cons_ne_nil _ _, fun z hz => by cases List.mem_singleton.mp hz; exact show Int16 1 by decide⟩
  array := by
    intro t ht
    rw [ho.array] at ht
    exact hs.array t (List.mem_filter.mp ht).1
  wavelength := (out_wf hf hun ho hi).wavelength
  corr := (out_wf hf hun ho hi).corr
  inspol := by
    intro t' ht'
    have hw := (out_wf hf hun ho hi).inspol t' ht'
    obtain ⟨t, ht, hr, _, rfl⟩ := inspol_mem hi ht'
    have hst := hs.inspol t ht
    refine ⟨hw, ?_, ?_, ?_⟩
    · show (match inspolRecs f oi t with
        | [] => t.nwave
        | r :: _ => (instChans f oi r.insname).length) < 10000
      cases hrec : inspolRecs f oi t with
      | nil => exact hst.nwave
      | cons r rs =>
        show (instChans f oi r.insname).length < 10000
        have hr : r ∈ inspolRecs f oi t := by rw [hrec]; exact List.mem_cons_self
        have h1 := (hun t ht r hr).1
        unfold instChans
        cases hw : instTable oi r.insname with
        | none => simp
        | some w =>
          have h2 := h1 w hw
          have h3 := keptChans_length (f := f) w
          have := hst.nwave
          dsimp only
          split
          · omega
          · simp
    · intro r' hr'
      obtain ⟨r, hr, rfl⟩ := List.mem_map.mp hr'
      exact targetIdOut_int16 (hst.target_id r (List.mem_filter.mp hr).1)
    · intro r' hr'
      obtain ⟨r, hr, rfl⟩ := List.mem_map.mp hr'
      exact hst.sta_index r (List.mem_filter.mp hr).1
  vis := by
    intro t' ht'
    have hwf := (out_wf hf hun ho hi).vis t' ht'
    rw [ho.vis] at ht'
    obtain ⟨_, t, ht, w, hw, hr, rfl⟩ := mem_visTables.mp ht'
    have hst := hs.vis t ht
    have h2 := (hf.vis t ht w hw).2
    have h3 := keptChans_length (f := f) w
    refine ⟨hwf, ?_, ?_, ?_⟩
    · have := hst.nwave
      show (keptChans f w).length < 10000
      omega
    · intro r' hr'
      obtain ⟨r, hr, rfl⟩ := List.mem_map.mp hr'
      exact targetIdOut_int16 (hst.target_id r (List.mem_filter.mp hr).1)
    · intro r' hr'
      obtain ⟨r, hr, rfl⟩ := List.mem_map.mp hr'
      exact hst.sta_index r (List.mem_filter.mp hr).1
  vis2 := by
    intro t' ht'
    have hwf := (out_wf hf hun ho hi).vis2 t' ht'
    rw [ho.vis2] at ht'
    obtain ⟨_, t, ht, w, hw, hr, rfl⟩ := mem_vis2Tables.mp ht'
    have hst := hs.vis2 t ht
    have h2 := (hf.vis2 t ht w hw).2
    have h3 := keptChans_length (f := f) w
    refine ⟨hwf, ?_, ?_, ?_⟩
    · have := hst.nwave
      show (keptChans f w).length < 10000
      omega
    · intro r' hr'
      obtain ⟨r, hr, rfl⟩ := List.mem_map.mp hr'
      exact targetIdOut_int16 (hst.target_id r (List.mem_filter.mp hr).1)
    · intro r' hr'
      obtain ⟨r, hr, rfl⟩ := List.mem_map.mp hr'
      exact hst.sta_index r (List.mem_filter.mp hr).1
  t3 := by
    intro t' ht'
    have hwf := (out_wf hf hun ho hi).t3 t' ht'
    rw [ho.t3] at ht'
    obtain ⟨_, t, ht, w, hw, hr, rfl⟩ := mem_t3Tables.mp ht'
    have hst := hs.t3 t ht
    have h2 := (hf.t3 t ht w hw).2
    have h3 := keptChans_length (f := f) w
    refine ⟨hwf, ?_, ?_, ?_⟩
    · have := hst.nwave
      show (keptChans f w).length < 10000
      omega
    · intro r' hr'
      obtain ⟨r, hr, rfl⟩ := List.mem_map.mp hr'
      exact targetIdOut_int16 (hst.target_id r (List.mem_filter.mp hr).1)
    · intro r' hr'
      obtain ⟨r, hr, rfl⟩ := List.mem_map.mp hr'
      exact hst.sta_index r (List.mem_filter.mp hr).1
  flux := by
    intro t' ht'
    have hwf := (out_wf hf hun ho hi).flux t' ht'
    rw [ho.flux] at ht'
    obtain ⟨_, t, ht, w, hw, hr, rfl⟩ := mem_fluxTables.mp ht'
    have hst := hs.flux t ht
    have h2 := hf.flux t ht w hw
    have h3 := keptChans_length (f := f) w
    refine ⟨hwf, ?_, hst.fov, ?_, ?_⟩
    · have := hst.nwave
      show (keptChans f w).length < 10000
      omega
    · intro r' hr'
      obtain ⟨r, hr, rfl⟩ := List.mem_map.mp hr'
      exact targetIdOut_int16 (hst.target_id r (List.mem_filter.mp hr).1)
    · intro ha r' hr'
      obtain ⟨r, hr, rfl⟩ := List.mem_map.mp hr'
      exact hst.sta_index ha r (List.mem_filter.mp hr).1

end Verif
