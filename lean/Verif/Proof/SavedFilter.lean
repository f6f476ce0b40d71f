import Verif.Proof.FilterMerge
import Verif.Proof.SavedIter

/-! Iterating over what oifits-filter has saved: lemmas. -/

namespace Verif
open Outcome Spec Classical

variable {R : FP} {f : FilterSpec R} {oi out x : OiFits R}

/-- A filtered dataset is what filtering leaves of it. -/
theorem filtered_itself (hf : Filterable f oi) (ht : f.target_id < 0) (ho : Filtered f oi out) : Filtered f out out := by
  obtain ⟨d1, d2, d3, d4⟩ := data_again hf ht ho
  refine ⟨rfl, ?_, d1.symm, d2.symm, d3.symm, d4.symm, ?_, ?_, ?_, ho.inspol, ho.counts, ho.arrayLookup, ho.waveLookup,
    ho.corrLookup⟩
  · rw [targetsOut, if_pos ht]
  · symm
    apply filter_self
    intro t htm
    rw [ho.array] at htm
    have := (List.mem_filter.mp htm).2
    simpa using this
  · symm
    apply filter_self
    intro t htm
    rw [ho.corr] at htm
    have := (List.mem_filter.mp htm).2
    simpa using this
  · symm
    apply recs_full
    · intro w' hw'
      rw [ho.wavelength] at hw'
      obtain ⟨w, hw, hr, rfl⟩ := mem_kept.mp hw'
      have hp : 0 < (waveOut f w).nwave :=
        List.length_pos_iff.mpr (keptChans_ne_nil.mpr hr.1.chan)
      exact ⟨⟨hr.1.name, 0, hp, waveOut_chans (hf.wf.wavelength w hw) 0 hp⟩, hr.2⟩
    · intro w' hw'
      rw [ho.wavelength] at hw'
      obtain ⟨w, hw, hr, rfl⟩ := mem_kept.mp hw'
      exact waveOut_full (waveOut_wf (hf.wf.wavelength w hw) (keptChans_ne_nil.mpr hr.1.chan))
        (keptChans_waveOut (hf.wf.wavelength w hw))

theorem instTable_name {n : CStr} {w : OiWavelength R} (h : instTable oi n = some w) : w.insname = n := by
  simpa using List.find?_some h

/-- The instruments of a filtered dataset are there. -/
theorem out_instruments (hf : Filterable f oi) (ho : Filtered f oi out) : AllInstruments out := by
  refine ⟨fun t' ht' => ?_, fun t' ht' => ?_, fun t' ht' => ?_, fun t' ht' => ?_⟩
  · rw [ho.vis] at ht'
    obtain ⟨ha, t, htm, w, hw, hr, rfl⟩ := mem_visTables.mp ht'
    obtain ⟨h1, h2, -⟩ := vis_inst hf ho htm hw hr ha
    exact ⟨_, h1, instTable_name h2⟩
  · rw [ho.vis2] at ht'
    obtain ⟨ha, t, htm, w, hw, hr, rfl⟩ := mem_vis2Tables.mp ht'
    obtain ⟨h1, h2, -⟩ := vis2_inst hf ho htm hw hr ha
    exact ⟨_, h1, instTable_name h2⟩
  · rw [ho.t3] at ht'
    obtain ⟨ha, t, htm, w, hw, hr, rfl⟩ := mem_t3Tables.mp ht'
    obtain ⟨h1, h2, -⟩ := t3_inst hf ho htm hw hr ha
    exact ⟨_, h1, instTable_name h2⟩
  · rw [ho.flux] at ht'
    obtain ⟨ha, t, htm, w, hw, hr, rfl⟩ := mem_fluxTables.mp ht'
    obtain ⟨h1, h2, -⟩ := flux_inst hf ho htm hw hr ha
    exact ⟨_, h1, instTable_name h2⟩

/-- Names in a filtered dataset are those in the dataset. -/
theorem out_held (ho : Filtered f oi out) (hn : NamesHeld oi) : NamesHeld out := by
  refine ⟨fun t ht => ?_, fun t ht => ?_, fun t ht => ?_, fun t' ht' => ?_, fun t' ht' => ?_, fun t' ht' => ?_, fun t' ht' => ?_⟩
  · rw [ho.array] at ht
    exact hn.array t (List.mem_filter.mp ht).1
  · rw [ho.wavelength] at ht
    obtain ⟨w, hw, -, rfl⟩ := mem_kept.mp ht
    exact hn.wavelength w hw
  · rw [ho.corr] at ht
    exact hn.corr t (List.mem_filter.mp ht).1
  · rw [ho.vis] at ht'
    obtain ⟨ha, t, htm, w, hw, hr, rfl⟩ := mem_visTables.mp ht'
    exact hn.vis t htm
  · rw [ho.vis2] at ht'
    obtain ⟨ha, t, htm, w, hw, hr, rfl⟩ := mem_vis2Tables.mp ht'
    exact hn.vis2 t htm
  · rw [ho.t3] at ht'
    obtain ⟨ha, t, htm, w, hw, hr, rfl⟩ := mem_t3Tables.mp ht'
    exact hn.t3 t htm
  · rw [ho.flux] at ht'
    obtain ⟨ha, t, htm, w, hw, hr, rfl⟩ := mem_fluxTables.mp ht'
    exact hn.flux t htm

theorem out_references (hf : Filterable f oi) (hf' : Filterable f out) (ht : f.target_id < 0) (ho : Filtered f oi out)
    (hn : NamesHeld oi) (hc : ∀ t ∈ oi.targets.targ, ColText 32 t.target) : References out where
  names := out_held ho hn
  targets := by
    rw [ho.targets, targetsOut, if_pos ht]
    exact hc
  there := instruments_there hf' (out_instruments hf ho)
  unique := hf'.unique

theorem accepted_trans (h : SameAccepted f oi out) (h' : SameData f f out x)
    (hvu : ∀ {l l'}, Iterates visKind out f l → Iterates visKind out f l' → l = l')
    (hv2u : ∀ {l l'}, Iterates vis2Kind out f l → Iterates vis2Kind out f l' → l = l')
    (ht3u : ∀ {l l'}, Iterates t3Kind out f l → Iterates t3Kind out f l' → l = l') : SameAccepted f oi x where
  vis := by
    obtain ⟨l, l', h1, h2, h3⟩ := h.vis
    obtain ⟨k, k', g1, g2, g3⟩ := h'.vis
    rw [hvu g1 h2] at g3
    refine ⟨l, k', h1, g2, h3.trans ?_⟩
    have e := congrArg (List.map fun y => (y.1, y.2.1, y.2.2.1, y.2.2.2.1, y.2.2.2.2.1, y.2.2.2.2.2.1, y.2.2.2.2.2.2.1,
      y.2.2.2.2.2.2.2.1, y.2.2.2.2.2.2.2.2.1, y.2.2.2.2.2.2.2.2.2.1, y.2.2.2.2.2.2.2.2.2.2.1)) g3
    rw [List.map_map, List.map_map] at e
    exact e
  vis2 := by
    obtain ⟨l, l', h1, h2, h3⟩ := h.vis2
    obtain ⟨k, k', g1, g2, g3⟩ := h'.vis2
    rw [hv2u g1 h2] at g3
    refine ⟨l, k', h1, g2, h3.trans ?_⟩
    have e := congrArg (List.map fun y => (y.1, y.2.1, y.2.2.1, y.2.2.2.1, y.2.2.2.2.1, y.2.2.2.2.2.1, y.2.2.2.2.2.2.1,
      y.2.2.2.2.2.2.2.1, y.2.2.2.2.2.2.2.2.1)) g3
    rw [List.map_map, List.map_map] at e
    exact e
  t3 := by
    obtain ⟨l, l', h1, h2, h3⟩ := h.t3
    obtain ⟨k, k', g1, g2, g3⟩ := h'.t3
    rw [ht3u g1 h2] at g3
    refine ⟨l, k', h1, g2, h3.trans ?_⟩
    have e := congrArg (List.map fun y => (y.1, y.2.1, y.2.2.1, y.2.2.2.1, y.2.2.2.2.1, y.2.2.2.2.2.1, y.2.2.2.2.2.2.1,
      y.2.2.2.2.2.2.2.1, y.2.2.2.2.2.2.2.2.1, (if f.accept_t3amp then y.2.2.2.2.2.2.2.2.2.1 else none),
      y.2.2.2.2.2.2.2.2.2.2.1, (if f.accept_t3phi then y.2.2.2.2.2.2.2.2.2.2.2.1 else none),
      y.2.2.2.2.2.2.2.2.2.2.2.2.1)) g3
    rw [List.map_map, List.map_map] at e
    exact e

/-- Iterating without flagged data over what filtering leaves gives what it gives over the whole. -/
theorem filtered_accepted (hf : Filterable f oi) (hf' : Filterable f out) (ht : f.target_id < 0) (ho : Filtered f oi out)
    (hi : AllInstruments oi) : SameAccepted (noFlagged f) oi out := by
  have ho' := filtered_itself hf ht ho
  have hi' := out_instruments hf ho
  have t1 := instruments_there hf hi
  have t2 := instruments_there hf' hi'
  exact ⟨⟨_, _, iterates_vis hf.wf (fun t ht => there_found (t1.vis t ht)) _,
      iterates_vis hf'.wf (fun t ht => there_found (t2.vis t ht)) _,
      (vis_unflagged hf ho ht hi).symm.trans (vis_unflagged hf' ho' ht hi')⟩,
    ⟨_, _, iterates_vis2 hf.wf (fun t ht => there_found (t1.vis2 t ht)) _,
      iterates_vis2 hf'.wf (fun t ht => there_found (t2.vis2 t ht)) _,
      (vis2_unflagged hf ho ht hi).symm.trans (vis2_unflagged hf' ho' ht hi')⟩,
    ⟨_, _, iterates_t3 hf.wf (fun t ht => there_found (t1.t3 t ht)) _,
      iterates_t3 hf'.wf (fun t ht => there_found (t2.t3 t ht)) _,
      (t3_unflagged hf ho ht hi).symm.trans (t3_unflagged hf' ho' ht hi')⟩⟩

end Verif
