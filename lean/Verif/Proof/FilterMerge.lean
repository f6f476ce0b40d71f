import Verif.Spec.FilterMerge
import Verif.Proof.MergeIter
import Verif.Proof.MergeStepsOut

/-! Filtering merged datasets and merging filtered ones: lemmas. -/

namespace Verif
open Outcome Spec

variable {R : FP} {ins : List (OiFits R)} {out : OiFits R} {f : FilterSpec R}

theorem wavelengthsExact_tables (hw : ∀ oi ∈ ins, oi.WF) (hx : WavelengthsExact ins) : WavesExact ins := by
  intro oi hoi w h oi' hoi' w' h' ⟨hn, hs⟩
  have l := ((hw oi hoi).wavelength w h).eff_wave
  have l' := ((hw oi' hoi').wavelength w' h').eff_wave
  refine List.ext_getElem? fun k => ?_
  by_cases hk : k < w.nwave
  · obtain ⟨x, y, a, b, e1, e2, -, -, e3, -⟩ := hs k hk
    rw [e1, e2, hx x y ⟨oi, hoi, w, h, List.mem_of_getElem? e1⟩ ⟨oi', hoi', w', h', List.mem_of_getElem? e2⟩ e3]
  · rw [List.getElem?_eq_none (by omega), List.getElem?_eq_none (by omega)]

theorem instTable_of {oi : OiFits R} (hu : (oi.wavelengthList.map OiWavelength.insname).Nodup) {n : CStr}
    (h : ∃ w ∈ oi.wavelengthList, w.insname = n) : ∃ w ∈ oi.wavelengthList, w.insname = n ∧ instTable oi n = some w := by
  obtain ⟨w, hw, rfl⟩ := h
  exact ⟨w, hw, rfl, find_unique hu hw⟩

theorem instruments_there {oi : OiFits R} (hf : Filterable f oi) (hi : AllInstruments oi) : InstrumentsThere oi := by
  have key : ∀ {n : CStr} {k : Nat}, (∃ w ∈ oi.wavelengthList, w.insname = n) →
      (∀ w, instTable oi n = some w → oi_fits_lookup_wavelength oi n = some w ∧ w.nwave = k) →
      InstrumentThere oi n k := by
    intro n k h1 h2
    obtain ⟨w, hw, e, ht⟩ := instTable_of hf.unique h1
    obtain ⟨h3, h4⟩ := h2 w ht
    exact ⟨w, hw, e, by rw [(hf.wf.wavelength w hw).eff_wave, h4], h3⟩
  exact ⟨fun t ht => key (hi.vis t ht) (hf.vis t ht), fun t ht => key (hi.vis2 t ht) (hf.vis2 t ht),
    fun t ht => key (hi.t3 t ht) (hf.t3 t ht)⟩

/-- The merged names fit. -/
theorem merged_fit (hn : ∀ oi ∈ ins, NamesFit oi) (h : merge_oi_fits_list ins = .ok out) :
    ∀ w ∈ out.wavelengthList, w.insname.length < FLEN_VALUE := by
  obtain ⟨mjd, st, sa, si, sc, as, is, cs, hf⟩ := merge_full h
  rw [hf.waves.1]
  refine setName_length (waveLaws R) hf.iinv fun x hx => ?_
  obtain ⟨oi, hoi, hx⟩ := List.mem_flatMap.mp hx
  exact (hn oi hoi).wavelength x hx

theorem instTable_merged (hu : (out.wavelengthList.map OiWavelength.insname).Nodup) {oi : OiFits R} {n n' : CStr}
    (hfnd : InsFound oi out n n') (hl : ∀ n w, oi_fits_lookup_wavelength out n = some w → w ∈ out.wavelengthList ∧ w.insname = n)
    {w : OiWavelength R} (hw : w ∈ oi.wavelengthList) (e : w.insname = n) {w' : OiWavelength R}
    (hi : instTable out n' = some w') : oi_fits_lookup_wavelength out n' = some w' ∧ w'.nwave = w.nwave := by
  obtain ⟨w1, h1, h2⟩ := hfnd w hw e
  obtain ⟨h3, rfl⟩ := hl _ _ h1
  have : instTable out w1.insname = some w1 := find_unique hu h3
  rw [this] at hi
  cases hi
  exact ⟨h1, h2.1⟩

/-- A merged dataset can be filtered. -/
theorem merged_filterable (hne : ins ≠ []) (ht : f.target_id < 0) (hg : Together f ins)
    (h : merge_oi_fits_list ins = .ok out) : Filterable f out := by
  have hw : ∀ oi ∈ ins, oi.WF := fun oi hoi => (hg.filterable oi hoi).wf
  obtain ⟨mjd, st, sa, si, sc, as, is, cs, hf⟩ := merge_full h
  have hu := hf.nodup_wave hg.plain
  have hl := (C48_merge_lookups h).wavelength
  obtain ⟨-, k1, k2, k3, k4⟩ := C41_lookup_partial hw hg.unique hg.plain hg.fit h
  refine ⟨merge_wf hw h, .inr ?_, hu, merged_fit hg.fit h, ?_, ?_, ?_, ?_⟩
  · intro e
    have hd := (C38_merged_targets h).1
    rw [e] at hd
    cases ins with
    | nil => exact hne rfl
    | cons oi l =>
      have ht := ((hg.filterable oi (by simp)).targets).resolve_left (by omega)
      cases ho : oi.targets.targ with
      | nil => exact ht ho
      | cons t ts =>
        simp [allTargets, ho, distinct] at hd
  · refine all_merged (corresponds_and (C40_vis_preserved_partial hw h) k1) fun oi hoi t ht t' ⟨h1, h2⟩ w' hi => ?_
    obtain ⟨w, hw1, e, ei⟩ := instTable_of (hg.filterable oi hoi).unique ((hg.instruments oi hoi).vis t ht)
    obtain ⟨a, b⟩ := instTable_merged hu h2 hl hw1 e hi
    refine ⟨a, ?_⟩
    rw [b, ((hg.filterable oi hoi).vis t ht w ei).2, h1.1.1]
  · refine all_merged (corresponds_and (C40_vis2_preserved hw h) k2) fun oi hoi t ht t' ⟨h1, h2⟩ w' hi => ?_
    obtain ⟨w, hw1, e, ei⟩ := instTable_of (hg.filterable oi hoi).unique ((hg.instruments oi hoi).vis2 t ht)
    obtain ⟨a, b⟩ := instTable_merged hu h2 hl hw1 e hi
    refine ⟨a, ?_⟩
    rw [b, ((hg.filterable oi hoi).vis2 t ht w ei).2, h1.1]
  · refine all_merged (corresponds_and (C40_t3_preserved hw h) k3) fun oi hoi t ht t' ⟨h1, h2⟩ w' hi => ?_
    obtain ⟨w, hw1, e, ei⟩ := instTable_of (hg.filterable oi hoi).unique ((hg.instruments oi hoi).t3 t ht)
    obtain ⟨a, b⟩ := instTable_merged hu h2 hl hw1 e hi
    refine ⟨a, ?_⟩
    rw [b, ((hg.filterable oi hoi).t3 t ht w ei).2, h1.1]
  · refine all_merged (corresponds_and (C40_flux_preserved hw h) k4) fun oi hoi t ht t' ⟨h1, h2⟩ w' hi => ?_
    obtain ⟨w, hw1, e, ei⟩ := instTable_of (hg.filterable oi hoi).unique ((hg.instruments oi hoi).flux t ht)
    obtain ⟨a, b⟩ := instTable_merged hu h2 hl hw1 e hi
    rw [b, (hg.filterable oi hoi).flux t ht w ei, h1.1]

/-! ### The data left by filtering -/

theorem targetId_kept (ht : f.target_id < 0) (id : Int) : targetIdOut f id = id := by
  unfold targetIdOut
  rw [if_neg (by omega)]

theorem targetName_kept (ht : f.target_id < 0) {oi : OiFits R} (ho : Filtered f oi out) (id : Int) :
    targetName out id = targetName oi id := by
  unfold targetName
  rw [ho.targets, targetsOut, if_pos ht]

section
variable {oi : OiFits R} (hf : Filterable f oi) (ho : Filtered f oi out) (ht : f.target_id < 0) (hi : AllInstruments oi)
include hf ho ht hi

theorem vis_unflagged : (select VisUnflagged (visData out)).map (visDatum out) =
    (select (VisSelected (noFlagged f) oi) (visData oi)).map (visDatum oi) := by
  have h := vis_iter_unflagged_with hf ho
    (q := fun r => (targetName oi r.target_id, r.int_time))
    (fun w r => by
      change (targetName oi (targetIdOut f r.target_id), r.int_time) = _
      rw [targetId_kept ht]) (fun t hm => by
      obtain ⟨w, -, -, e⟩ := instTable_of hf.unique (hi.vis t hm)
      rw [(hf.vis t hm w e).1, e])
  have h := congrArg (List.map fun x => (x.2.1, x.1.2.2.1, x.2.2, x.1.2.2.2)) h
  rw [List.map_map, List.map_map] at h
  refine Eq.trans (List.map_congr_left fun d _ => ?_) h
  unfold visDatum
  rw [targetName_kept ht ho]
  rfl

theorem vis2_unflagged : (select Vis2Unflagged (vis2Data out)).map (vis2Datum out) =
    (select (Vis2Selected (noFlagged f) oi) (vis2Data oi)).map (vis2Datum oi) := by
  have h := vis2_iter_unflagged_with hf ho
    (q := fun r => (targetName oi r.target_id, r.int_time))
    (fun w r => by
      change (targetName oi (targetIdOut f r.target_id), r.int_time) = _
      rw [targetId_kept ht]) (fun t hm => by
      obtain ⟨w, -, -, e⟩ := instTable_of hf.unique (hi.vis2 t hm)
      rw [(hf.vis2 t hm w e).1, e])
  have h := congrArg (List.map fun x => (x.2.1, x.1.2.2.1, x.2.2, x.1.2.2.2)) h
  rw [List.map_map, List.map_map] at h
  refine Eq.trans (List.map_congr_left fun d _ => ?_) h
  unfold vis2Datum
  rw [targetName_kept ht ho]
  rfl

theorem t3_unflagged : (select T3Unflagged (t3Data out)).map (t3Datum f out) =
    (select (T3Selected (noFlagged f) oi) (t3Data oi)).map (t3Datum f oi) := by
  have h := t3_iter_unflagged_with hf ho
    (q := fun r => (targetName oi r.target_id, r.int_time))
    (fun w r => by
      change (targetName oi (targetIdOut f r.target_id), r.int_time) = _
      rw [targetId_kept ht]) (fun t hm => by
      obtain ⟨w, -, -, e⟩ := instTable_of hf.unique (hi.t3 t hm)
      rw [(hf.t3 t hm w e).1, e])
  have h := congrArg (List.map fun x => (x.2.1, x.1.2.2.1, x.2.2, x.1.2.2.2)) h
  rw [List.map_map, List.map_map] at h
  refine Eq.trans (List.map_congr_left fun d _ => ?_) h
  unfold t3Datum
  rw [targetName_kept ht ho]
  rfl
end

section
variable {oi : OiFits R} (hf : Filterable f oi) (ho : Filtered f oi out) (hp : PlainFilter f) (hi : AllInstruments oi)
include hf ho hp hi

theorem vis_filtered : (select VisUnflagged (visData out)).map (visDatum out) =
    (select (VisSelected f oi) (visData oi)).map (visDatum oi) := by
  have e := vis_unflagged hf ho hp.target hi
  rwa [noFlagged_eq hp.unflagged] at e

theorem vis2_filtered : (select Vis2Unflagged (vis2Data out)).map (vis2Datum out) =
    (select (Vis2Selected f oi) (vis2Data oi)).map (vis2Datum oi) := by
  have e := vis2_unflagged hf ho hp.target hi
  rwa [noFlagged_eq hp.unflagged] at e

theorem t3_filtered : (select T3Unflagged (t3Data out)).map (t3Datum f out) =
    (select (T3Selected f oi) (t3Data oi)).map (t3Datum f oi) := by
  have e := t3_unflagged hf ho hp.target hi
  rwa [noFlagged_eq hp.unflagged] at e
end

/-- The instruments of a merged dataset are there. -/
theorem merged_instruments (hg : Together f ins) (h : merge_oi_fits_list ins = .ok out) : AllInstruments out := by
  have hw : ∀ oi ∈ ins, oi.WF := fun oi hoi => (hg.filterable oi hoi).wf
  have hl := (C48_merge_lookups h).wavelength
  obtain ⟨-, k1, k2, k3, k4⟩ := C41_lookup_partial hw hg.unique hg.plain hg.fit h
  have key : ∀ {oi : OiFits R} {n n' : CStr}, InsFound oi out n n' → (∃ w ∈ oi.wavelengthList, w.insname = n) →
      ∃ w ∈ out.wavelengthList, w.insname = n' := by
    rintro oi n n' h1 ⟨w, hw, e⟩
    obtain ⟨w', h2, -⟩ := h1 w hw e
    exact ⟨w', hl _ _ h2⟩
  exact ⟨all_merged k1 fun oi hoi t ht t' h1 => key h1 ((hg.instruments oi hoi).vis t ht),
    all_merged k2 fun oi hoi t ht t' h1 => key h1 ((hg.instruments oi hoi).vis2 t ht),
    all_merged k3 fun oi hoi t ht t' h1 => key h1 ((hg.instruments oi hoi).t3 t ht),
    all_merged k4 fun oi hoi t ht t' h1 => key h1 ((hg.instruments oi hoi).flux t ht)⟩

/-! ### Merging filtered datasets -/

theorem plainNames_sub {base : CStr} {l l' : List CStr} (h : PlainNames base l) (hs : l'.Sublist l) :
    PlainNames base l' where
  plain n hn := by
    rintro ⟨ds, hd, hc⟩
    exact h.plain n (hs.subset hn) ⟨ds, hd, hc.imp_right fun ⟨m, hm, e⟩ => ⟨m, hs.subset hm, e⟩⟩
  fits n hn := h.fits n (hs.subset hn)
  few := lt_of_le_of_lt hs.length_le h.few

section
variable {oi : OiFits R}
open Classical

theorem filtered_names (ho : Filtered f oi out) :
    (out.wavelengthList.map OiWavelength.insname).Sublist (oi.wavelengthList.map OiWavelength.insname) := by
  rw [ho.wavelength, List.map_map]
  exact List.Sublist.map _ List.filter_sublist

theorem filtered_unique (ho : Filtered f oi out) (hu : UniqueNames oi) : UniqueNames out where
  array := by
    rw [ho.array]
    exact hu.array.sublist (List.filter_sublist.map _)
  wavelength := hu.wavelength.sublist (filtered_names ho)
  corr := by
    rw [ho.corr]
    exact hu.corr.sublist (List.filter_sublist.map _)

theorem filtered_fit (ho : Filtered f oi out) (hn : NamesFit oi) : NamesFit out where
  array t ht := by
    rw [ho.array] at ht
    exact hn.array t (List.mem_filter.mp ht).1
  wavelength t ht := by
    rw [ho.wavelength] at ht
    obtain ⟨w, hw, hr, rfl⟩ := mem_kept.mp ht
    exact hn.wavelength w hw
  corr t ht := by
    rw [ho.corr] at ht
    exact hn.corr t (List.mem_filter.mp ht).1

theorem filtered_there (hf : Filterable f oi) (ho : Filtered f oi out) : InstrumentsThere out where
  vis t' ht' := by
    rw [ho.vis] at ht'
    obtain ⟨ha, t, ht, w, hw, hr, rfl⟩ := mem_visTables.mp ht'
    obtain ⟨h1, -, h3⟩ := vis_inst hf ho ht hw hr ha
    refine ⟨_, h1, ?_, ?_, h3⟩
    · have := List.find?_some hw
      exact (by simpa using this : w.insname = t.insname)
    · rw [(waveOut_wf (instTable_wf hf.wf hw) (keptChans_ne_nil.mpr hr.chan)).eff_wave]
      exact le_refl _
  vis2 t' ht' := by
    rw [ho.vis2] at ht'
    obtain ⟨ha, t, ht, w, hw, hr, rfl⟩ := mem_vis2Tables.mp ht'
    obtain ⟨h1, -, h3⟩ := vis2_inst hf ho ht hw hr ha
    refine ⟨_, h1, ?_, ?_, h3⟩
    · have := List.find?_some hw
      exact (by simpa using this : w.insname = t.insname)
    · rw [(waveOut_wf (instTable_wf hf.wf hw) (keptChans_ne_nil.mpr hr.chan)).eff_wave]
      exact le_refl _
  t3 t' ht' := by
    rw [ho.t3] at ht'
    obtain ⟨ha, t, ht, w, hw, hr, rfl⟩ := mem_t3Tables.mp ht'
    obtain ⟨h1, -, h3⟩ := t3_inst hf ho ht hw hr ha
    refine ⟨_, h1, ?_, ?_, h3⟩
    · have := List.find?_some hw
      exact (by simpa using this : w.insname = t.insname)
    · rw [(waveOut_wf (instTable_wf hf.wf hw) (keptChans_ne_nil.mpr hr.chan)).eff_wave]
      exact le_refl _

theorem filtered_wavelength (hf : Filterable f oi) (ho : Filtered f oi out) {w' : OiWavelength R}
    (h : w' ∈ out.wavelengthList) {x : R.Flt} (hx : x ∈ w'.eff_wave) : ∃ w ∈ oi.wavelengthList, x ∈ w.eff_wave := by
  rw [ho.wavelength] at h
  obtain ⟨w, hw, hr, rfl⟩ := mem_kept.mp h
  have hwf := hf.wf.wavelength w hw
  have hl := (waveOut_wf hwf (keptChans_ne_nil.mpr hr.1.chan)).eff_wave
  obtain ⟨k, hk, rfl⟩ := List.mem_iff_getElem.mp hx
  have hk' : k < (keptChans f w).length := by
    rw [hl] at hk
    exact hk
  have e := waveOut_at hwf (List.getElem?_eq_getElem hk')
  rw [List.getElem?_eq_getElem hk] at e
  exact ⟨w, hw, List.mem_of_getElem? e.symm⟩
end

variable {outs : List (OiFits R)}

theorem pairwise₂_mem {α β : Type} {P : α → β → Prop} {l : List α} {l' : List β} (h : Pairwise₂ P l l') {y : β}
    (hy : y ∈ l') : ∃ x ∈ l, P x y := by
  obtain ⟨i, hi, rfl⟩ := List.mem_iff_getElem.mp hy
  have hi' : i < l.length := h.1 ▸ hi
  exact ⟨l[i], List.getElem_mem _, h.2 i _ _ (List.getElem?_eq_getElem hi') (List.getElem?_eq_getElem hi)⟩

theorem flatMap_sublist {α β γ : Type} {P : α → β → Prop} {l : List α} {l' : List β} (h : Pairwise₂ P l l')
    {g : α → List γ} {g' : β → List γ} (hg : ∀ x y, P x y → (g' y).Sublist (g x)) :
    (l'.flatMap g').Sublist (l.flatMap g) := by
  induction l generalizing l' with
  | nil =>
    cases l' with
    | nil => exact List.Sublist.refl _
    | cons y l' => cases h.1
  | cons x l ih =>
    cases l' with
    | nil => cases h.1
    | cons y l' =>
      rw [List.flatMap_cons, List.flatMap_cons]
      refine (hg x y (h.2 0 x y rfl rfl)).append (ih ⟨by simpa using h.1, fun i a b ha hb => h.2 (i + 1) a b ?_ ?_⟩)
      · simpa using ha
      · simpa using hb

/-- The conditions for merging, for filtered datasets. -/
structure Mergeable (outs : List (OiFits R)) : Prop where
  wf : ∀ o ∈ outs, o.WF
  unique : ∀ o ∈ outs, UniqueNames o
  fit : ∀ o ∈ outs, NamesFit o
  plain : PlainNames ("ins" : CStr) (Spec.allNames OiFits.wavelengthList OiWavelength.insname outs)
  there : ∀ o ∈ outs, InstrumentsThere o
  exact : WavesExact outs

theorem together_mergeable (hg : Together f ins) : Mergeable ins where
  wf oi hoi := (hg.filterable oi hoi).wf
  unique := hg.unique
  fit := hg.fit
  plain := hg.plain
  there oi hoi := instruments_there (hg.filterable oi hoi) (hg.instruments oi hoi)
  exact := wavelengthsExact_tables (fun oi hoi => (hg.filterable oi hoi).wf) hg.exact

theorem filtered_mergeable (hg : Together f ins) (hun : ∀ oi ∈ ins, ∀ t ∈ oi.inspolList, InspolUniform f oi t)
    (ho : Pairwise₂ (fun oi o => apply_oi_filter oi f = .ok o) ins outs) : Mergeable outs := by
  have src : ∀ o ∈ outs, ∃ oi ∈ ins, Filtered f oi o ∧ InspolFiltered f oi o := by
    intro o h
    obtain ⟨oi, hoi, e⟩ := pairwise₂_mem ho h
    obtain ⟨o', e', h1, h2⟩ := apply_oi_filter_ok (hg.filterable oi hoi) (hun oi hoi)
    rw [e] at e'
    cases e'
    exact ⟨oi, hoi, h1, h2⟩
  have hwf : ∀ o ∈ outs, o.WF := by
    intro o h
    obtain ⟨oi, hoi, h1, h2⟩ := src o h
    exact out_wf (hg.filterable oi hoi) (hun oi hoi) h1 h2
  refine ⟨hwf, ?_, ?_, ?_, ?_, ?_⟩
  · intro o h
    obtain ⟨oi, hoi, h1, h2⟩ := src o h
    exact filtered_unique h1 (hg.unique oi hoi)
  · intro o h
    obtain ⟨oi, hoi, h1, h2⟩ := src o h
    exact filtered_fit h1 (hg.fit oi hoi)
  · refine plainNames_sub hg.plain ?_
    unfold Spec.allNames
    have ho' : Pairwise₂ (fun oi o => Filtered f oi o) ins outs := ⟨ho.1, fun i x y hx hy =>
      apply_oi_filter_spec (hg.filterable x (List.mem_of_getElem? hx)) (ho.2 i x y hx hy)⟩
    exact flatMap_sublist ho' fun x y h => filtered_names h
  · intro o h
    obtain ⟨oi, hoi, h1, h2⟩ := src o h
    exact filtered_there (hg.filterable oi hoi) h1
  · refine wavelengthsExact_tables hwf fun x y hx hy => hg.exact x y ?_ ?_
    · obtain ⟨o, h, w, hw, hx⟩ := hx
      obtain ⟨oi, hoi, h1, h2⟩ := src o h
      exact ⟨oi, hoi, filtered_wavelength (hg.filterable oi hoi) h1 hw hx⟩
    · obtain ⟨o, h, w, hw, hx⟩ := hy
      obtain ⟨oi, hoi, h1, h2⟩ := src o h
      exact ⟨oi, hoi, filtered_wavelength (hg.filterable oi hoi) h1 hw hx⟩

end Verif
