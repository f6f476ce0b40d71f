import Verif.Spec.SavedIter
import Verif.Proof.FilterFile
import Verif.Proof.MergeIter
import Verif.Props.EndToEnd
import Verif.Props.MergeIter

/-! Iterating over what has been saved in a file: lemmas. -/

namespace Verif
open Outcome Spec

variable {R : FP} {u : Undef R} {oi x : OiFits R}

/-- `x` has the targets, instruments and data of `oi` as read from a file. -/
structure DataSaved (u : Undef R) (oi x : OiFits R) : Prop where
  targets : x.targets = oi.targets.asRead u.str
  wavelength : x.wavelengthList = oi.wavelengthList.map OiWavelength.asRead
  vis : x.visList = oi.visList.map (OiVis.asRead u.int)
  vis2 : x.vis2List = oi.vis2List.map (OiVis2.asRead u.int)
  t3 : x.t3List = oi.t3List.map (OiT3.asRead u.int)

theorem saved_targetName (ht : ∀ t ∈ oi.targets.targ, ColText 32 t.target) (hs : DataSaved u oi x) (id : Int) :
    targetName x id = targetName oi id := by
  unfold targetName
  rw [hs.targets]
  unfold OiTarget.asRead
  generalize hl : oi.targets.targ = l at ht
  clear hl
  dsimp only
  induction l with
  | nil => rfl
  | cons a l ih =>
    rw [List.map_cons, List.find?_cons, List.find?_cons]
    dsimp only
    cases a.target_id == id with
    | true => exact congrArg some (ht a (List.mem_cons_self ..)).eq
    | false => exact ih fun t h => ht t (List.mem_cons_of_mem _ h)

theorem saved_wave (hr : References oi) (hs : DataSaved u oi x) {n : CStr} {k : Nat} (hi : InstrumentThere oi n k)
    (hl : oi_fits_lookup_wavelength x n = instTable x n) :
    (∃ w, oi_fits_lookup_wavelength x n = some w ∧ k ≤ w.eff_wave.length) ∧ ∀ j, effWave x n j = effWave oi n j := by
  obtain ⟨w, hw, rfl, hk, e⟩ := hi
  have hm : x.wavelengthList.map OiWavelength.insname = oi.wavelengthList.map OiWavelength.insname := by
    rw [hs.wavelength, List.map_map]
    exact List.map_congr_left fun t ht => (hr.names.wavelength t ht).eq
  have e' : instTable x w.insname = some w.asRead := by
    have h1 : w.asRead ∈ x.wavelengthList := by rw [hs.wavelength]; exact List.mem_map_of_mem hw
    have h2 := find_unique (by rw [hm]; exact hr.unique) h1
    have h3 : w.asRead.insname = w.insname := (hr.names.wavelength w hw).eq
    rw [h3] at h2
    exact h2
  refine ⟨⟨_, hl.trans e', hk⟩, fun j => ?_⟩
  unfold effWave
  rw [hl, e', e]
  rfl

theorem saved_vis (hr : References oi) (hs : DataSaved u oi x)
    (hl : ∀ t ∈ oi.visList, oi_fits_lookup_wavelength x t.insname = instTable x t.insname) (f : FilterSpec R) :
    (select (VisSelected f oi) (visData oi)).map (visContent oi) =
      (select (VisSelected f x) (visData x)).map (visContent x) := by
  unfold visData
  rw [select_dataOf (p := fun t r j => VisSelected f x ⟨0, t, 0, r, j⟩) (P := VisSelected f x)
    (val := visContent x) (v := fun t r j => visContent x ⟨0, t, 0, r, j⟩)
    (fun d => ⟨fun h => ⟨h.1, h.2, h.3, h.4, h.5, h.6, h.7, h.8, h.9⟩,
      fun h => ⟨h.1, h.2, h.3, h.4, h.5, h.6, h.7, h.8, h.9⟩⟩) (fun d => rfl),
    select_dataOf (p := fun t r j => VisSelected f oi ⟨0, t, 0, r, j⟩) (P := VisSelected f oi)
    (val := visContent oi) (v := fun t r j => visContent oi ⟨0, t, 0, r, j⟩)
    (fun d => ⟨fun h => ⟨h.1, h.2, h.3, h.4, h.5, h.6, h.7, h.8, h.9⟩,
      fun h => ⟨h.1, h.2, h.3, h.4, h.5, h.6, h.7, h.8, h.9⟩⟩) (fun d => rfl), hs.vis, List.flatMap_map]
  apply List.flatMap_congr
  intro t ht
  obtain ⟨a1, a2, a3⟩ := hr.names.vis t ht
  have he := (saved_wave hr hs (hr.there.vis t ht) (hl t ht)).2
  have e1 : (t.asRead u.int).arrname = t.arrname := a1.eq
  have e2 : (t.asRead u.int).insname = t.insname := a2.eq
  have e3 : (t.asRead u.int).corrname = t.corrname := a3.eq
  show _ = List.flatMap _ (t.record.map _)
  rw [List.flatMap_map]
  apply List.flatMap_congr
  intro r _
  refine filter_map_congr fun j hj => ⟨⟨fun s => ?_, fun s => ?_⟩, ?_⟩
  · obtain ⟨s1, s2, s3, s4, s5, s6, s7, s8, s9⟩ := s
    refine ⟨s1, ?_, s3, s4, s5, ?_, s7, s8, s9⟩
    · dsimp only; rw [e1, e2, e3]; exact s2
    · dsimp only at s6 ⊢; rw [e2, he]; exact s6
  · obtain ⟨s1, s2, s3, s4, s5, s6, s7, s8, s9⟩ := s
    refine ⟨s1, ?_, s3, s4, s5, ?_, s7, s8, s9⟩
    · dsimp only at s2; rw [e1, e2, e3] at s2; exact s2
    · dsimp only at s6 ⊢; rw [e2, he] at s6; exact s6
  · unfold visContent
    dsimp only
    rw [e2, he, saved_targetName hr.targets hs]

theorem saved_vis2 (hr : References oi) (hs : DataSaved u oi x)
    (hl : ∀ t ∈ oi.vis2List, oi_fits_lookup_wavelength x t.insname = instTable x t.insname) (f : FilterSpec R) :
    (select (Vis2Selected f oi) (vis2Data oi)).map (vis2Content oi) =
      (select (Vis2Selected f x) (vis2Data x)).map (vis2Content x) := by
  unfold vis2Data
  rw [select_dataOf (p := fun t r j => Vis2Selected f x ⟨0, t, 0, r, j⟩) (P := Vis2Selected f x)
    (val := vis2Content x) (v := fun t r j => vis2Content x ⟨0, t, 0, r, j⟩)
    (fun d => ⟨fun h => ⟨h.1, h.2, h.3, h.4, h.5, h.6, h.7, h.8⟩,
      fun h => ⟨h.1, h.2, h.3, h.4, h.5, h.6, h.7, h.8⟩⟩) (fun d => rfl),
    select_dataOf (p := fun t r j => Vis2Selected f oi ⟨0, t, 0, r, j⟩) (P := Vis2Selected f oi)
    (val := vis2Content oi) (v := fun t r j => vis2Content oi ⟨0, t, 0, r, j⟩)
    (fun d => ⟨fun h => ⟨h.1, h.2, h.3, h.4, h.5, h.6, h.7, h.8⟩,
      fun h => ⟨h.1, h.2, h.3, h.4, h.5, h.6, h.7, h.8⟩⟩) (fun d => rfl), hs.vis2, List.flatMap_map]
  apply List.flatMap_congr
  intro t ht
  obtain ⟨a1, a2, a3⟩ := hr.names.vis2 t ht
  have he := (saved_wave hr hs (hr.there.vis2 t ht) (hl t ht)).2
  have e1 : (t.asRead u.int).arrname = t.arrname := a1.eq
  have e2 : (t.asRead u.int).insname = t.insname := a2.eq
  have e3 : (t.asRead u.int).corrname = t.corrname := a3.eq
  show _ = List.flatMap _ (t.record.map _)
  rw [List.flatMap_map]
  apply List.flatMap_congr
  intro r _
  refine filter_map_congr fun j hj => ⟨⟨fun s => ?_, fun s => ?_⟩, ?_⟩
  · obtain ⟨s1, s2, s3, s4, s5, s6, s7, s8⟩ := s
    refine ⟨s1, ?_, s3, s4, s5, ?_, s7, s8⟩
    · dsimp only; rw [e1, e2, e3]; exact s2
    · dsimp only at s6 ⊢; rw [e2, he]; exact s6
  · obtain ⟨s1, s2, s3, s4, s5, s6, s7, s8⟩ := s
    refine ⟨s1, ?_, s3, s4, s5, ?_, s7, s8⟩
    · dsimp only at s2; rw [e1, e2, e3] at s2; exact s2
    · dsimp only at s6 ⊢; rw [e2, he] at s6; exact s6
  · unfold vis2Content
    dsimp only
    rw [e2, he, saved_targetName hr.targets hs]

theorem saved_t3 (hr : References oi) (hs : DataSaved u oi x)
    (hl : ∀ t ∈ oi.t3List, oi_fits_lookup_wavelength x t.insname = instTable x t.insname) (f : FilterSpec R) :
    (select (T3Selected f oi) (t3Data oi)).map (t3Content oi) =
      (select (T3Selected f x) (t3Data x)).map (t3Content x) := by
  unfold t3Data
  rw [select_dataOf (p := fun t r j => T3Selected f x ⟨0, t, 0, r, j⟩) (P := T3Selected f x)
    (val := t3Content x) (v := fun t r j => t3Content x ⟨0, t, 0, r, j⟩)
    (fun d => ⟨fun h => ⟨h.1, h.2, h.3, h.4, h.5, h.6, h.7, h.8, h.9, h.10, h.11⟩,
      fun h => ⟨h.1, h.2, h.3, h.4, h.5, h.6, h.7, h.8, h.9, h.10, h.11⟩⟩) (fun d => rfl),
    select_dataOf (p := fun t r j => T3Selected f oi ⟨0, t, 0, r, j⟩) (P := T3Selected f oi)
    (val := t3Content oi) (v := fun t r j => t3Content oi ⟨0, t, 0, r, j⟩)
    (fun d => ⟨fun h => ⟨h.1, h.2, h.3, h.4, h.5, h.6, h.7, h.8, h.9, h.10, h.11⟩,
      fun h => ⟨h.1, h.2, h.3, h.4, h.5, h.6, h.7, h.8, h.9, h.10, h.11⟩⟩) (fun d => rfl), hs.t3, List.flatMap_map]
  apply List.flatMap_congr
  intro t ht
  obtain ⟨a1, a2, a3⟩ := hr.names.t3 t ht
  have he := (saved_wave hr hs (hr.there.t3 t ht) (hl t ht)).2
  have e1 : (t.asRead u.int).arrname = t.arrname := a1.eq
  have e2 : (t.asRead u.int).insname = t.insname := a2.eq
  have e3 : (t.asRead u.int).corrname = t.corrname := a3.eq
  show _ = List.flatMap _ (t.record.map _)
  rw [List.flatMap_map]
  apply List.flatMap_congr
  intro r _
  refine filter_map_congr fun j hj => ⟨⟨fun s => ?_, fun s => ?_⟩, ?_⟩
  · obtain ⟨s1, s2, s3, s4, s5, s6, s7, s8, s9, s10, s11⟩ := s
    refine ⟨s1, ?_, s3, s4, s5, s6, s7, ?_, s9, s10, s11⟩
    · dsimp only; rw [e1, e2, e3]; exact s2
    · dsimp only at s8 ⊢; rw [e2, he]; exact s8
  · obtain ⟨s1, s2, s3, s4, s5, s6, s7, s8, s9, s10, s11⟩ := s
    refine ⟨s1, ?_, s3, s4, s5, s6, s7, ?_, s9, s10, s11⟩
    · dsimp only at s2; rw [e1, e2, e3] at s2; exact s2
    · dsimp only at s8 ⊢; rw [e2, he] at s8; exact s8
  · unfold t3Content
    dsimp only
    rw [e2, he, saved_targetName hr.targets hs]

/-- Lookups in what has been read. -/
theorem holds_lookup {fs : Files R} {name : CStr} (h : Holds u fs name x) (n : CStr)
    (hn : (∃ t ∈ x.visList, t.insname = n) ∨ (∃ t ∈ x.vis2List, t.insname = n) ∨ (∃ t ∈ x.t3List, t.insname = n) ∨
      ∃ t ∈ x.fluxList, t.insname = n) : oi_fits_lookup_wavelength x n = instTable x n := by
  obtain ⟨hdus, -, hr⟩ := h
  have h0 : hdus ≠ [] := by
    rintro rfl
    obtain ⟨st, e⟩ := read_empty u
    rw [e] at hr
    cases hr
  exact (C17_partial h0 hr n).2.1 hn

/-- What is read has the data. -/
theorem saved_data {fs : Files R} {name : CStr} (hw : oi.WF) (hr : References oi) (hs : DataSaved u oi x)
    (h : Holds u fs name x) (f : FilterSpec R) : SameData f f oi x := by
  have hx := h.wf
  have v1 : x.visList = _ := hs.vis
  have v2 : x.vis2List = _ := hs.vis2
  have v3 : x.t3List = _ := hs.t3
  have l1 : ∀ t ∈ oi.visList, oi_fits_lookup_wavelength x t.insname = instTable x t.insname := fun t ht =>
    holds_lookup h _ (.inl ⟨_, by rw [v1]; exact List.mem_map_of_mem ht, (hr.names.vis t ht).2.1.eq⟩)
  have l2 : ∀ t ∈ oi.vis2List, oi_fits_lookup_wavelength x t.insname = instTable x t.insname := fun t ht =>
    holds_lookup h _ (.inr (.inl ⟨_, by rw [v2]; exact List.mem_map_of_mem ht, (hr.names.vis2 t ht).2.1.eq⟩))
  have l3 : ∀ t ∈ oi.t3List, oi_fits_lookup_wavelength x t.insname = instTable x t.insname := fun t ht =>
    holds_lookup h _ (.inr (.inr (.inl ⟨_, by rw [v3]; exact List.mem_map_of_mem ht, (hr.names.t3 t ht).2.1.eq⟩)))
  refine ⟨⟨_, _, iterates_vis hw (fun t ht => there_found (hr.there.vis t ht)) f, iterates_vis hx ?_ f, saved_vis hr hs l1 f⟩,
    ⟨_, _, iterates_vis2 hw (fun t ht => there_found (hr.there.vis2 t ht)) f, iterates_vis2 hx ?_ f, saved_vis2 hr hs l2 f⟩,
    ⟨_, _, iterates_t3 hw (fun t ht => there_found (hr.there.t3 t ht)) f, iterates_t3 hx ?_ f, saved_t3 hr hs l3 f⟩⟩
  · intro t' ht'
    rw [v1] at ht'
    obtain ⟨t, ht, rfl⟩ := List.mem_map.mp ht'
    have e : (t.asRead u.int).insname = t.insname := (hr.names.vis t ht).2.1.eq
    rw [e]
    exact (saved_wave hr hs (hr.there.vis t ht) (l1 t ht)).1
  · intro t' ht'
    rw [v2] at ht'
    obtain ⟨t, ht, rfl⟩ := List.mem_map.mp ht'
    have e : (t.asRead u.int).insname = t.insname := (hr.names.vis2 t ht).2.1.eq
    rw [e]
    exact (saved_wave hr hs (hr.there.vis2 t ht) (l2 t ht)).1
  · intro t' ht'
    rw [v3] at ht'
    obtain ⟨t, ht, rfl⟩ := List.mem_map.mp ht'
    have e : (t.asRead u.int).insname = t.insname := (hr.names.t3 t ht).2.1.eq
    rw [e]
    exact (saved_wave hr hs (hr.there.t3 t ht) (l3 t ht)).1

end Verif
