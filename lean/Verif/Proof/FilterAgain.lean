import Verif.Proof.FilterIdem

/-! Filtering a filtered dataset again. -/

namespace Verif
open Outcome Spec Classical

variable {R : FP} {f : FilterSpec R} {oi out : OiFits R}

theorem glob_star (s : CStr) : Glob "*".toList s := by
  have := Glob.star s Glob.nil
  simpa using this

/-! ### The output data tables and their instruments -/

section tables
variable (hf : Filterable f oi) (ho : Filtered f oi out)
include hf ho

theorem vis_inst {t : OiVis R} {w : OiWavelength R} (ht : t ∈ oi.visList)
    (hi : instTable oi t.insname = some w) (hr : VisRemains f w t) (ha : f.accept_vis = true) :
    waveOut f w ∈ out.wavelengthList ∧ instTable out t.insname = some (waveOut f w) ∧
      oi_fits_lookup_wavelength out t.insname = some (waveOut f w) :=
  out_wave hf ho hi hr.names.2.1 hr.chan
    (Or.inl ⟨visOut f w t, by rw [ho.vis]; exact mem_visTables.mpr ⟨ha, t, ht, w, hi, hr, rfl⟩, rfl⟩)

theorem vis2_inst {t : OiVis2 R} {w : OiWavelength R} (ht : t ∈ oi.vis2List)
    (hi : instTable oi t.insname = some w) (hr : Vis2Remains f w t) (ha : f.accept_vis2 = true) :
    waveOut f w ∈ out.wavelengthList ∧ instTable out t.insname = some (waveOut f w) ∧
      oi_fits_lookup_wavelength out t.insname = some (waveOut f w) :=
  out_wave hf ho hi hr.names.2.1 hr.chan
    (Or.inr (Or.inl ⟨vis2Out f w t, by
      rw [ho.vis2]; exact mem_vis2Tables.mpr ⟨ha, t, ht, w, hi, hr, rfl⟩, rfl⟩))

theorem t3_inst {t : OiT3 R} {w : OiWavelength R} (ht : t ∈ oi.t3List)
    (hi : instTable oi t.insname = some w) (hr : T3Remains f w t)
    (ha : f.accept_t3amp = true ∨ f.accept_t3phi = true) :
    waveOut f w ∈ out.wavelengthList ∧ instTable out t.insname = some (waveOut f w) ∧
      oi_fits_lookup_wavelength out t.insname = some (waveOut f w) :=
  out_wave hf ho hi hr.names.2.1 hr.chan
    (Or.inr (Or.inr (Or.inl ⟨t3Out f w t, by
      rw [ho.t3]; exact mem_t3Tables.mpr ⟨ha, t, ht, w, hi, hr, rfl⟩, rfl⟩)))

theorem flux_inst {t : OiFlux R} {w : OiWavelength R} (ht : t ∈ oi.fluxList)
    (hi : instTable oi t.insname = some w) (hr : FluxRemains f w t) (ha : f.accept_flux = true) :
    waveOut f w ∈ out.wavelengthList ∧ instTable out t.insname = some (waveOut f w) ∧
      oi_fits_lookup_wavelength out t.insname = some (waveOut f w) :=
  out_wave hf ho hi hr.names.2.1 hr.chan
    (Or.inr (Or.inr (Or.inr ⟨fluxOut f w t, by
      rw [ho.flux]; exact mem_fluxTables.mpr ⟨ha, t, ht, w, hi, hr, rfl⟩, rfl⟩)))

end tables

/-! ### OI_INSPOL -/

theorem mem_inspolRecs {t : OiInspol R} {r : OiInspolRecord R} :
    r ∈ inspolRecs f oi t ↔ r ∈ t.record ∧ InspolKept f oi r := by
  simp [inspolRecs]

theorem inspolOut_nwave {t : OiInspol R} (hun : InspolUniform f oi t) {r : OiInspolRecord R}
    (hr : r ∈ inspolRecs f oi t) :
    (inspolOut f oi t).nwave = (instChans f oi r.insname).length := by
  unfold inspolOut
  dsimp only
  cases hrec : inspolRecs f oi t with
  | nil => rw [hrec] at hr; cases hr
  | cons r0 rs =>
    dsimp only
    have h0 : r0 ∈ inspolRecs f oi t := by rw [hrec]; simp
    exact ((hun r0 h0).2 r hr).symm

theorem instChans_lt {t : OiInspol R} (hun : InspolUniform f oi t) {r : OiInspolRecord R}
    (hr : r ∈ inspolRecs f oi t) : ∀ j ∈ instChans f oi r.insname, j < t.nwave := by
  intro j hj
  have hn := (hun r hr).1
  unfold instChans at hj
  cases hi : instTable oi r.insname with
  | none => rw [hi] at hj; cases hj
  | some w =>
    rw [hi] at hj
    dsimp only at hj
    by_cases hg : Glob f.insname r.insname
    · rw [if_pos hg] at hj
      rw [← hn w hi]
      exact keptChans_lt j hj
    · rw [if_neg hg] at hj; cases hj

theorem inspolOut_wf {t : OiInspol R} (ht : t.WF) (hun : InspolUniform f oi t)
    (hr : InspolRemains f oi t) : (inspolOut f oi t).WF := by
  obtain ⟨r0, h0, hk0⟩ := hr.record
  have hr0 : r0 ∈ inspolRecs f oi t := mem_inspolRecs.mpr ⟨h0, hk0⟩
  constructor
  · intro hc
    have : inspolRecOut f oi r0 ∈ (inspolOut f oi t).record := List.mem_map_of_mem hr0
    rw [hc] at this; cases this
  · rw [inspolOut_nwave hun hr0]
    exact (List.length_pos_iff.mpr hk0.chan).ne'
  · intro r' hr'
    obtain ⟨r, hr, rfl⟩ := List.mem_map.mp hr'
    rw [inspolOut_nwave hun hr]
    have hwf := ht.recs r (mem_inspolRecs.mp hr).1
    have hlt := instChans_lt hun hr
    exact ⟨pick_length (hwf.jxx.symm ▸ hlt), pick_length (hwf.jyy.symm ▸ hlt),
      pick_length (hwf.jxy.symm ▸ hlt), pick_length (hwf.jyx.symm ▸ hlt)⟩

section inspol
variable (hf : Filterable f oi) (ho : Filtered f oi out)
include hf ho

/-- The channels of an instrument that is still there. -/
theorem instChans_again {n : CStr} (hr : InsReferenced out n) (hne : instChans f oi n ≠ []) :
    instChans f out n = List.range (instChans f oi n).length ∧
      ∀ w', instTable out n = some w' → w'.nwave = (instChans f oi n).length := by
  unfold instChans at hne ⊢
  cases hi : instTable oi n with
  | none => rw [hi] at hne; exact absurd rfl hne
  | some w =>
    rw [hi] at hne
    dsimp only at hne ⊢
    by_cases hg : Glob f.insname n
    · rw [if_pos hg] at hne ⊢
      obtain ⟨_, h2, _⟩ := out_wave hf ho hi hg (keptChans_ne_nil.mp hne) hr
      rw [h2]
      dsimp only
      rw [if_pos hg, keptChans_waveOut (instTable_wf hf.wf hi)]
      refine ⟨rfl, ?_⟩
      rintro w' ⟨⟩
      rfl
    · rw [if_neg hg] at hne; exact absurd rfl hne

theorem inspolKept_again (ht : f.target_id < 0) {r : OiInspolRecord R}
    (hr : InsReferenced out r.insname) (hk : InspolKept f oi r) :
    InspolKept f out (inspolRecOut f oi r) where
  target := Or.inl ht
  mjd := hk.mjd
  chan := by
    show instChans f out r.insname ≠ []
    rw [(instChans_again hf ho hr hk.chan).1]
    intro hc
    apply hk.chan
    simpa using hc

theorem inspolRecs_again (ht : f.target_id < 0) {t : OiInspol R} (hm : t ∈ oi.inspolList)
    (hobs : InspolObserved f oi out) :
    inspolRecs f out (inspolOut f oi t) = (inspolOut f oi t).record := by
  rw [inspolRecs, List.filter_eq_self]
  intro r' hr'
  obtain ⟨r, hr, rfl⟩ := List.mem_map.mp hr'
  obtain ⟨h1, h2⟩ := mem_inspolRecs.mp hr
  simpa using inspolKept_again hf ho ht (hobs t hm r h1 h2) h2

theorem inspolRecOut_again (ht : f.target_id < 0) {r : OiInspolRecord R} {n : Nat}
    (hwf : r.WF n) (hlt : ∀ j ∈ instChans f oi r.insname, j < n)
    (hr : InsReferenced out r.insname) (hk : InspolKept f oi r) :
    inspolRecOut f out (inspolRecOut f oi r) = inspolRecOut f oi r := by
  have hc := (instChans_again hf ho hr hk.chan).1
  rw [show inspolRecOut f out (inspolRecOut f oi r) = { inspolRecOut f oi r with
      target_id := targetIdOut f (targetIdOut f r.target_id)
      jxx := pick (instChans f out r.insname) (pick (instChans f oi r.insname) r.jxx)
      jyy := pick (instChans f out r.insname) (pick (instChans f oi r.insname) r.jyy)
      jxy := pick (instChans f out r.insname) (pick (instChans f oi r.insname) r.jxy)
      jyx := pick (instChans f out r.insname) (pick (instChans f oi r.insname) r.jyx) } from rfl,
    hc, pick_range (pick_length (hwf.jxx.symm ▸ hlt)), pick_range (pick_length (hwf.jyy.symm ▸ hlt)),
    pick_range (pick_length (hwf.jxy.symm ▸ hlt)), pick_range (pick_length (hwf.jyx.symm ▸ hlt)),
    targetIdOut_neg ht]
  rfl

theorem inspolUniform_again (ht : f.target_id < 0) {t : OiInspol R} (hm : t ∈ oi.inspolList)
    (hun : InspolUniform f oi t) (hobs : InspolObserved f oi out) :
    InspolUniform f out (inspolOut f oi t) := by
  unfold InspolUniform
  rw [inspolRecs_again hf ho ht hm hobs]
  intro r' hr'
  obtain ⟨r, hr, rfl⟩ := List.mem_map.mp hr'
  obtain ⟨h1, h2⟩ := mem_inspolRecs.mp hr
  obtain ⟨hc, hn⟩ := instChans_again hf ho (hobs t hm r h1 h2) h2.chan
  constructor
  · intro w hw
    rw [inspolOut_nwave hun hr]
    exact hn w hw
  · intro q' hq'
    obtain ⟨q, hq, rfl⟩ := List.mem_map.mp hq'
    obtain ⟨g1, g2⟩ := mem_inspolRecs.mp hq
    have hcq := (instChans_again hf ho (hobs t hm q g1 g2) g2.chan).1
    show (instChans f out q.insname).length = (instChans f out r.insname).length
    rw [hc, hcq, List.length_range, List.length_range]
    exact (hun r hr).2 q hq

theorem inspolOut_again (ht : f.target_id < 0) {t : OiInspol R} (hm : t ∈ oi.inspolList)
    (hr : InspolRemains f oi t) (hun : InspolUniform f oi t) (hobs : InspolObserved f oi out) :
    InspolRemains f out (inspolOut f oi t) ∧ inspolOut f out (inspolOut f oi t) = inspolOut f oi t := by
  have hrecs := inspolRecs_again hf ho ht hm hobs
  obtain ⟨r0, h0, hk0⟩ := hr.record
  have hr0 : r0 ∈ inspolRecs f oi t := mem_inspolRecs.mpr ⟨h0, hk0⟩
  have hmem : inspolRecOut f oi r0 ∈ (inspolOut f oi t).record := List.mem_map_of_mem hr0
  refine ⟨⟨hr.name, _, hmem, inspolKept_again hf ho ht (hobs t hm r0 h0 hk0) hk0⟩, ?_⟩
  have hnw : (inspolOut f out (inspolOut f oi t)).nwave = (inspolOut f oi t).nwave := by
    have h1 : inspolRecOut f oi r0 ∈ inspolRecs f out (inspolOut f oi t) := by
      rw [hrecs]; exact hmem
    rw [inspolOut_nwave (inspolUniform_again hf ho ht hm hun hobs) h1, inspolOut_nwave hun hr0]
    show (instChans f out r0.insname).length = _
    rw [(instChans_again hf ho (hobs t hm r0 h0 hk0) hk0.chan).1, List.length_range]
  have hrec : (inspolOut f out (inspolOut f oi t)).record = (inspolOut f oi t).record := by
    show (inspolRecs f out (inspolOut f oi t)).map (inspolRecOut f out) = _
    rw [hrecs]
    apply map_id_of
    intro r' hr'
    obtain ⟨r, hr, rfl⟩ := List.mem_map.mp hr'
    obtain ⟨h1, h2⟩ := mem_inspolRecs.mp hr
    exact inspolRecOut_again hf ho ht ((hf.wf.inspol t hm).recs r h1) (instChans_lt hun hr)
      (hobs t hm r h1 h2) h2
  rw [show inspolOut f out (inspolOut f oi t) = { inspolOut f oi t with
      nwave := (inspolOut f out (inspolOut f oi t)).nwave
      record := (inspolOut f out (inspolOut f oi t)).record } from rfl, hnw, hrec]

end inspol

/-! ### The output dataset -/

theorem inspol_mem (hi : InspolFiltered f oi out) {t' : OiInspol R} (h : t' ∈ out.inspolList) :
    ∃ t ∈ oi.inspolList, InspolRemains f oi t ∧ ArrReferenced out t.arrname ∧
      t' = inspolOut f oi t := by
  rw [hi] at h
  obtain ⟨t, ht, hr, rfl⟩ := mem_kept.mp h
  exact ⟨t, ht, hr.1, hr.2, rfl⟩

theorem out_wf (hf : Filterable f oi) (hun : ∀ t ∈ oi.inspolList, InspolUniform f oi t)
    (ho : Filtered f oi out) (hi : InspolFiltered f oi out) : out.WF where
  counts := ho.counts
  array := by
    intro t ht
    rw [ho.array] at ht
    exact hf.wf.array t (List.mem_filter.mp ht).1
  wavelength := by
    intro t ht
    rw [ho.wavelength] at ht
    obtain ⟨w, hw, hr, rfl⟩ := mem_kept.mp ht
    exact waveOut_wf (hf.wf.wavelength w hw) (keptChans_ne_nil.mpr hr.1.chan)
  corr := by
    intro t ht
    rw [ho.corr] at ht
    exact hf.wf.corr t (List.mem_filter.mp ht).1
  inspol := by
    intro t' ht'
    obtain ⟨t, ht, hr, _, rfl⟩ := inspol_mem hi ht'
    exact inspolOut_wf (hf.wf.inspol t ht) (hun t ht) hr
  vis := by
    intro t' ht'
    rw [ho.vis] at ht'
    obtain ⟨_, t, ht, w, hw, hr, rfl⟩ := mem_visTables.mp ht'
    exact visOut_wf (hf.wf.vis t ht) (hf.vis t ht w hw).2 hr
  vis2 := by
    intro t' ht'
    rw [ho.vis2] at ht'
    obtain ⟨_, t, ht, w, hw, hr, rfl⟩ := mem_vis2Tables.mp ht'
    exact vis2Out_wf (hf.wf.vis2 t ht) (hf.vis2 t ht w hw).2 hr
  t3 := by
    intro t' ht'
    rw [ho.t3] at ht'
    obtain ⟨_, t, ht, w, hw, hr, rfl⟩ := mem_t3Tables.mp ht'
    exact t3Out_wf (hf.wf.t3 t ht) (hf.t3 t ht w hw).2 hr
  flux := by
    intro t' ht'
    rw [ho.flux] at ht'
    obtain ⟨_, t, ht, w, hw, hr, rfl⟩ := mem_fluxTables.mp ht'
    exact fluxOut_wf (hf.wf.flux t ht) (hf.flux t ht w hw) hr

theorem out_filterable (hf : Filterable f oi) (hun : ∀ t ∈ oi.inspolList, InspolUniform f oi t)
    (ht : f.target_id < 0) (ho : Filtered f oi out) (hi : InspolFiltered f oi out) :
    Filterable f out where
  wf := out_wf hf hun ho hi
  targets := by
    right
    rw [ho.targets, targetsOut, if_pos ht]
    exact hf.targets.resolve_left (by omega)
  unique := out_unique hf ho
  fits := by
    intro w hw
    rw [ho.wavelength] at hw
    obtain ⟨w0, hw0, _, rfl⟩ := mem_kept.mp hw
    exact hf.fits w0 hw0
  vis := by
    intro t' ht' w' hw'
    rw [ho.vis] at ht'
    obtain ⟨ha, t, ht, w, hw, hr, rfl⟩ := mem_visTables.mp ht'
    obtain ⟨_, h2, h3⟩ := vis_inst hf ho ht hw hr ha
    rw [show (visOut f w t).insname = t.insname from rfl] at hw' ⊢
    rw [h2] at hw'
    cases hw'
    exact ⟨h3, rfl⟩
  vis2 := by
    intro t' ht' w' hw'
    rw [ho.vis2] at ht'
    obtain ⟨ha, t, ht, w, hw, hr, rfl⟩ := mem_vis2Tables.mp ht'
    obtain ⟨_, h2, h3⟩ := vis2_inst hf ho ht hw hr ha
    rw [show (vis2Out f w t).insname = t.insname from rfl] at hw' ⊢
    rw [h2] at hw'
    cases hw'
    exact ⟨h3, rfl⟩
  t3 := by
    intro t' ht' w' hw'
    rw [ho.t3] at ht'
    obtain ⟨ha, t, ht, w, hw, hr, rfl⟩ := mem_t3Tables.mp ht'
    obtain ⟨_, h2, h3⟩ := t3_inst hf ho ht hw hr ha
    rw [show (t3Out f w t).insname = t.insname from rfl] at hw' ⊢
    rw [h2] at hw'
    cases hw'
    exact ⟨h3, rfl⟩
  flux := by
    intro t' ht' w' hw'
    rw [ho.flux] at ht'
    obtain ⟨ha, t, ht, w, hw, hr, rfl⟩ := mem_fluxTables.mp ht'
    obtain ⟨_, h2, h3⟩ := flux_inst hf ho ht hw hr ha
    rw [show (fluxOut f w t).insname = t.insname from rfl] at hw'
    rw [h2] at hw'
    cases hw'
    rfl

/-- The data tables do not change. -/
theorem data_again (hf : Filterable f oi) (ht : f.target_id < 0) (ho : Filtered f oi out) :
    visTables f out = out.visList ∧ vis2Tables f out = out.vis2List ∧
      t3Tables f out = out.t3List ∧ fluxTables f out = out.fluxList := by
  refine ⟨?_, ?_, ?_, ?_⟩
  · apply visTables_fix
    · rw [ho.vis, visTables]
      cases f.accept_vis <;> simp
    · intro t' ht'
      rw [ho.vis] at ht'
      obtain ⟨ha, t, htm, w, hw, hr, rfl⟩ := mem_visTables.mp ht'
      obtain ⟨_, h2, _⟩ := vis_inst hf ho htm hw hr ha
      exact ⟨waveOut f w, h2, visOut_again ht (instTable_wf hf.wf hw) (hf.wf.vis t htm)
        (hf.vis t htm w hw).2 hr⟩
  · apply vis2Tables_fix
    · rw [ho.vis2, vis2Tables]
      cases f.accept_vis2 <;> simp
    · intro t' ht'
      rw [ho.vis2] at ht'
      obtain ⟨ha, t, htm, w, hw, hr, rfl⟩ := mem_vis2Tables.mp ht'
      obtain ⟨_, h2, _⟩ := vis2_inst hf ho htm hw hr ha
      exact ⟨waveOut f w, h2, vis2Out_again ht (instTable_wf hf.wf hw) (hf.wf.vis2 t htm)
        (hf.vis2 t htm w hw).2 hr⟩
  · apply t3Tables_fix
    · rw [ho.t3, t3Tables]
      cases (f.accept_t3amp || f.accept_t3phi) <;> simp
    · intro t' ht'
      rw [ho.t3] at ht'
      obtain ⟨ha, t, htm, w, hw, hr, rfl⟩ := mem_t3Tables.mp ht'
      obtain ⟨_, h2, _⟩ := t3_inst hf ho htm hw hr ha
      exact ⟨waveOut f w, h2, t3Out_again ht (instTable_wf hf.wf hw) (hf.wf.t3 t htm)
        (hf.t3 t htm w hw).2 hr⟩
  · apply fluxTables_fix
    · rw [ho.flux, fluxTables]
      cases f.accept_flux <;> simp
    · intro t' ht'
      rw [ho.flux] at ht'
      obtain ⟨ha, t, htm, w, hw, hr, rfl⟩ := mem_fluxTables.mp ht'
      obtain ⟨_, h2, _⟩ := flux_inst hf ho htm hw hr ha
      exact ⟨waveOut f w, h2, fluxOut_again ht (instTable_wf hf.wf hw) (hf.wf.flux t htm)
        (hf.flux t htm w hw) hr⟩

theorem referenced_congr {a b : OiFits R} (h1 : a.visList = b.visList)
    (h2 : a.vis2List = b.vis2List) (h3 : a.t3List = b.t3List) (h4 : a.fluxList = b.fluxList)
    (n : CStr) : (ArrReferenced a n ↔ ArrReferenced b n) ∧ (InsReferenced a n ↔ InsReferenced b n) ∧
      (CorrReferenced a n ↔ CorrReferenced b n) := by
  unfold ArrReferenced InsReferenced CorrReferenced
  rw [h1, h2, h3, h4]
  exact ⟨Iff.rfl, Iff.rfl, Iff.rfl⟩

theorem filter_self {τ : Type} {l : List τ} {P : τ → Prop} [DecidablePred P] (h : ∀ t ∈ l, P t) :
    (l.filter fun t => decide (P t)) = l :=
  List.filter_eq_self.mpr (fun t ht => by simpa using h t ht)

/-- Filtering again gives the same contents. -/
theorem filter_again (hf : Filterable f oi) (hun : ∀ t ∈ oi.inspolList, InspolUniform f oi t)
    (ht : f.target_id < 0) (ho : Filtered f oi out) (hi : InspolFiltered f oi out)
    (hobs : InspolObserved f oi out) :
    ∃ out', apply_oi_filter out f = .ok out' ∧ SameContents out' out := by
  have hf2 := out_filterable hf hun ht ho hi
  have hun2 : ∀ t ∈ out.inspolList, InspolUniform f out t := by
    intro t' ht'
    obtain ⟨t, htm, _, _, rfl⟩ := inspol_mem hi ht'
    exact inspolUniform_again hf ho ht htm (hun t htm) hobs
  obtain ⟨out', he, ho2, hi2⟩ := apply_oi_filter_ok hf2 hun2
  obtain ⟨d1, d2, d3, d4⟩ := data_again hf ht ho
  have e1 := ho2.vis.trans d1
  have e2 := ho2.vis2.trans d2
  have e3 := ho2.t3.trans d3
  have e4 := ho2.flux.trans d4
  have href := referenced_congr e1 e2 e3 e4
  have harr : out'.arrayList = out.arrayList := by
    rw [ho2.array]
    apply filter_self
    intro t htm
    rw [ho.array] at htm
    have := (List.mem_filter.mp htm).2
    rw [(href _).1]
    simpa using this
  have hcor : out'.corrList = out.corrList := by
    rw [ho2.corr]
    apply filter_self
    intro t htm
    rw [ho.corr] at htm
    have := (List.mem_filter.mp htm).2
    rw [(href _).2.2]
    simpa using this
  have hwav : out'.wavelengthList = out.wavelengthList := by
    rw [ho2.wavelength]
    apply recs_full
    · intro w' hw'
      rw [ho.wavelength] at hw'
      obtain ⟨w, hw, hr, rfl⟩ := mem_kept.mp hw'
      have hp : 0 < (waveOut f w).nwave :=
        List.length_pos_iff.mpr (keptChans_ne_nil.mpr hr.1.chan)
      exact ⟨⟨hr.1.name, 0, hp, waveOut_chans (hf.wf.wavelength w hw) 0 hp⟩,
        (href _).2.1.mpr hr.2⟩
    · intro w' hw'
      rw [ho.wavelength] at hw'
      obtain ⟨w, hw, hr, rfl⟩ := mem_kept.mp hw'
      exact waveOut_full (waveOut_wf (hf.wf.wavelength w hw) (keptChans_ne_nil.mpr hr.1.chan))
        (keptChans_waveOut (hf.wf.wavelength w hw))
  have hins : out'.inspolList = out.inspolList := by
    rw [hi2]
    apply recs_full
    · intro t' ht'
      obtain ⟨t, htm, hr, ha, rfl⟩ := inspol_mem hi ht'
      exact ⟨(inspolOut_again hf ho ht htm hr (hun t htm) hobs).1, (href _).1.mpr ha⟩
    · intro t' ht'
      obtain ⟨t, htm, hr, ha, rfl⟩ := inspol_mem hi ht'
      exact (inspolOut_again hf ho ht htm hr (hun t htm) hobs).2
  refine ⟨out', he, ho2.header, ?_, harr, hwav, hcor, hins, e1, e2, e3, e4,
    ⟨ho2.counts, ho.counts⟩, ?_, ?_, ?_⟩
  · rw [ho2.targets, targetsOut, if_pos ht]
  · intro n; rw [ho2.arrayLookup, ho.arrayLookup, harr]
  · intro n; rw [ho2.waveLookup, ho.waveLookup, hwav]
  · intro n; rw [ho2.corrLookup, ho.corrLookup, hcor]

end Verif
