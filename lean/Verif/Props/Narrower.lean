import Verif.Spec.Narrower
import Verif.Props.Filter

/-! C100: asking for more never gives more data. -/

namespace Verif
open Outcome Spec

variable {R : FP} {f g : FilterSpec R} {oi outf outg : OiFits R}

section
variable (hn : Narrower f g)
include hn

theorem narrower_noFlagged : Narrower (noFlagged f) (noFlagged g) :=
  { arrname := hn.arrname, insname := hn.insname, corrname := hn.corrname, target := hn.target
    mjd := hn.mjd, wave := hn.wave, bas := hn.bas, uvrad := hn.uvrad, snr := hn.snr
    accept_vis := hn.accept_vis, accept_vis2 := hn.accept_vis2, accept_t3amp := hn.accept_t3amp
    accept_t3phi := hn.accept_t3phi, accept_flagged := fun h => h }

theorem narrower_names {a i c : CStr} (h : NamesOk f a i c) : NamesOk g a i c :=
  ⟨hn.arrname a h.1, hn.insname i h.2.1, hn.corrname c h.2.2⟩

theorem narrower_target {id : Int} (h : TargetOk f id) : TargetOk g id := by
  rcases hn.target with e | e
  · exact Or.inl e
  · unfold TargetOk at h ⊢
    rwa [← e]

theorem narrower_flag {l : List Bool} {j : Nat} (h : FlagOk f l j) : FlagOk g l j :=
  h.imp hn.accept_flagged id

theorem narrower_snrAmp {x e : List R.Dbl} {j : Nat} (h : SnrAmpOk f x e j) : SnrAmpOk g x e j := by
  obtain ⟨a, b, h1, h2, h3⟩ := h
  exact ⟨a, b, h1, h2, hn.snr _ h3⟩

theorem narrower_snrPhi {e : List R.Dbl} {j : Nat} (h : SnrPhiOk f e j) : SnrPhiOk g e j := by
  obtain ⟨b, h2, h3⟩ := h
  exact ⟨b, h2, hn.snr _ h3⟩

theorem narrower_vis {d} (h : VisSelected f oi d) : VisSelected g oi d where
  enabled := hn.accept_vis h.enabled
  names := narrower_names hn h.names
  target := narrower_target hn h.target
  mjd := hn.mjd _ h.mjd
  bas := hn.bas _ h.bas
  wave := by
    obtain ⟨w, h1, h2, h3⟩ := h.wave
    exact ⟨w, h1, hn.wave _ h2, hn.uvrad _ h3⟩
  snrAmp := narrower_snrAmp hn h.snrAmp
  snrPhi := narrower_snrPhi hn h.snrPhi
  flag := narrower_flag hn h.flag

theorem narrower_vis2 {d} (h : Vis2Selected f oi d) : Vis2Selected g oi d where
  enabled := hn.accept_vis2 h.enabled
  names := narrower_names hn h.names
  target := narrower_target hn h.target
  mjd := hn.mjd _ h.mjd
  bas := hn.bas _ h.bas
  wave := by
    obtain ⟨w, h1, h2, h3⟩ := h.wave
    exact ⟨w, h1, hn.wave _ h2, hn.uvrad _ h3⟩
  snr := narrower_snrAmp hn h.snr
  flag := narrower_flag hn h.flag

theorem narrower_t3 {d} (h : T3Selected f oi d) : T3Selected g oi d where
  enabled := by rw [← hn.accept_t3amp, ← hn.accept_t3phi]; exact h.enabled
  names := narrower_names hn h.names
  target := narrower_target hn h.target
  mjd := hn.mjd _ h.mjd
  basAB := hn.bas _ h.basAB
  basBC := hn.bas _ h.basBC
  basAC := hn.bas _ h.basAC
  wave := by
    obtain ⟨w, h1, h2, h3, h4, h5⟩ := h.wave
    exact ⟨w, h1, hn.wave _ h2, hn.uvrad _ h3, hn.uvrad _ h4, hn.uvrad _ h5⟩
  snrAmp := fun e => narrower_snrAmp hn (h.snrAmp (hn.accept_t3amp.trans e))
  snrPhi := fun e => narrower_snrPhi hn (h.snrPhi (hn.accept_t3phi.trans e))
  flag := narrower_flag hn h.flag

theorem narrower_waves {τ : Type} {nwave : τ → Nat} {a i c : τ → CStr} {l : List τ}
    (h : WavesFound oi g nwave a i c l) : WavesFound oi f nwave a i c l :=
  fun t ht hk => h t ht (narrower_names hn hk)

end

theorem select_sublist {τ ρ : Type} {P Q : Datum τ ρ → Prop} (h : ∀ d, P d → Q d)
    (l : List (Datum τ ρ)) : (select P l).Sublist (select Q l) := by
  unfold select
  induction l with
  | nil => exact List.Sublist.refl _
  | cons d l ih =>
    by_cases hp : P d
    · rw [List.filter_cons_of_pos (by simpa using hp),
        List.filter_cons_of_pos (by simpa using h d hp)]
      exact ih.cons_cons d
    · rw [List.filter_cons_of_neg (by simpa using hp)]
      by_cases hq : Q d
      · rw [List.filter_cons_of_pos (by simpa using hq)]
        exact ih.cons d
      · rw [List.filter_cons_of_neg (by simpa using hq)]
        exact ih

/-! ### Iteration -/

/-- C100 for iteration over OI_VIS. All data which the narrower filter yields are among those
which the other filter yields, in the same order. -/
theorem C100_vis_iter (hn : Narrower f g) (hwf : ∀ t ∈ oi.visList, t.WF)
    (hw : WavesFound oi g OiVis.nwave OiVis.arrname OiVis.insname OiVis.corrname oi.visList) :
    ∃ less more, less.Sublist more ∧ ∀ n,
      (∃ it, calls visKind n (iter_init visKind oi (some f)) = .ok (it, yields less n)) ∧
      (∃ it, calls visKind n (iter_init visKind oi (some g)) = .ok (it, yields more n)) :=
  ⟨_, _, select_sublist (fun _ => narrower_vis hn) _, fun n =>
    ⟨C24_vis_iter oi (some f) n hwf (narrower_waves hn hw), C24_vis_iter oi (some g) n hwf hw⟩⟩

/-- C100 for iteration over OI_VIS2. -/
theorem C100_vis2_iter (hn : Narrower f g) (hwf : ∀ t ∈ oi.vis2List, t.WF)
    (hw : WavesFound oi g OiVis2.nwave OiVis2.arrname OiVis2.insname OiVis2.corrname
      oi.vis2List) :
    ∃ less more, less.Sublist more ∧ ∀ n,
      (∃ it, calls vis2Kind n (iter_init vis2Kind oi (some f)) = .ok (it, yields less n)) ∧
      (∃ it, calls vis2Kind n (iter_init vis2Kind oi (some g)) = .ok (it, yields more n)) :=
  ⟨_, _, select_sublist (fun _ => narrower_vis2 hn) _, fun n =>
    ⟨C24_vis2_iter oi (some f) n hwf (narrower_waves hn hw), C24_vis2_iter oi (some g) n hwf hw⟩⟩

/-- C100 for iteration over OI_T3. -/
theorem C100_t3_iter (hn : Narrower f g) (hwf : ∀ t ∈ oi.t3List, t.WF)
    (hw : WavesFound oi g OiT3.nwave OiT3.arrname OiT3.insname OiT3.corrname oi.t3List) :
    ∃ less more, less.Sublist more ∧ ∀ n,
      (∃ it, calls t3Kind n (iter_init t3Kind oi (some f)) = .ok (it, yields less n)) ∧
      (∃ it, calls t3Kind n (iter_init t3Kind oi (some g)) = .ok (it, yields more n)) :=
  ⟨_, _, select_sublist (fun _ => narrower_t3 hn) _, fun n =>
    ⟨C24_t3_iter oi (some f) n hwf (narrower_waves hn hw), C24_t3_iter oi (some g) n hwf hw⟩⟩

/-! ### Filtering -/

/-- C100 for filtering, OI_VIS: the data left unflagged by the narrower filter are among those
left unflagged by the other, in the same order and with the same values. -/
theorem C100_vis_filter (hn : Narrower f g) (hf : Filterable f oi) (hg : Filterable g oi)
    (ef : apply_oi_filter oi f = .ok outf) (eg : apply_oi_filter oi g = .ok outg)
    (hins : ∀ t ∈ oi.visList, ∃ w ∈ oi.wavelengthList, w.insname = t.insname) :
    ((select VisUnflagged (visData outf)).map (visValue outf)).Sublist
      ((select VisUnflagged (visData outg)).map (visValue outg)) := by
  have hres : ∀ t ∈ oi.visList, oi_fits_lookup_wavelength oi t.insname = instTable oi t.insname := by
    intro t ht
    obtain ⟨w, hw, e⟩ := hins t ht
    have hw := e ▸ find_unique hf.unique hw
    exact ((hf.vis t ht w hw).1).trans hw.symm
  rw [vis_iter_unflagged hf (apply_oi_filter_spec hf ef) hres,
    vis_iter_unflagged hg (apply_oi_filter_spec hg eg) hres]
  exact (select_sublist (fun _ => narrower_vis (narrower_noFlagged hn)) _).map _

/-- C100 for filtering, OI_VIS2. -/
theorem C100_vis2_filter (hn : Narrower f g) (hf : Filterable f oi) (hg : Filterable g oi)
    (ef : apply_oi_filter oi f = .ok outf) (eg : apply_oi_filter oi g = .ok outg)
    (hins : ∀ t ∈ oi.vis2List, ∃ w ∈ oi.wavelengthList, w.insname = t.insname) :
    ((select Vis2Unflagged (vis2Data outf)).map (vis2Value outf)).Sublist
      ((select Vis2Unflagged (vis2Data outg)).map (vis2Value outg)) := by
  have hres : ∀ t ∈ oi.vis2List, oi_fits_lookup_wavelength oi t.insname = instTable oi t.insname := by
    intro t ht
    obtain ⟨w, hw, e⟩ := hins t ht
    have hw := e ▸ find_unique hf.unique hw
    exact ((hf.vis2 t ht w hw).1).trans hw.symm
  rw [vis2_iter_unflagged hf (apply_oi_filter_spec hf ef) hres,
    vis2_iter_unflagged hg (apply_oi_filter_spec hg eg) hres]
  exact (select_sublist (fun _ => narrower_vis2 (narrower_noFlagged hn)) _).map _

/-- C100 for filtering, OI_T3. -/
theorem C100_t3_filter (hn : Narrower f g) (hf : Filterable f oi) (hg : Filterable g oi)
    (ef : apply_oi_filter oi f = .ok outf) (eg : apply_oi_filter oi g = .ok outg)
    (hins : ∀ t ∈ oi.t3List, ∃ w ∈ oi.wavelengthList, w.insname = t.insname) :
    ((select T3Unflagged (t3Data outf)).map (t3Value f outf)).Sublist
      ((select T3Unflagged (t3Data outg)).map (t3Value g outg)) := by
  have hres : ∀ t ∈ oi.t3List, oi_fits_lookup_wavelength oi t.insname = instTable oi t.insname := by
    intro t ht
    obtain ⟨w, hw, e⟩ := hins t ht
    have hw := e ▸ find_unique hf.unique hw
    exact ((hf.t3 t ht w hw).1).trans hw.symm
  rw [t3_iter_unflagged hf (apply_oi_filter_spec hf ef) hres,
    t3_iter_unflagged hg (apply_oi_filter_spec hg eg) hres]
  have ev : t3Value f oi = t3Value g oi := by
    funext d
    unfold t3Value
    rw [hn.accept_t3amp, hn.accept_t3phi]
  rw [ev]
  exact (select_sublist (fun _ => narrower_t3 (narrower_noFlagged hn)) _).map _

/-! ### Examples -/

/-- The example filter (one target, one channel, no flagged data) is narrower than the
default one. -/
theorem Ex.narrower : Narrower Ex.someFilter (init_oi_filter FP.ratFP) where
  arrname := fun _ h => h
  insname := fun _ h => h
  corrname := fun _ h => h
  target := Or.inl (by decide)
  mjd := fun _ h => h
  wave := by
    rintro x ⟨h1, h2⟩
    refine ⟨h1, ?_⟩
    cases x with
    | none => rfl
    | some x =>
      have h2 : ¬ mkRat 15 10000000 < x := of_decide_eq_false h2
      have h3 : mkRat 15 10000000 ≤ mkRat 1 10000 := by decide +kernel
      exact decide_eq_false (Rat.not_lt.mpr (Rat.le_trans (Rat.not_lt.mp h2) h3))
  bas := fun _ h => h
  uvrad := fun _ h => h
  snr := fun _ h => h
  accept_vis := fun h => h
  accept_vis2 := fun h => h
  accept_t3amp := rfl
  accept_t3phi := rfl
  accept_flagged := fun _ => rfl

-- The narrower filter yields fewer data, but some.
example : (fun x => x.2.map Option.isSome) <$>
      calls vis2Kind 5 (iter_init vis2Kind Ex.oi (some Ex.someFilter)) =
      .ok [true, true, false, false, false] ∧
    (fun x => x.2.map Option.isSome) <$>
      calls vis2Kind 5 (iter_init vis2Kind Ex.oi (some (init_oi_filter FP.ratFP))) =
      .ok [true, true, true, true, true] := by decide +kernel
-- The other hypotheses are met.
example : Filterable Ex.someFilter Ex.oi ∧ Filterable (init_oi_filter FP.ratFP) Ex.oi :=
  ⟨Ex.filterable _, Ex.filterable _⟩
example : (fun o => (vis2Data o).length) <$> apply_oi_filter Ex.oi Ex.someFilter = .ok 2 ∧
    (fun o => (vis2Data o).length) <$> apply_oi_filter Ex.oi (init_oi_filter FP.ratFP) = .ok 12 := by
  decide +kernel

/-- Only triple products with a signal-to-noise ratio of 10 and more. -/
def Ex.snr10 : FilterSpec FP.ratFP :=
  { init_oi_filter FP.ratFP with snr_range := (Ex.numF 10, Ex.numF 10000000000) }

/-- C100. The choice of closure amplitude and phase must be the same: there are data which no
longer pass the filter because closure amplitudes, of low signal-to-noise ratio, are accepted as
well as closure phases. To ask for closure phases only (fewer quantities) gives more triple
products. -/
theorem C100_t3_counterexample : ∃ (f g : FilterSpec FP.ratFP) (oi : OiFits FP.ratFP),
    g.accept_t3amp = true ∧ g.accept_t3phi = true ∧ f = { g with accept_t3amp := false } ∧
    (fun x => x.2.map Option.isSome) <$> calls t3Kind 3 (iter_init t3Kind oi (some f)) =
      .ok [true, true, false] ∧
    (fun x => x.2.map Option.isSome) <$> calls t3Kind 3 (iter_init t3Kind oi (some g)) =
      .ok [false, false, false] :=
  ⟨{ Ex.snr10 with accept_t3amp := false }, Ex.snr10, Ex.oi, rfl, rfl, rfl, by decide +kernel,
    by decide +kernel⟩

end Verif
