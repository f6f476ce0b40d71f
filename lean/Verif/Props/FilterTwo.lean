import Verif.Proof.FilterTwo
import Verif.Props.Filter

/-! C83: two filters one after the other. -/

namespace Verif
open Outcome Spec

set_option synthInstance.maxSize 20000

variable {R : FP} {f g h : FilterSpec R} {oi a : OiFits R}

/-- C83 (part). Applying the filter `g` to the result of the filter `f` gives the same
contents as applying to the dataset the filter that asks for both. What is missing: the
condition of `Combines` on flagged data and on the choice of closure amplitude and phase,
and the conditions on OI_INSPOL tables (uniform, of instruments that data remain of).
Without them it is false: see below, `C35_inspol_counterexample` and `C36_inspol_overflow`. -/
theorem C83_two_filters_partial (hc : Combines f g h) (hf : Filterable f oi)
    (ht : TargetThere f oi) (hunf : ∀ t ∈ oi.inspolList, InspolUniform f oi t)
    (hunh : ∀ t ∈ oi.inspolList, InspolUniform h oi t)
    (ha : apply_oi_filter oi f = .ok a) (hobs : InspolObserved f oi a) :
    ∃ b c, apply_oi_filter a g = .ok b ∧ apply_oi_filter oi h = .ok c ∧ SameContents b c :=
  filter_two hc hf ht hunf hunh ha hobs

/-- C83. Without OI_INSPOL tables there are no conditions on them. -/
theorem C83_two_filters_no_inspol (hc : Combines f g h) (hf : Filterable f oi)
    (ht : TargetThere f oi) (hno : oi.inspolList = []) :
    ∃ a b c, apply_oi_filter oi f = .ok a ∧ apply_oi_filter a g = .ok b ∧
      apply_oi_filter oi h = .ok c ∧ SameContents b c := by
  have hun : ∀ (f : FilterSpec R), ∀ t ∈ oi.inspolList, InspolUniform f oi t := by
    intro f t ht; rw [hno] at ht; cases ht
  obtain ⟨a, ha, _, _⟩ := apply_oi_filter_ok hf (hun f)
  obtain ⟨b, c, hb, hc', hs⟩ := filter_two hc hf ht (hun f) (hun h)
    ha (by intro t ht; rw [hno] at ht; cases ht)
  exact ⟨a, b, c, ha, hb, hc', hs⟩

theorem sameContents_symm {a b : OiFits R} (h : SameContents a b) : SameContents b a where
  header := h.header.symm
  targets := h.targets.symm
  arrayList := h.arrayList.symm
  wavelengthList := h.wavelengthList.symm
  corrList := h.corrList.symm
  inspolList := h.inspolList.symm
  visList := h.visList.symm
  vis2List := h.vis2List.symm
  t3List := h.t3List.symm
  fluxList := h.fluxList.symm
  counts := ⟨h.counts.2, h.counts.1⟩
  arrayLookup := fun n => (h.arrayLookup n).symm
  waveLookup := fun n => (h.waveLookup n).symm
  corrLookup := fun n => (h.corrLookup n).symm

theorem sameContents_trans {a b c : OiFits R} (h : SameContents a b) (k : SameContents b c) :
    SameContents a c where
  header := h.header.trans k.header
  targets := h.targets.trans k.targets
  arrayList := h.arrayList.trans k.arrayList
  wavelengthList := h.wavelengthList.trans k.wavelengthList
  corrList := h.corrList.trans k.corrList
  inspolList := h.inspolList.trans k.inspolList
  visList := h.visList.trans k.visList
  vis2List := h.vis2List.trans k.vis2List
  t3List := h.t3List.trans k.t3List
  fluxList := h.fluxList.trans k.fluxList
  counts := ⟨h.counts.1, k.counts.2⟩
  arrayLookup := fun n => (h.arrayLookup n).trans (k.arrayLookup n)
  waveLookup := fun n => (h.waveLookup n).trans (k.waveLookup n)
  corrLookup := fun n => (h.corrLookup n).trans (k.corrLookup n)

/-- C83. The order of two filters does not matter, if some filter asks for what both ask
for, whichever comes first. -/
theorem C83_order (hc : Combines f g h) (hc' : Combines g f h) (hf : Filterable f oi)
    (ht : TargetThere f oi) (ht' : TargetThere g oi) (hno : oi.inspolList = []) :
    ∃ a b, (apply_oi_filter oi f >>= fun o => apply_oi_filter o g) = .ok a ∧
      (apply_oi_filter oi g >>= fun o => apply_oi_filter o f) = .ok b ∧ SameContents a b := by
  have hg : Filterable g oi := by
    refine ⟨hf.wf, Or.inr ?_, hf.unique, hf.fits, hf.vis, hf.vis2, hf.t3, hf.flux⟩
    rcases ht with h1 | ⟨x, hx, _⟩
    · exact hf.targets.resolve_left (by omega)
    · exact List.ne_nil_of_mem hx
  obtain ⟨a1, a, c, e1, e2, e3, s1⟩ := C83_two_filters_no_inspol hc hf ht hno
  obtain ⟨b1, b, c', e4, e5, e6, s2⟩ := C83_two_filters_no_inspol hc' hg ht' hno
  rw [e3] at e6
  cases e6
  refine ⟨a, b, ?_, ?_, sameContents_trans s1 (sameContents_symm s2)⟩
  · rw [e1]; exact e2
  · rw [e4]; exact e5

/-! ### The hypotheses can be met -/

/-- One target, and the first of the two channels. -/
def Ex.firstFilter : FilterSpec FP.ratFP :=
  { init_oi_filter FP.ratFP with
    target_id := 1
    wave_range := (Ex.numF 0, Ex.numF (mkRat 15 10000000)) }

/-- Some instruments, two dates, no flagged records. -/
def Ex.secondFilter : FilterSpec FP.ratFP :=
  { init_oi_filter FP.ratFP with
    insname := "INS*"
    mjd_range := (Ex.num 56974, Ex.num 56975)
    accept_flagged := false }

/-- Both. -/
def Ex.bothFilter : FilterSpec FP.ratFP :=
  { init_oi_filter FP.ratFP with
    target_id := 1
    wave_range := (Ex.numF 0, Ex.numF (mkRat 15 10000000))
    insname := "INS*"
    mjd_range := (Ex.num 56974, Ex.num 56975)
    accept_flagged := false }

theorem Ex.later {lo lo' : Rat} (h1 : lo ≤ lo') (x : FP.ratFP.Dbl) :
    FP.ratFP.lt x (some lo') = false → FP.ratFP.lt x (some lo) = false := by
  cases x with
  | none => exact fun _ => rfl
  | some q =>
    simp only [FP.ratFP, decide_eq_false_iff_not, not_lt]
    exact fun h => le_trans h1 h

theorem Ex.earlier {hi hi' : Rat} (h1 : hi' ≤ hi) (x : FP.ratFP.Dbl) :
    FP.ratFP.lt (some hi') x = false → FP.ratFP.lt (some hi) x = false := by
  cases x with
  | none => exact fun _ => rfl
  | some q =>
    simp only [FP.ratFP, decide_eq_false_iff_not, not_lt]
    exact fun h => le_trans h h1

theorem Ex.combines : Combines Ex.firstFilter Ex.secondFilter Ex.bothFilter where
  arrname := fun s => ⟨fun x => ⟨x, x⟩, fun x => x.1⟩
  insname := fun s => ⟨fun x => ⟨glob_star s, x⟩, fun x => x.2⟩
  corrname := fun s => ⟨fun x => ⟨x, x⟩, fun x => x.1⟩
  target := Or.inl ⟨by decide, rfl⟩
  mjd_from := fun x => ⟨fun y => ⟨Ex.later (lo' := 56974) (by norm_num) x y, y⟩, fun y => y.2⟩
  mjd_to := fun x => ⟨fun y => ⟨Ex.earlier (hi' := 56975) (by norm_num) x y, y⟩, fun y => y.2⟩
  wave := fun x => ⟨fun y => ⟨y, y.1, Ex.earlier (hi' := mkRat 15 10000000)
    (by norm_num [Rat.mkRat_eq_div]) x y.2⟩, fun y => y.1⟩
  bas := fun x => ⟨fun y => ⟨y, y⟩, fun y => y.1⟩
  uvrad := fun x => ⟨fun y => ⟨y, y⟩, fun y => y.1⟩
  snr := fun x => ⟨fun y => ⟨y, y⟩, fun y => y.1⟩
  accept_vis := rfl
  accept_vis2 := rfl
  accept_flux := rfl
  accept_t3amp := ⟨rfl, rfl⟩
  accept_t3phi := ⟨rfl, rfl⟩
  accept_flagged := ⟨rfl, fun h => nomatch h⟩

example : TargetThere Ex.firstFilter Ex.oi := Or.inr ⟨Ex.targ 1 "Star A", by simp [Ex.oi, Ex.targets], rfl⟩

theorem Ex.firstFilter_ins :
    (fun o => o.visList.map fun t => t.insname) <$> apply_oi_filter Ex.oi Ex.firstFilter =
      .ok [("INS1" : CStr)] := by decide +kernel

theorem Ex.observed {a : OiFits FP.ratFP} (ha : apply_oi_filter Ex.oi Ex.firstFilter = .ok a) :
    InspolObserved Ex.firstFilter Ex.oi a := by
  intro t ht r hr _
  simp only [Ex.oi, List.mem_cons, List.not_mem_nil, or_false] at ht
  subst ht
  simp only [Ex.inspol, List.mem_cons, List.not_mem_nil, or_false] at hr
  subst hr
  have h := Ex.firstFilter_ins
  rw [ha] at h
  have h : a.visList.map (fun t => t.insname) = [("INS1" : CStr)] := by
    exact Outcome.ok.inj h
  have : ("INS1" : CStr) ∈ a.visList.map (fun t => t.insname) := by rw [h]; simp
  obtain ⟨t, h1, h2⟩ := List.mem_map.mp this
  exact Or.inl ⟨t, h1, h2⟩

-- All hypotheses of `C83_two_filters_partial` together, with an OI_INSPOL table.
example : ∃ a b c, apply_oi_filter Ex.oi Ex.firstFilter = .ok a ∧
    apply_oi_filter a Ex.secondFilter = .ok b ∧ apply_oi_filter Ex.oi Ex.bothFilter = .ok c ∧
    SameContents b c := by
  obtain ⟨a, ha, _⟩ := apply_oi_filter_ok (Ex.filterable Ex.firstFilter)
    (Ex.inspolUniform Ex.firstFilter)
  obtain ⟨b, c, h⟩ := C83_two_filters_partial Ex.combines (Ex.filterable Ex.firstFilter)
    (Or.inr ⟨Ex.targ 1 "Star A", by simp [Ex.oi, Ex.targets], rfl⟩)
    (Ex.inspolUniform _) (Ex.inspolUniform _) ha (Ex.observed ha)
  exact ⟨a, b, c, ha, h⟩

-- Data are left, of one channel and of fewer records.
example : (fun o => (o.visList.map fun t => t.record.length,
      o.vis2List.map fun t => (t.nwave, t.record.length), o.inspolList.length)) <$>
    (apply_oi_filter Ex.oi Ex.firstFilter >>= fun o => apply_oi_filter o Ex.secondFilter) =
    .ok ([1], [(1, 1), (1, 1)], 1) := by decide +kernel

/-! ### The conditions are needed -/

/-- A filter by signal-to-noise ratio that rejects the closure and squared visibility data. -/
def Ex.snrFilter : FilterSpec FP.ratFP :=
  { init_oi_filter FP.ratFP with snr_range := (Ex.numF 8, Ex.numF 1000) }

/-- A filter that rejects records with flagged data only. -/
def Ex.unflaggedFilter : FilterSpec FP.ratFP :=
  { init_oi_filter FP.ratFP with accept_flagged := false }

/-- Where one filter accepts flagged data and the other does not, their order matters:
records that the first finds out of range are flagged, and they are removed only if the filter that
rejects flagged data comes second. -/
theorem C83_flagged_counterexample :
    (fun o => o.vis2List.map fun t => t.record.length) <$>
      (apply_oi_filter Ex.oi Ex.unflaggedFilter >>= fun o => apply_oi_filter o Ex.snrFilter) =
      .ok [2, 2] ∧
    (fun o => o.vis2List.map fun t => t.record.length) <$>
      (apply_oi_filter Ex.oi Ex.snrFilter >>= fun o => apply_oi_filter o Ex.unflaggedFilter) =
      .ok [] := by decide +kernel

/-- A filter for closure phases without amplitudes, then one for amplitudes without phases,
leave an OI_T3 table with neither; one filter that rejects both leaves none. -/
theorem C83_t3_counterexample :
    (fun o => o.t3List.map fun t => t.record.map fun r => (r.t3amp, r.t3phi)) <$>
      (apply_oi_filter Ex.oi { init_oi_filter FP.ratFP with accept_t3amp := false } >>= fun o =>
        apply_oi_filter o { init_oi_filter FP.ratFP with accept_t3phi := false }) =
      .ok [[([none, none], [none, none])]] ∧
    (fun o => o.t3List.length) <$>
      apply_oi_filter Ex.oi { init_oi_filter FP.ratFP with accept_t3amp := false, accept_t3phi := false } =
      .ok 0 := by decide +kernel

end Verif
