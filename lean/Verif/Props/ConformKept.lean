import Verif.Props.Conform
import Verif.Proof.ConformFile

/-! C75, C76: filtering, and writing and reading, keep to the rules which oifits-check examines. -/

set_option Elab.async false

namespace Verif
open Outcome Spec
variable {R : FP}

/-! ### C75: filtering -/

/-- C75. If something other than calibrated spectra remains, filtering a conforming dataset gives a conforming one. -/
theorem C75_partial {f : FilterSpec R} {oi out : OiFits R} (hf : Filterable f oi)
    (hun : ∀ t ∈ oi.inspolList, InspolUniform f oi t) (h : apply_oi_filter oi f = .ok out) (hc : Conforms oi)
    (hd : NamesDistinct oi) (hu : StationsUniform oi) (L : Lawful R) (hw : FiniteWavelengths L oi)
    (hamp : f.accept_t3amp = true ∨ NanCompares R) (hrem : DataRemain out) : Conforms out :=
  filter_conforms hf h hc hd L hun hu hw hamp hrem

/-- The same through files: if oifits-filter is applied to a conforming file, and what is left has other data than
calibrated spectra and refers to no correlation matrix from spectra alone, then oifits-check passes the output file. -/
theorem C75_programs_partial {u u' : Undef R} {fs : Files R} {today prog prog' infile outfile : CStr}
    {removable : CStr → Bool} {opts : List (FilterOpt R)} {clobber : Bool} {oi : OiFits R}
    (h : Holds u fs infile oi) (hi : infile.length < FLEN_FILENAME) (ho : PlainName outfile)
    (hs : oi.Storable) (hch : ChannelsAgree oi) (hun : ∀ t ∈ oi.inspolList, InspolUniform (userFilter opts) oi t)
    (ht : TargetThere (userFilter opts) oi) (hx : fs outfile = none ∨ clobber = true ∧ removable outfile = true)
    (hv : V2 oi) (hc : Conforms oi) (ha : (oi.arrayList.map (·.arrname)).Nodup) (htx : TextsFit oi)
    (hu : StationsUniform oi) (L : Lawful R) (hw : FiniteWavelengths L oi) (hz : ZeroTime R)
    (hamp : (userFilter opts).accept_t3amp = true ∨ NanCompares R) (htoday : CardText today ∧ today ≠ []) :
    let r := (oifits_filter u today removable (.args opts clobber [prog, infile, outfile])).run fs
    r.exit = .code 0 ∧ ∃ out, apply_oi_filter oi (userFilter opts) = .ok out ∧
      (DataRemain out → SharedReferences out → ∃ oi', Holds u' r.files outfile oi' ∧ SavedAs today u' out oi' ∧
        (oifits_check u' [prog', outfile]).run r.files =
          ⟨.code 0, summary oi' ++ ("All checks passed\n" : CStr), r.files⟩) := by
  obtain ⟨h1, out, h0, h2, h3, h4⟩ := C73_filter_partial (prog := prog) h hi ho hs hch hun ht hx
  refine ⟨h1, out, h0, fun hrem hsh => ?_⟩
  have hf := filterable_of_holds (f := userFilter opts) h hch hs.targets.rows
  obtain ⟨oi', h5, h6⟩ := h4 u'
  refine ⟨oi', h5, h6, (C74_passes h5 ho.short).mpr ?_⟩
  have hd := names_of_holds h ha
  have hout : Conforms out := filter_conforms hf h0 hc hd L hun hu hw hamp hrem
  exact saved_conforms hz htoday h5 h6 (by unfold V2; rw [h2.header]; exact hv) hout (names_out h2 hd)
    (texts_out h2 h3 htx) hsh

/-! ### C76: files -/

/-- C76. Writing a conforming dataset and reading it gives a conforming one, if the texts fit, names are distinct, and
no correlation matrix is referred to by spectra alone, nor an array by OI_INSPOL tables alone. -/
theorem C76_partial {today : CStr} {oi : OiFits R} (hv : V2 oi) (hc : Conforms oi)
    (hd : NamesDistinct oi) (ht : TextsFit oi) (hsh : SharedReferences oi) (hz : ZeroTime R)
    (htoday : CardText today ∧ today ≠ []) (hst : oi.Storable) :
    ∃ hdus, write_oi_fits today false oi .ok = .ok (some hdus, .ok) ∧
      ∀ u, ∃ oi', read_oi_fits u (some hdus) .ok = .ok (some oi', .ok) ∧ Conforms oi' := by
  obtain ⟨hdus, h1, h2⟩ := file_of_stored (today := today) hst
  refine ⟨hdus, h1, fun u => ?_⟩
  obtain ⟨oi', h3, h4⟩ := h2 (fun _ => none) "x" u
  have h5 := saved_conforms hz htoday h3 h4 hv hc hd ht hsh
  obtain ⟨hdus', h6, h7⟩ := h3
  rw [set_same] at h6
  cases h6
  exact ⟨oi', h7, h5⟩

/-! ### Examples -/

theorem Ex.good_wf : Ex.good.WF where
  counts := ⟨rfl, rfl, rfl, rfl, rfl, rfl, rfl, rfl⟩
  array := Ex.oi_wf.array
  wavelength := Ex.oi_wf.wavelength
  corr := Ex.oi_wf.corr
  inspol := fun t ht => by cases ht
  vis := Ex.oi_wf.vis
  vis2 := Ex.oi_wf.vis2
  t3 := fun t ht => (Ex.good_storable.t3 t ht).wf
  flux := fun t ht => (Ex.good_storable.flux t ht).wf

/-- Datasets which are like `good` can be filtered. -/
theorem Ex.filterable_like {f : FilterSpec FP.ratFP} {oi : OiFits FP.ratFP} (hw : oi.WF)
    (h1 : oi.wavelengthList = [Ex.wave]) (h2 : oi.wavelengthHash = Ex.good.wavelengthHash)
    (h3 : oi.targets = Ex.good.targets) (hv : ∀ t ∈ oi.visList, t.insname = "INS1" ∧ t.nwave = 2)
    (hv2 : ∀ t ∈ oi.vis2List, t.insname = "INS1" ∧ t.nwave = 2) (ht3 : ∀ t ∈ oi.t3List, t.insname = "INS1" ∧ t.nwave = 2)
    (hfl : ∀ t ∈ oi.fluxList, t.insname = "INS1" ∧ t.nwave = 2) : Filterable f oi := by
  have hl : oi_fits_lookup_wavelength oi "INS1" = some Ex.wave := by
    unfold oi_fits_lookup_wavelength
    rw [h2]
    decide +kernel
  have hi : ∀ n w, n = ("INS1" : CStr) → instTable oi n = some w → w = Ex.wave := by
    rintro n w rfl h
    have := (instTable_some h).1
    rw [h1] at this
    exact List.mem_singleton.mp this
  refine ⟨hw, .inr ?_, ?_, ?_, ?_, ?_, ?_, ?_⟩
  · rw [h3]; decide
  · rw [h1]; decide
  · rw [h1]; decide +kernel
  · intro t ht w h
    obtain ⟨e1, e2⟩ := hv t ht
    rw [hi _ w e1 h, e1, e2]
    exact ⟨hl, rfl⟩
  · intro t ht w h
    obtain ⟨e1, e2⟩ := hv2 t ht
    rw [hi _ w e1 h, e1, e2]
    exact ⟨hl, rfl⟩
  · intro t ht w h
    obtain ⟨e1, e2⟩ := ht3 t ht
    rw [hi _ w e1 h, e1, e2]
    exact ⟨hl, rfl⟩
  · intro t ht w h
    obtain ⟨e1, e2⟩ := hfl t ht
    rw [hi _ w e1 h, e2]
    rfl

theorem Ex.lookup_one {τ : Type} {k n : CStr} {t a : τ} (h : (HMap.empty.insert k t).lookup n = some a) :
    n = k ∧ a = t := by
  rw [HMap.lookup_insert] at h
  split at h
  · next e => exact ⟨by simpa using e, (Option.some.inj h).symm⟩
  · cases h

/-- In datasets like `good` look-ups give a table with the name. -/
theorem Ex.names_like {oi : OiFits FP.ratFP} (h1 : oi.arrayList = [Ex.array]) (h2 : oi.arrayHash = Ex.good.arrayHash)
    (h3 : oi.corrList = [Ex.corr]) (h4 : oi.corrHash = Ex.good.corrHash) : NamesDistinct oi where
  arrays := by rw [h1]; decide
  arrayLookup := by
    intro n a h
    unfold oi_fits_lookup_array at h
    rw [h2] at h
    obtain ⟨rfl, rfl⟩ := Ex.lookup_one (k := "VLTI") (t := Ex.array) h
    rw [h1]
    exact ⟨List.mem_singleton.mpr rfl, rfl⟩
  corrLookup := by
    intro n a h
    unfold oi_fits_lookup_corr at h
    rw [h4] at h
    obtain ⟨rfl, rfl⟩ := Ex.lookup_one (k := "CORR1") (t := Ex.corr) h
    rw [h3]
    exact ⟨List.mem_singleton.mpr rfl, rfl⟩

theorem Ex.conforms_of {oi : OiFits FP.ratFP} (hw : oi.WF) (h : (breachLists oi).all List.isEmpty = true) :
    Conforms oi := by
  rw [← nothingFound_iff hw.wavelength]
  intro bs hbs
  simpa using List.all_eq_true.mp h bs hbs

theorem Ex.good_keeps : Conforms Ex.good := Ex.conforms_of Ex.good_wf (by decide +kernel)

theorem Ex.finite_like {oi : OiFits FP.ratFP} (h : oi.wavelengthList = [Ex.wave]) :
    FiniteWavelengths Ex.ratLawful oi := by
  intro w hw x hx
  rw [h] at hw
  rw [List.mem_singleton.mp hw] at hx
  exact .inl ((by decide +kernel : ∀ x ∈ Ex.wave.eff_wave, (Ex.ratLawful.val (FP.ratFP.toD x)).isSome) x hx)

-- The hypotheses of `C75_partial` are met, and a real selection is made.
example : ∃ out, Filterable Ex.someFilter Ex.good ∧ (∀ t ∈ Ex.good.inspolList, InspolUniform Ex.someFilter Ex.good t) ∧
    apply_oi_filter Ex.good Ex.someFilter = .ok out ∧ Conforms Ex.good ∧ NamesDistinct Ex.good ∧
    StationsUniform Ex.good ∧ FiniteWavelengths Ex.ratLawful Ex.good ∧ Ex.someFilter.accept_t3amp = true ∧
    DataRemain out ∧ Conforms out := by
  have hf : Filterable Ex.someFilter Ex.good := Ex.filterable_like Ex.good_wf rfl rfl rfl (by decide +kernel)
    (by decide +kernel) (by decide +kernel) (by decide +kernel)
  have hun : ∀ t ∈ Ex.good.inspolList, InspolUniform Ex.someFilter Ex.good t := fun t ht => by cases ht
  obtain ⟨out, h⟩ := C28_completes hf hun
  have hn : NamesDistinct Ex.good := Ex.names_like rfl rfl rfl rfl
  have hs : StationsUniform Ex.good := by unfold StationsUniform; decide +kernel
  have hr : DataRemain out := by
    refine .inl fun hnil => ?_
    have h2 : (fun o : OiFits FP.ratFP => o.visList.length) <$> apply_oi_filter Ex.good Ex.someFilter = .ok 1 := by
      decide +kernel
    rw [h] at h2
    have h2 : Outcome.ok out.visList.length = Outcome.ok 1 := h2
    rw [hnil] at h2
    cases h2
  have hw := Ex.finite_like (oi := Ex.good) rfl
  exact ⟨out, hf, hun, h, Ex.good_keeps, hn, hs, hw, rfl, hr,
    C75_partial hf hun h Ex.good_keeps hn hs Ex.ratLawful hw (.inl rfl) hr⟩

theorem Ex.calibrated_wf : Ex.calibrated.WF :=
  { Ex.good_wf with
    counts := ⟨rfl, rfl, rfl, rfl, rfl, rfl, rfl, rfl⟩
    flux := by
      intro t ht; rw [List.mem_singleton.mp ht]
      refine ⟨by decide, by decide, fun r hr => ?_⟩
      obtain ⟨r, h, rfl⟩ := List.mem_map.mp hr
      exact ⟨((Ex.flux_wf).recs r h).1, ((Ex.flux_wf).recs r h).2, ((Ex.flux_wf).recs r h).3⟩ }

theorem Ex.mixedSta_wf : Ex.mixedSta.WF :=
  { Ex.good_wf with
    counts := ⟨rfl, rfl, rfl, rfl, rfl, rfl, rfl, rfl⟩
    flux := by
      intro t ht; rw [List.mem_singleton.mp ht]
      refine ⟨by decide, by decide, fun r hr => ?_⟩
      rcases List.mem_append.mp hr with h | hr
      · exact Ex.flux_wf.recs r h
      · obtain ⟨r, h, rfl⟩ := List.mem_map.mp hr
        exact ⟨((Ex.flux_wf).recs r h).1, ((Ex.flux_wf).recs r h).2, ((Ex.flux_wf).recs r h).3⟩ }

/-- C75 is false if only calibrated spectra remain: their dataset has no OI_ARRAY table, which version 2 requires. -/
theorem C75_calibrated_counterexample : ∃ (f : FilterSpec FP.ratFP) (oi out : OiFits FP.ratFP), Filterable f oi ∧
    Conforms oi ∧ NamesDistinct oi ∧ StationsUniform oi ∧ apply_oi_filter oi f = .ok out ∧ out.fluxList ≠ [] ∧
    ¬ Conforms out := by
  let f : FilterSpec FP.ratFP := { init_oi_filter _ with
    accept_vis := false, accept_vis2 := false, accept_t3amp := false, accept_t3phi := false }
  have hf : Filterable f Ex.calibrated := Ex.filterable_like Ex.calibrated_wf rfl rfl rfl (by decide +kernel)
    (by decide +kernel) (by decide +kernel) (by decide +kernel)
  obtain ⟨out, h⟩ := C28_completes hf (fun t ht => by cases ht)
  have h2 : (fun o : OiFits FP.ratFP => (o.arrayList.length, o.fluxList.length, o.header.content)) <$>
      apply_oi_filter Ex.calibrated f = .ok (0, 1, "OIFITS2") := by decide +kernel
  rw [h] at h2
  have h2 : (out.arrayList.length, out.fluxList.length, out.header.content) = (0, 1, ("OIFITS2" : CStr)) :=
    Outcome.ok.inj h2
  simp only [Prod.mk.injEq] at h2
  refine ⟨f, _, out, hf, Ex.conforms_of Ex.calibrated_wf (by decide +kernel), Ex.names_like rfl rfl rfl rfl,
    by unfold StationsUniform; decide +kernel, h, fun hn => ?_, fun hc => ?_⟩
  · rw [hn] at h2
    exact absurd h2.2.1 (by decide)
  · exact hc.tables.1 h2.2.2 (List.eq_nil_of_length_eq_zero h2.1)

/-- C75 is false if some records of an OI_FLUX table have a STA_INDEX and others have none. -/
theorem C75_stations_counterexample : ∃ (f : FilterSpec FP.ratFP) (oi out : OiFits FP.ratFP), Filterable f oi ∧
    Conforms oi ∧ NamesDistinct oi ∧ apply_oi_filter oi f = .ok out ∧ DataRemain out ∧ ¬ Conforms out := by
  let f : FilterSpec FP.ratFP := { init_oi_filter _ with target_id := 2 }
  have hf : Filterable f Ex.mixedSta := Ex.filterable_like Ex.mixedSta_wf rfl rfl rfl (by decide +kernel)
    (by decide +kernel) (by decide +kernel) (by decide +kernel)
  obtain ⟨out, h⟩ := C28_completes hf (fun t ht => by cases ht)
  have h2 : (fun o : OiFits FP.ratFP => (o.vis2List.length,
      o.fluxList.map fun t => (t.calstat, decide (HasStation t)))) <$>
      apply_oi_filter Ex.mixedSta f = .ok (2, [('U', false)]) := by decide +kernel
  rw [h] at h2
  have h2 : (out.vis2List.length, out.fluxList.map fun t => (t.calstat, decide (HasStation t))) = (2, [('U', false)]) :=
    Outcome.ok.inj h2
  simp only [Prod.mk.injEq] at h2
  refine ⟨f, _, out, hf, Ex.conforms_of Ex.mixedSta_wf (by decide +kernel), Ex.names_like rfl rfl rfl rfl, h,
    .inr (.inl fun hn => ?_), fun hc => ?_⟩
  · rw [hn] at h2
    exact absurd h2.1 (by decide)
  · obtain ⟨t, ht, he⟩ := List.mem_map.mp (h2.2 ▸ List.mem_singleton.mpr rfl : (('U', false) : Char × Bool) ∈ _)
    have e1 := congrArg Prod.fst he
    have e2 := congrArg Prod.snd he
    exact of_decide_eq_false e2 (hc.fluxU t ht e1).2.1

-- The hypotheses of `C76_partial` are met.
theorem Ex.good_texts : TextsFit Ex.good where
  header := by decide +kernel
  targets := by decide +kernel
  array := by decide +kernel
  corr := by decide +kernel
  inspol := fun t ht => by cases ht
  vis := by decide +kernel
  vis2 := by decide +kernel
  t3 := by decide +kernel
  flux := by decide +kernel

theorem Ex.good_shared : SharedReferences Ex.good :=
  ⟨fun t ht _ => by rw [List.mem_singleton.mp ht]; exact .inl ⟨Ex.vis, List.mem_singleton.mpr rfl, by decide +kernel⟩,
    fun t ht => by cases ht⟩

theorem Ex.zero_time : ZeroTime FP.ratFP := by unfold ZeroTime; decide +kernel

example : V2 Ex.good ∧ Conforms Ex.good ∧ NamesDistinct Ex.good ∧ TextsFit Ex.good ∧ SharedReferences Ex.good ∧
    ZeroTime FP.ratFP ∧ CardText ("2016-01-01" : CStr) ∧ Ex.good.Storable :=
  ⟨rfl, Ex.good_keeps, Ex.names_like rfl rfl rfl rfl, Ex.good_texts, Ex.good_shared, Ex.zero_time, by decide +kernel,
    Ex.good_storable⟩

theorem holds_unique {u : Undef R} {fs : Files R} {n : CStr} {a b : OiFits R} (ha : Holds u fs n a)
    (hb : Holds u fs n b) : a = b := by
  obtain ⟨hdus, h1, h2⟩ := ha
  obtain ⟨hdus', h3, h4⟩ := hb
  rw [h1] at h3
  obtain rfl : hdus = hdus' := by injection h3 with h; injection h
  rw [h2] at h4
  injection h4 with h; injection h with h; injection h

/-- What is read of the file with `good`. -/
theorem Ex.holds_good : ∃ oi, Holds Ex.undef Ex.files2 "good" oi ∧ Conforms oi ∧ oi.header = Ex.good.header ∧
    oi.targets = Ex.good.targets ∧ oi.arrayList = Ex.good.arrayList ∧ oi.wavelengthList = Ex.good.wavelengthList ∧
    oi.corrList = Ex.good.corrList ∧ oi.inspolList = [] ∧ oi.visList = Ex.good.visList ∧
    oi.vis2List = Ex.good.vis2List ∧ oi.t3List = Ex.good.t3List ∧ oi.fluxList = Ex.good.fluxList := by
  obtain ⟨hdus, h1, oi', h3, e1, e2, e3, e4, e5, e6, e7, e8, e9, e10, e11⟩ :=
    C50_exact_partial "2016-01-01" Ex.good_storable Ex.undef (Ex.good_exact _)
  rw [write_oi_fits_eq _ _ Ex.good_storable] at h1
  cases h1
  have h4 : Holds Ex.undef Ex.files2 "good" oi' := ⟨_, rfl, h3⟩
  exact ⟨oi', h4, (holds_unique h4 Ex.good_holds).symm ▸ Ex.good_conforms, e1, e2, e3, e4, e5, e6, e7, e8, e9, e10⟩

-- The hypotheses of `C75_programs_partial` are met.
example : ∃ oi, Holds Ex.undef Ex.files2 "good" oi ∧ PlainName ("out" : CStr) ∧ oi.Storable ∧ ChannelsAgree oi ∧
    (∀ t ∈ oi.inspolList, InspolUniform (userFilter [.target_id 2]) oi t) ∧
    TargetThere (userFilter [.target_id 2]) oi ∧ Ex.files2 "out" = none ∧ V2 oi ∧ Conforms oi ∧
    (oi.arrayList.map (·.arrname)).Nodup ∧ TextsFit oi ∧ StationsUniform oi ∧ FiniteWavelengths Ex.ratLawful oi ∧
    ZeroTime FP.ratFP ∧ (userFilter (R := FP.ratFP) [.target_id 2]).accept_t3amp = true ∧
    CardText ("2016-01-02" : CStr) ∧ ("2016-01-02" : CStr) ≠ [] := by
  obtain ⟨oi, h, hc, e1, e2, e3, e4, e5, e6, e7, e8, e9, e10⟩ := Ex.holds_good
  have T := Ex.good_texts
  refine ⟨oi, h, ⟨by decide, by decide⟩, ?_, ?_, ?_, .inr ?_, by decide +kernel, ?_, hc, ?_, ?_, ?_, Ex.finite_like e4,
    Ex.zero_time, rfl, by decide +kernel, by decide⟩
  · have := Ex.good_storable
    refine ⟨?_, ?_, ?_, ?_, ?_, ?_, ?_, ?_, ?_⟩
    · rw [e2]; exact this.targets
    · rw [e3]; exact this.array
    · rw [e4]; exact this.wavelength
    · rw [e5]; exact this.corr
    · rw [e6]; intro t ht; cases ht
    · rw [e7]; exact this.vis
    · rw [e8]; exact this.vis2
    · rw [e9]; exact this.t3
    · rw [e10]; exact this.flux
  · refine ⟨?_, ?_, ?_, ?_, ?_, ?_⟩
    · rw [e4]; decide
    · rw [e4]; decide +kernel
    · rw [e4, e7]; decide +kernel
    · rw [e4, e8]; decide +kernel
    · rw [e4, e9]; decide +kernel
    · rw [e4, e10]; decide +kernel
  · rw [e6]; intro t ht; cases ht
  · rw [e2]; exact ⟨Ex.targ 2 "Star B", by decide +kernel, rfl⟩
  · unfold V2; rw [e1]; rfl
  · rw [e3]; decide
  · refine ⟨?_, ?_, ?_, ?_, ?_, ?_, ?_, ?_, ?_⟩
    · rw [e1]; exact T.header
    · rw [e2]; exact T.targets
    · rw [e3]; exact T.array
    · rw [e5]; exact T.corr
    · rw [e6]; intro t ht; cases ht
    · rw [e7]; exact T.vis
    · rw [e8]; exact T.vis2
    · rw [e9]; exact T.t3
    · rw [e10]; exact T.flux
  · unfold StationsUniform; rw [e10]; decide +kernel

theorem Ex.lone_storable : Ex.lone.Storable :=
  { Ex.good_storable with
    vis := by
      intro t ht; rw [List.mem_singleton.mp ht]
      exact ⟨⟨Ex.vis_wf.rows, Ex.vis_wf.chans, Ex.vis_wf.recs⟩, by decide, by decide +kernel, by decide +kernel⟩
    t3 := by intro t ht; rw [List.mem_singleton.mp ht]; exact Ex.t3_storable }

theorem Ex.lone_wf : Ex.lone.WF :=
  { Ex.good_wf with
    counts := ⟨rfl, rfl, rfl, rfl, rfl, rfl, rfl, rfl⟩
    vis := fun t ht => (Ex.lone_storable.vis t ht).wf
    t3 := fun t ht => (Ex.lone_storable.t3 t ht).wf }

/-- What is read of the file with `lone`. -/
def Ex.loneRead : OiFits FP.ratFP :=
  match read_oi_fits Ex.undef (some (fileOf "2016-01-01" Ex.lone)) .ok with
  | .ok (some oi, .ok) => oi
  | _ => Ex.oic

theorem Ex.lone_facts : Ex.isRead (read_oi_fits Ex.undef (some (fileOf "2016-01-01" Ex.lone)) .ok) = true ∧
    Ex.loneRead.fluxList.map (fun t => (t.corrname, (oi_fits_lookup_corr Ex.loneRead t.corrname).isSome)) =
      [(("CORR1" : CStr), false)] ∧ Ex.loneRead.corrList.map (·.corrname) = Ex.lone.corrList.map (·.corrname) := by
  decide +kernel

theorem Ex.lone_read : read_oi_fits Ex.undef (some (fileOf "2016-01-01" Ex.lone)) .ok = .ok (some Ex.loneRead, .ok) := by
  have h := Ex.lone_facts.1
  unfold Ex.loneRead
  match read_oi_fits Ex.undef (some (fileOf "2016-01-01" Ex.lone)) .ok, h with
  | .ok (some oi, .ok), _ => rfl

theorem Ex.lone_breach {oi : OiFits FP.ratFP}
    (h : oi.fluxList.map (fun t => (t.corrname, (oi_fits_lookup_corr oi t.corrname).isSome)) =
      [(("CORR1" : CStr), false)]) : ¬ Conforms oi := by
  intro hc
  have hm : ((("CORR1" : CStr), false) : CStr × Bool) ∈
      oi.fluxList.map (fun t => (t.corrname, (oi_fits_lookup_corr oi t.corrname).isSome)) := by
    rw [h]; exact List.mem_singleton.mpr rfl
  obtain ⟨t, ht, he⟩ := List.mem_map.mp hm
  have e1 : t.corrname = "CORR1" := congrArg Prod.fst he
  have e2 : (oi_fits_lookup_corr oi t.corrname).isSome = false := congrArg Prod.snd he
  have := hc.corrFlux t ht (by rw [e1]; decide)
  rw [e2] at this
  cases this

/-- C76 is false if only spectra refer to a correlation matrix: after reading, oifits-check does not find it. -/
theorem C76_counterexample : ∃ (oi : OiFits FP.ratFP) (hdus : List (Hdu FP.ratFP)) (oi' : OiFits FP.ratFP),
    V2 oi ∧ Conforms oi ∧ NamesDistinct oi ∧ oi.Storable ∧
    write_oi_fits "2016-01-01" false oi .ok = .ok (some hdus, .ok) ∧
    read_oi_fits Ex.undef (some hdus) .ok = .ok (some oi', .ok) ∧
    oi'.corrList.map (·.corrname) = oi.corrList.map (·.corrname) ∧ ¬ Conforms oi' := by
  refine ⟨Ex.lone, _, Ex.loneRead, rfl, Ex.conforms_of Ex.lone_wf (by decide +kernel), Ex.names_like rfl rfl rfl rfl,
    Ex.lone_storable, write_oi_fits_eq _ _ Ex.lone_storable, Ex.lone_read,
    Ex.lone_facts.2.2, Ex.lone_breach Ex.lone_facts.2.1⟩

end Verif
