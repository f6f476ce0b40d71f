import Verif.Proof.SavedIter
import Verif.Proof.SavedFilter
import Verif.Props.MergeOrder
import Verif.Props.MergeFile
import Verif.Props.FilterAll
import Verif.Proof.ConformMergeFile

/-! C103: programs which iterate see in a file what was in the dataset saved in it.
C104: what they see in the files which the programs make. -/

set_option Elab.async false

namespace Verif
open Outcome Spec

variable {R : FP} {today : CStr} {f : FilterSpec R}

/-! ### C103 -/

/-- C103. A dataset is written to a file. Whoever reads the file and iterates, with any filter, sees the data which
iterating over the dataset gives, in the same order. -/
theorem C103_saved {oi : OiFits R} (hw : oi.WF) (hs : oi.Storable) (hr : References oi) :
    ∃ hdus, write_oi_fits today false oi .ok = .ok (some hdus, .ok) ∧ ∀ u, ∃ oi',
      read_oi_fits u (some hdus) .ok = .ok (some oi', .ok) ∧ ∀ f, SameData f f oi oi' := by
  obtain ⟨hdus, h1, h2⟩ := file_of_stored (today := today) hs
  refine ⟨hdus, h1, fun u => ?_⟩
  obtain ⟨x, h3, h4⟩ := h2 (fun _ => none) [] u
  have h5 := fun f => saved_data hw hr ⟨h4.targets, h4.wavelength, h4.vis, h4.vis2, h4.t3⟩ h3 f
  obtain ⟨hdus', e, h6⟩ := h3
  rw [set_same] at e
  cases e
  exact ⟨x, h6, h5⟩

/-- C103 for a file which holds a dataset. -/
theorem C103_file {fs : Files R} {name : CStr} {oi : OiFits R} (hw : oi.WF) (hr : References oi)
    (h : FileOf today fs name oi) (u : Undef R) : ∃ x, Holds u fs name x ∧ ∀ f, SameData f f oi x := by
  obtain ⟨x, h1, h2⟩ := h u
  exact ⟨x, h1, fun f => saved_data hw hr ⟨h2.targets, h2.wavelength, h2.vis, h2.vis2, h2.t3⟩ h1 f⟩

/-! ### C104 -/

theorem joinable_fit {ins : List (OiFits R)} (hj : Joinable ins) : ∀ oi ∈ ins, NamesFit oi := fun oi ho =>
  ⟨fun t ht => card_length ((hj.held oi ho).array t ht), fun t ht => card_length ((hj.held oi ho).wavelength t ht),
    fun t ht => card_length ((hj.held oi ho).corr t ht)⟩

/-- The names in a merged dataset are ones which a file can hold. -/
theorem merged_held {ins : List (OiFits R)} {out : OiFits R} (hw : ∀ oi ∈ ins, oi.WF) (hj : Joinable ins)
    (h : merge_oi_fits_list ins = .ok out) : NamesHeld out := by
  obtain ⟨mjd, st, sa, si, sc, as, is, cs, hf⟩ := merge_full h
  have ca : ∀ y ∈ sa.list, CardText ((arrOps R).name y) := by
    refine ninv_card (arrLaws R) hf.ainv hj.few.1 (fun x hx => ?_) (fun x hx => ?_)
    · obtain ⟨oi, ho, hx⟩ := List.mem_flatMap.mp hx
      exact (hj.held oi ho).array x hx
    · obtain ⟨oi, ho, hx⟩ := List.mem_flatMap.mp hx
      exact (hj.short oi ho).1 x hx
  have ci : ∀ y ∈ si.list, CardText ((waveOps R).name y) := by
    refine ninv_card (waveLaws R) hf.iinv ?_ (fun x hx => ?_) (fun x hx => ?_)
    · have := hj.plain.few
      unfold Spec.allNames at this
      rwa [← List.map_flatMap, List.length_map] at this
    · obtain ⟨oi, ho, hx⟩ := List.mem_flatMap.mp hx
      exact (hj.held oi ho).wavelength x hx
    · obtain ⟨oi, ho, hx⟩ := List.mem_flatMap.mp hx
      exact (hj.short oi ho).2.1 x hx
  have cc : ∀ y ∈ sc.list, CardText ((corrOps R).name y) := by
    refine ninv_card (corrLaws R) hf.cinv hj.few.2 (fun x hx => ?_) (fun x hx => ?_)
    · obtain ⟨oi, ho, hx⟩ := List.mem_flatMap.mp hx
      exact (hj.held oi ho).corr x hx
    · obtain ⟨oi, ho, hx⟩ := List.mem_flatMap.mp hx
      exact (hj.short oi ho).2.2 x hx
  obtain ⟨d1, d2, d3, d4, d5⟩ := hf.data _ _ _ hf.ah hf.ih hf.ch
  constructor
  · rw [hf.arrays.1]; exact ca
  · rw [hf.waves.1]; exact ci
  · rw [hf.corrs.1]; exact cc
  · intro t' ht'
    obtain ⟨⟨inp, t⟩, hp, a, i, c, hv, hvi, hvc, he⟩ := forall₂_right d2 ht'
    obtain ⟨h1, h2⟩ := mem_tablesOf hp
    obtain ⟨k1, k2, k3⟩ := (hj.held _ h1).vis _ h2
    have E := mergedVis_spec ((hw _ h1).vis _ h2) he
    exact ⟨replaced_card hv ca k1 E.2.2.2.1, replaceName_card hvi ci k2 E.2.2.2.2.1, replaced_card hvc cc k3 E.2.2.2.2.2⟩
  · intro t' ht'
    obtain ⟨⟨inp, t⟩, hp, a, i, c, hv, hvi, hvc, he⟩ := forall₂_right d3 ht'
    obtain ⟨h1, h2⟩ := mem_tablesOf hp
    obtain ⟨k1, k2, k3⟩ := (hj.held _ h1).vis2 _ h2
    have E := mergedVis2_spec ((hw _ h1).vis2 _ h2) he
    exact ⟨replaced_card hv ca k1 E.2.2.1, replaceName_card hvi ci k2 E.2.2.2.1, replaced_card hvc cc k3 E.2.2.2.2⟩
  · intro t' ht'
    obtain ⟨⟨inp, t⟩, hp, a, i, c, hv, hvi, hvc, he⟩ := forall₂_right d4 ht'
    obtain ⟨h1, h2⟩ := mem_tablesOf hp
    obtain ⟨k1, k2, k3⟩ := (hj.held _ h1).t3 _ h2
    have E := mergedT3_spec ((hw _ h1).t3 _ h2) he
    exact ⟨replaced_card hv ca k1 E.2.2.1, replaceName_card hvi ci k2 E.2.2.2.1, replaced_card hvc cc k3 E.2.2.2.2⟩
  · intro t' ht'
    obtain ⟨⟨inp, t⟩, hp, a, i, c, hv, hvi, hvc, he⟩ := forall₂_right d5 ht'
    obtain ⟨h1, h2⟩ := mem_tablesOf hp
    obtain ⟨k1, k2, k3⟩ := (hj.held _ h1).flux _ h2
    have E := mergedFlux_spec ((hw _ h1).flux _ h2) he
    exact ⟨replaced_card hv ca k1 E.2.2.1, replaceName_card hvi ci k2 E.2.2.2.1, replaced_card hvc cc k3 E.2.2.2.2⟩

theorem merged_references {ins : List (OiFits R)} {out : OiFits R} (hw : ∀ oi ∈ ins, oi.WF) (hj : Joinable ins)
    (h : merge_oi_fits_list ins = .ok out) : References out where
  names := merged_held hw hj h
  targets t ht := by
    obtain ⟨t0, ⟨a, b, e, -, -⟩, e'⟩ := (C38_merged_targets h).2.2 t ht
    have h0 : t0 ∈ allTargets ins := by rw [e]; simp
    obtain ⟨oi, ho, h1⟩ := List.mem_flatMap.mp h0
    rw [e']
    exact hj.targets oi ho t0 h1
  there := by
    have hl := C41_lookup_partial hw hj.unique hj.plain (joinable_fit hj) h
    have key : ∀ {oi : OiFits R}, oi ∈ ins → ∀ {n n' : CStr} {k : Nat}, InstrumentThere oi n k → InsFound oi out n n' →
        InstrumentThere out n' k := by
      intro oi hoi n n' k h1 h2
      obtain ⟨⟨w, e1, e2⟩, -⟩ := merged_effWave hw hj.exact h hoi h1 h2
      obtain ⟨e3, e4⟩ := (C48_merge_lookups h).wavelength _ _ e1
      exact ⟨w, e3, e4, e2, e1⟩
    refine ⟨?_, ?_, ?_⟩
    · exact all_merged (corresponds_and (C40_vis_preserved_partial hw h) hl.2.1) fun oi hoi t ht t' ⟨h1, h3⟩ => by
        rw [show t'.nwave = t.nwave by rw [h1.1.1]]
        exact key hoi ((hj.there oi hoi).vis t ht) h3
    · exact all_merged (corresponds_and (C40_vis2_preserved hw h) hl.2.2.1) fun oi hoi t ht t' ⟨h1, h3⟩ => by
        rw [show t'.nwave = t.nwave by rw [h1.1]]
        exact key hoi ((hj.there oi hoi).vis2 t ht) h3
    · exact all_merged (corresponds_and (C40_t3_preserved hw h) hl.2.2.2.1) fun oi hoi t ht t' ⟨h1, h3⟩ => by
        rw [show t'.nwave = t.nwave by rw [h1.1]]
        exact key hoi ((hj.there oi hoi).t3 t ht) h3
  unique := by
    obtain ⟨mjd, st, sa, si, sc, as, is, cs, hf⟩ := merge_full h
    exact hf.nodup_wave hj.plain

section
variable {u : Undef R} {fs : Files R} {prog outfile in1 in2 : CStr} {more : List CStr} {ois : List (OiFits R)}

/-- C104 for oifits-merge. A program which iterates over the output file sees the data of the input files, one file
after the other. -/
theorem C104_merge_partial (h : Pairwise₂ (Holds u fs) (in1 :: in2 :: more) ois) (ho : outfile.head? ≠ some '!')
    (hs : ∀ oi ∈ ois, oi.Storable) (ht : ∀ oi ∈ ois, TargetsResolve oi)
    (hn : (distinct ((allTargets ois).map (·.target))).length < 100) (hd : GoodDates ois) (hx : fs outfile = none)
    (hj : Joinable ois) (hf : Nameless f) :
    let r := (oifits_merge u today (prog :: outfile :: in1 :: in2 :: more)).run fs
    r.exit = .code 0 ∧ ∀ u', ∃ x, Holds u' r.files outfile x ∧ DataOfAll f ois x := by
  obtain ⟨h1, out, h2, h3⟩ := C73_merge h ho hs ht hn hd hx (today := today) (prog := prog)
  have hw : ∀ oi ∈ ois, oi.WF := fun oi hoi => by
    obtain ⟨_, -, h⟩ := pairwise₂_mem_right h hoi
    exact h.wf
  refine ⟨h1, fun u' => ?_⟩
  obtain ⟨x, h4, h5⟩ := C103_file (merge_wf hw h2) (merged_references hw hj h2) h3 u'
  have hc : SameCriteria ois out f fun _ => f := sameCriteria_const hf.names hf.target
  refine ⟨x, h4, ?_, ?_, ?_⟩
  · obtain ⟨l, each, g1, g2, g3⟩ := C93_vis_partial hw hj.unique (joinable_fit hj) hj.plain hj.there hj.exact h2 hc
    obtain ⟨l₁, l₂, k1, k2, k3⟩ := (h5 f).vis
    rw [iterates_unique k1 g1] at k3
    exact ⟨l₂, each, k2, g2, k3.symm.trans g3⟩
  · obtain ⟨l, each, g1, g2, g3⟩ := C93_vis2_partial hw hj.unique (joinable_fit hj) hj.plain hj.there hj.exact h2 hc
    obtain ⟨l₁, l₂, k1, k2, k3⟩ := (h5 f).vis2
    rw [iterates_unique k1 g1] at k3
    exact ⟨l₂, each, k2, g2, k3.symm.trans g3⟩
  · obtain ⟨l, each, g1, g2, g3⟩ := C93_t3_partial hw hj.unique (joinable_fit hj) hj.plain hj.there hj.exact h2 hc
    obtain ⟨l₁, l₂, k1, k2, k3⟩ := (h5 f).t3
    rw [iterates_unique k1 g1] at k3
    exact ⟨l₂, each, k2, g2, k3.symm.trans g3⟩

theorem joinable_perm {ins ins' : List (OiFits R)} (hperm : ins.Perm ins') (h : Joinable ins) : Joinable ins' where
  unique oi ho := h.unique oi (hperm.mem_iff.mpr ho)
  held oi ho := h.held oi (hperm.mem_iff.mpr ho)
  short oi ho := h.short oi (hperm.mem_iff.mpr ho)
  few := ⟨(hperm.flatMap_right _).length_eq ▸ h.few.1, (hperm.flatMap_right _).length_eq ▸ h.few.2⟩
  plain := plainNames_perm (hperm.flatMap_right _) h.plain
  there oi ho := h.there oi (hperm.mem_iff.mpr ho)
  exact oi ho w hw oi' ho' w' hw' := h.exact oi (hperm.mem_iff.mpr ho) w hw oi' (hperm.mem_iff.mpr ho') w' hw'
  targets oi ho := h.targets oi (hperm.mem_iff.mpr ho)

/-- C104, order. oifits-merge is run twice, with the input files in different orders. Whoever iterates over the two output
files sees the same data. -/
theorem C104_order_partial {prog' outfile' in1' in2' : CStr} {more' : List CStr} {ois' : List (OiFits R)} {today' : CStr}
    (h : Pairwise₂ (Holds u fs) (in1 :: in2 :: more) ois) (h' : Pairwise₂ (Holds u fs) (in1' :: in2' :: more') ois')
    (hperm : ois.Perm ois') (ho : outfile.head? ≠ some '!') (ho' : outfile'.head? ≠ some '!')
    (hs : ∀ oi ∈ ois, oi.Storable) (ht : ∀ oi ∈ ois, TargetsResolve oi)
    (hn : (distinct ((allTargets ois).map (·.target))).length < 100) (hd : GoodDates ois)
    (hx : fs outfile = none) (hx' : fs outfile' = none) (hj : Joinable ois)
    (hf : Nameless f) :
    let r := (oifits_merge u today (prog :: outfile :: in1 :: in2 :: more)).run fs
    let r' := (oifits_merge u today' (prog' :: outfile' :: in1' :: in2' :: more')).run fs
    r.exit = .code 0 ∧ r'.exit = .code 0 ∧ ∀ u₁ u₂, ∃ x y, Holds u₁ r.files outfile x ∧ Holds u₂ r'.files outfile' y ∧
      SameDataPerm f f x y := by
  obtain ⟨e1, h1⟩ := C104_merge_partial (f := f) (today := today) (prog := prog) h ho hs ht hn hd hx hj hf
  have hn' : (distinct ((allTargets ois').map (·.target))).length < 100 := by
    have : (distinct ((allTargets ois').map (·.target))).Perm (distinct ((allTargets ois).map (·.target))) := by
      rw [List.perm_ext_iff_of_nodup (nodup_distinct _) (nodup_distinct _)]
      intro x
      rw [mem_distinct, mem_distinct]
      exact ((hperm.symm.flatMap_right _).map _).mem_iff
    rw [this.length_eq]
    exact hn
  obtain ⟨e2, h2⟩ := C104_merge_partial (f := f) (today := today') (prog := prog') h' ho'
    (fun oi hoi => hs oi (hperm.mem_iff.mpr hoi)) (fun oi hoi => ht oi (hperm.mem_iff.mpr hoi)) hn'
    (fun oi hoi => hd oi (hperm.mem_iff.mpr hoi)) hx' (joinable_perm hperm hj) hf
  refine ⟨e1, e2, fun u₁ u₂ => ?_⟩
  obtain ⟨x, a1, a2⟩ := h1 u₁
  obtain ⟨y, b1, b2⟩ := h2 u₂
  exact ⟨x, y, a1, b1, perm_contents (g := fun _ => f) hperm a2.vis b2.vis,
    perm_contents (g := fun _ => f) hperm a2.vis2 b2.vis2, perm_contents (g := fun _ => f) hperm a2.t3 b2.t3⟩

/-- C104 for oifits-filter, when no target is asked for. A program which iterates over the output file, with the criteria
given to oifits-filter and rejecting flagged data, sees what it sees when it iterates over the input file. -/
theorem C104_filter_partial {infile : CStr} {removable : CStr → Bool} {opts : List (FilterOpt R)} {clobber : Bool}
    {oi : OiFits R} (h : Holds u fs infile oi) (hi : infile.length < FLEN_FILENAME) (ho : PlainName outfile)
    (hs : oi.Storable) (hc : ChannelsAgree oi) (hun : ∀ t ∈ oi.inspolList, InspolUniform (userFilter opts) oi t)
    (ht : (userFilter opts).target_id < 0) (hx : fs outfile = none ∨ clobber = true ∧ removable outfile = true)
    (ha : AllInstruments oi) (hn : NamesHeld oi) (hct : ∀ t ∈ oi.targets.targ, ColText 32 t.target) :
    let r := (oifits_filter u today removable (.args opts clobber [prog, infile, outfile])).run fs
    r.exit = .code 0 ∧ ∀ u', ∃ x, Holds u' r.files outfile x ∧
      SameAccepted { userFilter opts with accept_flagged := false } oi x := by
  obtain ⟨h1, out, -, h2, h3, h4⟩ := C73_filter_partial h hi ho hs hc hun (.inl ht) hx (today := today) (prog := prog)
  have hf := filterable_of_holds (f := userFilter opts) h hc hs.targets.rows
  have hf' := out_filterable hf hun ht h2 h3
  refine ⟨h1, fun u' => ?_⟩
  obtain ⟨x, k1, k2⟩ := C103_file hf'.wf (out_references hf hf' ht h2 hn hct) h4 u'
  exact ⟨x, k1, accepted_trans (filtered_accepted hf hf' ht h2 ha) (k2 _) iterates_unique iterates_unique iterates_unique⟩

/-- C104 for oifits-upgrade. A program which iterates over the output file sees the data of the input file. -/
theorem C104_upgrade {infile origin observer insmode : CStr} {oi : OiFits R} (h : Holds u fs infile oi)
    (ho : outfile.head? ≠ some '!') (hv : oi.header.content ≠ "OIFITS2") (ha : oi.arrayList ≠ []) (hs : oi.Storable)
    (hx : fs outfile = none) (hr : References oi) :
    let r := (oifits_upgrade u today (prog :: infile :: outfile :: origin :: observer :: insmode :: more)).run fs
    r.exit = .code 0 ∧ ∀ u', ∃ x, Holds u' r.files outfile x ∧ ∀ f, SameData f f oi x := by
  obtain ⟨h1, h2⟩ := C73_upgrade h ho hv ha hs hx (today := today) (prog := prog) (origin := origin)
    (observer := observer) (insmode := insmode) (more := more)
  refine ⟨h1, fun u' => ?_⟩
  obtain ⟨x, h3, h4⟩ := h2 u'
  have hsv : DataSaved u' oi x := ⟨h4.targets, h4.wavelength, h4.vis, h4.vis2, h4.t3⟩
  exact ⟨x, h3, fun f => saved_data h.wf hr hsv h3 f⟩

end

/-! ### Examples -/

/-- What the examples have in common. -/
def Ex.Usable (oi : OiFits FP.ratFP) : Prop :=
  oi.arrayList.map OiArray.arrname = ["VLTI"] ∧ oi.wavelengthList.map OiWavelength.insname = ["INS1"] ∧
  oi.wavelengthList.map OiWavelength.eff_wave = [Ex.wave.eff_wave] ∧
  oi.corrList.map OiCorr.corrname = Ex.oic.corrList.map OiCorr.corrname ∧ oi.inspolList.length = 0 ∧
  oi.targets.targ.map (fun x => (x.target_id, x.target)) = [(1, ("Star A" : CStr)), (2, ("Star B" : CStr))] ∧
  oi.header.date_obs = Ex.oi.header.date_obs ∧
  (∀ t ∈ oi.visList, (CardText t.arrname ∧ CardText t.insname ∧ CardText t.corrname) ∧ t.insname = "INS1" ∧ t.nwave ≤ 2 ∧
    ∀ r ∈ t.record, r.target_id = 1 ∨ r.target_id = 2) ∧
  (∀ t ∈ oi.vis2List, (CardText t.arrname ∧ CardText t.insname ∧ CardText t.corrname) ∧ t.insname = "INS1" ∧ t.nwave ≤ 2 ∧
    ∀ r ∈ t.record, r.target_id = 1 ∨ r.target_id = 2) ∧
  (∀ t ∈ oi.t3List, (CardText t.arrname ∧ CardText t.insname ∧ CardText t.corrname) ∧ t.insname = "INS1" ∧ t.nwave ≤ 2 ∧
    ∀ r ∈ t.record, r.target_id = 1 ∨ r.target_id = 2) ∧
  (∀ t ∈ oi.fluxList, (CardText t.arrname ∧ CardText t.insname ∧ CardText t.corrname) ∧
    ∀ r ∈ t.record, r.target_id = 1 ∨ r.target_id = 2)

instance : DecidableEq FP.ratFP.Flt := inferInstanceAs (DecidableEq (Option Rat))
instance (oi : OiFits FP.ratFP) : Decidable (Ex.Usable oi) := by unfold Ex.Usable; infer_instance

theorem Ex.usable_oic : Ex.Usable Ex.oic := by decide +kernel
theorem Ex.usable_first : Ex.Usable Ex.firstRead := by decide +kernel

theorem Ex.usable_in {oi : OiFits FP.ratFP} (h1 : oi.targets = Ex.oic.targets)
    (h2 : oi.wavelengthList = Ex.oic.wavelengthList) (h3 : oi.inspolList = []) (h4 : oi.arrayList = Ex.oic.arrayList)
    (h5 : oi.visList = Ex.oic.visList) (h6 : oi.vis2List = Ex.oic.vis2List) (h7 : oi.t3List = Ex.oic.t3List)
    (h8 : oi.fluxList = Ex.oic.fluxList) (h9 : oi.corrList = Ex.oic.corrList) (h10 : oi.header = Ex.oic.header) :
    Ex.Usable oi := by
  have := Ex.usable_oic
  unfold Ex.Usable at this ⊢
  rw [h1, h2, h3, h4, h5, h6, h7, h8, h9, h10]
  exact this

theorem Ex.instrument_in {oi : OiFits FP.ratFP} (hu : Ex.Usable oi) {fs : Files FP.ratFP} {name : CStr}
    (h : Holds Ex.undef fs name oi) {n : CStr} {k : Nat} (hn : n = "INS1") (hk : k ≤ 2)
    (ht : (∃ t ∈ oi.visList, t.insname = n) ∨ (∃ t ∈ oi.vis2List, t.insname = n) ∨ (∃ t ∈ oi.t3List, t.insname = n) ∨
      ∃ t ∈ oi.fluxList, t.insname = n) : InstrumentThere oi n k := by
  obtain ⟨-, e1, e2, -⟩ := hu
  obtain ⟨w, hw⟩ : ∃ w, oi.wavelengthList = [w] := by
    have := congrArg List.length e1
    rw [List.length_map] at this
    exact List.length_eq_one_iff.mp this
  rw [hw] at e1 e2
  have e1 : w.insname = "INS1" := (List.cons.inj e1).1
  have e2 : w.eff_wave = Ex.wave.eff_wave := (List.cons.inj e2).1
  refine ⟨w, by rw [hw]; simp, e1.trans hn.symm, ?_, ?_⟩
  · rw [e2]; exact hk
  · rw [holds_lookup h n ht, instTable, hw, hn, ← e1]
    simp

theorem Ex.resolve_in {oi : OiFits FP.ratFP} (hu : Ex.Usable oi) : TargetsResolve oi := by
  obtain ⟨-, -, -, -, h0, ht, -, h1, h2, h3, h4⟩ := hu
  have key : ∀ id : Int, id = 1 ∨ id = 2 → ∃ n, DenotesTarget oi id n := by
    intro id hid
    apply Ex.denotes_mem
    have := congrArg (List.map Prod.fst) ht
    rw [List.map_map] at this
    rw [show oi.targets.targ.map (·.target_id) = [1, 2] from this]
    simpa using hid
  refine ⟨fun t ht => ?_, fun t ht r hr => key _ ((h1 t ht).2.2.2 r hr), fun t ht r hr => key _ ((h2 t ht).2.2.2 r hr),
    fun t ht r hr => key _ ((h3 t ht).2.2.2 r hr), fun t ht r hr => key _ ((h4 t ht).2 r hr)⟩
  rw [List.eq_nil_of_length_eq_zero h0] at ht
  cases ht

theorem Ex.held_in {oi : OiFits FP.ratFP} (hu : Ex.Usable oi) : NamesHeld oi := by
  obtain ⟨ha, hw, -, hc, -, -, -, h1, h2, h3, h4⟩ := hu
  refine ⟨fun t ht => ?_, fun t ht => ?_, fun t ht => ?_, fun t ht => (h1 t ht).1, fun t ht => (h2 t ht).1,
    fun t ht => (h3 t ht).1, fun t ht => (h4 t ht).1⟩
  · have := List.mem_map_of_mem (f := OiArray.arrname) ht
    rw [ha] at this
    exact (by decide +kernel : ∀ n ∈ ([("VLTI" : CStr)] : List CStr), CardText n) _ this
  · have := List.mem_map_of_mem (f := OiWavelength.insname) ht
    rw [hw] at this
    exact (by decide +kernel : ∀ n ∈ ([("INS1" : CStr)] : List CStr), CardText n) _ this
  · have := List.mem_map_of_mem (f := OiCorr.corrname) ht
    rw [hc] at this
    exact (by decide +kernel : ∀ n ∈ Ex.oic.corrList.map OiCorr.corrname, CardText n) _ this

theorem Ex.targets_in {oi : OiFits FP.ratFP} (hu : Ex.Usable oi) : ∀ t ∈ oi.targets.targ, ColText 32 t.target := by
  obtain ⟨-, -, -, -, -, ht, -⟩ := hu
  intro t h
  have := List.mem_map_of_mem (f := fun x : Target FP.ratFP => (x.target_id, x.target)) h
  rw [ht] at this
  exact (by decide +kernel : ∀ x ∈ [((1 : Int), ("Star A" : CStr)), (2, ("Star B" : CStr))], ColText 32 x.2) _ this

theorem Ex.there_in {oi : OiFits FP.ratFP} (hu : Ex.Usable oi) {fs : Files FP.ratFP} {name : CStr}
    (h : Holds Ex.undef fs name oi) : InstrumentsThere oi := by
  have hu' := hu
  obtain ⟨-, -, -, -, -, -, -, h1, h2, h3, h4⟩ := hu'
  exact ⟨fun t ht => Ex.instrument_in hu h (h1 t ht).2.1 (h1 t ht).2.2.1 (.inl ⟨t, ht, rfl⟩),
    fun t ht => Ex.instrument_in hu h (h2 t ht).2.1 (h2 t ht).2.2.1 (.inr (.inl ⟨t, ht, rfl⟩)),
    fun t ht => Ex.instrument_in hu h (h3 t ht).2.1 (h3 t ht).2.2.1 (.inr (.inr (.inl ⟨t, ht, rfl⟩)))⟩

theorem all_two {α : Type} {P : α → Prop} {x y : α} (hx : P x) (hy : P y) : ∀ z ∈ [x, y], P z := by
  intro z hz
  simp only [List.mem_cons, List.not_mem_nil, or_false] at hz
  rcases hz with rfl | rfl
  · exact hx
  · exact hy

theorem pairwise₂_two {α β : Type} {P : α → β → Prop} {a b : α} {x y : β} (h1 : P a x) (h2 : P b y) :
    Pairwise₂ P [a, b] [x, y] := by
  refine ⟨rfl, fun i s t hs ht => ?_⟩
  match i, hs, ht with
  | 0, rfl, rfl => exact h1
  | 1, rfl, rfl => exact h2

theorem flatMap_pair {α β : Type} {xs : List α} {f : α → List β} {l : List β} (hl : xs.length = 2)
    (hf : ∀ x ∈ xs, f x = l) : xs.flatMap f = l ++ l := by
  obtain ⟨a, b, rfl⟩ := List.length_eq_two.mp hl
  rw [List.flatMap_cons, List.flatMap_cons, List.flatMap_nil, hf a (by simp), hf b (by simp), List.append_nil]

theorem Ex.joinable_in {ois : List (OiFits FP.ratFP)} (hl : ois.length = 2) (hu : ∀ oi ∈ ois, Ex.Usable oi)
    {fs : Files FP.ratFP} (h : ∀ oi ∈ ois, ∃ name, Holds Ex.undef fs name oi) : Joinable ois := by
  have flat : ∀ {α : Type} {f : OiFits FP.ratFP → List α} {l : List α}, (∀ oi ∈ ois, f oi = l) →
      ois.flatMap f = l ++ l := fun hf => flatMap_pair hl hf
  refine ⟨fun oi ho => ?_, fun oi ho => Ex.held_in (hu oi ho), fun oi ho => ?_, ⟨?_, ?_⟩, ?_, fun oi ho => ?_, ?_,
    fun oi ho => Ex.targets_in (hu oi ho)⟩
  · obtain ⟨ha, hw, -, hc, -⟩ := hu oi ho
    refine ⟨?_, ?_, ?_⟩
    · rw [ha]; simp
    · rw [hw]; simp
    · rw [hc]; decide +kernel
  · obtain ⟨ha, hw, -, hc, -⟩ := hu oi ho
    refine ⟨fun t ht => ?_, fun t ht => ?_, fun t ht => ?_⟩
    · have := List.mem_map_of_mem (f := OiArray.arrname) ht
      rw [ha] at this
      exact (by decide +kernel : ∀ n ∈ ([("VLTI" : CStr)] : List CStr), onCard n ≤ 63) _ this
    · have := List.mem_map_of_mem (f := OiWavelength.insname) ht
      rw [hw] at this
      exact (by decide +kernel : ∀ n ∈ ([("INS1" : CStr)] : List CStr), onCard n ≤ 63) _ this
    · have := List.mem_map_of_mem (f := OiCorr.corrname) ht
      rw [hc] at this
      exact (by decide +kernel : ∀ n ∈ Ex.oic.corrList.map OiCorr.corrname, onCard n ≤ 63) _ this
  · have := flat (f := fun oi => oi.arrayList.map OiArray.arrname) fun oi ho => (hu oi ho).1
    rw [← List.map_flatMap] at this
    have := congrArg List.length this
    rw [List.length_map] at this
    rw [this]; decide
  · have := flat (f := fun oi => oi.corrList.map OiCorr.corrname) fun oi ho => (hu oi ho).2.2.2.1
    rw [← List.map_flatMap] at this
    have := congrArg List.length this
    rw [List.length_map] at this
    rw [this]; decide +kernel
  · have := flat (f := fun oi => oi.wavelengthList.map OiWavelength.insname) fun oi ho => (hu oi ho).2.1
    unfold Spec.allNames
    rw [this]
    exact Ex.plain_of (b := 'i') (bs := "ns") (by decide) (by decide) (by decide) (by decide) (by decide)
  · obtain ⟨name, h⟩ := h oi ho
    exact Ex.there_in (hu oi ho) h
  · have key : ∀ oi ∈ ois, ∀ w ∈ oi.wavelengthList, w.eff_wave = Ex.wave.eff_wave := by
      intro oi ho w hw
      have := List.mem_map_of_mem (f := OiWavelength.eff_wave) hw
      rw [(hu oi ho).2.2.1] at this
      simpa using this
    intro oi ho w hw oi' ho' w' hw' _
    rw [key oi ho w hw, key oi' ho' w' hw']

-- The hypotheses of `C103_file` and `C104_upgrade` are met.
example : References Ex.firstRead :=
  ⟨Ex.held_in Ex.usable_first, Ex.targets_in Ex.usable_first, Ex.there_in Ex.usable_first Ex.holds_first, by
    rw [Ex.usable_first.2.1]; simp⟩

theorem Ex.storable_first : Ex.firstRead.Storable := by
  have hw := Ex.holds_first.wf
  obtain ⟨h1, h2, h3, h4, h5, h6, h7, h8, h9, h10⟩ := Ex.first_numbers
  refine ⟨⟨?_, h4⟩, fun t ht => ?_, hw.wavelength, hw.corr, fun t ht => ?_, fun t ht => ?_,
    fun t ht => ?_, fun t ht => ?_, fun t ht => ?_⟩
  · exact fun h => h3 (congrArg List.length h)
  · obtain ⟨a, b, c, d⟩ := h5 t ht; exact ⟨hw.array t ht, a, b, c, d⟩
  · rw [List.eq_nil_of_length_eq_zero h6] at ht; cases ht
  · obtain ⟨a, b, c⟩ := h7 t ht; exact ⟨hw.vis t ht, a, b, c⟩
  · obtain ⟨a, b, c⟩ := h8 t ht; exact ⟨hw.vis2 t ht, a, b, c⟩
  · obtain ⟨a, b, c⟩ := h9 t ht; exact ⟨hw.t3 t ht, a, b, c⟩
  · obtain ⟨a, b, c, d⟩ := h10 t ht; exact ⟨hw.flux t ht, a, fun _ => b, c, fun _ => d⟩

theorem Ex.target_names {o : OiFits FP.ratFP} (ho : Ex.Usable o) :
    o.targets.targ.map (·.target) = [("Star A" : CStr), ("Star B" : CStr)] := by
  have := congrArg (List.map Prod.snd) ho.2.2.2.2.2.1
  rw [List.map_map] at this
  exact this

theorem Ex.dates_in {o : OiFits FP.ratFP} (ho : Ex.Usable o) :
    o.header.date_obs = [] ∨ ∃ d, StartsWithDate o.header.date_obs d := by
  rw [ho.2.2.2.2.2.2.1]
  exact Ex.both_dates Ex.oi (by simp [Ex.both])

-- The data of two files, merged in either order.
example :
    let r := (oifits_merge Ex.undef "2016-01-02" ["oifits-merge", "out", "in", "first"]).run Ex.files
    let r' := (oifits_merge Ex.undef "2016-01-03" ["oifits-merge", "other", "first", "in"]).run Ex.files
    r.exit = .code 0 ∧ r'.exit = .code 0 ∧ ∀ u₁ u₂, ∃ x y, Holds u₁ r.files "out" x ∧ Holds u₂ r'.files "other" y ∧
      SameDataPerm (init_oi_filter _) (init_oi_filter _) x y := by
  obtain ⟨oi, h, h1, h2, h3, h4, h5, h6, h7, h8, h9, h10⟩ := Ex.holds_in
  have hu := Ex.usable_in h1 h2 h3 h4 h5 h6 h7 h8 h9 h10
  refine C104_order_partial (ois := [oi, Ex.firstRead]) (ois' := [Ex.firstRead, oi]) (pairwise₂_two h Ex.holds_first)
    (pairwise₂_two Ex.holds_first h) (List.Perm.swap _ _ _) (by decide) (by decide)
    (all_two (Ex.storable_in h1 h2 h3 h4 h5 h6 h7 h8 h9) Ex.storable_first)
    (all_two (Ex.resolve_in hu) (Ex.resolve_in Ex.usable_first)) ?_ (all_two (Ex.dates_in hu) (Ex.dates_in Ex.usable_first))
    rfl rfl (Ex.joinable_in rfl (all_two hu Ex.usable_first)
      (all_two (P := fun o => ∃ name, Holds Ex.undef Ex.files name o) ⟨_, h⟩ ⟨_, Ex.holds_first⟩))
    ⟨fun n => ⟨glob_star n, glob_star n, glob_star n⟩, by decide⟩
  unfold allTargets
  rw [List.map_flatMap, List.flatMap_cons, List.flatMap_cons, List.flatMap_nil, Ex.target_names hu,
    Ex.target_names Ex.usable_first]
  decide +kernel

theorem Ex.instruments_in {oi : OiFits FP.ratFP} (h2 : oi.wavelengthList = Ex.oic.wavelengthList)
    (h5 : oi.visList = Ex.oic.visList) (h6 : oi.vis2List = Ex.oic.vis2List) (h7 : oi.t3List = Ex.oic.t3List)
    (h8 : oi.fluxList = Ex.oic.fluxList) : AllInstruments oi := by
  refine ⟨?_, ?_, ?_, ?_⟩
  · rw [h2, h5]; decide +kernel
  · rw [h2, h6]; decide +kernel
  · rw [h2, h7]; decide +kernel
  · rw [h2, h8]; decide +kernel

-- The hypotheses of `C104_filter_partial` are met.
example (u' : Undef FP.ratFP) :
    let r := (oifits_filter Ex.undef "2016-01-02" (fun _ => false)
      (.args [.accept_vis 0] false ["oifits-filter", "in", "out"])).run Ex.files
    r.exit = .code 0 ∧ ∃ oi x, Holds Ex.undef Ex.files "in" oi ∧ Holds u' r.files "out" x ∧
      SameAccepted { userFilter [.accept_vis 0] with accept_flagged := false } oi x := by
  obtain ⟨oi, h, h1, h2, h3, h4, h5, h6, h7, h8, h9, h10⟩ := Ex.holds_in
  have hu := Ex.usable_in h1 h2 h3 h4 h5 h6 h7 h8 h9 h10
  obtain ⟨e, k⟩ := C104_filter_partial (u := Ex.undef) (fs := Ex.files) (today := "2016-01-02") (prog := "oifits-filter")
    (outfile := "out") (removable := fun _ => false) (opts := [.accept_vis 0]) (clobber := false) h (by decide)
    ⟨by decide, by decide⟩ (Ex.storable_in h1 h2 h3 h4 h5 h6 h7 h8 h9) (Ex.channels_in h2 h5 h6 h7 h8) (by rw [h3]; simp)
    (by decide) (.inl rfl) (Ex.instruments_in h2 h5 h6 h7 h8) (Ex.held_in hu) (Ex.targets_in hu)
  obtain ⟨x, k1, k2⟩ := k u'
  exact ⟨e, oi, x, h, k1, k2⟩

end Verif
