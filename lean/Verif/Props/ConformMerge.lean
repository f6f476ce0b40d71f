import Verif.Props.ConformKept
import Verif.Proof.ConformMergeFile
import Verif.Spec.ExampleMerge

/-! C80: merging keeps to the rules which oifits-check examines. -/

set_option Elab.async false

namespace Verif
open Outcome Spec
variable {R : FP}

/-- C80. Merging conforming datasets gives a conforming one. Those of version 1 must have what version 2 requires, and
names must be ones which merging can keep apart. -/
theorem C80_partial {ins : List (OiFits R)} {out : OiFits R} (hne : ins ≠ []) (hw : ∀ oi ∈ ins, oi.WF)
    (hc : ∀ oi ∈ ins, Conforms oi) (hv : ∀ oi ∈ ins, V2 oi ∨ ReadyForV2 oi) (hm : NamesMergeable ins)
    (hl : ∀ oi ∈ ins, NamesDistinct oi) (hh : ∀ oi ∈ ins, HeaderFits oi) (hz : ZeroTime R)
    (h : merge_oi_fits_list ins = .ok out) : Conforms out :=
  merge_conforms hne hw hc hv hm hl hh hz h

theorem denotes_of_known {oi : OiFits R} {id : Int} (h : TargetKnown oi id) : ∃ n, DenotesTarget oi id n := by
  obtain ⟨t, ht, hid⟩ := h
  have key : ∀ l : List (Target R), (∃ t ∈ l, t.target_id = id) → ∃ t, FirstWith (fun t => t.target_id = id) l t := by
    intro l
    induction l with
    | nil => rintro ⟨t, ht, -⟩; cases ht
    | cons x l ih =>
      rintro ⟨t, ht, hid⟩
      by_cases hx : x.target_id = id
      · exact ⟨x, [], l, rfl, hx, fun y hy => by cases hy⟩
      · rcases List.mem_cons.mp ht with rfl | ht
        · exact absurd hid hx
        · obtain ⟨t, pre, post, e, h1, h2⟩ := ih ⟨t, ht, hid⟩
          refine ⟨t, x :: pre, post, by rw [e]; rfl, h1, fun y hy => ?_⟩
          rcases List.mem_cons.mp hy with rfl | hy
          · exact hx
          · exact h2 y hy
  obtain ⟨t, h⟩ := key _ ⟨t, ht, hid⟩
  exact ⟨t.target, t, h, rfl⟩

/-- The same through files: if oifits-merge is applied to conforming files, then oifits-check passes the output file. -/
theorem C80_programs_partial {u u' : Undef R} {fs : Files R} {today prog prog' outfile in1 in2 : CStr}
    {more : List CStr} {ois : List (OiFits R)} (h : Pairwise₂ (Holds u fs) (in1 :: in2 :: more) ois)
    (ho : PlainName outfile) (hx : fs outfile = none) (hs : ∀ oi ∈ ois, oi.Storable)
    (hc : ∀ oi ∈ ois, Conforms oi) (hv : ∀ oi ∈ ois, V2 oi ∨ ReadyForV2 oi)
    (hi : ∀ oi ∈ ois, ∀ t ∈ oi.inspolList, ∀ r ∈ t.record, TargetKnown oi r.target_id)
    (hn : (distinct ((allTargets ois).map (·.target))).length < 100) (hd : GoodDates ois)
    (hm : NamesMergeable ois) (hsn : ∀ oi ∈ ois, NamesShort oi) (htx : ∀ oi ∈ ois, TextsFit oi)
    (hh : ∀ oi ∈ ois, HeaderFits oi) (hz : ZeroTime R) (htoday : CardText today ∧ today ≠ []) :
    let r := (oifits_merge u today (prog :: outfile :: in1 :: in2 :: more)).run fs
    r.exit = .code 0 ∧ ∃ out, merge_oi_fits_list ois = .ok out ∧ ∃ oi', Holds u' r.files outfile oi' ∧
      SavedAs today u' out oi' ∧ (oifits_check u' [prog', outfile]).run r.files =
        ⟨.code 0, summary oi' ++ ("All checks passed\n" : CStr), r.files⟩ := by
  have hold : ∀ oi ∈ ois, ∃ f, Holds u fs f oi := fun oi hoi => by
    obtain ⟨f, -, hf⟩ := pairwise₂_right h hoi
    exact ⟨f, hf⟩
  have hw : ∀ oi ∈ ois, oi.WF := fun oi hoi => by
    obtain ⟨f, hf⟩ := hold oi hoi
    exact hf.wf
  have hne : ois ≠ [] := by
    rintro rfl
    cases h.1
  have hl : ∀ oi ∈ ois, NamesDistinct oi := fun oi hoi => by
    obtain ⟨f, hf⟩ := hold oi hoi
    exact names_of_holds hf (hm.unique oi hoi).array
  have hsh : ∀ oi ∈ ois, SharedReferences oi := fun oi hoi => by
    obtain ⟨f, hf⟩ := hold oi hoi
    exact shared_of_holds hf (hc oi hoi)
  have ht : ∀ oi ∈ ois, TargetsResolve oi := fun oi hoi =>
    ⟨fun t h1 r h2 => denotes_of_known (hi oi hoi t h1 r h2),
      fun t h1 r h2 => denotes_of_known ((hc oi hoi).targetVis t h1 r h2),
      fun t h1 r h2 => denotes_of_known ((hc oi hoi).targetVis2 t h1 r h2),
      fun t h1 r h2 => denotes_of_known ((hc oi hoi).targetT3 t h1 r h2),
      fun t h1 r h2 => denotes_of_known ((hc oi hoi).targetFlux t h1 r h2)⟩
  obtain ⟨h1, out, h2, h3⟩ := C73_merge (prog := prog) (today := today) h ho.plain hs ht hn hd hx
  obtain ⟨oi', h4, h5⟩ := h3 u'
  have hout := merge_conforms hne hw hc hv hm hl hh hz h2
  have hv2 : V2 out := (C44_header hh h2).1
  exact ⟨h1, out, h2, oi', h4, h5, (C74_passes h4 ho.short).mpr (saved_conforms hz htoday h4 h5 hv2 hout
    (names_merged hm h2) (texts_merged hw htx hm hsn hh hd h2) (shared_merged hw hsh h2))⟩

/-! ### Examples -/

/-- A conforming dataset of version 1. -/
def Ex.oldGood : OiFits FP.ratFP := { Ex.oi2 with header := { Ex.oi2.header with content := "" } }

theorem Ex.oldGood_wf : Ex.oldGood.WF := { Ex.oi2_wf with counts := ⟨rfl, rfl, rfl, rfl, rfl, rfl, rfl, rfl⟩ }

/-- Datasets of both versions. -/
def Ex.twoVersions : List (OiFits FP.ratFP) := [Ex.good, Ex.oldGood]

theorem Ex.of_twoVersions {P : OiFits FP.ratFP → Prop} (h1 : P Ex.good) (h2 : P Ex.oldGood) :
    ∀ oi ∈ Ex.twoVersions, P oi := by
  intro oi h
  simp only [Ex.twoVersions, List.mem_cons, List.not_mem_nil, or_false] at h
  rcases h with rfl | rfl
  · exact h1
  · exact h2

theorem Ex.oldGood_names : NamesDistinct Ex.oldGood where
  arrays := by decide
  arrayLookup := by
    intro n a h
    obtain ⟨rfl, rfl⟩ := Ex.lookup_one (k := "VLTI") h
    exact ⟨List.mem_singleton.mpr rfl, rfl⟩
  corrLookup := by
    intro n a h
    obtain ⟨rfl, rfl⟩ := Ex.lookup_one (k := "CORR1") h
    exact ⟨List.mem_singleton.mpr rfl, rfl⟩

theorem Ex.twoVersions_mergeable : NamesMergeable Ex.twoVersions where
  unique := Ex.of_twoVersions ⟨by decide, by decide, by decide⟩ ⟨by decide, by decide, by decide⟩
  named := Ex.of_twoVersions (by decide +kernel) (by decide +kernel)
  fit := Ex.of_twoVersions ⟨by decide, by decide, by decide⟩ ⟨by decide, by decide, by decide⟩
  arrays := Ex.plain_of (b := 'a') (bs := "rray") (by decide) (by decide) (by decide) (by decide) (by decide)
  corrs := Ex.plain_of (b := 'i') (bs := "ns") (by decide) (by decide) (by decide) (by decide) (by decide)

theorem Ex.ok_of {α : Type} {o : Outcome α} (h : (match o with | .ok _ => true | _ => false) = true) : ∃ a, o = .ok a := by
  cases o with
  | ok a => exact ⟨a, rfl⟩
  | abort => cases h
  | ub => cases h

theorem Ex.twoVersions_headers : ∀ oi ∈ Ex.twoVersions, HeaderFits oi := by
  refine Ex.of_twoVersions ?_ ?_ <;>
  · intro key hk
    simp only [mandatoryKeys, optionalKeys, List.mem_cons, List.not_mem_nil, or_false,
      List.cons_append, List.nil_append] at hk
    rcases hk with rfl | rfl | rfl | rfl | rfl | rfl | rfl | rfl | rfl | rfl | rfl <;> decide

-- The hypotheses of `C80_partial` are met, by datasets of both versions.
example : ∃ out, Ex.twoVersions ≠ [] ∧ (∀ oi ∈ Ex.twoVersions, oi.WF) ∧ (∀ oi ∈ Ex.twoVersions, Conforms oi) ∧
    (∀ oi ∈ Ex.twoVersions, V2 oi ∨ ReadyForV2 oi) ∧ NamesMergeable Ex.twoVersions ∧
    (∀ oi ∈ Ex.twoVersions, NamesDistinct oi) ∧ (∀ oi ∈ Ex.twoVersions, HeaderFits oi) ∧ ZeroTime FP.ratFP ∧
    merge_oi_fits_list Ex.twoVersions = .ok out ∧ ¬ V2 Ex.oldGood ∧ Conforms out := by
  have hw := Ex.of_twoVersions Ex.good_wf Ex.oldGood_wf
  have hc := Ex.of_twoVersions Ex.good_keeps (Ex.conforms_of Ex.oldGood_wf (by decide +kernel))
  have hv : ∀ oi ∈ Ex.twoVersions, V2 oi ∨ ReadyForV2 oi := Ex.of_twoVersions (.inl rfl)
    (.inr ⟨by decide, by decide, by decide, by decide, by decide, by decide, by decide⟩)
  have hl := Ex.of_twoVersions (Ex.names_like rfl rfl rfl rfl) Ex.oldGood_names
  obtain ⟨out, h⟩ := Ex.ok_of (o := merge_oi_fits_list Ex.twoVersions) (by decide +kernel)
  exact ⟨out, by decide, hw, hc, hv, Ex.twoVersions_mergeable, hl, Ex.twoVersions_headers, Ex.zero_time, h, by decide,
    C80_partial (by decide) hw hc hv Ex.twoVersions_mergeable hl Ex.twoVersions_headers Ex.zero_time h⟩

-- The hypotheses of `C80_programs_partial` are met.
example : ∃ ois, Pairwise₂ (Holds Ex.undef Ex.files2) ["good", "good"] ois ∧ PlainName ("out" : CStr) ∧
    Ex.files2 "out" = none ∧ (∀ oi ∈ ois, oi.Storable) ∧ (∀ oi ∈ ois, Conforms oi) ∧
    (∀ oi ∈ ois, V2 oi ∨ ReadyForV2 oi) ∧
    (∀ oi ∈ ois, ∀ t ∈ oi.inspolList, ∀ r ∈ t.record, TargetKnown oi r.target_id) ∧
    (distinct ((allTargets ois).map (·.target))).length < 100 ∧ GoodDates ois ∧ NamesMergeable ois ∧
    (∀ oi ∈ ois, NamesShort oi) ∧ (∀ oi ∈ ois, TextsFit oi) ∧ (∀ oi ∈ ois, HeaderFits oi) := by
  obtain ⟨oi, h, hc, e1, e2, e3, e4, e5, e6, e7, e8, e9, e10⟩ := Ex.holds_good
  have T := Ex.good_texts
  have all : ∀ {P : OiFits FP.ratFP → Prop}, P oi → ∀ o ∈ [oi, oi], P o := by
    intro P hp o ho
    simp only [List.mem_cons, List.not_mem_nil, or_false, or_self] at ho
    rw [ho]; exact hp
  refine ⟨[oi, oi], ⟨rfl, ?_⟩, ⟨by decide, by decide⟩, by decide +kernel, all ?_, all hc, all (.inl ?_), all ?_, ?_,
    all (.inr ⟨⟨2014, 11, 13⟩, by decide, by decide, by decide, [], ?_⟩), ⟨all ⟨?_, ?_, ?_⟩, all ?_, all ⟨?_, ?_, ?_⟩, ?_, ?_⟩,
    all ⟨?_, ?_⟩, all ?_, all ?_⟩
  · intro i a b h1 h2
    match i with
    | 0 => cases h1; cases h2; exact h
    | 1 => cases h1; cases h2; exact h
    | i + 2 => cases h1
  · have := Ex.good_storable
    refine ⟨?_, ?_, ?_, ?_, ?_, ?_, ?_, ?_, ?_⟩
    · rw [e2]; exact this.targets
    · rw [e3]; exact this.array
    · rw [e4]; exact this.wavelength
    · rw [e5]; exact this.corr
    · rw [e6]; intro t ht; cases ht
    · rw [e7]; exact this.vis
    · rw [e8]; exact this.vis2
    · rw [e9]; exact this.t3
    · rw [e10]; exact this.flux
  · unfold V2; rw [e1]; rfl
  · rw [e6]; intro t ht; cases ht
  · have : allTargets [oi, oi] = allTargets [Ex.good, Ex.good] := by
      unfold allTargets; simp only [List.flatMap_cons, List.flatMap_nil, e2]
    rw [this]; decide +kernel
  · rw [e1]; decide
  · rw [e3]; decide
  · rw [e4]; decide
  · rw [e5]; decide
  · rw [e3]; decide +kernel
  · rw [e3]; decide
  · rw [e4]; decide
  · rw [e5]; decide
  · have : Spec.allNames OiFits.arrayList OiArray.arrname [oi, oi] = Spec.allNames OiFits.arrayList OiArray.arrname [Ex.good, Ex.good] := by
      unfold Spec.allNames; simp only [List.map_cons, List.map_nil, List.flatMap_cons, List.flatMap_nil, e3]
    rw [this]
    exact Ex.plain_of (b := 'a') (bs := "rray") (by decide) (by decide) (by decide) (by decide) (by decide)
  · have : Spec.allNames OiFits.corrList OiCorr.corrname [oi, oi] = Spec.allNames OiFits.corrList OiCorr.corrname [Ex.good, Ex.good] := by
      unfold Spec.allNames; simp only [List.map_cons, List.map_nil, List.flatMap_cons, List.flatMap_nil, e5]
    rw [this]
    exact Ex.plain_of (b := 'i') (bs := "ns") (by decide) (by decide) (by decide) (by decide) (by decide)
  · rw [e3]; decide
  · rw [e5]; decide
  · refine ⟨?_, ?_, ?_, ?_, ?_, ?_, ?_, ?_, ?_⟩
    · rw [e1]; exact T.header
    · rw [e2]; exact T.targets
    · rw [e3]; exact T.array
    · rw [e5]; exact T.corr
    · rw [e6]; intro t ht; cases ht
    · rw [e7]; exact T.vis
    · rw [e8]; exact T.vis2
    · rw [e9]; exact T.t3
    · rw [e10]; exact T.flux
  · have := Ex.twoVersions_headers Ex.good (List.mem_cons_self ..)
    unfold HeaderFits at this ⊢
    rw [e1]; exact this

/-! ### Counterexamples -/

/-- `good` with an OI_INSPOL table which refers to a target that does not exist. -/
def Ex.stray : OiFits FP.ratFP :=
  { Ex.good with numInspol := 1, inspolList := [{ Ex.inspol with record := Ex.inspol.record.map fun r => { r with target_id := 99 } }] }

theorem Ex.stray_wf : Ex.stray.WF :=
  { Ex.good_wf with
    counts := ⟨rfl, rfl, rfl, rfl, rfl, rfl, rfl, rfl⟩
    inspol := by
      intro t ht; rw [List.mem_singleton.mp ht]
      have w := Ex.oi_wf.inspol Ex.inspol (List.mem_singleton.mpr rfl)
      refine ⟨by decide, w.2, ?_⟩
      intro r hr
      obtain ⟨r', h1, rfl⟩ := List.mem_map.mp hr
      have w' := w.3 r' h1
      exact ⟨w'.1, w'.2, w'.3, w'.4⟩ }

/-- oifits-check does not examine the targets of OI_INSPOL tables, so that merging datasets which it passes may have
undefined behaviour. -/
theorem C80_inspol_counterexample : ∃ ins : List (OiFits FP.ratFP), (∀ oi ∈ ins, oi.WF ∧ Conforms oi ∧ V2 oi) ∧
    NamesMergeable ins ∧ (∀ oi ∈ ins, NamesDistinct oi) ∧ (∀ oi ∈ ins, HeaderFits oi) ∧ GoodDates ins ∧
    (distinct ((allTargets ins).map (·.target))).length < 100 ∧ merge_oi_fits_list ins = .ub := by
  have all : ∀ {P : OiFits FP.ratFP → Prop}, P Ex.good → P Ex.stray → ∀ o ∈ [Ex.good, Ex.stray], P o := by
    intro P h1 h2 o ho
    simp only [List.mem_cons, List.not_mem_nil, or_false] at ho
    rcases ho with rfl | rfl
    · exact h1
    · exact h2
  have hh := Ex.twoVersions_headers Ex.good (List.mem_cons_self ..)
  have hg : Ex.good.header.date_obs = [] ∨ ∃ d, StartsWithDate Ex.good.header.date_obs d :=
    .inr ⟨⟨2014, 11, 13⟩, by decide, by decide, by decide, [], by decide⟩
  exact ⟨[Ex.good, Ex.stray],
    all ⟨Ex.good_wf, Ex.good_keeps, rfl⟩ ⟨Ex.stray_wf, Ex.conforms_of Ex.stray_wf (by decide +kernel), rfl⟩,
    ⟨all ⟨by decide, by decide, by decide⟩ ⟨by decide, by decide, by decide⟩, all (by decide +kernel) (by decide +kernel),
      all ⟨by decide, by decide, by decide⟩ ⟨by decide, by decide, by decide⟩,
      Ex.plain_of (b := 'a') (bs := "rray") (by decide) (by decide) (by decide) (by decide) (by decide),
      Ex.plain_of (b := 'i') (bs := "ns") (by decide) (by decide) (by decide) (by decide) (by decide)⟩,
    all (Ex.names_like rfl rfl rfl rfl) (Ex.names_like rfl rfl rfl rfl), all hh hh, all hg hg, by decide +kernel,
    by decide +kernel⟩

/-- `good` with a second copy of its OI_ARRAY table, without a name. -/
def Ex.nameless : OiFits FP.ratFP :=
  { Ex.good with numArray := 2, arrayList := [{ Ex.array with arrname := "" }, Ex.array] }

theorem Ex.nameless_wf : Ex.nameless.WF :=
  { Ex.good_wf with
    counts := ⟨rfl, rfl, rfl, rfl, rfl, rfl, rfl, rfl⟩
    array := by
      intro t ht
      have w := Ex.good_wf.array Ex.array (List.mem_singleton.mpr rfl)
      simp only [Ex.nameless, List.mem_cons, List.not_mem_nil, or_false] at ht
      rcases ht with rfl | rfl
      · exact ⟨w.1⟩
      · exact w }

/-- If a dataset has an OI_ARRAY table without a name, equal to another with a name, then the output breaks a rule:
no name is left by which the data tables can refer to the array. -/
theorem C80_nameless_counterexample : ∃ (ins : List (OiFits FP.ratFP)) (out : OiFits FP.ratFP),
    (∀ oi ∈ ins, oi.WF ∧ Conforms oi ∧ V2 oi ∧ UniqueNames oi ∧ NamesFit oi) ∧
    merge_oi_fits_list ins = .ok out ∧ V2 out ∧ ¬ Conforms out := by
  obtain ⟨out, h⟩ := Ex.ok_of (o := merge_oi_fits_list [Ex.nameless, Ex.good]) (by decide +kernel)
  have h2 : (fun o : OiFits FP.ratFP => (o.header.content, o.visList.map (·.arrname))) <$>
      merge_oi_fits_list [Ex.nameless, Ex.good] = .ok ("OIFITS2", [[], []]) := by decide +kernel
  rw [h] at h2
  have h2 : (out.header.content, out.visList.map (·.arrname)) = (("OIFITS2" : CStr), ([[], []] : List CStr)) :=
    Outcome.ok.inj h2
  have hv : V2 out := congrArg Prod.fst h2
  have ha : out.visList.map (·.arrname) = [[], []] := congrArg Prod.snd h2
  refine ⟨_, out, ?_, h, hv, fun hc => ?_⟩
  · intro o ho
    simp only [List.mem_cons, List.not_mem_nil, or_false] at ho
    rcases ho with rfl | rfl
    · exact ⟨Ex.nameless_wf, Ex.conforms_of Ex.nameless_wf (by decide +kernel), rfl, ⟨by decide, by decide, by decide⟩,
        ⟨by decide, by decide, by decide⟩⟩
    · exact ⟨Ex.good_wf, Ex.good_keeps, rfl, ⟨by decide, by decide, by decide⟩, ⟨by decide, by decide, by decide⟩⟩
  · obtain ⟨t, ht, he⟩ := List.mem_map.mp (by rw [ha]; exact List.mem_cons_self .. : ([] : CStr) ∈ out.visList.map (·.arrname))
    exact hc.arrVis hv t ht he

end Verif
