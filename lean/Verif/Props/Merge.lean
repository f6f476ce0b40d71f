import Verif.Proof.MergeOut
import Verif.Spec.ExampleMerge

/-! Properties of merging datasets, C38 to C48, C58 and C59. The functions are those of
`Model/Merge.lean`; what they are said to do is in `Spec/Merge.lean`. -/

namespace Verif
open Outcome Spec

variable {R : FP} {ins : List (OiFits R)} {out : OiFits R}

/-! ### C38: merged targets -/

/-- C38. The merged targets are those of the inputs, one for each name, in order of
first appearance; each has the contents of the first of its name; TARGET_IDs are
1, 2, ... -/
theorem C38_merged_targets (h : merge_oi_fits_list ins = .ok out) :
    out.targets.targ.map (·.target) = distinct ((allTargets ins).map (·.target)) ∧
    (∀ (i : Nat) t, out.targets.targ[i]? = some t → t.target_id = (i : Int) + 1) ∧
    (∀ t ∈ out.targets.targ, ∃ t0,
      FirstWith (fun u => u.target = t.target) (allTargets ins) t0 ∧
      t = { t0 with target_id := t.target_id }) := by
  obtain ⟨mjd, st, sa, si, sc, as, is, cs, hf⟩ := merge_full h
  rw [hf.targets]
  exact ⟨hf.tinv.names, hf.tinv.ids, hf.tinv.first⟩

/-- C38. Names of merged targets are not repeated. -/
theorem C38_unique_names (h : merge_oi_fits_list ins = .ok out) :
    (out.targets.targ.map (·.target)).Nodup ∧ (out.targets.targ.map (·.target_id)).Nodup := by
  obtain ⟨h1, h2, -⟩ := C38_merged_targets h
  refine ⟨by rw [h1]; exact nodup_distinct _, ?_⟩
  rw [List.nodup_iff_pairwise_ne, List.pairwise_iff_getElem]
  intro i j hi hj hij
  simp only [List.length_map] at hi hj
  have e1 := h2 i _ (List.getElem?_eq_getElem hi)
  have e2 := h2 j _ (List.getElem?_eq_getElem hj)
  simp only [List.getElem_map]
  omega

/-- C38. The limit of the code: with a hundred or more target names it aborts. -/
theorem C38_too_many_targets_abort (hd : GoodDates ins)
    (hn : 100 ≤ (distinct ((allTargets ins).map (·.target))).length) :
    merge_oi_fits_list ins = .abort := by
  obtain ⟨mjd, hmjd, -⟩ := min_mjd_fold hd 100000
  unfold merge_oi_fits_list
  simp only
  rw [merge_oi_header_eq, show files_min_mjd ins = .ok mjd from hmjd, map_ok, bind_ok,
    merge_oi_target_eq, tfold_abort tinv_empty (by simp) (by simpa using hn)]
  rfl

example : (fun o => o.targets.targ.map fun t => (t.target_id, t.target)) <$>
    merge_oi_fits_list Ex.both = .ok [(1, "Star A"), (2, "Star B"), (3, "Star C")] := by
  decide +kernel
/-- A dataset with a hundred targets. -/
def manyTargets : OiFits FP.ratFP :=
  { Ex.oi with targets := { Ex.targets with
    targ := (List.range 100).map fun i => Ex.targ i (fmtInt i) } }
example : GoodDates [manyTargets] := by
  intro o ho
  simp only [List.mem_singleton] at ho
  subst ho
  exact Or.inr ⟨⟨2014, 11, 13⟩, by decide, by decide, by decide, [], by decide⟩
example : 100 ≤ (distinct ((allTargets [manyTargets]).map (·.target))).length := by decide +kernel

/-! ### C39: the target of each record -/

/-- Corresponding records refer to targets of the same name. -/
def SameTargets {ρ : Type} (id : ρ → Int) (inp out : OiFits R) (l l' : List ρ) : Prop :=
  Pairwise₂ (fun r r' => ∃ n, DenotesTarget inp (id r) n ∧ DenotesTarget out (id r') n) l l'

/-- C39. Each merged record refers to a target of the name which the input record
refers to in its own dataset. -/
theorem C39_same_targets (hw : ∀ oi ∈ ins, oi.WF) (h : merge_oi_fits_list ins = .ok out) :
    Corresponds OiFits.inspolList ins out (fun inp t t' => SameTargets OiInspolRecord.target_id inp out t.record t'.record) ∧
    Corresponds OiFits.visList ins out (fun inp t t' => SameTargets OiVisRecord.target_id inp out t.record t'.record) ∧
    Corresponds OiFits.vis2List ins out (fun inp t t' => SameTargets OiVis2Record.target_id inp out t.record t'.record) ∧
    Corresponds OiFits.t3List ins out (fun inp t t' => SameTargets OiT3Record.target_id inp out t.record t'.record) ∧
    Corresponds OiFits.fluxList ins out (fun inp t t' => SameTargets OiFluxRecord.target_id inp out t.record t'.record) := by
  obtain ⟨mjd, st, sa, si, sc, as, is, cs, hf⟩ := merge_full h
  obtain ⟨d1, d2, d3, d4, d5⟩ := hf.data _ _ _ hf.ah hf.ih hf.ch
  have key : ∀ {inp : OiFits R} {id id' : Int}, mergedTargetId inp st.2 id = .ok id' →
      ∃ n, DenotesTarget inp id n ∧ DenotesTarget out id' n := fun hid =>
    mergedTargetId_ok hf.tinv (by rw [hf.targets]) hid
  refine ⟨corresponds_of d1 ?_, corresponds_of d2 ?_, corresponds_of d3 ?_, corresponds_of d4 ?_,
    corresponds_of d5 ?_⟩
  · rintro inp hi t ht t' ⟨a, i, c, -, -, -, he⟩
    exact pairwise₂_mono (fun _ _ => key) (mergedInspol_spec ((hw inp hi).inspol t ht) he).2.1
  · rintro inp hi t ht t' ⟨a, i, c, -, -, -, he⟩
    exact pairwise₂_mono (fun _ _ => key) (mergedVis_spec ((hw inp hi).vis t ht) he).2.2.1
  · rintro inp hi t ht t' ⟨a, i, c, -, -, -, he⟩
    exact pairwise₂_mono (fun _ _ => key) (mergedVis2_spec ((hw inp hi).vis2 t ht) he).2.1
  · rintro inp hi t ht t' ⟨a, i, c, -, -, -, he⟩
    exact pairwise₂_mono (fun _ _ => key) (mergedT3_spec ((hw inp hi).t3 t ht) he).2.1
  · rintro inp hi t ht t' ⟨a, i, c, -, -, -, he⟩
    exact pairwise₂_mono (fun _ _ => key) (mergedFlux_spec ((hw inp hi).flux t ht) he).2.1

/-- C39. What happens otherwise: a record which refers to no target of its dataset
makes the code dereference NULL. -/
theorem C39_unknown_target_ub : ∃ oi : OiFits FP.ratFP, oi.WF ∧
    merge_oi_fits_list [oi] = .ub := by
  refine ⟨{ Ex.oi2 with targets := Ex.targets }, ?_, ?_⟩
  · have h := Ex.oi2_wf
    exact ⟨⟨rfl, rfl, rfl, rfl, rfl, rfl, rfl, rfl⟩, h.array, h.wavelength, h.corr, h.inspol, h.vis,
      h.vis2, h.t3, h.flux⟩
  · decide +kernel

example : (fun o => o.vis2List.map fun t => t.record.map (·.target_id)) <$>
    merge_oi_fits_list Ex.both = .ok [[1, 2, 1], [1, 2, 1], [2, 3]] := by
  decide +kernel

/-! ### C40: data are preserved -/

/-- C40. OI_INSPOL. -/
theorem C40_inspol_preserved (hw : ∀ oi ∈ ins, oi.WF) (h : merge_oi_fits_list ins = .ok out) :
    Corresponds OiFits.inspolList ins out fun _ t t' => InspolSame t t' := by
  obtain ⟨mjd, st, sa, si, sc, as, is, cs, hf⟩ := merge_full h
  obtain ⟨d1, d2, d3, d4, d5⟩ := hf.data _ _ _ hf.ah hf.ih hf.ch
  refine corresponds_of d1 ?_
  rintro inp hi t ht t' ⟨a, i, c, -, -, -, he⟩
  exact (mergedInspol_spec ((hw inp hi).inspol t ht) he).1

/-- C40. OI_VIS2. -/
theorem C40_vis2_preserved (hw : ∀ oi ∈ ins, oi.WF) (h : merge_oi_fits_list ins = .ok out) :
    Corresponds OiFits.vis2List ins out fun _ t t' => Vis2Same t t' := by
  obtain ⟨mjd, st, sa, si, sc, as, is, cs, hf⟩ := merge_full h
  obtain ⟨d1, d2, d3, d4, d5⟩ := hf.data _ _ _ hf.ah hf.ih hf.ch
  refine corresponds_of d3 ?_
  rintro inp hi t ht t' ⟨a, i, c, -, -, -, he⟩
  exact (mergedVis2_spec ((hw inp hi).vis2 t ht) he).1

/-- C40. OI_T3. -/
theorem C40_t3_preserved (hw : ∀ oi ∈ ins, oi.WF) (h : merge_oi_fits_list ins = .ok out) :
    Corresponds OiFits.t3List ins out fun _ t t' => T3Same t t' := by
  obtain ⟨mjd, st, sa, si, sc, as, is, cs, hf⟩ := merge_full h
  obtain ⟨d1, d2, d3, d4, d5⟩ := hf.data _ _ _ hf.ah hf.ih hf.ch
  refine corresponds_of d4 ?_
  rintro inp hi t ht t' ⟨a, i, c, -, -, -, he⟩
  exact (mergedT3_spec ((hw inp hi).t3 t ht) he).1

/-- C40. OI_FLUX. -/
theorem C40_flux_preserved (hw : ∀ oi ∈ ins, oi.WF) (h : merge_oi_fits_list ins = .ok out) :
    Corresponds OiFits.fluxList ins out fun _ t t' => FluxSame t t' := by
  obtain ⟨mjd, st, sa, si, sc, as, is, cs, hf⟩ := merge_full h
  obtain ⟨d1, d2, d3, d4, d5⟩ := hf.data _ _ _ hf.ah hf.ih hf.ch
  refine corresponds_of d5 ?_
  rintro inp hi t ht t' ⟨a, i, c, -, -, -, he⟩
  exact (mergedFlux_spec ((hw inp hi).flux t ht) he).1

/-- C40. OI_VIS, what holds: all but IVISERR is preserved, and that too unless the
complex visibilities are in use. -/
theorem C40_vis_preserved_partial (hw : ∀ oi ∈ ins, oi.WF) (h : merge_oi_fits_list ins = .ok out) :
    Corresponds OiFits.visList ins out fun _ t t' =>
      VisSameButIviserr t t' ∧ (t.usecomplex = false → VisSame t t') := by
  obtain ⟨mjd, st, sa, si, sc, as, is, cs, hf⟩ := merge_full h
  obtain ⟨d1, d2, d3, d4, d5⟩ := hf.data _ _ _ hf.ah hf.ih hf.ch
  refine corresponds_of d2 ?_
  rintro inp hi t ht t' ⟨a, i, c, -, -, -, he⟩
  have := mergedVis_spec ((hw inp hi).vis t ht) he
  exact ⟨this.1, this.2.1⟩

/-- C40. OI_VIS, false part: IVISERR is lost (it is copied from RVISERR). -/
theorem C40_vis_preserved_false : ¬ ∀ (R : FP) (ins : List (OiFits R)) (out : OiFits R),
    (∀ oi ∈ ins, oi.WF) → merge_oi_fits_list ins = .ok out →
    Corresponds OiFits.visList ins out fun _ t t' => VisSame t t' := by
  intro h
  obtain ⟨out, hout⟩ := merge_ok Ex.both_wf Ex.both_resolve (by decide +kernel) Ex.both_dates
  have hv : (fun o => o.visList.map fun t => t.record.map (·.iviserr)) <$>
      merge_oi_fits_list Ex.both = .ok [Ex.vis.record.map (·.rviserr)] := by
    decide +kernel
  rw [hout, map_ok, Outcome.ok.injEq] at hv
  obtain ⟨hlen, hall⟩ := h _ _ _ Ex.both_wf hout
  cases hl : out.visList with
  | nil => rw [hl] at hv; simp at hv
  | cons t' l =>
    rw [hl, List.map_cons] at hv
    have hv := (List.cons.inj hv).1
    have h1 := hall 0 (Ex.oi, Ex.vis) t' rfl (by rw [hl]; rfl)
    cases hr : t'.record with
    | nil => rw [hr] at hv; simp [Ex.vis] at hv
    | cons r' rs =>
      have h2 := h1.2.2 0 (Ex.visRec 1 [false, true]) r' rfl (by rw [hr]; rfl)
      rw [hr, List.map_cons] at hv
      have hv := (List.cons.inj hv).1
      rw [h2] at hv
      have : (Ex.visRec 1 [false, true]).iviserr ≠ (Ex.visRec 1 [false, true]).rviserr := by
        decide +kernel
      exact this hv

/-- C40. The number of tables and of records of each type is the total over the
inputs (shown for all types, including OI_VIS). -/
theorem C40_counts (hw : ∀ oi ∈ ins, oi.WF) (h : merge_oi_fits_list ins = .ok out) :
    out.visList.map (·.record.length) = ins.flatMap (fun oi => oi.visList.map (·.record.length)) ∧
    out.vis2List.map (·.record.length) = ins.flatMap (fun oi => oi.vis2List.map (·.record.length)) ∧
    out.t3List.map (·.record.length) = ins.flatMap (fun oi => oi.t3List.map (·.record.length)) ∧
    out.fluxList.map (·.record.length) = ins.flatMap (fun oi => oi.fluxList.map (·.record.length)) ∧
    out.inspolList.map (·.record.length) =
      ins.flatMap (fun oi => oi.inspolList.map (·.record.length)) := by
  have key : ∀ {τ : Type} {tabs : OiFits R → List τ} {n : τ → Nat},
      Corresponds tabs ins out (fun _ t t' => n t = n t') →
      (tabs out).map n = ins.flatMap (fun oi => (tabs oi).map n) := by
    intro τ tabs n hc
    have e : ins.flatMap (fun oi => (tabs oi).map n) = (tablesOf tabs ins).map fun p => n p.2 := by
      unfold tablesOf
      simp [List.map_flatMap, Function.comp_def]
    rw [e]
    obtain ⟨hl, hp⟩ := hc
    apply List.ext_getElem
    · simp [hl]
    · intro i h1 h2
      simp only [List.length_map] at h1 h2
      simp only [List.getElem_map]
      exact (hp i _ _ (List.getElem?_eq_getElem h2) (List.getElem?_eq_getElem h1)).symm
  have mono : ∀ {τ : Type} {tabs : OiFits R → List τ} {P Q : OiFits R → τ → τ → Prop},
      Corresponds tabs ins out P → (∀ i t t', P i t t' → Q i t t') → Corresponds tabs ins out Q :=
    fun hc hpq => ⟨hc.1, fun i x y hx hy => hpq _ _ _ (hc.2 i x y hx hy)⟩
  exact ⟨key (mono (C40_vis_preserved_partial hw h) fun _ _ _ h => h.1.2.1),
    key (mono (C40_vis2_preserved hw h) fun _ _ _ h => h.2.1),
    key (mono (C40_t3_preserved hw h) fun _ _ _ h => h.2.1),
    key (mono (C40_flux_preserved hw h) fun _ _ _ h => h.2.1),
    key (mono (C40_inspol_preserved hw h) fun _ _ _ h => h.2.1)⟩

example : (∀ oi ∈ Ex.both, oi.WF) ∧ ∃ out, merge_oi_fits_list Ex.both = .ok out :=
  ⟨Ex.both_wf, merge_ok Ex.both_wf Ex.both_resolve (by decide +kernel) Ex.both_dates⟩
example : (fun o => o.vis2List.map fun t => (t.revision, t.record.map (·.time))) <$>
    merge_oi_fits_list Ex.both = .ok [(2, [Ex.num 0, Ex.num 0, Ex.num 0]),
      (2, [Ex.num 0, Ex.num 0, Ex.num 0]), (2, [Ex.num 0, Ex.num 0])] := by
  decide +kernel

/-! ### C41: instrument references -/

/-- The INSNAME `n` of dataset `inp` has become `n'`: if it named an OI_WAVELENGTH
table, then `n'` names, in the merged dataset, a table with the same channels within
tolerance. -/
def InsKept (inp out : OiFits R) (n n' : CStr) : Prop :=
  ∀ w ∈ inp.wavelengthList, w.insname = n →
    ∃ w', w' ∈ out.wavelengthList ∧ w'.insname = n' ∧ SameWaves w w'

/-- As `InsKept`, and `oi_fits_lookup_wavelength` finds that table. -/
def InsFound (inp out : OiFits R) (n n' : CStr) : Prop :=
  ∀ w ∈ inp.wavelengthList, w.insname = n →
    ∃ w', oi_fits_lookup_wavelength out n' = some w' ∧ SameWaves w w'

/-- C41. The INSNAME of each data table (of each record of OI_INSPOL tables) still names
an OI_WAVELENGTH table with the same channels. This does not exclude that another table
has that name as well: see `C41_lookup_partial`. -/
theorem C41_ins_kept (hw : ∀ oi ∈ ins, oi.WF) (hu : ∀ oi ∈ ins, UniqueNames oi)
    (hn : ∀ oi ∈ ins, NamesFit oi) (h : merge_oi_fits_list ins = .ok out) :
    Corresponds OiFits.inspolList ins out (fun inp t t' =>
      Pairwise₂ (fun r r' => InsKept inp out r.insname r'.insname) t.record t'.record) ∧
    Corresponds OiFits.visList ins out (fun inp t t' => InsKept inp out t.insname t'.insname) ∧
    Corresponds OiFits.vis2List ins out (fun inp t t' => InsKept inp out t.insname t'.insname) ∧
    Corresponds OiFits.t3List ins out (fun inp t t' => InsKept inp out t.insname t'.insname) ∧
    Corresponds OiFits.fluxList ins out (fun inp t t' => InsKept inp out t.insname t'.insname) := by
  obtain ⟨mjd, st, sa, si, sc, as, is, cs, hf⟩ := merge_full h
  obtain ⟨d1, d2, d3, d4, d5⟩ := hf.data _ _ _ hf.ah hf.ih hf.ch
  have key : ∀ {inp : OiFits R} {hh : HMap CStr} {n : CStr}, inp ∈ ins →
      HInv (waveOps R) inp.wavelengthList si.list hh → InsKept inp out n (replaceName hh n) := by
    intro inp hh n hi hv w hw' e
    subst e
    obtain ⟨w', h1, h2, h3⟩ := hf.ins_resolves hn (hu inp hi) hv hw'
    exact ⟨w', h1, h2, h3⟩
  refine ⟨corresponds_of d1 ?_, corresponds_of d2 ?_, corresponds_of d3 ?_, corresponds_of d4 ?_,
    corresponds_of d5 ?_⟩
  · rintro inp hi t ht t' ⟨a, i, c, -, hv, -, he⟩
    refine pairwise₂_mono (fun r r' e => ?_) (mergedInspol_spec ((hw inp hi).inspol t ht) he).2.2.2
    rw [e]; exact key hi hv
  · rintro inp hi t ht t' ⟨a, i, c, -, hv, -, he⟩
    rw [(mergedVis_spec ((hw inp hi).vis t ht) he).2.2.2.2.1]; exact key hi hv
  · rintro inp hi t ht t' ⟨a, i, c, -, hv, -, he⟩
    rw [(mergedVis2_spec ((hw inp hi).vis2 t ht) he).2.2.2.1]; exact key hi hv
  · rintro inp hi t ht t' ⟨a, i, c, -, hv, -, he⟩
    rw [(mergedT3_spec ((hw inp hi).t3 t ht) he).2.2.2.1]; exact key hi hv
  · rintro inp hi t ht t' ⟨a, i, c, -, hv, -, he⟩
    rw [(mergedFlux_spec ((hw inp hi).flux t ht) he).2.2.2.1]; exact key hi hv

/-- C41, under the condition that input INSNAMEs do not look like names generated by
merging: `oi_fits_lookup_wavelength` finds the table. Without the condition it does not
always, see `C41_lookup_false`. -/
theorem C41_lookup_partial (hw : ∀ oi ∈ ins, oi.WF) (hu : ∀ oi ∈ ins, UniqueNames oi)
    (hp : PlainNames ("ins" : CStr) (Spec.allNames OiFits.wavelengthList OiWavelength.insname ins))
    (hn : ∀ oi ∈ ins, NamesFit oi) (h : merge_oi_fits_list ins = .ok out) :
    Corresponds OiFits.inspolList ins out (fun inp t t' =>
      Pairwise₂ (fun r r' => InsFound inp out r.insname r'.insname) t.record t'.record) ∧
    Corresponds OiFits.visList ins out (fun inp t t' => InsFound inp out t.insname t'.insname) ∧
    Corresponds OiFits.vis2List ins out (fun inp t t' => InsFound inp out t.insname t'.insname) ∧
    Corresponds OiFits.t3List ins out (fun inp t t' => InsFound inp out t.insname t'.insname) ∧
    Corresponds OiFits.fluxList ins out (fun inp t t' => InsFound inp out t.insname t'.insname) := by
  obtain ⟨mjd, st, sa, si, sc, as, is, cs, hf⟩ := merge_full h
  have key : ∀ {inp : OiFits R} {n n' : CStr}, InsKept inp out n n' → InsFound inp out n n' := by
    intro inp n n' hk w hw' e
    obtain ⟨w', h1, rfl, h3⟩ := hk w hw' e
    exact ⟨w', hf.lookup_wave (hf.nodup_wave hp) h1, h3⟩
  obtain ⟨h1, h2, h3, h4, h5⟩ := C41_ins_kept hw hu hn h
  exact ⟨⟨h1.1, fun i x y hx hy => pairwise₂_mono (fun _ _ => key) (h1.2 i x y hx hy)⟩,
    ⟨h2.1, fun i x y hx hy => key (h2.2 i x y hx hy)⟩,
    ⟨h3.1, fun i x y hx hy => key (h3.2 i x y hx hy)⟩,
    ⟨h4.1, fun i x y hx hy => key (h4.2 i x y hx hy)⟩,
    ⟨h5.1, fun i x y hx hy => key (h5.2 i x y hx hy)⟩⟩

example : (fun o => (o.wavelengthList.map (·.insname), o.vis2List.map (·.insname),
      o.inspolList.map fun t => t.record.map (·.insname))) <$>
    merge_oi_fits_list Ex.both = .ok (["INS1", "INS1_002"], ["INS1", "INS1", "INS1_002"],
      [["INS1"]]) := by
  decide +kernel
example : (∀ oi ∈ Ex.both, oi.WF) ∧ (∀ oi ∈ Ex.both, UniqueNames oi) ∧
    (∀ oi ∈ Ex.both, NamesFit oi) ∧
    PlainNames ("ins" : CStr) (Spec.allNames OiFits.wavelengthList OiWavelength.insname Ex.both) :=
  ⟨Ex.both_wf, Ex.both_unique, Ex.both_fit, Ex.both_plain.2.1⟩

/-! ### C42: array references -/

/-- The ARRNAME `n` of dataset `inp` has become `n'`: if it named an OI_ARRAY table,
then `n'` names, in the merged dataset, a table with the same centre and all its
stations, within tolerance. -/
def ArrKept (inp out : OiFits R) (n n' : CStr) : Prop :=
  ∀ a ∈ inp.arrayList, a.arrname = n → n ≠ [] →
    ∃ a', a' ∈ out.arrayList ∧ a'.arrname = n' ∧ SameGeometry a a'

/-- As `ArrKept`, and `oi_fits_lookup_array` finds that table. -/
def ArrFound (inp out : OiFits R) (n n' : CStr) : Prop :=
  ∀ a ∈ inp.arrayList, a.arrname = n → n ≠ [] →
    ∃ a', oi_fits_lookup_array out n' = some a' ∧ SameGeometry a a'

/-- C42. The ARRNAME of each data table still names an OI_ARRAY table with the same
stations. As to lookup see `C42_lookup_partial`. -/
theorem C42_arr_kept (hw : ∀ oi ∈ ins, oi.WF) (hu : ∀ oi ∈ ins, UniqueNames oi)
    (hn : ∀ oi ∈ ins, NamesFit oi) (hr : ∀ oi ∈ ins, RevisionsPositive oi)
    (h : merge_oi_fits_list ins = .ok out) :
    Corresponds OiFits.inspolList ins out (fun inp t t' => ArrKept inp out t.arrname t'.arrname) ∧
    Corresponds OiFits.visList ins out (fun inp t t' => ArrKept inp out t.arrname t'.arrname) ∧
    Corresponds OiFits.vis2List ins out (fun inp t t' => ArrKept inp out t.arrname t'.arrname) ∧
    Corresponds OiFits.t3List ins out (fun inp t t' => ArrKept inp out t.arrname t'.arrname) ∧
    Corresponds OiFits.fluxList ins out (fun inp t t' => ArrKept inp out t.arrname t'.arrname) := by
  obtain ⟨mjd, st, sa, si, sc, as, is, cs, hf⟩ := merge_full h
  obtain ⟨d1, d2, d3, d4, d5⟩ := hf.data _ _ _ hf.ah hf.ih hf.ch
  have key : ∀ {inp : OiFits R} {hh : HMap CStr} {n : CStr}, inp ∈ ins →
      HInv (arrOps R) inp.arrayList sa.list hh → ArrKept inp out n (replaceOptName hh n) := by
    intro inp hh n hi hv w hw' e hne
    subst e
    obtain ⟨w', h1, h2, h3⟩ := hf.arr_resolves hn hr (hu inp hi) hv hw' hne
    exact ⟨w', h1, h2, h3⟩
  refine ⟨corresponds_of d1 ?_, corresponds_of d2 ?_, corresponds_of d3 ?_, corresponds_of d4 ?_,
    corresponds_of d5 ?_⟩
  · rintro inp hi t ht t' ⟨a, i, c, hv, -, -, he⟩
    rw [(mergedInspol_spec ((hw inp hi).inspol t ht) he).2.2.1]; exact key hi hv
  · rintro inp hi t ht t' ⟨a, i, c, hv, -, -, he⟩
    rw [(mergedVis_spec ((hw inp hi).vis t ht) he).2.2.2.1]; exact key hi hv
  · rintro inp hi t ht t' ⟨a, i, c, hv, -, -, he⟩
    rw [(mergedVis2_spec ((hw inp hi).vis2 t ht) he).2.2.1]; exact key hi hv
  · rintro inp hi t ht t' ⟨a, i, c, hv, -, -, he⟩
    rw [(mergedT3_spec ((hw inp hi).t3 t ht) he).2.2.1]; exact key hi hv
  · rintro inp hi t ht t' ⟨a, i, c, hv, -, -, he⟩
    rw [(mergedFlux_spec ((hw inp hi).flux t ht) he).2.2.1]; exact key hi hv

/-- C42, under the condition that input ARRNAMEs do not look like names generated by
merging: `oi_fits_lookup_array` finds the table. -/
theorem C42_lookup_partial (hw : ∀ oi ∈ ins, oi.WF) (hu : ∀ oi ∈ ins, UniqueNames oi)
    (hp : PlainNames ("array" : CStr) (Spec.allNames OiFits.arrayList OiArray.arrname ins))
    (hn : ∀ oi ∈ ins, NamesFit oi) (hr : ∀ oi ∈ ins, RevisionsPositive oi)
    (h : merge_oi_fits_list ins = .ok out) :
    Corresponds OiFits.inspolList ins out (fun inp t t' => ArrFound inp out t.arrname t'.arrname) ∧
    Corresponds OiFits.visList ins out (fun inp t t' => ArrFound inp out t.arrname t'.arrname) ∧
    Corresponds OiFits.vis2List ins out (fun inp t t' => ArrFound inp out t.arrname t'.arrname) ∧
    Corresponds OiFits.t3List ins out (fun inp t t' => ArrFound inp out t.arrname t'.arrname) ∧
    Corresponds OiFits.fluxList ins out (fun inp t t' => ArrFound inp out t.arrname t'.arrname) := by
  obtain ⟨mjd, st, sa, si, sc, as, is, cs, hf⟩ := merge_full h
  have key : ∀ {inp : OiFits R} {n n' : CStr}, ArrKept inp out n n' → ArrFound inp out n n' := by
    intro inp n n' hk w hw' e hne
    obtain ⟨w', h1, rfl, h3⟩ := hk w hw' e hne
    exact ⟨w', hf.lookup_array (hf.nodup_array hp) h1, h3⟩
  obtain ⟨h1, h2, h3, h4, h5⟩ := C42_arr_kept hw hu hn hr h
  exact ⟨⟨h1.1, fun i x y hx hy => key (h1.2 i x y hx hy)⟩,
    ⟨h2.1, fun i x y hx hy => key (h2.2 i x y hx hy)⟩,
    ⟨h3.1, fun i x y hx hy => key (h3.2 i x y hx hy)⟩,
    ⟨h4.1, fun i x y hx hy => key (h4.2 i x y hx hy)⟩,
    ⟨h5.1, fun i x y hx hy => key (h5.2 i x y hx hy)⟩⟩

example : (fun o => (o.arrayList.map (·.arrname), o.vis2List.map (·.arrname))) <$>
    merge_oi_fits_list Ex.both = .ok (["VLTI"], ["VLTI", "VLTI", "VLTI"]) := by
  decide +kernel
example : (∀ oi ∈ Ex.both, oi.WF) ∧ (∀ oi ∈ Ex.both, UniqueNames oi) ∧
    (∀ oi ∈ Ex.both, NamesFit oi) ∧ (∀ oi ∈ Ex.both, RevisionsPositive oi) ∧
    PlainNames ("array" : CStr) (Spec.allNames OiFits.arrayList OiArray.arrname Ex.both) :=
  ⟨Ex.both_wf, Ex.both_unique, Ex.both_fit, Ex.both_revisions, Ex.both_plain.1⟩

/-! ### C58: correlation matrix references -/

/-- The CORRNAME `n` of dataset `inp` has become `n'`: if it named an OI_CORR table,
then `n'` names, in the merged dataset, the same correlation matrix. -/
def CorrKept (inp out : OiFits R) (n n' : CStr) : Prop :=
  ∀ c ∈ inp.corrList, c.corrname = n → n ≠ [] →
    ∃ c', c' ∈ out.corrList ∧ c'.corrname = n' ∧ SameCorr c c'

/-- As `CorrKept`, and `oi_fits_lookup_corr` finds that table. -/
def CorrFound (inp out : OiFits R) (n n' : CStr) : Prop :=
  ∀ c ∈ inp.corrList, c.corrname = n → n ≠ [] →
    ∃ c', oi_fits_lookup_corr out n' = some c' ∧ SameCorr c c'

/-- C58. The CORRNAME of each data table still names the same correlation matrix. As to
lookup see `C58_lookup_partial`. -/
theorem C58_corr_kept (hw : ∀ oi ∈ ins, oi.WF) (hu : ∀ oi ∈ ins, UniqueNames oi)
    (hn : ∀ oi ∈ ins, NamesFit oi) (h : merge_oi_fits_list ins = .ok out) :
    Corresponds OiFits.visList ins out (fun inp t t' => CorrKept inp out t.corrname t'.corrname) ∧
    Corresponds OiFits.vis2List ins out (fun inp t t' => CorrKept inp out t.corrname t'.corrname) ∧
    Corresponds OiFits.t3List ins out (fun inp t t' => CorrKept inp out t.corrname t'.corrname) ∧
    Corresponds OiFits.fluxList ins out (fun inp t t' => CorrKept inp out t.corrname t'.corrname) := by
  obtain ⟨mjd, st, sa, si, sc, as, is, cs, hf⟩ := merge_full h
  obtain ⟨d1, d2, d3, d4, d5⟩ := hf.data _ _ _ hf.ah hf.ih hf.ch
  have key : ∀ {inp : OiFits R} {hh : HMap CStr} {n : CStr}, inp ∈ ins →
      HInv (corrOps R) inp.corrList sc.list hh → CorrKept inp out n (replaceOptName hh n) := by
    intro inp hh n hi hv w hw' e hne
    subst e
    obtain ⟨w', h1, h2, h3⟩ := hf.corr_resolves hn (hw inp hi) (hu inp hi) hv hw' hne
    exact ⟨w', h1, h2, h3⟩
  refine ⟨corresponds_of d2 ?_, corresponds_of d3 ?_, corresponds_of d4 ?_, corresponds_of d5 ?_⟩
  · rintro inp hi t ht t' ⟨a, i, c, -, -, hv, he⟩
    rw [(mergedVis_spec ((hw inp hi).vis t ht) he).2.2.2.2.2]; exact key hi hv
  · rintro inp hi t ht t' ⟨a, i, c, -, -, hv, he⟩
    rw [(mergedVis2_spec ((hw inp hi).vis2 t ht) he).2.2.2.2]; exact key hi hv
  · rintro inp hi t ht t' ⟨a, i, c, -, -, hv, he⟩
    rw [(mergedT3_spec ((hw inp hi).t3 t ht) he).2.2.2.2]; exact key hi hv
  · rintro inp hi t ht t' ⟨a, i, c, -, -, hv, he⟩
    rw [(mergedFlux_spec ((hw inp hi).flux t ht) he).2.2.2.2]; exact key hi hv

/-- C58, under the condition that input CORRNAMEs do not look like names generated by
merging: `oi_fits_lookup_corr` finds the matrix. -/
theorem C58_lookup_partial (hw : ∀ oi ∈ ins, oi.WF) (hu : ∀ oi ∈ ins, UniqueNames oi)
    (hp : PlainNames ("ins" : CStr) (Spec.allNames OiFits.corrList OiCorr.corrname ins))
    (hn : ∀ oi ∈ ins, NamesFit oi) (h : merge_oi_fits_list ins = .ok out) :
    Corresponds OiFits.visList ins out (fun inp t t' => CorrFound inp out t.corrname t'.corrname) ∧
    Corresponds OiFits.vis2List ins out (fun inp t t' => CorrFound inp out t.corrname t'.corrname) ∧
    Corresponds OiFits.t3List ins out (fun inp t t' => CorrFound inp out t.corrname t'.corrname) ∧
    Corresponds OiFits.fluxList ins out (fun inp t t' => CorrFound inp out t.corrname t'.corrname) := by
  obtain ⟨mjd, st, sa, si, sc, as, is, cs, hf⟩ := merge_full h
  have key : ∀ {inp : OiFits R} {n n' : CStr}, CorrKept inp out n n' → CorrFound inp out n n' := by
    intro inp n n' hk w hw' e hne
    obtain ⟨w', h1, rfl, h3⟩ := hk w hw' e hne
    exact ⟨w', hf.lookup_corr (hf.nodup_corr hp) h1, h3⟩
  obtain ⟨h2, h3, h4, h5⟩ := C58_corr_kept hw hu hn h
  exact ⟨⟨h2.1, fun i x y hx hy => key (h2.2 i x y hx hy)⟩,
    ⟨h3.1, fun i x y hx hy => key (h3.2 i x y hx hy)⟩,
    ⟨h4.1, fun i x y hx hy => key (h4.2 i x y hx hy)⟩,
    ⟨h5.1, fun i x y hx hy => key (h5.2 i x y hx hy)⟩⟩

example : (fun o => (o.corrList.map fun c => (c.corrname, c.ndata),
      o.visList.map (·.corrname), o.vis2List.map (·.corrname))) <$>
    merge_oi_fits_list Ex.both = .ok ([("CORR1", 2), ("CORR1_002", 4)], ["CORR1"],
      ["", "", "CORR1_002"]) := by
  decide +kernel

/-! ### C43: unique names -/

/-- C43, under the condition that no input name looks like one generated by merging. The
condition is needed: see `C43_unique_false`. -/
theorem C43_unique_partial
    (hpa : PlainNames ("array" : CStr) (Spec.allNames OiFits.arrayList OiArray.arrname ins))
    (hpi : PlainNames ("ins" : CStr) (Spec.allNames OiFits.wavelengthList OiWavelength.insname ins))
    (hpc : PlainNames ("ins" : CStr) (Spec.allNames OiFits.corrList OiCorr.corrname ins))
    (h : merge_oi_fits_list ins = .ok out) : UniqueNames out := by
  obtain ⟨mjd, st, sa, si, sc, as, is, cs, hf⟩ := merge_full h
  exact ⟨hf.nodup_array hpa, hf.nodup_wave hpi, hf.nodup_corr hpc⟩

/-- A dataset with instruments INS1 and INS1_003. -/
def clash1 : OiFits FP.ratFP :=
  { Ex.oi with
    wavelengthList := [Ex.wave, { Ex.wave with insname := "INS1_003", nwave := 1
                                               eff_wave := [Ex.numF 7], eff_band := [Ex.numF 1] }]
    numWavelength := 2 }

theorem clash1_wf : clash1.WF := by
  have h := Ex.oi_wf
  refine ⟨⟨rfl, rfl, rfl, rfl, rfl, rfl, rfl, rfl⟩, h.array, ?_, h.corr, h.inspol, h.vis, h.vis2, h.t3,
    h.flux⟩
  intro t ht
  simp only [clash1, List.mem_cons, List.not_mem_nil, or_false] at ht
  rcases ht with rfl | rfl
  · exact Ex.wave_wf
  · exact ⟨by decide, rfl, rfl⟩

/-- C43, false part: each input has unique names, but the merged dataset has two tables
of the same name (oimerge.c:360-400 does not check that the name it makes up is
free). -/
theorem C43_unique_false : ¬ ∀ (R : FP) (ins : List (OiFits R)) (out : OiFits R),
    (∀ oi ∈ ins, oi.WF) → (∀ oi ∈ ins, UniqueNames oi) →
    merge_oi_fits_list ins = .ok out → UniqueNames out := by
  intro h
  have hv : (fun o => o.wavelengthList.map (·.insname)) <$> merge_oi_fits_list [clash1, Ex.oi2] =
      .ok ["INS1", "INS1_003", "INS1_003"] := by decide +kernel
  obtain ⟨out, hout, he⟩ := map_eq_ok hv
  have := h _ _ out (by
    intro o ho
    simp only [List.mem_cons, List.not_mem_nil, or_false] at ho
    rcases ho with rfl | rfl
    · exact clash1_wf
    · exact Ex.oi2_wf) (by
    intro o ho
    simp only [List.mem_cons, List.not_mem_nil, or_false] at ho
    rcases ho with rfl | rfl <;> exact ⟨by decide, by decide, by decide⟩) hout
  have := this.wavelength
  rw [← he] at this
  revert this
  decide

/-- A dataset with a data table of each of the two instruments of `clash1`. -/
def clash1v : OiFits FP.ratFP :=
  { clash1 with
    vis2List := [{ Ex.vis2 with
      insname := "INS1_003", nwave := 1
      record := [⟨1, Ex.num 0, Ex.num 56974, Ex.num 10, [Ex.num 1], [Ex.num 1], 1, Ex.num 30,
        Ex.num 40, (1, 2), [false]⟩] }]
    numVis2 := 1 }

theorem clash1v_wf : clash1v.WF := by
  have h := clash1_wf
  refine ⟨⟨rfl, rfl, rfl, rfl, rfl, rfl, rfl, rfl⟩, h.array, h.wavelength, h.corr, h.inspol, h.vis, ?_,
    h.t3, h.flux⟩
  intro t ht
  simp only [clash1v, List.mem_cons, List.not_mem_nil, or_false] at ht
  subst ht
  refine ⟨by simp, by simp, ?_⟩
  intro r hr
  simp only [List.mem_cons, List.not_mem_nil, or_false] at hr
  subst hr
  exact ⟨rfl, rfl, rfl⟩

/-- C41, false part: because of such a clash of names, lookup by the INSNAME of a merged
table with one channel gives an instrument with two channels. -/
theorem C41_lookup_false : ¬ ∀ (R : FP) (ins : List (OiFits R)) (out : OiFits R),
    (∀ oi ∈ ins, oi.WF) → (∀ oi ∈ ins, UniqueNames oi) → (∀ oi ∈ ins, NamesFit oi) →
    merge_oi_fits_list ins = .ok out →
    Corresponds OiFits.vis2List ins out (fun inp t t' => InsFound inp out t.insname t'.insname) := by
  intro h
  have hv : (fun o => ((oi_fits_lookup_wavelength o "INS1_003").map (·.nwave),
      o.vis2List.map (·.insname))) <$> merge_oi_fits_list [clash1v, Ex.oi2] =
      .ok (some 2, ["INS1_003", "INS1_003"]) := by decide +kernel
  obtain ⟨out, hout, he⟩ := map_eq_ok hv
  have hc := h _ _ out (by
    intro o ho
    simp only [List.mem_cons, List.not_mem_nil, or_false] at ho
    rcases ho with rfl | rfl
    · exact clash1v_wf
    · exact Ex.oi2_wf) (by
    intro o ho
    simp only [List.mem_cons, List.not_mem_nil, or_false] at ho
    rcases ho with rfl | rfl <;> exact ⟨by decide, by decide, by decide⟩) (by
    intro o ho
    simp only [List.mem_cons, List.not_mem_nil, or_false] at ho
    rcases ho with rfl | rfl <;> exact ⟨by decide, by decide, by decide⟩) hout
  simp only [Prod.mk.injEq] at he
  obtain ⟨he1, he2⟩ := he
  cases hl : out.vis2List with
  | nil => rw [hl] at he2; simp at he2
  | cons t' l =>
    rw [hl, List.map_cons] at he2
    have hn := (List.cons.inj he2).1
    obtain ⟨w', h1, h2⟩ := hc.2 0 (clash1v, clash1v.vis2List[0]) t' rfl (by rw [hl]; rfl)
      clash1v.wavelengthList[1] (by decide) (by decide)
    rw [← hn] at h1
    rw [h1] at he1
    have h3 := h2.1
    simp only [Option.map_some, Option.some.injEq] at he1
    rw [← he1] at h3
    revert h3
    decide

/-! ### C44: header keywords -/

/-- C44. -/
theorem C44_header (hh : ∀ oi ∈ ins, HeaderFits oi) (h : merge_oi_fits_list ins = .ok out) :
    out.header.content = ("OIFITS2" : CStr) ∧
    (∀ key ∈ mandatoryKeys,
      Summarises "UNKNOWN" (ins.map fun oi => key oi.header) (key out.header)) ∧
    (∀ key ∈ optionalKeys,
      Summarises [] (ins.map fun oi => key oi.header) (key out.header)) := by
  obtain ⟨mjd, st, sa, si, sc, as, is, cs, hf⟩ := merge_full h
  have fit : ∀ key ∈ mandatoryKeys ++ optionalKeys, ∀ v ∈ ins.map (fun oi => key oi.header),
      v.length < FLEN_VALUE := by
    intro key hk v hv
    obtain ⟨oi, hoi, rfl⟩ := List.mem_map.mp hv
    exact hh oi hoi key hk
  rw [hf.header]
  refine ⟨rfl, ?_, ?_⟩
  · intro key hk
    have hs := mergeKey_summarises true (fit key (List.mem_append_left _ hk))
    simp only [mandatoryKeys, List.mem_cons, List.not_mem_nil, or_false] at hk
    rcases hk with rfl | rfl | rfl | rfl | rfl | rfl <;> exact hs
  · intro key hk
    have hs := mergeKey_summarises false (fit key (List.mem_append_right _ hk))
    simp only [optionalKeys, List.mem_cons, List.not_mem_nil, or_false] at hk
    rcases hk with rfl | rfl | rfl | rfl | rfl <;> exact hs

example : (fun o => (o.header.telescop, o.header.observer, o.header.object, o.header.author)) <$>
    merge_oi_fits_list Ex.both = .ok ("MULTIPLE", "A. Person", "Star A", "") := by
  decide +kernel
example : ∀ oi ∈ Ex.both, HeaderFits oi := by
  intro o ho
  simp only [Ex.both, List.mem_cons, List.not_mem_nil, or_false] at ho
  rcases ho with rfl | rfl <;>
  · intro key hk
    simp only [mandatoryKeys, optionalKeys, List.mem_cons, List.not_mem_nil, or_false,
      List.cons_append, List.nil_append] at hk
    rcases hk with rfl | rfl | rfl | rfl | rfl | rfl | rfl | rfl | rfl | rfl | rfl <;> decide

/-! ### C45: DATE-OBS -/

/-- C45. If the DATE-OBS of each input is empty or starts with a date of the years 1901
to 2099, and is not empty in all, then that of the merged dataset is the earliest. -/
theorem C45_earliest_date (hg : GoodDates ins) (hs : ∃ oi ∈ ins, oi.header.date_obs ≠ [])
    (h : merge_oi_fits_list ins = .ok out) :
    ∃ oi ∈ ins, ∃ d, StartsWithDate oi.header.date_obs d ∧ out.header.date_obs = isoDate d ∧
      ∀ oi' ∈ ins, ∀ d', StartsWithDate oi'.header.date_obs d' → NotLater d d' := by
  obtain ⟨mjd, st, sa, si, sc, as, is, cs, hf⟩ := merge_full h
  obtain ⟨m, hm, -, h2, h3⟩ := min_mjd_fold hg 100000
  have : mjd = m := by
    have e := hf.date
    unfold files_min_mjd at e
    rw [hm] at e
    cases e; rfl
  subst this
  obtain ⟨oi0, ho0, hne⟩ := hs
  obtain ⟨d0, hd0⟩ : ∃ d, StartsWithDate oi0.header.date_obs d := (hg oi0 ho0).resolve_left hne
  have hb := (dayNo_bounds hd0.1 hd0.2.1 hd0.2.2.1).2
  have hle := h3 oi0 ho0 d0 hd0
  obtain ⟨oi, ho, d, hd, e⟩ := h2.resolve_left (by omega)
  refine ⟨oi, ho, d, hd, ?_, ?_⟩
  · rw [hf.header]
    simp only [mergedHeader]
    rw [e, date_out hd.1 hd.2.1 hd.2.2.1]
  · intro oi' ho' d' hd'
    have := h3 oi' ho' d' hd'
    rw [e] at this
    exact notLater_of_dayNo hd.1 hd'.1 hd.2.1 hd'.2.1 hd'.2.2.1 this

/-- C45. If no input has a DATE-OBS, the merged dataset gets a made-up one. -/
theorem C45_no_date (hs : ∀ oi ∈ ins, oi.header.date_obs = [])
    (h : merge_oi_fits_list ins = .ok out) : out.header.date_obs = ("2132-09-01" : CStr) := by
  obtain ⟨mjd, st, sa, si, sc, as, is, cs, hf⟩ := merge_full h
  have hg : GoodDates ins := fun oi ho => Or.inl (hs oi ho)
  obtain ⟨m, hm, -, h2, h3⟩ := min_mjd_fold hg 100000
  have : mjd = m := by
    have e := hf.date
    unfold files_min_mjd at e
    rw [hm] at e
    cases e; rfl
  subst this
  rcases h2 with h2 | ⟨oi, ho, d, hd, -⟩
  · rw [hf.header, h2]
    have : snprintf FLEN_VALUE (fmtDate (mjd2date 100000)) = ("2132-09-01" : CStr) := by
      decide +kernel
    exact this
  · rw [hs oi ho] at hd
    obtain ⟨-, -, -, r, hr⟩ := hd
    simp [isoDate] at hr

/-- C45. A date before 1901 makes the code abort. -/
theorem C45_old_date_abort : ∃ oi : OiFits FP.ratFP, oi.WF ∧
    oi.header.date_obs = ("1900-12-31" : CStr) ∧ merge_oi_fits_list [oi] = .abort := by
  refine ⟨{ Ex.oi with header := { Ex.header with date_obs := "1900-12-31" } }, ?_, rfl, ?_⟩
  · have h := Ex.oi_wf
    exact ⟨⟨rfl, rfl, rfl, rfl, rfl, rfl, rfl, rfl⟩, h.array, h.wavelength, h.corr, h.inspol, h.vis,
      h.vis2, h.t3, h.flux⟩
  · decide +kernel

example : (fun o => o.header.date_obs) <$> merge_oi_fits_list Ex.both = .ok "2012-02-29" := by
  decide +kernel
example : GoodDates Ex.both ∧ ∃ oi ∈ Ex.both, oi.header.date_obs ≠ [] :=
  ⟨Ex.both_dates, Ex.oi, by simp [Ex.both], by decide⟩

/-! ### C46: version 2 -/

/-- C46. -/
theorem C46_version_two (hw : ∀ oi ∈ ins, oi.WF) (hr : ∀ oi ∈ ins, RevisionsPositive oi)
    (h : merge_oi_fits_list ins = .ok out) : VersionTwo out := by
  obtain ⟨mjd, st, sa, si, sc, as, is, cs, hf⟩ := merge_full h
  have key : ∀ {τ : Type} {tabs : OiFits R → List τ} {P : OiFits R → τ → τ → Prop} {Q : τ → Prop},
      Corresponds tabs ins out P → (∀ inp ∈ ins, ∀ t ∈ tabs inp, ∀ t', P inp t t' → Q t') →
      ∀ t' ∈ tabs out, Q t' := by
    intro τ tabs P Q hc hpq t' ht'
    obtain ⟨i, hi, rfl⟩ := List.mem_iff_getElem.mp ht'
    have hi' : i < (tablesOf tabs ins).length := by rw [hc.1]; exact hi
    obtain ⟨m1, m2⟩ := mem_tablesOf (List.getElem_mem hi')
    exact hpq _ m1 _ m2 _ (hc.2 i _ _ (List.getElem?_eq_getElem hi') (List.getElem?_eq_getElem hi))
  have up : ∀ r : Int, 1 ≤ r → 2 ≤ upgraded r := by
    intro r hr
    unfold upgraded
    split <;> omega
  refine ⟨by rw [hf.header]; rfl, by rw [hf.targets]; exact le_maxRev 2 ins, ?_, ?_, ?_, ?_, ?_, ?_,
    ?_, ?_⟩
  · rw [hf.arrays.1]; exact hf.array_rev hr
  · rw [hf.waves.1]; exact hf.wave_rev hr
  · rw [hf.corrs.1]; exact hf.corr_rev hr
  · refine key (C40_inspol_preserved hw h) fun inp hi t ht t' hs => ?_
    rw [hs.1]; exact (hr inp hi).inspol t ht
  · refine key (C40_vis_preserved_partial hw h) fun inp hi t ht t' hs => ?_
    rw [hs.1.1]; exact up _ ((hr inp hi).vis t ht)
  · refine key (C40_vis2_preserved hw h) fun inp hi t ht t' hs => ?_
    rw [hs.1]; exact up _ ((hr inp hi).vis2 t ht)
  · refine key (C40_t3_preserved hw h) fun inp hi t ht t' hs => ?_
    rw [hs.1]; exact up _ ((hr inp hi).t3 t ht)
  · refine key (C40_flux_preserved hw h) fun inp hi t ht t' hs => ?_
    rw [hs.1]; exact (hr inp hi).flux t ht

example : Ex.oi2.targets.revision = 1 ∧ Ex.vis2b.revision = 1 ∧
    ∀ oi ∈ Ex.both, RevisionsPositive oi := ⟨rfl, rfl, Ex.both_revisions⟩

/-! ### C47, C48: counts and lookups -/

/-- C47. The counters of a merged dataset are right. -/
theorem C47_merge_counts (h : merge_oi_fits_list ins = .ok out) : out.CountsAgree := by
  obtain ⟨mjd, st, sa, si, sc, as, is, cs, hf⟩ := merge_full h
  refine ⟨?_, ?_, ?_, hf.nums.1, hf.nums.2.1, hf.nums.2.2.1, hf.nums.2.2.2.1, hf.nums.2.2.2.2⟩
  · rw [hf.arrays.1, hf.arrays.2.2]; exact hf.ainv.num
  · rw [hf.waves.1, hf.waves.2.2]; exact hf.iinv.num
  · rw [hf.corrs.1, hf.corrs.2.2]; exact hf.cinv.num

/-- C48. Lookup in a merged dataset finds a table of the name asked for, if there is
one. -/
theorem C48_merge_lookups (h : merge_oi_fits_list ins = .ok out) :
    LookupsAgree out (oi_fits_lookup_array out) (oi_fits_lookup_wavelength out)
      (oi_fits_lookup_corr out) := by
  obtain ⟨mjd, st, sa, si, sc, as, is, cs, hf⟩ := merge_full h
  unfold oi_fits_lookup_array oi_fits_lookup_wavelength oi_fits_lookup_corr
  refine ⟨?_, ?_, ?_, ?_, ?_, ?_⟩
  · rw [hf.arrays.1, hf.arrays.2.1]; exact hf.ainv.found
  · rw [hf.arrays.1, hf.arrays.2.1]; exact hf.ainv.has
  · rw [hf.waves.1, hf.waves.2.1]; exact hf.iinv.found
  · rw [hf.waves.1, hf.waves.2.1]; exact hf.iinv.has
  · rw [hf.corrs.1, hf.corrs.2.1]; exact hf.cinv.found
  · rw [hf.corrs.1, hf.corrs.2.1]; exact hf.cinv.has

/-- C47. Merging succeeds on well-formed datasets whose TARGET_IDs resolve, with fewer
than a hundred target names and dates in the supported range. -/
theorem C47_merge_succeeds (hw : ∀ oi ∈ ins, oi.WF) (ht : ∀ oi ∈ ins, TargetsResolve oi)
    (hn : (distinct ((allTargets ins).map (·.target))).length < 100) (hd : GoodDates ins) :
    ∃ out, merge_oi_fits_list ins = .ok out := merge_ok hw ht hn hd

example : (∀ oi ∈ Ex.both, oi.WF) ∧ (∀ oi ∈ Ex.both, TargetsResolve oi) ∧
    (distinct ((allTargets Ex.both).map (·.target))).length < 100 ∧ GoodDates Ex.both :=
  ⟨Ex.both_wf, Ex.both_resolve, by decide +kernel, Ex.both_dates⟩

/-! ### C59: references that do not resolve -/

/-- `n` is none of `names` and does not look like a name generated from them. -/
def Foreign (base : CStr) (names : List CStr) (n : CStr) : Prop :=
  n ∉ names ∧ ¬ LooksGenerated base names n

theorem foreign_none {τ : Type} {o : Ops τ} (hl : o.Laws) {all : List τ} {st : NS τ}
    (hn : NInv o all st) (hfew : all.length < 10000) {n : CStr}
    (hf : Foreign o.base (all.map o.name) n) : st.hash.lookup n = none := by
  cases hv : st.hash.lookup n with
  | none => rfl
  | some y =>
    exfalso
    obtain ⟨hy, rfl⟩ := hn.found _ _ hv
    obtain ⟨i, hi, rfl⟩ := List.mem_iff_getElem.mp hy
    obtain ⟨x, hx, d, m, hd, e, hm⟩ := hn.src i _ (List.getElem?_eq_getElem hi)
    have hlen := hn.len
    have hx' : o.name d ∈ all.map o.name := by
      rw [hl.name_dup x d hd]; exact List.mem_map.mpr ⟨x, hx, rfl⟩
    rw [e, hl.name_set] at hf
    rcases hm with rfl | rfl
    · exact hf.1 hx'
    · rw [newName_eq hl.base_len (by omega)] at hf
      exact hf.2 (genName_looks hx')

/-- The INSNAME `n` of dataset `inp` has become `n'`: if it named no table of `inp`, it is
unchanged, and still names none if no other input has such a table and it does not look
like a generated name. -/
def InsDangles (ins : List (OiFits R)) (inp out : OiFits R) (n n' : CStr) : Prop :=
  n ∉ inp.wavelengthList.map (·.insname) → n' = n ∧
    (Foreign "ins" (Spec.allNames OiFits.wavelengthList OiWavelength.insname ins) n → oi_fits_lookup_wavelength out n' = none)

/-- The ARRNAME `n` of dataset `inp` has become `n'`: if it named no table of `inp`, it is
unchanged, and still names none if no other input has such a table and it does not look
like a generated name. -/
def ArrDangles (ins : List (OiFits R)) (inp out : OiFits R) (n n' : CStr) : Prop :=
  n ∉ inp.arrayList.map (·.arrname) → n' = n ∧
    (Foreign "array" (Spec.allNames OiFits.arrayList OiArray.arrname ins) n → oi_fits_lookup_array out n' = none)

/-- The CORRNAME `n` of dataset `inp` has become `n'`: if it named no table of `inp`, it is
unchanged, and still names none if no other input has such a table and it does not look
like a generated name. -/
def CorrDangles (ins : List (OiFits R)) (inp out : OiFits R) (n n' : CStr) : Prop :=
  n ∉ inp.corrList.map (·.corrname) → n' = n ∧
    (Foreign "ins" (Spec.allNames OiFits.corrList OiCorr.corrname ins) n → oi_fits_lookup_corr out n' = none)

/-- C59 for INSNAME, what holds. Missing: names which another input does have, see
`C59_captured`. -/
theorem C59_dangling_ins_partial (hw : ∀ oi ∈ ins, oi.WF)
    (hfew : (Spec.allNames OiFits.wavelengthList OiWavelength.insname ins).length < 10000)
    (h : merge_oi_fits_list ins = .ok out) :
    Corresponds OiFits.inspolList ins out (fun inp t t' =>
      Pairwise₂ (fun r r' => InsDangles ins inp out r.insname r'.insname) t.record t'.record) ∧
    Corresponds OiFits.visList ins out (fun inp t t' => InsDangles ins inp out t.insname t'.insname) ∧
    Corresponds OiFits.vis2List ins out (fun inp t t' => InsDangles ins inp out t.insname t'.insname) ∧
    Corresponds OiFits.t3List ins out (fun inp t t' => InsDangles ins inp out t.insname t'.insname) ∧
    Corresponds OiFits.fluxList ins out (fun inp t t' => InsDangles ins inp out t.insname t'.insname) := by
  obtain ⟨mjd, st, sa, si, sc, as, is, cs, hf⟩ := merge_full h
  obtain ⟨d1, d2, d3, d4, d5⟩ := hf.data _ _ _ hf.ah hf.ih hf.ch
  have key : ∀ {inp : OiFits R} {hh : HMap CStr} {n : CStr},
      HInv (waveOps R) inp.wavelengthList si.list hh → InsDangles ins inp out n (replaceName hh n) := by
    intro inp hh n hv hn
    have e : replaceName hh n = n := unresolved hv hn
    refine ⟨e, fun hfo => ?_⟩
    rw [e]
    unfold oi_fits_lookup_wavelength
    rw [hf.waves.2.1]
    unfold Spec.allNames at hfo hfew
    rw [← List.map_flatMap] at hfo hfew
    exact foreign_none (waveLaws R) hf.iinv (by simpa using hfew) hfo
  refine ⟨corresponds_of d1 ?_, corresponds_of d2 ?_, corresponds_of d3 ?_,
    corresponds_of d4 ?_, corresponds_of d5 ?_⟩
  · rintro inp hi t ht t' ⟨a, i, c, -, hv, -, he⟩
    refine pairwise₂_mono (fun r r' e => ?_) (mergedInspol_spec ((hw inp hi).inspol t ht) he).2.2.2
    rw [e]; exact key hv
  · rintro inp hi t ht t' ⟨a, i, c, -, hv, -, he⟩
    rw [(mergedVis_spec ((hw inp hi).vis t ht) he).2.2.2.2.1]; exact key hv
  · rintro inp hi t ht t' ⟨a, i, c, -, hv, -, he⟩
    rw [(mergedVis2_spec ((hw inp hi).vis2 t ht) he).2.2.2.1]; exact key hv
  · rintro inp hi t ht t' ⟨a, i, c, -, hv, -, he⟩
    rw [(mergedT3_spec ((hw inp hi).t3 t ht) he).2.2.2.1]; exact key hv
  · rintro inp hi t ht t' ⟨a, i, c, -, hv, -, he⟩
    rw [(mergedFlux_spec ((hw inp hi).flux t ht) he).2.2.2.1]; exact key hv

/-- C59 for ARRNAME, what holds. Missing: names which another input does have, see
`C59_captured`. -/
theorem C59_dangling_arr_partial (hw : ∀ oi ∈ ins, oi.WF)
    (hfew : (Spec.allNames OiFits.arrayList OiArray.arrname ins).length < 10000)
    (h : merge_oi_fits_list ins = .ok out) :
    Corresponds OiFits.inspolList ins out (fun inp t t' => ArrDangles ins inp out t.arrname t'.arrname) ∧
    Corresponds OiFits.visList ins out (fun inp t t' => ArrDangles ins inp out t.arrname t'.arrname) ∧
    Corresponds OiFits.vis2List ins out (fun inp t t' => ArrDangles ins inp out t.arrname t'.arrname) ∧
    Corresponds OiFits.t3List ins out (fun inp t t' => ArrDangles ins inp out t.arrname t'.arrname) ∧
    Corresponds OiFits.fluxList ins out (fun inp t t' => ArrDangles ins inp out t.arrname t'.arrname) := by
  obtain ⟨mjd, st, sa, si, sc, as, is, cs, hf⟩ := merge_full h
  obtain ⟨d1, d2, d3, d4, d5⟩ := hf.data _ _ _ hf.ah hf.ih hf.ch
  have key : ∀ {inp : OiFits R} {hh : HMap CStr} {n : CStr},
      HInv (arrOps R) inp.arrayList sa.list hh → ArrDangles ins inp out n (replaceOptName hh n) := by
    intro inp hh n hv hn
    have e : replaceOptName hh n = n := by
      unfold replaceOptName
      split
      · exact unresolved hv hn
      · rfl
    refine ⟨e, fun hfo => ?_⟩
    rw [e]
    unfold oi_fits_lookup_array
    rw [hf.arrays.2.1]
    unfold Spec.allNames at hfo hfew
    rw [← List.map_flatMap] at hfo hfew
    exact foreign_none (arrLaws R) hf.ainv (by simpa using hfew) hfo
  refine ⟨corresponds_of d1 ?_, corresponds_of d2 ?_, corresponds_of d3 ?_,
    corresponds_of d4 ?_, corresponds_of d5 ?_⟩
  · rintro inp hi t ht t' ⟨a, i, c, hv, -, -, he⟩
    rw [(mergedInspol_spec ((hw inp hi).inspol t ht) he).2.2.1]; exact key hv
  · rintro inp hi t ht t' ⟨a, i, c, hv, -, -, he⟩
    rw [(mergedVis_spec ((hw inp hi).vis t ht) he).2.2.2.1]; exact key hv
  · rintro inp hi t ht t' ⟨a, i, c, hv, -, -, he⟩
    rw [(mergedVis2_spec ((hw inp hi).vis2 t ht) he).2.2.1]; exact key hv
  · rintro inp hi t ht t' ⟨a, i, c, hv, -, -, he⟩
    rw [(mergedT3_spec ((hw inp hi).t3 t ht) he).2.2.1]; exact key hv
  · rintro inp hi t ht t' ⟨a, i, c, hv, -, -, he⟩
    rw [(mergedFlux_spec ((hw inp hi).flux t ht) he).2.2.1]; exact key hv

/-- C59 for CORRNAME, what holds. Missing: names which another input does have, see
`C59_captured`. -/
theorem C59_dangling_corr_partial (hw : ∀ oi ∈ ins, oi.WF)
    (hfew : (Spec.allNames OiFits.corrList OiCorr.corrname ins).length < 10000)
    (h : merge_oi_fits_list ins = .ok out) :
    Corresponds OiFits.visList ins out (fun inp t t' => CorrDangles ins inp out t.corrname t'.corrname) ∧
    Corresponds OiFits.vis2List ins out (fun inp t t' => CorrDangles ins inp out t.corrname t'.corrname) ∧
    Corresponds OiFits.t3List ins out (fun inp t t' => CorrDangles ins inp out t.corrname t'.corrname) ∧
    Corresponds OiFits.fluxList ins out (fun inp t t' => CorrDangles ins inp out t.corrname t'.corrname) := by
  obtain ⟨mjd, st, sa, si, sc, as, is, cs, hf⟩ := merge_full h
  obtain ⟨d1, d2, d3, d4, d5⟩ := hf.data _ _ _ hf.ah hf.ih hf.ch
  have key : ∀ {inp : OiFits R} {hh : HMap CStr} {n : CStr},
      HInv (corrOps R) inp.corrList sc.list hh → CorrDangles ins inp out n (replaceOptName hh n) := by
    intro inp hh n hv hn
    have e : replaceOptName hh n = n := by
      unfold replaceOptName
      split
      · exact unresolved hv hn
      · rfl
    refine ⟨e, fun hfo => ?_⟩
    rw [e]
    unfold oi_fits_lookup_corr
    rw [hf.corrs.2.1]
    unfold Spec.allNames at hfo hfew
    rw [← List.map_flatMap] at hfo hfew
    exact foreign_none (corrLaws R) hf.cinv (by simpa using hfew) hfo
  refine ⟨corresponds_of d2 ?_, corresponds_of d3 ?_, corresponds_of d4 ?_,
    corresponds_of d5 ?_⟩
  · rintro inp hi t ht t' ⟨a, i, c, -, -, hv, he⟩
    rw [(mergedVis_spec ((hw inp hi).vis t ht) he).2.2.2.2.2]; exact key hv
  · rintro inp hi t ht t' ⟨a, i, c, -, -, hv, he⟩
    rw [(mergedVis2_spec ((hw inp hi).vis2 t ht) he).2.2.2.2]; exact key hv
  · rintro inp hi t ht t' ⟨a, i, c, -, -, hv, he⟩
    rw [(mergedT3_spec ((hw inp hi).t3 t ht) he).2.2.2.2]; exact key hv
  · rintro inp hi t ht t' ⟨a, i, c, -, -, hv, he⟩
    rw [(mergedFlux_spec ((hw inp hi).flux t ht) he).2.2.2.2]; exact key hv

/-- C59, false part: an INSNAME which names no table of its dataset may name another
dataset's table after merging. -/
theorem C59_captured : ∃ oi1 oi2 : OiFits FP.ratFP, oi1.WF ∧ oi2.WF ∧
    (∀ t ∈ oi1.vis2List, t.insname ∉ oi1.wavelengthList.map (·.insname)) ∧ oi1.vis2List ≠ [] ∧
    ∃ out, merge_oi_fits_list [oi1, oi2] = .ok out ∧
      ∀ t ∈ out.vis2List, ∃ w, oi_fits_lookup_wavelength out t.insname = some w := by
  refine ⟨{ Ex.oi with wavelengthList := [], numWavelength := 0, wavelengthHash := HMap.empty },
    Ex.oi2, ?_, Ex.oi2_wf, by decide +kernel, by decide +kernel, ?_⟩
  · have h := Ex.oi_wf
    exact ⟨⟨rfl, rfl, rfl, rfl, rfl, rfl, rfl, rfl⟩, h.array, by simp, h.corr, h.inspol, h.vis,
      h.vis2, h.t3, h.flux⟩
  · have hv : (fun o => o.vis2List.map fun t => (oi_fits_lookup_wavelength o t.insname).isSome) <$>
        merge_oi_fits_list [{ Ex.oi with wavelengthList := [], numWavelength := 0,
                                         wavelengthHash := HMap.empty }, Ex.oi2] =
        .ok [true, true, true] := by decide +kernel
    obtain ⟨out, hout, he⟩ := map_eq_ok hv
    refine ⟨out, hout, ?_⟩
    intro t ht
    have : (oi_fits_lookup_wavelength out t.insname).isSome ∈ [true, true, true] := by
      rw [he]; exact List.mem_map.mpr ⟨t, ht, rfl⟩
    simp only [List.mem_cons, List.not_mem_nil, or_false, or_self] at this
    exact Option.isSome_iff_exists.mp this

example : (Spec.allNames OiFits.wavelengthList OiWavelength.insname Ex.both).length < 10000 := by
  decide
example : Foreign "ins" (Spec.allNames OiFits.wavelengthList OiWavelength.insname Ex.both) "XYZ" := by
  refine ⟨by decide, ?_⟩
  rintro ⟨ds, -, h | ⟨m, -, h⟩⟩
  · simp at h
  · have : '_' ∈ ("XYZ" : CStr) := by rw [h]; simp
    revert this; decide

end Verif
