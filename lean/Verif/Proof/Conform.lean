import Verif.Spec.Conform
import Verif.Proof.Check

/-! The checks find nothing if and only if the dataset satisfies the rules. -/

namespace Verif
open Outcome Spec
variable {R : FP} {oi : OiFits R}

theorem badRevisions_nil {τ : Type} {name : CStr} {rev : τ → Int} {n : Int} {l : List τ} :
    badRevisions name rev n l = [] ↔ ∀ t ∈ l, rev t = n := by
  unfold badRevisions
  exact numbered_eq_nil fun k x _ => by rw [breachIf_eq_nil, Decidable.not_not]

theorem namelessTables_nil {τ : Type} {name : CStr} {required : τ → Prop} [DecidablePred required] {arr : τ → CStr}
    {l : List τ} : namelessTables name required arr l = [] ↔ ∀ t ∈ l, required t → arr t ≠ [] := by
  unfold namelessTables
  exact numbered_eq_nil fun k x _ => by rw [breachIf_eq_nil, not_and]

theorem unknownTargets_nil {ρ : Type} {name : CStr} {id : ρ → Int} {k : Nat} {l : List ρ} :
    unknownTargets oi name id k l = [] ↔ ∀ r ∈ l, TargetKnown oi (id r) := by
  unfold unknownTargets
  exact numbered_eq_nil fun k x _ => by rw [breachIf_eq_nil, Decidable.not_not]

theorem unknownElements_nil {ρ : Type} {name arr : CStr} {sta : ρ → List Int} {k : Nat} {l : List ρ} :
    unknownElements oi name arr sta k l = [] ↔ Stations oi arr sta l := by
  unfold unknownElements Stations
  by_cases h : arr = []
  · simp [h]
  · rw [if_neg h]
    simp only [ne_eq, h, not_false_iff, forall_const]
    refine numbered_eq_nil fun k x _ => ?_
    rw [List.flatMap_eq_nil_iff]
    exact forall₂_congr fun s _ => by rw [breachIf_eq_nil, Decidable.not_not]

theorem unknownCorrs_nil {τ : Type} {name : CStr} {corr : τ → CStr} {l : List τ} :
    unknownCorrs oi name corr l = [] ↔ ∀ t ∈ l, CorrKnown oi (corr t) := by
  unfold unknownCorrs
  refine numbered_eq_nil fun k x _ => ?_
  rw [breachIf_eq_nil, not_and]
  unfold CorrKnown oi_fits_lookup_corr
  exact forall_congr' fun _ => by rw [← ne_eq, Option.ne_none_iff_isSome]

theorem badChannels_nil {ρ : Type} {desc name : CStr} {n k : Nat} {bad : ρ → Nat → Prop} [∀ r j, Decidable (bad r j)]
    {l : List ρ} : badChannels desc name n k bad l = [] ↔ ∀ r ∈ l, ∀ j < n, ¬ bad r j := by
  unfold badChannels
  refine numbered_eq_nil fun k x _ => ?_
  rw [List.flatMap_eq_nil_iff]
  simp only [List.mem_range, breachIf_eq_nil]

theorem nonZeroTimes_nil {ρ : Type} {name : CStr} {time : ρ → R.Dbl} {k : Nat} {l : List ρ} :
    nonZeroTimes name time k l = [] ↔ ∀ r ∈ l, ¬ NonZeroTime (time r) := by
  unfold nonZeroTimes
  exact numbered_eq_nil fun k x _ => breachIf_eq_nil

theorem repeats_nil {seen : List CStr} {l : List (Target R)} (hs : seen.Nodup) :
    repeats seen l = [] ↔ (seen ++ l.map (·.target)).Nodup := by
  induction l generalizing seen with
  | nil => simp [repeats, hs]
  | cons t l ih =>
    unfold repeats
    by_cases h : t.target ∈ seen
    · rw [if_pos h]
      constructor
      · intro e; cases e
      · intro e
        rw [List.nodup_append] at e
        exact absurd rfl (e.2.2 _ h _ (List.mem_cons_self ..))
    · rw [if_neg h, List.nil_append, ih]
      · rw [List.append_assoc]; rfl
      · rw [List.nodup_append]
        exact ⟨hs, by simp, fun a ha b hb => by rw [List.mem_singleton.mp hb]; rintro rfl; exact h ha⟩

theorem tables_nil : missingTables oi ++ revisionBreaches oi = [] ↔ TablesPresent oi ∧ RevisionsRight oi := by
  rw [List.append_eq_nil_iff]
  refine and_congr ?_ ?_
  · unfold missingTables TablesPresent
    by_cases h : V2 oi
    · simp only [h, if_true, List.append_eq_nil_iff, breachIf_eq_nil, forall_const, true_and]
      simp only [not_and_or, and_assoc, ne_eq]
    · simp only [h, if_false, List.append_eq_nil_iff, breachIf_eq_nil, false_and, or_false]
      simp only [not_and_or, ne_eq, false_implies, true_and]
  · unfold revisionBreaches RevisionsRight
    by_cases h : V2 oi
    · simp only [h, if_true, List.append_eq_nil_iff, breachIf_eq_nil, forall_const, badRevisions_nil, ne_eq, not_not,
        not_true_eq_false, false_implies, and_true, and_assoc]
    · simp only [h, if_false, List.append_eq_nil_iff, breachIf_eq_nil, badRevisions_nil, ne_eq, not_not,
        not_false_iff, forall_const, false_implies, true_and, and_assoc]

theorem header_nil : headerBreaches oi = [] ↔ (V2 oi → ∀ s ∈ [oi.header.origin, oi.header.date, oi.header.date_obs,
    oi.header.telescop, oi.header.instrume, oi.header.observer, oi.header.insmode, oi.header.object], s ≠ []) := by
  unfold headerBreaches missingKey
  by_cases h : V2 oi
  · simp only [h, if_true, List.append_eq_nil_iff, breachIf_eq_nil, forall_const, List.forall_mem_cons,
      List.not_mem_nil, false_implies, implies_true, and_true, and_assoc, ne_eq]
  · simp [h]

theorem keyword_nil : keywordBreaches oi = [] ↔ (∀ t ∈ oi.arrayList, t.frame ∈ frames) ∧
    (V2 oi → ∀ t ∈ oi.visList, t.amptyp ∈ amptyps ∧ t.phityp ∈ phityps) ∧
    (∀ t ∈ oi.fluxList, t.calstat ∈ ['C', 'U'] ∧ t.fovtype ∈ fovtypes) := by
  unfold keywordBreaches
  simp only [List.append_eq_nil_iff, and_assoc]
  refine and_congr (numbered_eq_nil fun k x _ => ?_) (and_congr ?_ (numbered_eq_nil fun k x _ => ?_))
  · rw [breachIf_eq_nil, Decidable.not_not]
  · rw [numbered_eq_nil (P := fun t => V2 oi → t.amptyp ∈ amptyps ∧ t.phityp ∈ phityps)]
    · exact ⟨fun h v t ht => h t ht v, fun h t ht v => h v t ht⟩
    · intro k x _
      simp only [List.append_eq_nil_iff, breachIf_eq_nil, not_and, Decidable.not_not]
      exact ⟨fun h v => ⟨h.1 v, h.2 v⟩, fun h => ⟨fun v => (h v).1, fun v => (h v).2⟩⟩
  · simp only [List.append_eq_nil_iff, breachIf_eq_nil, Decidable.not_not]

theorem visrefmap_nil : visrefmapBreaches oi = [] ↔ ∀ t ∈ oi.visList, t.usevisrefmap = true ↔ Differential t := by
  unfold visrefmapBreaches
  refine numbered_eq_nil fun k x _ => ?_
  simp only [List.append_eq_nil_iff, breachIf_eq_nil]
  by_cases h : Differential x <;> cases x.usevisrefmap <;> simp [h]

theorem unique_nil : uniqueBreaches oi = [] ↔ (oi.targets.targ.map (·.target)).Nodup := by
  unfold uniqueBreaches
  rw [List.map_eq_nil_iff, repeats_nil List.nodup_nil, List.nil_append]

theorem target_nil : targetBreaches oi = [] ↔ (∀ t ∈ oi.visList, ∀ r ∈ t.record, TargetKnown oi r.target_id) ∧
    (∀ t ∈ oi.vis2List, ∀ r ∈ t.record, TargetKnown oi r.target_id) ∧
    (∀ t ∈ oi.t3List, ∀ r ∈ t.record, TargetKnown oi r.target_id) ∧
    (∀ t ∈ oi.fluxList, ∀ r ∈ t.record, TargetKnown oi r.target_id) := by
  unfold targetBreaches
  simp only [List.append_eq_nil_iff, and_assoc]
  exact and_congr (numbered_eq_nil fun k x _ => unknownTargets_nil) (and_congr (numbered_eq_nil fun k x _ => unknownTargets_nil)
    (and_congr (numbered_eq_nil fun k x _ => unknownTargets_nil) (numbered_eq_nil fun k x _ => unknownTargets_nil)))

theorem arrname_nil : arrnameBreaches (fun _ => 0) oi = [] ↔ (V2 oi → (∀ t ∈ oi.inspolList, t.arrname ≠ []) ∧
    (∀ t ∈ oi.visList, t.arrname ≠ []) ∧ (∀ t ∈ oi.vis2List, t.arrname ≠ []) ∧ (∀ t ∈ oi.t3List, t.arrname ≠ []) ∧
    (∀ t ∈ oi.fluxList, t.calstat = 'U' → t.arrname ≠ [])) := by
  unfold arrnameBreaches
  by_cases h : V2 oi
  · simp only [h, if_true, forall_const, List.append_eq_nil_iff, and_assoc, namelessTables_nil]
    exact and_congr (numbered_eq_nil fun k x _ => breachIf_eq_nil) Iff.rfl
  · simp [h]

theorem element_nil : elementBreaches oi = [] ↔
    (∀ t ∈ oi.inspolList, t.arrname ≠ [] ∧ Stations oi t.arrname (fun r => [r.sta_index]) t.record) ∧
    (∀ t ∈ oi.visList, Stations oi t.arrname (fun r => [r.sta_index.1, r.sta_index.2]) t.record) ∧
    (∀ t ∈ oi.vis2List, Stations oi t.arrname (fun r => [r.sta_index.1, r.sta_index.2]) t.record) ∧
    (∀ t ∈ oi.t3List, Stations oi t.arrname (fun r => [r.sta_index.1, r.sta_index.2.1, r.sta_index.2.2]) t.record) ∧
    (∀ t ∈ oi.fluxList, Stations oi t.arrname (fun r => if r.sta_index = -1 then [] else [r.sta_index]) t.record) := by
  unfold elementBreaches dataElementBreaches
  simp only [List.append_eq_nil_iff, and_assoc]
  refine and_congr (numbered_eq_nil fun k x _ => ?_) (and_congr (numbered_eq_nil fun k x _ => unknownElements_nil)
    (and_congr (numbered_eq_nil fun k x _ => unknownElements_nil) (and_congr (numbered_eq_nil fun k x _ => unknownElements_nil)
      (numbered_eq_nil fun k x _ => unknownElements_nil))))
  by_cases h : x.arrname = []
  · simp [h]
  · rw [if_neg h, unknownElements_nil]
    simp [h]

theorem corr_nil : corrBreaches oi = [] ↔ (∀ t ∈ oi.visList, CorrKnown oi t.corrname) ∧
    (∀ t ∈ oi.vis2List, CorrKnown oi t.corrname) ∧ (∀ t ∈ oi.t3List, CorrKnown oi t.corrname) ∧
    (∀ t ∈ oi.fluxList, CorrKnown oi t.corrname) := by
  unfold corrBreaches
  simp only [List.append_eq_nil_iff, and_assoc, unknownCorrs_nil]

theorem flagging_nil : flaggingBreaches oi = [] ↔
    (∀ t ∈ oi.visList, ∀ r ∈ t.record, ∀ j < t.nwave, ¬ visNegError r j) ∧
    (∀ t ∈ oi.vis2List, ∀ r ∈ t.record, ∀ j < t.nwave, ¬ vis2NegError r j) ∧
    (∀ t ∈ oi.t3List, ∀ r ∈ t.record, ∀ j < t.nwave, ¬ t3NegError r j) := by
  unfold flaggingBreaches
  simp only [List.append_eq_nil_iff, and_assoc]
  exact and_congr (numbered_eq_nil fun k x _ => badChannels_nil) (and_congr (numbered_eq_nil fun k x _ => badChannels_nil)
    (numbered_eq_nil fun k x _ => badChannels_nil))

theorem t3amp_nil : t3ampBreaches oi = [] ↔ ∀ t ∈ oi.t3List, ∀ r ∈ t.record, ∀ j < t.nwave, ¬ t3Unnormalised r j := by
  unfold t3ampBreaches
  exact numbered_eq_nil fun k x _ => badChannels_nil

theorem inverted_lt {w : OiWavelength R} (hw : w.WF) {i : Nat} (h : Inverted w i) : i + 1 < w.nwave := by
  unfold Inverted Has at h
  cases h1 : w.eff_wave[i + 1]? with
  | none =>
    rw [h1] at h
    cases h2 : w.eff_wave[i]? <;> rw [h2] at h <;> cases h
  | some y =>
    obtain ⟨h2, -⟩ := List.getElem?_eq_some_iff.mp h1
    rwa [hw.eff_wave] at h2

theorem waveorder_nil (hw : ∀ w ∈ oi.wavelengthList, w.WF) :
    waveorderBreaches oi = [] ↔ ∀ w ∈ oi.wavelengthList, Ascending w := by
  unfold waveorderBreaches
  rw [List.flatMap_eq_nil_iff]
  refine forall₂_congr fun w hm => ?_
  rw [List.flatMap_eq_nil_iff]
  simp only [List.mem_range, breachIf_eq_nil, not_or]
  constructor
  · intro h i hi
    have := inverted_lt (hw w hm) hi
    exact (h i (by omega)).1 hi
  · exact fun h i _ => ⟨h i, h (i + 1)⟩

theorem time_nil : timeBreaches oi = [] ↔ (V2 oi → (∀ t ∈ oi.visList, ∀ r ∈ t.record, ¬ NonZeroTime r.time) ∧
    (∀ t ∈ oi.vis2List, ∀ r ∈ t.record, ¬ NonZeroTime r.time) ∧ (∀ t ∈ oi.t3List, ∀ r ∈ t.record, ¬ NonZeroTime r.time)) := by
  unfold timeBreaches
  by_cases h : V2 oi
  · simp only [h, if_true, forall_const, List.append_eq_nil_iff, and_assoc]
    exact and_congr (numbered_eq_nil fun k x _ => nonZeroTimes_nil) (and_congr (numbered_eq_nil fun k x _ => nonZeroTimes_nil)
      (numbered_eq_nil fun k x _ => nonZeroTimes_nil))
  · simp [h]

theorem flux_nil : fluxBreaches oi = [] ↔ (∀ t ∈ oi.fluxList, t.calstat = 'C' → t.arrname = [] ∧ ¬ HasStation t) ∧
    (∀ t ∈ oi.fluxList, t.calstat = 'U' → t.arrname ≠ [] ∧ HasStation t ∧ t.fovtype = []) := by
  unfold fluxBreaches
  rw [numbered_eq_nil (P := fun t => (t.calstat = 'C' → t.arrname = [] ∧ ¬ HasStation t) ∧
    (t.calstat = 'U' → t.arrname ≠ [] ∧ HasStation t ∧ t.fovtype = []))]
  · exact ⟨fun h => ⟨fun t ht => (h t ht).1, fun t ht => (h t ht).2⟩, fun h t ht => ⟨h.1 t ht, h.2 t ht⟩⟩
  · intro k x _
    simp only [List.append_eq_nil_iff, breachIf_eq_nil, not_and, Decidable.not_not, ne_eq]
    constructor
    · rintro ⟨⟨⟨⟨a, b⟩, c⟩, d⟩, e⟩
      exact ⟨fun h => ⟨a h, b h⟩, fun h => ⟨c h, d h, e h⟩⟩
    · rintro ⟨h1, h2⟩
      exact ⟨⟨⟨⟨fun h => (h1 h).1, fun h => (h1 h).2⟩, fun h => (h2 h).1⟩, fun h => (h2 h).2.1⟩, fun h => (h2 h).2.2⟩

theorem nothingFound_iff (hw : ∀ w ∈ oi.wavelengthList, w.WF) : NothingFound oi ↔ Conforms oi := by
  unfold NothingFound breachLists
  simp only [List.forall_mem_cons, List.not_mem_nil, false_implies, implies_true, and_true]
  rw [tables_nil, header_nil, keyword_nil, visrefmap_nil, unique_nil, target_nil, arrname_nil, element_nil, corr_nil,
    flagging_nil, t3amp_nil, waveorder_nil hw, time_nil, flux_nil]
  constructor
  · rintro ⟨⟨a1, a2⟩, b, ⟨c1, c2, c3⟩, d, e, ⟨f1, f2, f3, f4⟩, g, ⟨h1, h2, h3, h4, h5⟩, ⟨i1, i2, i3, i4⟩, ⟨j1, j2, j3⟩, k, l,
      m, n1, n2⟩
    exact ⟨a1, a2, b, c1, c2, c3, d, e, f1, f2, f3, f4, fun t ht => (h1 t ht).1, fun v => (g v).2.1, fun v => (g v).2.2.1,
      fun v => (g v).2.2.2.1, fun v => (g v).2.2.2.2, fun t ht => (h1 t ht).2, h2, h3, h4, h5, i1, i2, i3, i4, j1, j2, j3, k, l,
      fun v => (m v).1, fun v => (m v).2.1, fun v => (m v).2.2, n1, n2⟩
  · intro h
    exact ⟨⟨h.tables, h.revisions⟩, h.header, ⟨h.frame, h.amptyp, h.calstat⟩, h.visrefmap, h.unique,
      ⟨h.targetVis, h.targetVis2, h.targetT3, h.targetFlux⟩,
      fun v => ⟨h.arrInspol, h.arrVis v, h.arrVis2 v, h.arrT3 v, h.arrFlux v⟩,
      ⟨fun t ht => ⟨h.arrInspol t ht, h.staInspol t ht⟩, h.staVis, h.staVis2, h.staT3, h.staFlux⟩,
      ⟨h.corrVis, h.corrVis2, h.corrT3, h.corrFlux⟩, ⟨h.errVis, h.errVis2, h.errT3⟩, h.t3amp, h.waveorder,
      fun v => ⟨h.timeVis v, h.timeVis2 v, h.timeT3 v⟩, h.fluxC, h.fluxU⟩

end Verif
