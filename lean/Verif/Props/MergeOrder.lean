import Verif.Spec.MergeOrder
import Verif.Props.MergeIter

/-! C99: the order in which datasets are merged. -/

set_option Elab.async false

namespace Verif
open Outcome Spec

variable {R : FP} {ins ins' : List (OiFits R)} {out out' : OiFits R}

theorem corresponds_map {τ β : Type} {tabs : OiFits R → List τ} {P : OiFits R → τ → τ → Prop}
    (hc : Corresponds tabs ins out P) {g : τ → β} {g' : OiFits R → τ → β}
    (h : ∀ oi ∈ ins, ∀ t ∈ tabs oi, ∀ t' ∈ tabs out, P oi t t' → g t' = g' oi t) :
    (tabs out).map g = ins.flatMap fun oi => (tabs oi).map (g' oi) := by
  have := corresponds_flatMap hc (g := fun t => [g t]) (g' := fun oi t => [g' oi t]) fun oi ho t ht t' ht' hP => by
    rw [h oi ho t ht t' ht' hP]
  simpa [← List.map_eq_flatMap] using this

theorem perm_corresponds {τ β : Type} {tabs : OiFits R → List τ} {P P' : OiFits R → τ → τ → Prop}
    (hperm : ins.Perm ins') (hc : Corresponds tabs ins out P) (hc' : Corresponds tabs ins' out' P')
    {g h : τ → β} {g' : OiFits R → τ → β}
    (h1 : ∀ oi ∈ ins, ∀ t ∈ tabs oi, ∀ t' ∈ tabs out, P oi t t' → g t' = g' oi t)
    (h2 : ∀ oi ∈ ins', ∀ t ∈ tabs oi, ∀ t' ∈ tabs out', P' oi t t' → h t' = g' oi t) :
    ((tabs out).map g).Perm ((tabs out').map h) := by
  rw [corresponds_map hc h1, corresponds_map hc' h2]
  exact hperm.flatMap_right _

theorem sameTargets_rows {ρ σ : Type} {tid : ρ → Int} {P : ρ → ρ → Prop} {inp out : OiFits R} {rs rs' : List ρ}
    (ht : SameTargets tid inp out rs rs') (hp : Pairwise₂ P rs rs') {g g' : ρ → σ} (h : ∀ r r', P r r' → g' r' = g r) :
    rs'.map (fun r => (targetName out (tid r), g' r)) = rs.map fun r => (targetName inp (tid r), g r) := by
  apply List.ext_getElem?
  intro i
  rw [List.getElem?_map, List.getElem?_map]
  have hl := hp.1
  cases e : rs[i]? with
  | none =>
    rw [List.getElem?_eq_none (by rw [← hl]; exact List.getElem?_eq_none_iff.mp e)]
    rfl
  | some r =>
    have hi : i < rs'.length := by
      rw [← hl]
      exact (List.getElem?_eq_some_iff.mp e).1
    have e' := List.getElem?_eq_getElem hi
    obtain ⟨n, h1, h2⟩ := ht.2 i _ _ e e'
    rw [e', Option.map_some, Option.map_some, denotes_name h1, denotes_name h2, h _ _ (hp.2 i _ _ e e')]

/-- C99, tables. Merging the same datasets in another order gives the same tables of data in another order, with the
same records of the same targets. -/
theorem C99_tables (hperm : ins.Perm ins') (hw : ∀ oi ∈ ins, oi.WF) (h : merge_oi_fits_list ins = .ok out)
    (h' : merge_oi_fits_list ins' = .ok out') :
    (visUnnamed out).Perm (visUnnamed out') ∧ (vis2Unnamed out).Perm (vis2Unnamed out') ∧
    (t3Unnamed out).Perm (t3Unnamed out') ∧ (fluxUnnamed out).Perm (fluxUnnamed out') ∧
    (inspolUnnamed out).Perm (inspolUnnamed out') := by
  have hw' : ∀ oi ∈ ins', oi.WF := fun oi ho => hw oi (hperm.mem_iff.mpr ho)
  obtain ⟨t1, t2, t3, t4, t5⟩ := C39_same_targets hw h
  obtain ⟨s1, s2, s3, s4, s5⟩ := C39_same_targets hw' h'
  refine ⟨?_, ?_, ?_, ?_, ?_⟩
  · have key : ∀ {out oi : OiFits R} {t t' : OiVis R},
        (VisSameButIviserr t t' ∧ (t.usecomplex = false → VisSame t t')) ∧
          SameTargets OiVisRecord.target_id oi out t.record t'.record →
        (({ t' with arrname := [], insname := [], corrname := [], record := [] },
          t'.record.map fun r => (targetName out r.target_id, { r with target_id := 0 })) :
            OiVis R × List (Option CStr × OiVisRecord R)) =
        ({ t with revision := upgraded t.revision, arrname := [], insname := [], corrname := [], record := [] },
          t.record.map fun r => (targetName oi r.target_id, { r with
            target_id := 0, time := upgradedTime t.revision r.time
            iviserr := if t.usecomplex then r.rviserr else r.iviserr })) := by
      rintro out oi t t' ⟨⟨⟨e1, e2⟩, -⟩, e3⟩
      refine Prod.ext ?_ ?_
      · simp only
        rw [e1]
      · refine sameTargets_rows e3 e2 (g' := fun r => { r with target_id := 0 }) ?_
        intro r r' er
        rw [er]
    exact perm_corresponds hperm (corresponds_and (C40_vis_preserved_partial hw h) t2)
      (corresponds_and (C40_vis_preserved_partial hw' h') s2) (fun _ _ _ _ _ _ hP => key hP) (fun _ _ _ _ _ _ hP => key hP)
  · have key : ∀ {out oi : OiFits R} {t t' : OiVis2 R},
        Vis2Same t t' ∧ SameTargets OiVis2Record.target_id oi out t.record t'.record →
        (({ t' with arrname := [], insname := [], corrname := [], record := [] },
          t'.record.map fun r => (targetName out r.target_id, { r with target_id := 0 })) :
            OiVis2 R × List (Option CStr × OiVis2Record R)) =
        ({ t with revision := upgraded t.revision, arrname := [], insname := [], corrname := [], record := [] },
          t.record.map fun r => (targetName oi r.target_id, { r with
            target_id := 0, time := upgradedTime t.revision r.time })) := by
      rintro out oi t t' ⟨⟨e1, e2⟩, e3⟩
      refine Prod.ext ?_ ?_
      · simp only
        rw [e1]
      · refine sameTargets_rows e3 e2 (g' := fun r => { r with target_id := 0 }) ?_
        intro r r' er
        rw [er]
    exact perm_corresponds hperm (corresponds_and (C40_vis2_preserved hw h) t3)
      (corresponds_and (C40_vis2_preserved hw' h') s3) (fun _ _ _ _ _ _ hP => key hP) (fun _ _ _ _ _ _ hP => key hP)
  · have key : ∀ {out oi : OiFits R} {t t' : OiT3 R},
        T3Same t t' ∧ SameTargets OiT3Record.target_id oi out t.record t'.record →
        (({ t' with arrname := [], insname := [], corrname := [], record := [] },
          t'.record.map fun r => (targetName out r.target_id, { r with target_id := 0 })) :
            OiT3 R × List (Option CStr × OiT3Record R)) =
        ({ t with revision := upgraded t.revision, arrname := [], insname := [], corrname := [], record := [] },
          t.record.map fun r => (targetName oi r.target_id, { r with
            target_id := 0, time := upgradedTime t.revision r.time })) := by
      rintro out oi t t' ⟨⟨e1, e2⟩, e3⟩
      refine Prod.ext ?_ ?_
      · simp only
        rw [e1]
      · refine sameTargets_rows e3 e2 (g' := fun r => { r with target_id := 0 }) ?_
        intro r r' er
        rw [er]
    exact perm_corresponds hperm (corresponds_and (C40_t3_preserved hw h) t4)
      (corresponds_and (C40_t3_preserved hw' h') s4) (fun _ _ _ _ _ _ hP => key hP) (fun _ _ _ _ _ _ hP => key hP)
  · have key : ∀ {out oi : OiFits R} {t t' : OiFlux R},
        FluxSame t t' ∧ SameTargets OiFluxRecord.target_id oi out t.record t'.record →
        (({ t' with arrname := [], insname := [], corrname := [], record := [] },
          t'.record.map fun r => (targetName out r.target_id, { r with target_id := 0 })) :
            OiFlux R × List (Option CStr × OiFluxRecord R)) =
        ({ t with arrname := [], insname := [], corrname := [], record := [] },
          t.record.map fun r => (targetName oi r.target_id, { r with target_id := 0 })) := by
      rintro out oi t t' ⟨⟨e1, e2⟩, e3⟩
      refine Prod.ext ?_ ?_
      · simp only
        rw [e1]
      · refine sameTargets_rows e3 e2 (g' := fun r => { r with target_id := 0 }) ?_
        intro r r' er
        rw [er]
    exact perm_corresponds hperm (corresponds_and (C40_flux_preserved hw h) t5)
      (corresponds_and (C40_flux_preserved hw' h') s5) (fun _ _ _ _ _ _ hP => key hP) (fun _ _ _ _ _ _ hP => key hP)
  · have key : ∀ {out oi : OiFits R} {t t' : OiInspol R},
        InspolSame t t' ∧ SameTargets OiInspolRecord.target_id oi out t.record t'.record →
        (({ t' with arrname := [], record := [] },
          t'.record.map fun r => (targetName out r.target_id, { r with target_id := 0, insname := [] })) :
            OiInspol R × List (Option CStr × OiInspolRecord R)) =
        ({ t with arrname := [], record := [] },
          t.record.map fun r => (targetName oi r.target_id, { r with target_id := 0, insname := [] })) := by
      rintro out oi t t' ⟨⟨e1, e2⟩, e3⟩
      refine Prod.ext ?_ ?_
      · simp only
        rw [e1]
      · refine sameTargets_rows e3 e2 (g' := fun r => { r with target_id := 0, insname := [] }) ?_
        intro r r' er
        rw [er]
    exact perm_corresponds hperm (corresponds_and (C40_inspol_preserved hw h) t1)
      (corresponds_and (C40_inspol_preserved hw' h') s1) (fun _ _ _ _ _ _ hP => key hP) (fun _ _ _ _ _ _ hP => key hP)

/-- C99, targets. The targets of the merged dataset are the same, in another order. -/
theorem C99_targets (hperm : ins.Perm ins') (h : merge_oi_fits_list ins = .ok out)
    (h' : merge_oi_fits_list ins' = .ok out') :
    (out.targets.targ.map (·.target)).Perm (out'.targets.targ.map (·.target)) := by
  rw [(C38_merged_targets h).1, (C38_merged_targets h').1, List.perm_ext_iff_of_nodup (nodup_distinct _) (nodup_distinct _)]
  intro x
  rw [mem_distinct, mem_distinct]
  exact ((hperm.flatMap_right _).map _).mem_iff

theorem summarises_unique {unset : CStr} {vals vals' : List CStr} {v v' : CStr} (hp : vals.Perm vals')
    (h : Summarises unset vals v) (h' : Summarises unset vals' v') : v = v' := by
  have hm : ∀ x, x ∈ vals ↔ x ∈ vals' := fun x => hp.mem_iff
  rcases h with ⟨h1, rfl⟩ | ⟨h1, h2, h3⟩ | ⟨⟨x, hx, y, hy, h1, h2, h3⟩, rfl⟩ <;>
    rcases h' with ⟨g1, rfl⟩ | ⟨g1, g2, g3⟩ | ⟨⟨a, ha, b, hb, g1, g2, g3⟩, rfl⟩
  · rfl
  · exact absurd (h1 _ ((hm _).mpr g2)) g1
  · exact absurd (h1 _ ((hm _).mpr ha)) g1
  · exact absurd (g1 _ ((hm _).mp h2)) h1
  · exact (g3 v ((hm _).mp h2)).resolve_left h1
  · have e1 := (h3 a ((hm _).mpr ha)).resolve_left g1
    have e2 := (h3 b ((hm _).mpr hb)).resolve_left g2
    exact absurd (e1.trans e2.symm) g3
  · exact absurd (g1 x ((hm _).mp hx)) h1
  · have e1 := (g3 x ((hm _).mp hx)).resolve_left h1
    have e2 := (g3 y ((hm _).mp hy)).resolve_left h2
    exact absurd (e1.trans e2.symm) h3
  · rfl

/-- C99, header. The keywords of the merged dataset are the same, including the date. -/
theorem C99_header (hperm : ins.Perm ins') (hh : ∀ oi ∈ ins, HeaderFits oi) (hg : GoodDates ins)
    (h : merge_oi_fits_list ins = .ok out) (h' : merge_oi_fits_list ins' = .ok out') :
    (∀ key ∈ mandatoryKeys ++ optionalKeys, key out.header = key out'.header) ∧
    out.header.date_obs = out'.header.date_obs ∧ out.header.content = out'.header.content := by
  have hh' : ∀ oi ∈ ins', HeaderFits oi := fun oi ho => hh oi (hperm.mem_iff.mpr ho)
  have hg' : GoodDates ins' := fun oi ho => hg oi (hperm.mem_iff.mpr ho)
  obtain ⟨a1, a2, a3⟩ := C44_header hh h
  obtain ⟨b1, b2, b3⟩ := C44_header hh' h'
  refine ⟨fun key hk => ?_, ?_, a1.trans b1.symm⟩
  · rcases List.mem_append.mp hk with hk | hk
    · exact summarises_unique (hperm.map _) (a2 key hk) (b2 key hk)
    · exact summarises_unique (hperm.map _) (a3 key hk) (b3 key hk)
  · by_cases hs : ∃ oi ∈ ins, oi.header.date_obs ≠ []
    · obtain ⟨oi, ho, d, d1, d2, d3⟩ := C45_earliest_date hg hs h
      obtain ⟨oj, hj, e, e1, e2, e3⟩ := C45_earliest_date hg' (by
        obtain ⟨o, ho, hne⟩ := hs
        exact ⟨o, hperm.mem_iff.mp ho, hne⟩) h'
      have n1 := d3 oj (hperm.mem_iff.mpr hj) e e1
      have n2 := e3 oi (hperm.mem_iff.mp ho) d d1
      have : d = e := by
        obtain ⟨y, m, k⟩ := d
        obtain ⟨y', m', k'⟩ := e
        unfold NotLater at n1 n2
        simp only at n1 n2
        have hy : y = y' := by omega
        have hm : m = m' := by omega
        have hk : k = k' := by omega
        rw [hy, hm, hk]
      rw [d2, e2, this]
    · have hn : ∀ oi ∈ ins, oi.header.date_obs = [] := by
        intro oi ho
        by_contra hne
        exact hs ⟨oi, ho, hne⟩
      rw [C45_no_date hn h, C45_no_date (fun oi ho => hn oi (hperm.mem_iff.mpr ho)) h']

/-- C99, counts. The numbers of data are the same. -/
theorem C99_counts (hperm : ins.Perm ins') (hw : ∀ oi ∈ ins, oi.WF) (h : merge_oi_fits_list ins = .ok out)
    (h' : merge_oi_fits_list ins' = .ok out') :
    ∃ n, count_oi_fits_data out = .ok n ∧ count_oi_fits_data out' = .ok n := by
  have hw' : ∀ oi ∈ ins', oi.WF := fun oi ho => hw oi (hperm.mem_iff.mpr ho)
  obtain ⟨a, b, c, e1, e2⟩ := C93_counts hw h
  obtain ⟨a', b', c', f1, f2⟩ := C93_counts hw' h'
  refine ⟨_, e2, ?_⟩
  have key : ∀ oi ∈ ins', a' oi = a oi ∧ b' oi = b oi ∧ c' oi = c oi := by
    intro oi ho
    have := (e1 oi (hperm.mem_iff.mpr ho)).symm.trans (f1 oi ho)
    simp only [Outcome.ok.injEq, Prod.mk.injEq] at this
    exact ⟨this.1.symm, this.2.1.symm, this.2.2.symm⟩
  rw [f2, List.map_congr_left fun oi ho => (key oi ho).1, List.map_congr_left fun oi ho => (key oi ho).2.1,
    List.map_congr_left fun oi ho => (key oi ho).2.2, (hperm.map a).sum_nat, (hperm.map b).sum_nat,
    (hperm.map c).sum_nat]

/-- C99, success. Under the conditions under which merging succeeds it does so in any order. -/
theorem C99_succeeds (hperm : ins.Perm ins') (hw : ∀ oi ∈ ins, oi.WF) (ht : ∀ oi ∈ ins, TargetsResolve oi)
    (hn : (distinct ((allTargets ins).map (·.target))).length < 100) (hd : GoodDates ins) :
    ∃ out', merge_oi_fits_list ins' = .ok out' := by
  refine merge_ok (fun oi ho => hw oi (hperm.mem_iff.mpr ho)) (fun oi ho => ht oi (hperm.mem_iff.mpr ho)) ?_
    (fun oi ho => hd oi (hperm.mem_iff.mpr ho))
  have : (distinct ((allTargets ins').map (·.target))).Perm (distinct ((allTargets ins).map (·.target))) := by
    rw [List.perm_ext_iff_of_nodup (nodup_distinct _) (nodup_distinct _)]
    intro x
    rw [mem_distinct, mem_distinct]
    exact ((hperm.symm.flatMap_right _).map _).mem_iff
  rw [this.length_eq]
  exact hn

/-! ### Iterating -/

theorem plainNames_perm {base : CStr} {names names' : List CStr} (hp : names.Perm names') (h : PlainNames base names) :
    PlainNames base names' where
  plain n hn := by
    rintro ⟨ds, h1, h2⟩
    refine h.plain n (hp.mem_iff.mpr hn) ⟨ds, h1, ?_⟩
    rcases h2 with h2 | ⟨m, hm, h2⟩
    · exact .inl h2
    · exact .inr ⟨m, hp.mem_iff.mpr hm, h2⟩
  fits n hn := h.fits n (hp.mem_iff.mpr hn)
  few := by rw [← hp.length_eq]; exact h.few

/-- What an iterator gives is determined. -/
theorem iterates_unique {τ ρ : Type} {K : IterKind R τ ρ} {oi : OiFits R} {f : FilterSpec R} {l l' : List (Datum τ ρ)}
    (h : Iterates K oi f l) (h' : Iterates K oi f l') : l = l' := by
  apply List.ext_getElem?
  intro i
  obtain ⟨it, e⟩ := h (i + 1)
  obtain ⟨it', e'⟩ := h' (i + 1)
  rw [e] at e'
  have e2 : yields l (i + 1) = yields l' (i + 1) := (Prod.mk.inj (Outcome.ok.inj e')).2
  have e3 := congrArg (fun x => x[i]?) e2
  simpa [yields] using e3

theorem perm_contents {τ ρ κ : Type} {K : IterKind R τ ρ} {content : OiFits R → Datum τ ρ → κ}
    {f f' : FilterSpec R} {g : OiFits R → FilterSpec R} (hperm : ins.Perm ins')
    (h : ∃ l, ∃ each : OiFits R → List (Datum τ ρ), Iterates K out f l ∧ (∀ oi ∈ ins, Iterates K oi (g oi) (each oi)) ∧
      l.map (content out) = ins.flatMap fun oi => (each oi).map (content oi))
    (h' : ∃ l, ∃ each : OiFits R → List (Datum τ ρ), Iterates K out' f' l ∧ (∀ oi ∈ ins', Iterates K oi (g oi) (each oi)) ∧
      l.map (content out') = ins'.flatMap fun oi => (each oi).map (content oi)) :
    ∃ l l', Iterates K out f l ∧ Iterates K out' f' l' ∧ (l.map (content out)).Perm (l'.map (content out')) := by
  obtain ⟨l, each, h1, h2, h3⟩ := h
  obtain ⟨l', each', g1, g2, g3⟩ := h'
  refine ⟨l, l', h1, g1, ?_⟩
  rw [h3, g3]
  have e : ins'.flatMap (fun oi => (each' oi).map (content oi)) = ins'.flatMap fun oi => (each oi).map (content oi) := by
    apply List.flatMap_congr
    intro oi ho
    rw [iterates_unique (g2 oi ho) (h2 oi (hperm.mem_iff.mpr ho))]
  rw [e]
  exact hperm.flatMap_right _

section
variable {f f' : FilterSpec R} {g : OiFits R → FilterSpec R} (hperm : ins.Perm ins') (hw : ∀ oi ∈ ins, oi.WF)
  (hu : ∀ oi ∈ ins, UniqueNames oi) (hn : ∀ oi ∈ ins, NamesFit oi)
  (hp : PlainNames ("ins" : CStr) (Spec.allNames OiFits.wavelengthList OiWavelength.insname ins))
  (hi : ∀ oi ∈ ins, InstrumentsThere oi) (hx : WavesExact ins) (h : merge_oi_fits_list ins = .ok out)
  (h' : merge_oi_fits_list ins' = .ok out') (hc : SameCriteria ins out f g) (hc' : SameCriteria ins' out' f' g)
include hperm hw hu hn hp hi hx h h' hc hc'

omit h h' hc hc' in
theorem perm_all :
    (∀ oi ∈ ins', oi.WF) ∧ (∀ oi ∈ ins', UniqueNames oi) ∧ (∀ oi ∈ ins', NamesFit oi) ∧
    PlainNames ("ins" : CStr) (Spec.allNames OiFits.wavelengthList OiWavelength.insname ins') ∧
    (∀ oi ∈ ins', InstrumentsThere oi) ∧ WavesExact ins' :=
  ⟨fun oi ho => hw oi (hperm.mem_iff.mpr ho), fun oi ho => hu oi (hperm.mem_iff.mpr ho),
    fun oi ho => hn oi (hperm.mem_iff.mpr ho), plainNames_perm (hperm.flatMap_right _) hp,
    fun oi ho => hi oi (hperm.mem_iff.mpr ho),
    fun oi ho w hw oi' ho' w' hw' => hx oi (hperm.mem_iff.mpr ho) w hw oi' (hperm.mem_iff.mpr ho') w' hw'⟩

/-- C99 for complex visibilities. With filters which ask for the same, iterators over the two merged datasets give the
same data, in another order. -/
theorem C99_vis_partial : ∃ l l', Iterates visKind out f l ∧ Iterates visKind out' f' l' ∧
    (l.map (visContent out)).Perm (l'.map (visContent out')) := by
  obtain ⟨a1, a2, a3, a4, a5, a6⟩ := perm_all hperm hw hu hn hp hi hx
  exact perm_contents hperm (C93_vis_partial hw hu hn hp hi hx h hc) (C93_vis_partial a1 a2 a3 a4 a5 a6 h' hc')

/-- C99 for squared visibilities. -/
theorem C99_vis2_partial : ∃ l l', Iterates vis2Kind out f l ∧ Iterates vis2Kind out' f' l' ∧
    (l.map (vis2Content out)).Perm (l'.map (vis2Content out')) := by
  obtain ⟨a1, a2, a3, a4, a5, a6⟩ := perm_all hperm hw hu hn hp hi hx
  exact perm_contents hperm (C93_vis2_partial hw hu hn hp hi hx h hc) (C93_vis2_partial a1 a2 a3 a4 a5 a6 h' hc')

/-- C99 for triple products. -/
theorem C99_t3_partial : ∃ l l', Iterates t3Kind out f l ∧ Iterates t3Kind out' f' l' ∧
    (l.map (t3Content out)).Perm (l'.map (t3Content out')) := by
  obtain ⟨a1, a2, a3, a4, a5, a6⟩ := perm_all hperm hw hu hn hp hi hx
  exact perm_contents hperm (C93_t3_partial hw hu hn hp hi hx h hc) (C93_t3_partial a1 a2 a3 a4 a5 a6 h' hc')

end

/-! ### Examples -/

/-- The datasets of the examples, in the other order. -/
theorem Ex.both_perm : Ex.both.Perm [Ex.oi2, Ex.oi] := List.Perm.swap _ _ _

/-- The conditions are met. -/
example : ∃ out out', merge_oi_fits_list Ex.both = .ok out ∧ merge_oi_fits_list [Ex.oi2, Ex.oi] = .ok out' ∧
    (∃ l l', Iterates vis2Kind out (init_oi_filter _) l ∧ Iterates vis2Kind out' (init_oi_filter _) l' ∧
      (l.map (vis2Content out)).Perm (l'.map (vis2Content out'))) ∧
    (vis2Unnamed out).Perm (vis2Unnamed out') ∧
    (out.targets.targ.map (·.target)).Perm (out'.targets.targ.map (·.target)) := by
  obtain ⟨out, h⟩ := merge_ok Ex.both_wf Ex.both_resolve (by decide +kernel) Ex.both_dates
  obtain ⟨out', h'⟩ := C99_succeeds Ex.both_perm Ex.both_wf Ex.both_resolve (by decide +kernel) Ex.both_dates
  exact ⟨out, out', h, h', C99_vis2_partial Ex.both_perm Ex.both_wf Ex.both_unique Ex.both_fit Ex.both_plain.2.1
    Ex.both_there Ex.both_exact h h' (sameCriteria_const (fun n => ⟨glob_star n, glob_star n, glob_star n⟩) (by decide))
    (sameCriteria_const (fun n => ⟨glob_star n, glob_star n, glob_star n⟩) (by decide)),
    (C99_tables Ex.both_perm Ex.both_wf h h').2.1, C99_targets Ex.both_perm h h'⟩

/-- The order does make a difference to what is not said: targets are numbered, and instruments are named, in order. -/
example : (fun o => (o.targets.targ.map (·.target), o.vis2List.map (·.insname))) <$> merge_oi_fits_list Ex.both =
      .ok (["Star A", "Star B", "Star C"], ["INS1", "INS1", "INS1_002"]) ∧
    (fun o => (o.targets.targ.map (·.target), o.vis2List.map (·.insname))) <$> merge_oi_fits_list [Ex.oi2, Ex.oi] =
      .ok (["Star B", "Star C", "Star A"], ["INS1", "INS1_002", "INS1_002"]) := by
  constructor <;> decide +kernel

/-- C99, false without `WavesExact`: of wavelengths which differ by less than the tolerance of merging those of the
first dataset are kept, and a filter tells them apart. -/
theorem C99_wave_counterexample : ∃ out out', merge_oi_fits_list [Ex.oi, shifted] = .ok out ∧
    merge_oi_fits_list [shifted, Ex.oi] = .ok out' ∧
    numYielded (calls vis2Kind 40 (iter_init vis2Kind out (some shortOnly))) = some 12 ∧
    numYielded (calls vis2Kind 40 (iter_init vis2Kind out' (some shortOnly))) = some 0 := by
  have h : (fun out => numYielded (calls vis2Kind 40 (iter_init vis2Kind out (some shortOnly)))) <$>
      merge_oi_fits_list [Ex.oi, shifted] = .ok (some 12) := by decide +kernel
  have h' : (fun out => numYielded (calls vis2Kind 40 (iter_init vis2Kind out (some shortOnly)))) <$>
      merge_oi_fits_list [shifted, Ex.oi] = .ok (some 0) := by decide +kernel
  obtain ⟨out, h1, h2⟩ := map_eq_ok h
  obtain ⟨out', h3, h4⟩ := map_eq_ok h'
  exact ⟨out, out', h1, h3, h2.symm, h4.symm⟩

end Verif
