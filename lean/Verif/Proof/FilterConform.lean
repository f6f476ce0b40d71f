import Verif.Props.Filter
import Verif.Proof.Storable
import Verif.Spec.Conform

/-! Filtering a dataset which conforms to the standard gives one which conforms. -/

namespace Verif
open Outcome Spec Classical

variable {R : FP} {f : FilterSpec R} {oi out : OiFits R}

theorem has_at {α : Type} {ks : List Nat} {src dst : List α} {k j : Nat} {p : α → Bool} (h : AtChans ks src dst)
    (hk : ks[k]? = some j) (hh : Has dst k p) : Has src j p := by
  obtain ⟨x, h1, h2⟩ := h.2 k j hk
  unfold Has at *
  rw [h1]
  rw [h2] at hh
  exact hh

theorem unflagged_at {ks : List Nat} {flag : List Bool} {P : Nat → Prop} {n k j : Nat} (hl : flag.length = n) (hj : j < n)
    (hk : ks[k]? = some j)
    (hh : Unflagged (ks.map fun j => decide (flag[j]? = some true ∨ ¬ P j)) k) : Unflagged flag j := by
  unfold Unflagged at *
  rw [List.getElem?_map, hk] at hh
  have hh := of_decide_eq_false (Option.some.inj hh)
  have hj' : j < flag.length := hl ▸ hj
  rw [List.getElem?_eq_getElem hj'] at hh ⊢
  cases hf : flag[j] with
  | false => rfl
  | true => exact absurd (.inl (by rw [hf])) hh

theorem kept_lt {w : OiWavelength R} {k : Nat} (hk : k < (keptChans f w).length) :
    ∃ j, (keptChans f w)[k]? = some j ∧ j < w.nwave :=
  ⟨_, kept_at hk, keptChans_lt _ (List.getElem_mem hk)⟩

theorem between_dropped {w : OiWavelength R} {k m : Nat} (hk : k + 1 < (keptChans f w).length)
    (h1 : (keptChans f w)[k] < m) (h2 : m < (keptChans f w)[k + 1]) : m ∉ keptChans f w := by
  have hp : (keptChans f w).Pairwise (· < ·) := List.Pairwise.filter _ List.pairwise_lt_range
  have hp := List.pairwise_iff_getElem.mp hp
  intro hm
  obtain ⟨i, hi, rfl⟩ := List.mem_iff_getElem.mp hm
  have a1 : ¬ i ≤ k := fun h => by
    rcases Nat.lt_or_eq_of_le h with h | h
    · have := hp i k hi (by omega) h; omega
    · subst h; omega
  have a2 : ¬ k + 1 ≤ i := fun h => by
    rcases Nat.lt_or_eq_of_le h with h | h
    · have := hp (k + 1) i hk hi h; omega
    · subst h; omega
  omega

/-- The wavelengths that remain are in ascending order. -/
theorem ascending_waveOut (L : Lawful R) {w : OiWavelength R} (hw : w.WF) (ha : Ascending w)
    (hv : ∀ x ∈ w.eff_wave, (L.val (R.toD x)).isSome ∨ ∀ y, R.lt (R.toD x) y = false ∧ R.lt y (R.toD x) = false) :
    Ascending (waveOut f w) := by
  have drop : ∀ m, m < w.nwave → m ∉ keptChans f w → ∀ x, w.eff_wave[m]? = some x → (L.val (R.toD x)).isSome := by
    intro m hm hk x hx
    refine (hv x (List.mem_of_getElem? hx)).resolve_right fun h => hk (mem_keptChans.mpr ⟨hm, x, hx, ?_⟩)
    exact ⟨(h _).1, (h _).2⟩
  have step : ∀ (d i : Nat) x y a b, (∀ m, i < m → m < i + d → m ∉ keptChans f w) → w.eff_wave[i]? = some x →
      w.eff_wave[i + d]? = some y → L.val (R.toD x) = some a → L.val (R.toD y) = some b → a ≤ b := by
    intro d
    induction d with
    | zero =>
      intro i x y a b _ h1 h2 h3 h4
      rw [Nat.add_zero] at h2
      rw [h1] at h2
      cases h2
      rw [h3] at h4
      cases h4
      exact Rat.le_refl
    | succ d ih =>
      intro i x y a b h0 h1 h2 h3 h4
      have hlt : i + d < w.eff_wave.length := by
        have := (List.getElem?_eq_some_iff.mp h2).1
        omega
      have hz := List.getElem?_eq_getElem hlt
      have hzv : (L.val (R.toD w.eff_wave[i + d])).isSome := by
        by_cases hd : d = 0
        · subst hd
          have : some w.eff_wave[i] = some x := hz.symm.trans h1
          cases this
          rw [Option.isSome_iff_exists]
          exact ⟨_, h3⟩
        · exact drop (i + d) (hw.eff_wave ▸ hlt) (h0 _ (by omega) (by omega)) _ hz
      obtain ⟨c, hc⟩ := Option.isSome_iff_exists.mp hzv
      have h5 := ih i x _ a c (fun m m1 m2 => h0 m m1 (by omega)) h1 hz h3 hc
      refine Rat.le_trans h5 (Rat.not_lt.mp fun hlt2 => ?_)
      refine ha (i + d) ?_
      unfold Inverted Has
      rw [hz, show w.eff_wave[i + d + 1]? = some y from h2]
      simp only [Option.any_some]
      exact (L.lt_iff _ _ _ _ h4 hc).mpr hlt2
  intro k hk
  unfold Inverted Has at hk
  cases hx : (waveOut f w).eff_wave[k]? with
  | none => rw [hx] at hk; cases hk
  | some x =>
    cases hy : (waveOut f w).eff_wave[k + 1]? with
    | none => rw [hx, hy] at hk; cases hk
    | some y =>
      rw [hx, hy] at hk
      simp only [Option.any_some] at hk
      have hlen : (waveOut f w).eff_wave.length = (keptChans f w).length :=
        pick_length (hw.eff_wave.symm ▸ keptChans_lt)
      have hk1 : k + 1 < (keptChans f w).length := hlen ▸ (List.getElem?_eq_some_iff.mp hy).1
      have hk0 : k < (keptChans f w).length := by omega
      rw [waveOut_at hw (kept_at hk0)] at hx
      rw [waveOut_at hw (kept_at hk1)] at hy
      have hord : (keptChans f w)[k] < (keptChans f w)[k + 1] := by
        have hp : (keptChans f w).Pairwise (· < ·) := List.Pairwise.filter _ List.pairwise_lt_range
        exact List.pairwise_iff_getElem.mp hp k (k + 1) hk0 hk1 (Nat.lt_succ_self k)
      have notNan : ∀ z ∈ w.eff_wave, (¬ ∀ y, R.lt (R.toD z) y = false ∧ R.lt y (R.toD z) = false) →
          ∃ a, L.val (R.toD z) = some a := fun z hz hn => Option.isSome_iff_exists.mp ((hv z hz).resolve_right hn)
      obtain ⟨a, hxa⟩ := notNan x (List.mem_of_getElem? hx) fun h => by rw [(h _).2] at hk; cases hk
      obtain ⟨b, hyb⟩ := notNan y (List.mem_of_getElem? hy) fun h => by rw [(h _).1] at hk; cases hk
      have := step ((keptChans f w)[k + 1] - (keptChans f w)[k]) _ x y a b (fun m m1 m2 =>
        between_dropped hk1 m1 (by omega)) hx (by
        rw [Nat.add_sub_cancel' (Nat.le_of_lt hord)]; exact hy) hxa hyb
      exact absurd ((L.lt_iff _ _ _ _ hyb hxa).mp hk) (Rat.not_lt.mpr this)

theorem target_known_out (ho : Filtered f oi out) {id : Int} (hk : TargetKnown oi id) (ht : TargetOk f id) :
    TargetKnown out (targetIdOut f id) := by
  obtain ⟨x, hx, he⟩ := hk
  unfold TargetKnown targetIdOut
  rw [ho.targets, targetsOut]
  by_cases hc : f.target_id < 0
  · rw [if_pos hc, if_neg (by omega)]
    exact ⟨x, hx, he⟩
  · rw [if_neg hc, if_pos (by omega)]
    have := ht.resolve_left hc
    cases hfind : oi.targets.targ.reverse.find? fun x => x.target_id == f.target_id with
    | none =>
      have h2 := List.find?_eq_none.mp hfind x (List.mem_reverse.mpr hx)
      simp [he, this] at h2
    | some y => exact ⟨_, List.mem_singleton.mpr rfl, rfl⟩

theorem unique_of_nodup {α β : Type} {g : α → β} : ∀ {l : List α}, (l.map g).Nodup → ∀ {a b : α}, a ∈ l → b ∈ l →
    g a = g b → a = b
  | [], _, _, _, ha, _, _ => by cases ha
  | x :: l, h, a, b, ha, hb, he => by
    rw [List.map_cons, List.nodup_cons] at h
    rcases List.mem_cons.mp ha with e | ha' <;> rcases List.mem_cons.mp hb with e' | hb'
    · rw [e, e']
    · exact absurd (List.mem_map.mpr ⟨b, hb', by rw [← he, e]⟩) h.1
    · exact absurd (List.mem_map.mpr ⟨a, ha', by rw [he, e']⟩) h.1
    · exact unique_of_nodup h.2 ha' hb' he

theorem mem_arrayOut (ho : Filtered f oi out) {t : OiArray R} (ht : t ∈ out.arrayList) : t ∈ oi.arrayList := by
  rw [ho.array] at ht
  exact (List.mem_filter.mp ht).1

theorem mem_corrOut (ho : Filtered f oi out) {t : OiCorr R} (ht : t ∈ out.corrList) : t ∈ oi.corrList := by
  rw [ho.corr] at ht
  exact (List.mem_filter.mp ht).1

theorem element_known_out (hf : Filterable f oi) (h : apply_oi_filter oi f = .ok out) (hd : NamesDistinct oi)
    {d : CStr × CStr × CStr} (hm : d ∈ dataNames out) (hne : d.1 ≠ []) {s : Int} (hk : ElementKnown oi d.1 s) :
    ElementKnown out d.1 s := by
  have ho := apply_oi_filter_spec hf h
  obtain ⟨a, h1, h2⟩ := hk
  obtain ⟨h3, h4⟩ := hd.arrayLookup _ _ h1
  obtain ⟨t, h5, h6, h7⟩ := (C32_references hf h d hm).2.1 hne ⟨a, h3, h4⟩
  have : t = a := unique_of_nodup hd.arrays (mem_arrayOut ho h5) h3 (h6.trans h4.symm)
  exact ⟨a, by rw [← this]; exact h7, h2⟩

theorem corr_known_out (hf : Filterable f oi) (h : apply_oi_filter oi f = .ok out) (hd : NamesDistinct oi)
    {d : CStr × CStr × CStr} (hm : d ∈ dataNames out) (hk : CorrKnown oi d.2.2) : CorrKnown out d.2.2 := by
  intro hne
  obtain ⟨c, hc⟩ := Option.isSome_iff_exists.mp (hk hne)
  obtain ⟨h3, h4⟩ := hd.corrLookup _ _ hc
  obtain ⟨t, -, -, h7⟩ := (C32_references hf h d hm).2.2 hne ⟨c, h3, h4⟩
  rw [h7]; rfl

theorem visName_mem {t : OiVis R} (h : t ∈ out.visList) : (t.arrname, t.insname, t.corrname) ∈ dataNames out := by
  unfold dataNames
  simp only [List.mem_append]
  exact .inl (.inl (.inl (List.mem_map.mpr ⟨t, h, rfl⟩)))

theorem vis2Name_mem {t : OiVis2 R} (h : t ∈ out.vis2List) : (t.arrname, t.insname, t.corrname) ∈ dataNames out := by
  unfold dataNames
  simp only [List.mem_append]
  exact .inl (.inl (.inr (List.mem_map.mpr ⟨t, h, rfl⟩)))

theorem t3Name_mem {t : OiT3 R} (h : t ∈ out.t3List) : (t.arrname, t.insname, t.corrname) ∈ dataNames out := by
  unfold dataNames
  simp only [List.mem_append]
  exact .inl (.inr (List.mem_map.mpr ⟨t, h, rfl⟩))

theorem fluxName_mem {t : OiFlux R} (h : t ∈ out.fluxList) : (t.arrname, t.insname, t.corrname) ∈ dataNames out := by
  unfold dataNames
  simp only [List.mem_append]
  exact .inr (List.mem_map.mpr ⟨t, h, rfl⟩)

theorem name_of_referenced {n : CStr} (h : ArrReferenced out n) : ∃ d ∈ dataNames out, d.1 = n := by
  rcases h.2 with ⟨t, ht, rfl⟩ | ⟨t, ht, rfl⟩ | ⟨t, ht, rfl⟩ | ⟨t, ht, rfl⟩
  · exact ⟨_, visName_mem ht, rfl⟩
  · exact ⟨_, vis2Name_mem ht, rfl⟩
  · exact ⟨_, t3Name_mem ht, rfl⟩
  · exact ⟨_, fluxName_mem ht, rfl⟩

section
variable (hf : Filterable f oi) (h : apply_oi_filter oi f = .ok out) (hc : Conforms oi) (hd : NamesDistinct oi)

/-- What remains of an OI_VIS table. -/
theorem vis_from (ho : Filtered f oi out) {t' : OiVis R} (ht : t' ∈ out.visList) : ∃ t ∈ oi.visList, ∃ w,
    instTable oi t.insname = some w ∧ VisRemains f w t ∧ t' = visOut f w t :=
  (mem_visTables.mp (ho.vis ▸ ht)).2

theorem vis2_from (ho : Filtered f oi out) {t' : OiVis2 R} (ht : t' ∈ out.vis2List) : ∃ t ∈ oi.vis2List, ∃ w,
    instTable oi t.insname = some w ∧ Vis2Remains f w t ∧ t' = vis2Out f w t :=
  (mem_vis2Tables.mp (ho.vis2 ▸ ht)).2

theorem t3_from (ho : Filtered f oi out) {t' : OiT3 R} (ht : t' ∈ out.t3List) : ∃ t ∈ oi.t3List, ∃ w,
    instTable oi t.insname = some w ∧ T3Remains f w t ∧ t' = t3Out f w t :=
  (mem_t3Tables.mp (ho.t3 ▸ ht)).2

theorem flux_from (ho : Filtered f oi out) {t' : OiFlux R} (ht : t' ∈ out.fluxList) : ∃ t ∈ oi.fluxList, ∃ w,
    instTable oi t.insname = some w ∧ FluxRemains f w t ∧ t' = fluxOut f w t :=
  (mem_fluxTables.mp (ho.flux ▸ ht)).2

theorem hasStation_out {w : OiWavelength R} {t : OiFlux R} (hr : FluxRemains f w t)
    (hu : (∀ r ∈ t.record, r.sta_index = -1) ∨ ∀ r ∈ t.record, r.sta_index ≠ -1) :
    HasStation (fluxOut f w t) ↔ HasStation t := by
  have hne : (fluxOut f w t).record ≠ [] := kept_ne_nil hr.record
  have hne0 : t.record ≠ [] := by
    obtain ⟨r, hr, -⟩ := hr.record
    exact List.ne_nil_of_mem hr
  have hfrom : ∀ r' ∈ (fluxOut f w t).record, ∃ r ∈ t.record, r'.sta_index = r.sta_index := by
    intro r' hr'
    obtain ⟨r, h1, -, rfl⟩ := mem_kept.mp hr'
    exact ⟨r, h1, rfl⟩
  unfold HasStation
  obtain ⟨a, l, e⟩ := List.exists_cons_of_ne_nil hne
  obtain ⟨b, m, e0⟩ := List.exists_cons_of_ne_nil hne0
  rw [e] at hfrom
  rw [e, e0]
  simp only [List.getElem?_cons_zero, Option.some.injEq]
  obtain ⟨r, h1, h2⟩ := hfrom a List.mem_cons_self
  have hb : b ∈ t.record := e0 ▸ List.mem_cons_self
  rcases hu with hu | hu
  · constructor
    · rintro ⟨_, rfl, h3⟩; exact absurd (h2.trans (hu _ h1)) h3
    · rintro ⟨_, rfl, h3⟩; exact absurd (hu _ hb) h3
  · constructor
    · intro _; exact ⟨_, rfl, hu _ hb⟩
    · intro _; exact ⟨_, rfl, fun h3 => hu _ h1 (h2.symm.trans h3)⟩

include hf h hc hd

theorem tables_out (hu : StationsUniform oi) (hrem : DataRemain out) : TablesPresent out := by
  have ho := apply_oi_filter_spec hf h
  have hv : V2 out ↔ V2 oi := by unfold V2; rw [ho.header]
  have harr : ∀ d ∈ dataNames out, d.1 ≠ [] → (∃ s, ElementKnown oi d.1 s) → out.arrayList ≠ [] := by
    rintro d hm hne ⟨s, a, h1, -⟩
    obtain ⟨h3, h4⟩ := hd.arrayLookup _ _ h1
    obtain ⟨t, h5, -⟩ := (C32_references hf h d hm).2.1 hne ⟨a, h3, h4⟩
    exact List.ne_nil_of_mem h5
  have hwav : ∀ d ∈ dataNames out, out.wavelengthList ≠ [] := by
    intro d hm
    obtain ⟨w, h5, -⟩ := (C32_references hf h d hm).1
    exact List.ne_nil_of_mem h5
  rcases hrem with hx | hx | hx | ⟨hv2, t', ht', hcal⟩
  · obtain ⟨t', ht'⟩ := List.exists_mem_of_ne_nil _ hx
    refine ⟨fun hv2 => ?_, hwav _ (visName_mem ht'), .inl hx⟩
    obtain ⟨t, ht, w, -, hr, rfl⟩ := vis_from ho ht'
    obtain ⟨r, hrm, -⟩ := hr.record
    have hne := hc.arrVis (hv.mp hv2) t ht
    exact harr _ (visName_mem ht') hne ⟨_, hc.staVis t ht hne r hrm _ List.mem_cons_self⟩
  · obtain ⟨t', ht'⟩ := List.exists_mem_of_ne_nil _ hx
    refine ⟨fun hv2 => ?_, hwav _ (vis2Name_mem ht'), .inr (.inl hx)⟩
    obtain ⟨t, ht, w, -, hr, rfl⟩ := vis2_from ho ht'
    obtain ⟨r, hrm, -⟩ := hr.record
    have hne := hc.arrVis2 (hv.mp hv2) t ht
    exact harr _ (vis2Name_mem ht') hne ⟨_, hc.staVis2 t ht hne r hrm _ List.mem_cons_self⟩
  · obtain ⟨t', ht'⟩ := List.exists_mem_of_ne_nil _ hx
    refine ⟨fun hv2 => ?_, hwav _ (t3Name_mem ht'), .inr (.inr (.inl hx))⟩
    obtain ⟨t, ht, w, -, hr, rfl⟩ := t3_from ho ht'
    obtain ⟨r, hrm, -⟩ := hr.record
    have hne := hc.arrT3 (hv.mp hv2) t ht
    exact harr _ (t3Name_mem ht') hne ⟨_, hc.staT3 t ht hne r hrm _ List.mem_cons_self⟩
  · refine ⟨fun _ => ?_, hwav _ (fluxName_mem ht'), .inr (.inr (.inr ⟨hv2, List.ne_nil_of_mem ht'⟩))⟩
    obtain ⟨t, ht, w, -, hr, rfl⟩ := flux_from ho ht'
    obtain ⟨r, hrm, -⟩ := hr.record
    obtain ⟨hne, ⟨r0, hr0, hs0⟩, -⟩ := hc.fluxU t ht hcal
    have hr0m := List.mem_of_getElem? hr0
    have hs : r.sta_index ≠ -1 := ((hu t ht).resolve_left fun hall => hs0 (hall _ hr0m)) r hrm
    refine harr _ (fluxName_mem ht') hne ⟨r.sta_index, hc.staFlux t ht hne r hrm _ ?_⟩
    show r.sta_index ∈ if r.sta_index = -1 then [] else [r.sta_index]
    rw [if_neg hs]
    exact List.mem_cons_self

theorem filter_conforms (L : Lawful R) (hun : ∀ t ∈ oi.inspolList, InspolUniform f oi t)
    (hu : StationsUniform oi) (hw : FiniteWavelengths L oi)
    (hamp : f.accept_t3amp = true ∨ NanCompares R) (hrem : DataRemain out) : Conforms out := by
  have ho := apply_oi_filter_spec hf h
  have hi : InspolFiltered f oi out := by
    obtain ⟨out', h1, -, h3⟩ := apply_oi_filter_ok hf hun
    rw [h] at h1
    cases h1
    exact h3
  have hv : V2 out ↔ V2 oi := by unfold V2; rw [ho.header]
  have hwave : ∀ w' ∈ out.wavelengthList, ∃ w ∈ oi.wavelengthList, w' = waveOut f w := by
    intro w' hw'
    rw [ho.wavelength] at hw'
    obtain ⟨w, h1, -, rfl⟩ := mem_kept.mp hw'
    exact ⟨w, h1, rfl⟩
  refine {
    tables := tables_out hf h hc hd hu hrem
    revisions := ?_
    header := fun h2 => by rw [ho.header]; exact hc.header (hv.mp h2)
    frame := fun t ht => hc.frame t (mem_arrayOut ho ht)
    amptyp := ?_
    calstat := ?_
    visrefmap := ?_
    unique := ?_
    targetVis := ?_
    targetVis2 := ?_
    targetT3 := ?_
    targetFlux := ?_
    arrInspol := ?_
    arrVis := ?_
    arrVis2 := ?_
    arrT3 := ?_
    arrFlux := ?_
    staInspol := ?_
    staVis := ?_
    staVis2 := ?_
    staT3 := ?_
    staFlux := ?_
    corrVis := ?_
    corrVis2 := ?_
    corrT3 := ?_
    corrFlux := ?_
    errVis := ?_
    errVis2 := ?_
    errT3 := ?_
    t3amp := ?_
    waveorder := ?_
    timeVis := ?_
    timeVis2 := ?_
    timeT3 := ?_
    fluxC := ?_
    fluxU := ?_ }
  · -- revisions
    have htr : out.targets.revision = oi.targets.revision := by
      rw [ho.targets, targetsOut]; split <;> rfl
    constructor
    · intro h2
      obtain ⟨r1, r2, r3, r4, r5, r6, r7, r8, r9⟩ := hc.revisions.1 (hv.mp h2)
      refine ⟨htr.trans r1, fun t ht => r2 t (mem_arrayOut ho ht), fun t ht => ?_, fun t ht => ?_, fun t ht => ?_,
        fun t ht => ?_, fun t ht => ?_, fun t ht => r8 t (mem_corrOut ho ht), fun t ht => ?_⟩
      · obtain ⟨w, h1, rfl⟩ := hwave t ht; exact r3 w h1
      · obtain ⟨t, h1, w, -, -, rfl⟩ := vis_from ho ht; exact r4 t h1
      · obtain ⟨t, h1, w, -, -, rfl⟩ := vis2_from ho ht; exact r5 t h1
      · obtain ⟨t, h1, w, -, -, rfl⟩ := t3_from ho ht; exact r6 t h1
      · obtain ⟨t, h1, w, -, -, rfl⟩ := flux_from ho ht; exact r7 t h1
      · obtain ⟨t, h1, -, -, rfl⟩ := inspol_mem hi ht; exact r9 t h1
    · intro h2
      obtain ⟨r1, r2, r3, r4, r5, r6⟩ := hc.revisions.2 (fun h3 => h2 (hv.mpr h3))
      refine ⟨htr.trans r1, fun t ht => r2 t (mem_arrayOut ho ht), fun t ht => ?_, fun t ht => ?_, fun t ht => ?_,
        fun t ht => ?_⟩
      · obtain ⟨w, h1, rfl⟩ := hwave t ht; exact r3 w h1
      · obtain ⟨t, h1, w, -, -, rfl⟩ := vis_from ho ht; exact r4 t h1
      · obtain ⟨t, h1, w, -, -, rfl⟩ := vis2_from ho ht; exact r5 t h1
      · obtain ⟨t, h1, w, -, -, rfl⟩ := t3_from ho ht; exact r6 t h1
  · intro h2 t ht
    obtain ⟨t, h1, w, -, -, rfl⟩ := vis_from ho ht
    exact hc.amptyp (hv.mp h2) t h1
  · intro t ht
    obtain ⟨t, h1, w, -, -, rfl⟩ := flux_from ho ht
    exact hc.calstat t h1
  · intro t ht
    obtain ⟨t, h1, w, -, -, rfl⟩ := vis_from ho ht
    exact hc.visrefmap t h1
  · rw [ho.targets, targetsOut]
    split
    · exact hc.unique
    · cases oi.targets.targ.reverse.find? fun x => x.target_id == f.target_id with
      | none => exact List.nodup_nil
      | some y => exact List.nodup_cons.mpr ⟨by simp, List.nodup_nil⟩
  · intro t ht r hr
    obtain ⟨t, h1, w, -, -, rfl⟩ := vis_from ho ht
    obtain ⟨r, h2, h3, rfl⟩ := mem_kept.mp hr
    exact target_known_out ho (hc.targetVis t h1 r h2) h3.target
  · intro t ht r hr
    obtain ⟨t, h1, w, -, -, rfl⟩ := vis2_from ho ht
    obtain ⟨r, h2, h3, rfl⟩ := mem_kept.mp hr
    exact target_known_out ho (hc.targetVis2 t h1 r h2) h3.target
  · intro t ht r hr
    obtain ⟨t, h1, w, -, -, rfl⟩ := t3_from ho ht
    obtain ⟨r, h2, h3, rfl⟩ := mem_kept.mp hr
    exact target_known_out ho (hc.targetT3 t h1 r h2) h3.target
  · intro t ht r hr
    obtain ⟨t, h1, w, -, -, rfl⟩ := flux_from ho ht
    obtain ⟨r, h2, h3, rfl⟩ := mem_kept.mp hr
    exact target_known_out ho (hc.targetFlux t h1 r h2) h3.target
  · intro t ht
    obtain ⟨t, h1, -, -, rfl⟩ := inspol_mem hi ht
    exact hc.arrInspol t h1
  · intro h2 t ht
    obtain ⟨t, h1, w, -, -, rfl⟩ := vis_from ho ht
    exact hc.arrVis (hv.mp h2) t h1
  · intro h2 t ht
    obtain ⟨t, h1, w, -, -, rfl⟩ := vis2_from ho ht
    exact hc.arrVis2 (hv.mp h2) t h1
  · intro h2 t ht
    obtain ⟨t, h1, w, -, -, rfl⟩ := t3_from ho ht
    exact hc.arrT3 (hv.mp h2) t h1
  · intro h2 t ht
    obtain ⟨t, h1, w, -, -, rfl⟩ := flux_from ho ht
    exact hc.arrFlux (hv.mp h2) t h1
  · intro t ht hne r hr s hs
    obtain ⟨t, h1, -, href, rfl⟩ := inspol_mem hi ht
    obtain ⟨r, hr2, rfl⟩ := List.mem_map.mp hr
    have h2 := (mem_inspolRecs.mp hr2).1
    obtain ⟨d, hm, he⟩ := name_of_referenced href
    have := element_known_out hf h hd hm (by rw [he]; exact hne) (s := s) (by
      rw [he]; exact hc.staInspol t h1 hne r h2 s hs)
    rw [he] at this
    exact this
  · intro t' ht hne r hr s hs
    have hm := visName_mem ht
    obtain ⟨t, h1, w, -, -, rfl⟩ := vis_from ho ht
    obtain ⟨r, h2, -, rfl⟩ := mem_kept.mp hr
    exact element_known_out hf h hd hm hne (hc.staVis t h1 hne r h2 s hs)
  · intro t' ht hne r hr s hs
    have hm := vis2Name_mem ht
    obtain ⟨t, h1, w, -, -, rfl⟩ := vis2_from ho ht
    obtain ⟨r, h2, -, rfl⟩ := mem_kept.mp hr
    exact element_known_out hf h hd hm hne (hc.staVis2 t h1 hne r h2 s hs)
  · intro t' ht hne r hr s hs
    have hm := t3Name_mem ht
    obtain ⟨t, h1, w, -, -, rfl⟩ := t3_from ho ht
    obtain ⟨r, h2, -, rfl⟩ := mem_kept.mp hr
    exact element_known_out hf h hd hm hne (hc.staT3 t h1 hne r h2 s hs)
  · intro t' ht hne r hr s hs
    have hm := fluxName_mem ht
    obtain ⟨t, h1, w, -, -, rfl⟩ := flux_from ho ht
    obtain ⟨r, h2, -, rfl⟩ := mem_kept.mp hr
    exact element_known_out hf h hd hm hne (hc.staFlux t h1 hne r h2 s hs)
  · intro t' ht
    have hm := visName_mem ht
    obtain ⟨t, h1, w, -, -, rfl⟩ := vis_from ho ht
    exact corr_known_out hf h hd hm (hc.corrVis t h1)
  · intro t' ht
    have hm := vis2Name_mem ht
    obtain ⟨t, h1, w, -, -, rfl⟩ := vis2_from ho ht
    exact corr_known_out hf h hd hm (hc.corrVis2 t h1)
  · intro t' ht
    have hm := t3Name_mem ht
    obtain ⟨t, h1, w, -, -, rfl⟩ := t3_from ho ht
    exact corr_known_out hf h hd hm (hc.corrT3 t h1)
  · intro t' ht
    have hm := fluxName_mem ht
    obtain ⟨t, h1, w, -, -, rfl⟩ := flux_from ho ht
    exact corr_known_out hf h hd hm (hc.corrFlux t h1)
  · intro t' ht r' hr k hk
    obtain ⟨t, h1, w, hit, -, rfl⟩ := vis_from ho ht
    obtain ⟨r, h2, -, rfl⟩ := mem_kept.mp hr
    have hn := (hf.vis t h1 w hit).2
    have hwf := (hf.wf.vis t h1).recs r h2
    rw [← hn] at hwf
    obtain ⟨j, hkj, hj⟩ := kept_lt (f := f) (w := w) hk
    rintro ⟨hfl, herr⟩
    refine hc.errVis t h1 r h2 j (hn ▸ hj) ⟨unflagged_at hwf.flag hj hkj hfl, ?_⟩
    exact herr.imp (has_at (visAt hwf).visamperr hkj) (has_at (visAt hwf).visphierr hkj)
  · intro t' ht r' hr k hk
    obtain ⟨t, h1, w, hit, -, rfl⟩ := vis2_from ho ht
    obtain ⟨r, h2, -, rfl⟩ := mem_kept.mp hr
    have hn := (hf.vis2 t h1 w hit).2
    have hwf := (hf.wf.vis2 t h1).recs r h2
    rw [← hn] at hwf
    obtain ⟨j, hkj, hj⟩ := kept_lt (f := f) (w := w) hk
    rintro ⟨hfl, herr⟩
    exact hc.errVis2 t h1 r h2 j (hn ▸ hj) ⟨unflagged_at hwf.flag hj hkj hfl, has_at (vis2At hwf).vis2err hkj herr⟩
  · intro t' ht r' hr k hk
    obtain ⟨t, h1, w, hit, -, rfl⟩ := t3_from ho ht
    obtain ⟨r, h2, -, rfl⟩ := mem_kept.mp hr
    have hn := (hf.t3 t h1 w hit).2
    have hwf := (hf.wf.t3 t h1).recs r h2
    rw [← hn] at hwf
    obtain ⟨j, hkj, hj⟩ := kept_lt (f := f) (w := w) hk
    rintro ⟨hfl, herr⟩
    refine hc.errT3 t h1 r h2 j (hn ▸ hj) ⟨unflagged_at hwf.flag hj hkj hfl, ?_⟩
    exact herr.imp (has_at (t3At hwf).t3amperr hkj) (has_at (t3At hwf).t3phierr hkj)
  · intro t' ht r' hr k hk
    obtain ⟨t, h1, w, hit, -, rfl⟩ := t3_from ho ht
    obtain ⟨r, h2, -, rfl⟩ := mem_kept.mp hr
    have hn := (hf.t3 t h1 w hit).2
    have hwf := (hf.wf.t3 t h1).recs r h2
    rw [← hn] at hwf
    obtain ⟨j, hkj, hj⟩ := kept_lt (f := f) (w := w) hk
    rintro ⟨hfl, hbad⟩
    have hamp1 := (t3At (f := f) hwf).t3amp
    obtain ⟨e, he1, he2⟩ := (t3At (f := f) hwf).t3amperr.2 k j hkj
    unfold AtChansOrNaN at hamp1
    by_cases hacc : f.accept_t3amp = true
    · rw [if_pos hacc] at hamp1
      obtain ⟨a, ha1, ha2⟩ := hamp1.2 k j hkj
      refine hc.t3amp t h1 r h2 j (hn ▸ hj) ⟨unflagged_at hwf.flag hj hkj hfl, ?_⟩
      unfold Has at hbad ⊢
      rw [ha2, he2] at hbad
      rw [ha1, he1]
      exact hbad
    · rw [if_neg hacc] at hamp1
      unfold Has at hbad
      rw [hamp1, he2, List.getElem?_replicate, if_pos (show k < (keptChans f w).length from hk)] at hbad
      simp only [Option.any_some] at hbad
      rw [(hamp.resolve_left hacc) _] at hbad
      cases hbad
  · intro w' hw'
    obtain ⟨w, h1, rfl⟩ := hwave w' hw'
    exact ascending_waveOut L (hf.wf.wavelength w h1) (hc.waveorder w h1) (hw w h1)
  · intro h2 t ht r hr
    obtain ⟨t, h1, w, -, -, rfl⟩ := vis_from ho ht
    obtain ⟨r, h3, -, rfl⟩ := mem_kept.mp hr
    exact hc.timeVis (hv.mp h2) t h1 r h3
  · intro h2 t ht r hr
    obtain ⟨t, h1, w, -, -, rfl⟩ := vis2_from ho ht
    obtain ⟨r, h3, -, rfl⟩ := mem_kept.mp hr
    exact hc.timeVis2 (hv.mp h2) t h1 r h3
  · intro h2 t ht r hr
    obtain ⟨t, h1, w, -, -, rfl⟩ := t3_from ho ht
    obtain ⟨r, h3, -, rfl⟩ := mem_kept.mp hr
    exact hc.timeT3 (hv.mp h2) t h1 r h3
  · intro t ht hcal
    obtain ⟨t, h1, w, -, hr, rfl⟩ := flux_from ho ht
    obtain ⟨h2, h3⟩ := hc.fluxC t h1 hcal
    exact ⟨h2, fun h4 => h3 ((hasStation_out hr (hu t h1)).mp h4)⟩
  · intro t ht hcal
    obtain ⟨t, h1, w, -, hr, rfl⟩ := flux_from ho ht
    obtain ⟨h2, h3, h4⟩ := hc.fluxU t h1 hcal
    exact ⟨h2, (hasStation_out hr (hu t h1)).mpr h3, h4⟩

end
end Verif
