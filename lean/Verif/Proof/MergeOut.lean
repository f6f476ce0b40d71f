import Verif.Proof.MergeHeader

/-! What each table of a merged dataset contains, and that merging succeeds. -/

namespace Verif
open Outcome Spec

variable {R : FP} {τ : Type}

/-! ### Records -/

/-- The new TARGET_ID of each record. -/
def IdsFrom {ρ : Type} (inp : OiFits R) (ids : HMap Int) (get : ρ → Int) (l l' : List ρ) : Prop :=
  Pairwise₂ (fun r r' => mergedTargetId inp ids (get r) = .ok (get r')) l l'

theorem pairwise₂_mono {α β : Type} {P Q : α → β → Prop} {l : List α} {l' : List β}
    (hpq : ∀ x y, P x y → Q x y) (h : Pairwise₂ P l l') : Pairwise₂ Q l l' :=
  ⟨h.1, fun i x y hx hy => hpq x y (h.2 i x y hx hy)⟩

theorem ids_mapM {ρ : Type} {inp : OiFits R} {ids : HMap Int} {get : ρ → Int} {set : ρ → Int → ρ}
    {l l' : List ρ} (h : (l.mapM fun r => do
      let id ← mergedTargetId inp ids (get r)
      return set r id) = .ok l') :
    List.Forall₂ (fun r r' => ∃ id, mergedTargetId inp ids (get r) = .ok id ∧ r' = set r id) l l' := by
  refine forall₂_mono ?_ (mapM_forall₂ h)
  intro r _ r' hr
  obtain ⟨id, h1, h2⟩ := bind_eq_ok.mp hr
  cases h2
  exact ⟨id, h1, rfl⟩

theorem mergedInspol_spec {ids : HMap Int} {inp : OiFits R} {a i c : HMap CStr} {t t' : OiInspol R}
    (hw : t.WF) (h : mergedInspol ids inp a i c t = .ok t') :
    InspolSame t t' ∧ IdsFrom inp ids OiInspolRecord.target_id t.record t'.record ∧
    t'.arrname = replaceOptName a t.arrname ∧
    Pairwise₂ (fun r r' => r'.insname = replaceName i r.insname) t.record t'.record := by
  unfold mergedInspol at h
  rw [C22_dup_oi_inspol t hw, bind_ok] at h
  obtain ⟨rs, hrs, h⟩ := bind_eq_ok.mp h
  cases h
  have hf := ids_mapM (get := OiInspolRecord.target_id) (set := fun (r : OiInspolRecord R) id => { r with target_id := id }) hrs
  have hp : Pairwise₂ (fun r r' => ∃ id, mergedTargetId inp ids r.target_id = .ok id ∧
      r' = { r with target_id := id, insname := replaceName i r.insname })
      t.record (rs.map fun r => { r with insname := replaceName i r.insname }) := by
    refine forall₂_pairwise₂ (List.forall₂_map_right_iff.mpr (forall₂_mono ?_ hf))
    rintro r - r' ⟨id, h1, rfl⟩
    exact ⟨id, h1, rfl⟩
  refine ⟨⟨rfl, pairwise₂_mono ?_ hp⟩, pairwise₂_mono ?_ hp, rfl, pairwise₂_mono ?_ hp⟩
  · rintro r r' ⟨id, h1, rfl⟩; rfl
  · rintro r r' ⟨id, h1, rfl⟩; exact h1
  · rintro r r' ⟨id, h1, rfl⟩; rfl

theorem upgrade_vis_eq (t : OiVis R) : upgrade_oi_vis t = { t with
    revision := upgraded t.revision
    record := t.record.map fun r => { r with time := upgradedTime t.revision r.time } } := by
  unfold upgraded upgradedTime
  by_cases h : t.revision = 1
  · rw [C23_upgrade_v1.2.2.2.1 t h]; simp [h]
  · rw [C23_upgrade_other.2.2.2.1 t h]; simp [h]

theorem upgrade_vis2_eq (t : OiVis2 R) : upgrade_oi_vis2 t = { t with
    revision := upgraded t.revision
    record := t.record.map fun r => { r with time := upgradedTime t.revision r.time } } := by
  unfold upgraded upgradedTime
  by_cases h : t.revision = 1
  · rw [C23_upgrade_v1.2.2.2.2.1 t h]; simp [h]
  · rw [C23_upgrade_other.2.2.2.2.1 t h]; simp [h]

theorem upgrade_t3_eq (t : OiT3 R) : upgrade_oi_t3 t = { t with
    revision := upgraded t.revision
    record := t.record.map fun r => { r with time := upgradedTime t.revision r.time } } := by
  unfold upgraded upgradedTime
  by_cases h : t.revision = 1
  · rw [C23_upgrade_v1.2.2.2.2.2 t h]; simp [h]
  · rw [C23_upgrade_other.2.2.2.2.2 t h]; simp [h]

theorem mergedVis_spec {ids : HMap Int} {inp : OiFits R} {a i c : HMap CStr} {t t' : OiVis R}
    (hw : t.WF) (h : mergedVis ids inp a i c t = .ok t') :
    VisSameButIviserr t t' ∧ (t.usecomplex = false → VisSame t t') ∧
    IdsFrom inp ids OiVisRecord.target_id t.record t'.record ∧
    t'.arrname = replaceOptName a t.arrname ∧ t'.insname = replaceName i t.insname ∧
    t'.corrname = replaceOptName c t.corrname := by
  unfold mergedVis at h
  rw [C22_dup_oi_vis_partial t hw, bind_ok, upgrade_vis_eq] at h
  obtain ⟨rs, hrs, h⟩ := bind_eq_ok.mp h
  cases h
  have hf := ids_mapM (get := OiVisRecord.target_id) (set := fun (r : OiVisRecord R) id => { r with target_id := id }) hrs
  simp only [List.map_map, List.forall₂_map_left_iff, Function.comp_def] at hf
  have hp := forall₂_pairwise₂ hf
  refine ⟨⟨rfl, pairwise₂_mono ?_ hp⟩, fun hu => ⟨rfl, pairwise₂_mono ?_ hp⟩, pairwise₂_mono ?_ hp,
    rfl, rfl, rfl⟩
  · rintro r r' ⟨id, h1, rfl⟩; rfl
  · rintro r r' ⟨id, h1, rfl⟩; simp [hu]
  · rintro r r' ⟨id, h1, rfl⟩; exact h1

theorem mergedVis2_spec {ids : HMap Int} {inp : OiFits R} {a i c : HMap CStr} {t t' : OiVis2 R}
    (hw : t.WF) (h : mergedVis2 ids inp a i c t = .ok t') :
    Vis2Same t t' ∧ IdsFrom inp ids OiVis2Record.target_id t.record t'.record ∧
    t'.arrname = replaceOptName a t.arrname ∧ t'.insname = replaceName i t.insname ∧
    t'.corrname = replaceOptName c t.corrname := by
  unfold mergedVis2 at h
  rw [C22_dup_oi_vis2 t hw, bind_ok, upgrade_vis2_eq] at h
  obtain ⟨rs, hrs, h⟩ := bind_eq_ok.mp h
  cases h
  have hf := ids_mapM (get := OiVis2Record.target_id) (set := fun (r : OiVis2Record R) id => { r with target_id := id }) hrs
  rw [List.forall₂_map_left_iff] at hf
  have hp := forall₂_pairwise₂ hf
  refine ⟨⟨rfl, pairwise₂_mono ?_ hp⟩, pairwise₂_mono ?_ hp, rfl, rfl, rfl⟩
  · rintro r r' ⟨id, h1, rfl⟩; rfl
  · rintro r r' ⟨id, h1, rfl⟩; exact h1

theorem mergedT3_spec {ids : HMap Int} {inp : OiFits R} {a i c : HMap CStr} {t t' : OiT3 R}
    (hw : t.WF) (h : mergedT3 ids inp a i c t = .ok t') :
    T3Same t t' ∧ IdsFrom inp ids OiT3Record.target_id t.record t'.record ∧
    t'.arrname = replaceOptName a t.arrname ∧ t'.insname = replaceName i t.insname ∧
    t'.corrname = replaceOptName c t.corrname := by
  unfold mergedT3 at h
  rw [C22_dup_oi_t3 t hw, bind_ok, upgrade_t3_eq] at h
  obtain ⟨rs, hrs, h⟩ := bind_eq_ok.mp h
  cases h
  have hf := ids_mapM (get := OiT3Record.target_id) (set := fun (r : OiT3Record R) id => { r with target_id := id }) hrs
  rw [List.forall₂_map_left_iff] at hf
  have hp := forall₂_pairwise₂ hf
  refine ⟨⟨rfl, pairwise₂_mono ?_ hp⟩, pairwise₂_mono ?_ hp, rfl, rfl, rfl⟩
  · rintro r r' ⟨id, h1, rfl⟩; rfl
  · rintro r r' ⟨id, h1, rfl⟩; exact h1

theorem mergedFlux_spec {ids : HMap Int} {inp : OiFits R} {a i c : HMap CStr} {t t' : OiFlux R}
    (hw : t.WF) (h : mergedFlux ids inp a i c t = .ok t') :
    FluxSame t t' ∧ IdsFrom inp ids OiFluxRecord.target_id t.record t'.record ∧
    t'.arrname = replaceOptName a t.arrname ∧ t'.insname = replaceName i t.insname ∧
    t'.corrname = replaceOptName c t.corrname := by
  unfold mergedFlux at h
  rw [C22_dup_oi_flux t hw, bind_ok] at h
  obtain ⟨rs, hrs, h⟩ := bind_eq_ok.mp h
  cases h
  have hf := ids_mapM (get := OiFluxRecord.target_id) (set := fun (r : OiFluxRecord R) id => { r with target_id := id }) hrs
  have hp := forall₂_pairwise₂ hf
  refine ⟨⟨rfl, pairwise₂_mono ?_ hp⟩, pairwise₂_mono ?_ hp, rfl, rfl, rfl⟩
  · rintro r r' ⟨id, h1, rfl⟩; rfl
  · rintro r r' ⟨id, h1, rfl⟩; exact h1

/-! ### Success -/

theorem ids_mapM_ok {ρ : Type} {inp : OiFits R} {ids : HMap Int} {get : ρ → Int}
    {set : ρ → Int → ρ} {l : List ρ} (h : ∀ r ∈ l, ∃ id, mergedTargetId inp ids (get r) = .ok id) :
    ∃ l', (l.mapM fun r => do
      let id ← mergedTargetId inp ids (get r)
      return set r id) = .ok l' := by
  refine mapM_exists ?_
  intro r hr
  obtain ⟨id, hid⟩ := h r hr
  exact ⟨set r id, by rw [hid, bind_ok]; rfl⟩

theorem mergedInspol_ok {ids : HMap Int} {inp : OiFits R} (a i c : HMap CStr) {t : OiInspol R}
    (hw : t.WF) (h : ∀ r ∈ t.record, ∃ id, mergedTargetId inp ids r.target_id = .ok id) :
    ∃ t', mergedInspol ids inp a i c t = .ok t' := by
  unfold mergedInspol
  rw [C22_dup_oi_inspol t hw, bind_ok]
  obtain ⟨rs, hrs⟩ := ids_mapM_ok (get := OiInspolRecord.target_id)
    (set := fun (r : OiInspolRecord R) id => { r with target_id := id }) h
  rw [hrs, bind_ok]
  exact ⟨_, rfl⟩

theorem mergedVis_ok {ids : HMap Int} {inp : OiFits R} (a i c : HMap CStr) {t : OiVis R}
    (hw : t.WF) (h : ∀ r ∈ t.record, ∃ id, mergedTargetId inp ids r.target_id = .ok id) :
    ∃ t', mergedVis ids inp a i c t = .ok t' := by
  unfold mergedVis
  rw [C22_dup_oi_vis_partial t hw, bind_ok, upgrade_vis_eq]
  obtain ⟨rs, hrs⟩ := ids_mapM_ok (inp := inp) (ids := ids) (get := OiVisRecord.target_id)
    (set := fun (r : OiVisRecord R) id => { r with target_id := id })
    (l := (t.record.map fun r => { r with
        iviserr := if t.usecomplex then r.rviserr else r.iviserr }).map fun r =>
      { r with time := upgradedTime t.revision r.time }) (by
    intro r hr
    simp only [List.mem_map] at hr
    obtain ⟨r1, ⟨r0, hr0, rfl⟩, rfl⟩ := hr
    exact h r0 hr0)
  simp only [hrs, bind_ok]
  exact ⟨_, rfl⟩

theorem mergedVis2_ok {ids : HMap Int} {inp : OiFits R} (a i c : HMap CStr) {t : OiVis2 R}
    (hw : t.WF) (h : ∀ r ∈ t.record, ∃ id, mergedTargetId inp ids r.target_id = .ok id) :
    ∃ t', mergedVis2 ids inp a i c t = .ok t' := by
  unfold mergedVis2
  rw [C22_dup_oi_vis2 t hw, bind_ok, upgrade_vis2_eq]
  obtain ⟨rs, hrs⟩ := ids_mapM_ok (inp := inp) (ids := ids) (get := OiVis2Record.target_id)
    (set := fun (r : OiVis2Record R) id => { r with target_id := id })
    (l := t.record.map fun r => { r with time := upgradedTime t.revision r.time }) (by
    intro r hr
    obtain ⟨r0, hr0, rfl⟩ := List.mem_map.mp hr
    exact h r0 hr0)
  simp only [hrs, bind_ok]
  exact ⟨_, rfl⟩

theorem mergedT3_ok {ids : HMap Int} {inp : OiFits R} (a i c : HMap CStr) {t : OiT3 R}
    (hw : t.WF) (h : ∀ r ∈ t.record, ∃ id, mergedTargetId inp ids r.target_id = .ok id) :
    ∃ t', mergedT3 ids inp a i c t = .ok t' := by
  unfold mergedT3
  rw [C22_dup_oi_t3 t hw, bind_ok, upgrade_t3_eq]
  obtain ⟨rs, hrs⟩ := ids_mapM_ok (inp := inp) (ids := ids) (get := OiT3Record.target_id)
    (set := fun (r : OiT3Record R) id => { r with target_id := id })
    (l := t.record.map fun r => { r with time := upgradedTime t.revision r.time }) (by
    intro r hr
    obtain ⟨r0, hr0, rfl⟩ := List.mem_map.mp hr
    exact h r0 hr0)
  simp only [hrs, bind_ok]
  exact ⟨_, rfl⟩

theorem mergedFlux_ok {ids : HMap Int} {inp : OiFits R} (a i c : HMap CStr) {t : OiFlux R}
    (hw : t.WF) (h : ∀ r ∈ t.record, ∃ id, mergedTargetId inp ids r.target_id = .ok id) :
    ∃ t', mergedFlux ids inp a i c t = .ok t' := by
  unfold mergedFlux
  rw [C22_dup_oi_flux t hw, bind_ok]
  obtain ⟨rs, hrs⟩ := ids_mapM_ok (get := OiFluxRecord.target_id)
    (set := fun (r : OiFluxRecord R) id => { r with target_id := id }) h
  rw [hrs, bind_ok]
  exact ⟨_, rfl⟩

theorem merge_ok {ins : List (OiFits R)} (hw : ∀ oi ∈ ins, oi.WF)
    (ht : ∀ oi ∈ ins, TargetsResolve oi)
    (hn : (distinct ((allTargets ins).map (·.target))).length < 100) (hd : GoodDates ins) :
    ∃ out, merge_oi_fits_list ins = .ok out := by
  obtain ⟨mjd, hmjd, -⟩ := min_mjd_fold hd 100000
  obtain ⟨st, hst⟩ := tfold_ok (tinv_empty (R := R)) (ts := allTargets ins) (by simpa using hn)
  have hT := tinv_fold tinv_empty hst
  rw [List.nil_append] at hT
  obtain ⟨⟨sa, as⟩, hsa⟩ := gnames_ok (o := arrOps R) (fun _ => True) (tabs := OiFits.arrayList)
    (ins := ins) (fun inp hi x hx l _ => ⟨_, rfl⟩)
    (fun inp hi x hx => ⟨_, by
      simp only [arrOps]; rw [C22_dup_oi_array x ((hw inp hi).array x hx)]; rfl, fun _ => trivial⟩)
    (st := ⟨[], HMap.empty, 0⟩) (acc := []) (by simp)
  obtain ⟨⟨si, is⟩, hsi⟩ := gnames_ok (o := waveOps R) OiWavelength.WF (tabs := OiFits.wavelengthList)
    (ins := ins) (fun inp hi x hx l hl => wave_find_ok ((hw inp hi).wavelength x hx) hl)
    (fun inp hi x hx => by
      have hx := (hw inp hi).wavelength x hx
      refine ⟨upgrade_oi_wavelength x, ?_, ?_⟩
      · simp only [waveOps]; rw [C22_dup_oi_wavelength x hx]; rfl
      · intro n
        simp only [waveOps]
        unfold upgrade_oi_wavelength
        split
        · exact ⟨hx.chans, hx.eff_wave, hx.eff_band⟩
        · exact ⟨hx.chans, hx.eff_wave, hx.eff_band⟩)
    (st := ⟨[], HMap.empty, 0⟩) (acc := []) (by simp)
  obtain ⟨⟨sc, cs⟩, hsc⟩ := gnames_ok (o := corrOps R) (fun _ => True) (tabs := OiFits.corrList)
    (ins := ins) (fun inp hi x hx l _ => ⟨_, rfl⟩)
    (fun inp hi x hx => ⟨_, by
      simp only [corrOps]; exact C22_dup_oi_corr x ((hw inp hi).corr x hx), fun _ => trivial⟩)
    (st := ⟨[], HMap.empty, 0⟩) (acc := []) (by simp)
  obtain ⟨-, -, as', ea, fa⟩ := gnames_inv (arrLaws R) (ninv_empty _) hsa
  obtain ⟨-, -, is', ei, fi⟩ := gnames_inv (waveLaws R) (ninv_empty _) hsi
  obtain ⟨-, -, cs', ec, fc⟩ := gnames_inv (corrLaws R) (ninv_empty _) hsc
  simp only [List.nil_append] at ea ei ec
  subst ea; subst ei; subst ec
  have la := fa.length_eq.symm
  have li := fi.length_eq.symm
  have lc := fc.length_eq.symm
  have hid : ∀ inp ∈ ins, ∀ id n, DenotesTarget inp id n →
      ∃ id', mergedTargetId inp st.2 id = .ok id' := fun inp hi id n h => mergedTargetId_exists hT hi h
  unfold merge_oi_fits_list
  simp only
  rw [merge_oi_header_eq, show files_min_mjd ins = .ok mjd from hmjd, map_ok, bind_ok,
    merge_oi_target_eq, hst, map_ok, bind_ok]
  simp only
  rw [merge_all_oi_array_eq _ _ ⟨rfl, rfl, rfl⟩, hsa, map_ok, bind_ok]
  simp only
  rw [merge_all_oi_wavelength_eq _ _ ⟨rfl, rfl, rfl⟩, hsi, map_ok, bind_ok]
  simp only
  rw [merge_all_oi_corr_eq _ _ ⟨rfl, rfl, rfl⟩, hsc, map_ok, bind_ok]
  simp only
  rw [merge_all_oi_inspol_eq _ _ _ _ cs _ lc]
  obtain ⟨o1, h1⟩ := mergeData_ok (fun inp a i c out t => inspol_tab st.2 inp a i c out t)
    (ins := ins) (tabs := OiFits.inspolList) (fun inp hi t ht' a i c =>
      mergedInspol_ok a i c ((hw inp hi).inspol t ht') fun r hr => by
        obtain ⟨n, hn⟩ := (ht inp hi).inspol t ht' r hr
        exact hid inp hi _ n hn)
    (out := putCorr (putWave (putArr { init_oi_fits R with
      header := mergedHeader ins mjd, targets := { (init_oi_fits R).targets with
        revision := maxRev 2 ins, targ := st.1 } } sa) si) sc) la li lc
  obtain ⟨o2, h2⟩ := mergeData_ok (fun inp a i c out t => vis_tab st.2 inp a i c out t)
    (ins := ins) (tabs := OiFits.visList) (fun inp hi t ht' a i c =>
      mergedVis_ok a i c ((hw inp hi).vis t ht') fun r hr => by
        obtain ⟨n, hn⟩ := (ht inp hi).vis t ht' r hr
        exact hid inp hi _ n hn) (out := o1) la li lc
  obtain ⟨o3, h3⟩ := mergeData_ok (fun inp a i c out t => vis2_tab st.2 inp a i c out t)
    (ins := ins) (tabs := OiFits.vis2List) (fun inp hi t ht' a i c =>
      mergedVis2_ok a i c ((hw inp hi).vis2 t ht') fun r hr => by
        obtain ⟨n, hn⟩ := (ht inp hi).vis2 t ht' r hr
        exact hid inp hi _ n hn) (out := o2) la li lc
  obtain ⟨o4, h4⟩ := mergeData_ok (fun inp a i c out t => t3_tab st.2 inp a i c out t)
    (ins := ins) (tabs := OiFits.t3List) (fun inp hi t ht' a i c =>
      mergedT3_ok a i c ((hw inp hi).t3 t ht') fun r hr => by
        obtain ⟨n, hn⟩ := (ht inp hi).t3 t ht' r hr
        exact hid inp hi _ n hn) (out := o3) la li lc
  obtain ⟨o5, h5⟩ := mergeData_ok (fun inp a i c out t => flux_tab st.2 inp a i c out t)
    (ins := ins) (tabs := OiFits.fluxList) (fun inp hi t ht' a i c =>
      mergedFlux_ok a i c ((hw inp hi).flux t ht') fun r hr => by
        obtain ⟨n, hn⟩ := (ht inp hi).flux t ht' r hr
        exact hid inp hi _ n hn) (out := o4) la li lc
  refine ⟨o5, ?_⟩
  rw [h1, bind_ok]
  unfold merge_all_oi_vis merge_all_oi_vis2 merge_all_oi_t3 merge_all_oi_flux
  rw [h2, bind_ok, h3, bind_ok, h4, bind_ok, h5]

/-! ### Names -/

theorem setName_length {o : Ops τ} (hl : o.Laws) {all : List τ} {st : NS τ} (h : NInv o all st)
    (hfit : ∀ x ∈ all, (o.name x).length < FLEN_VALUE) : ∀ y ∈ st.list,
    (o.name y).length < FLEN_VALUE := by
  intro y hy
  obtain ⟨i, hi, rfl⟩ := List.mem_iff_getElem.mp hy
  obtain ⟨x, hx, d, n, hd, e, hn⟩ := h.src i _ (List.getElem?_eq_getElem hi)
  rw [e, hl.name_set]
  rcases hn with rfl | rfl
  · rw [hl.name_dup x d hd]; exact hfit x hx
  · unfold strlcpy FLEN_VALUE
    rw [List.length_take]
    omega

theorem nodup_name {f : τ → CStr} {l : List τ} (h : (l.map f).Nodup) {x y : τ} (hx : x ∈ l)
    (hy : y ∈ l) (e : f x = f y) : x = y := by
  induction l with
  | nil => simp at hx
  | cons z l ih =>
    rw [List.map_cons, List.nodup_cons] at h
    rcases List.mem_cons.mp hx with rfl | hx' <;> rcases List.mem_cons.mp hy with rfl | hy'
    · rfl
    · exact absurd (List.mem_map.mpr ⟨y, hy', e.symm⟩) h.1
    · exact absurd (List.mem_map.mpr ⟨x, hx', e⟩) h.1
    · exact ih h.2 hx' hy'

/-- A resolved name of an input is replaced by the name of the table that took the
named table's place. -/
theorem resolve {o : Ops τ} (hl : o.Laws) {all tabs : List τ} {st : NS τ} {h : HMap CStr}
    (hn : NInv o all st) (hh : HInv o tabs st.list h)
    (hfit : ∀ x ∈ all, (o.name x).length < FLEN_VALUE) (hu : (tabs.map o.name).Nodup)
    {x : τ} (hx : x ∈ tabs) :
    ∃ y ∈ st.list, o.name y = replaceName h (o.name x) ∧ Joined o x y := by
  cases hv : h.lookup (o.name x) with
  | none => exact absurd hv (hh.complete x hx)
  | some v =>
    obtain ⟨x', hx', he, y, hy, rfl, hj⟩ := hh.sound _ _ hv
    have : x' = x := nodup_name hu hx' hx he
    subst this
    refine ⟨y, hy, ?_, hj⟩
    unfold replaceName
    rw [hv]
    have := setName_length hl hn hfit y hy
    simp only [strlcpy]
    rw [List.take_of_length_le (by unfold FLEN_VALUE at *; omega)]

/-- A name that is not resolved is left as it is. -/
theorem unresolved {o : Ops τ} {tabs list : List τ} {h : HMap CStr}
    (hh : HInv o tabs list h) {n : CStr} (hn : n ∉ tabs.map o.name) : replaceName h n = n := by
  unfold replaceName
  cases hv : h.lookup n with
  | none => rfl
  | some v =>
    obtain ⟨x, hx, he, -⟩ := hh.sound _ _ hv
    exact absurd (List.mem_map.mpr ⟨x, hx, he⟩) hn

theorem lookup_of_nodup {o : Ops τ} {all : List τ} {st : NS τ} (hn : NInv o all st)
    (hu : (st.list.map o.name).Nodup) {y : τ} (hy : y ∈ st.list) :
    st.hash.lookup (o.name y) = some y := by
  cases hv : st.hash.lookup (o.name y) with
  | none => exact absurd hv (hn.has y hy)
  | some z =>
    obtain ⟨hz, he⟩ := hn.found _ _ hv
    rw [nodup_name hu hz hy he]

/-! ### Everything about a merged dataset -/

/-- All that the properties below need of a merge. -/
structure Full (ins : List (OiFits R)) (out : OiFits R) (mjd : Int)
    (st : List (Target R) × HMap Int) (sa : NS (OiArray R)) (si : NS (OiWavelength R))
    (sc : NS (OiCorr R)) (as is cs : List (HMap CStr)) : Prop
    extends Merged ins out mjd st sa si sc as is cs where
  tinv : TInv (allTargets ins) st
  ainv : NInv (arrOps R) (ins.flatMap OiFits.arrayList) sa
  iinv : NInv (waveOps R) (ins.flatMap OiFits.wavelengthList) si
  cinv : NInv (corrOps R) (ins.flatMap OiFits.corrList) sc
  ah : List.Forall₂ (fun inp h => HInv (arrOps R) inp.arrayList sa.list h) ins as
  ih : List.Forall₂ (fun inp h => HInv (waveOps R) inp.wavelengthList si.list h) ins is
  ch : List.Forall₂ (fun inp h => HInv (corrOps R) inp.corrList sc.list h) ins cs

theorem merge_full {ins : List (OiFits R)} {out : OiFits R} (h : merge_oi_fits_list ins = .ok out) :
    ∃ mjd st sa si sc as is cs, Full ins out mjd st sa si sc as is cs := by
  obtain ⟨mjd, st, sa, si, sc, as, is, cs, hm⟩ := merge_spec h
  refine ⟨mjd, st, sa, si, sc, as, is, cs, ?_⟩
  obtain ⟨na, -, as', ea, fa⟩ := gnames_inv (arrLaws R) (ninv_empty _) hm.arr
  obtain ⟨ni, -, is', ei, fi⟩ := gnames_inv (waveLaws R) (ninv_empty _) hm.wave
  obtain ⟨nc, -, cs', ec, fc⟩ := gnames_inv (corrLaws R) (ninv_empty _) hm.corr
  simp only [List.nil_append] at ea ei ec na ni nc
  subst ea; subst ei; subst ec
  have ht := tinv_fold tinv_empty hm.targ
  rw [List.nil_append] at ht
  exact ⟨hm, ht, na, ni, nc, fa, fi, fc⟩

theorem forall₂_and {α β : Type} {P Q : α → β → Prop} {l : List α} {l' : List β}
    (h : List.Forall₂ P l l') (h' : List.Forall₂ Q l l') :
    List.Forall₂ (fun x y => P x y ∧ Q x y) l l' := by
  induction h with
  | nil => exact .nil
  | cons hx _ ih => cases h' with
    | cons hy h' => exact .cons ⟨hx, hy⟩ (ih h')

theorem mem_tablesOf {tabs : OiFits R → List τ} {ins : List (OiFits R)} {p : OiFits R × τ}
    (h : p ∈ tablesOf tabs ins) : p.1 ∈ ins ∧ p.2 ∈ tabs p.1 := by
  unfold tablesOf at h
  obtain ⟨oi, hoi, h⟩ := List.mem_flatMap.mp h
  obtain ⟨t, ht, rfl⟩ := List.mem_map.mp h
  exact ⟨hoi, ht⟩

/-- From what relates corresponding tables to a property of them. -/
theorem corresponds_of {tabs : OiFits R → List τ} {ins : List (OiFits R)} {out : OiFits R}
    {P : OiFits R → τ → τ → Prop} {Q : OiFits R × τ → τ → Prop}
    (h : List.Forall₂ Q (tablesOf tabs ins) (tabs out))
    (hpq : ∀ inp ∈ ins, ∀ t ∈ tabs inp, ∀ t', Q (inp, t) t' → P inp t t') :
    Corresponds tabs ins out P := by
  refine forall₂_pairwise₂ (forall₂_mono ?_ h)
  rintro ⟨inp, t⟩ hm t' hq
  obtain ⟨h1, h2⟩ := mem_tablesOf hm
  exact hpq inp h1 t h2 t' hq

theorem Full.nodup_array {ins : List (OiFits R)} {out : OiFits R} {mjd st sa si sc as is cs}
    (h : Full ins out mjd st sa si sc as is cs)
    (hp : PlainNames ("array" : CStr) (allNames OiFits.arrayList OiArray.arrname ins)) :
    (out.arrayList.map OiArray.arrname).Nodup := by
  rw [h.arrays.1]
  refine h.ainv.nodup ?_
  unfold Spec.allNames at hp
  rw [← List.map_flatMap] at hp
  exact hp

theorem Full.nodup_wave {ins : List (OiFits R)} {out : OiFits R} {mjd st sa si sc as is cs}
    (h : Full ins out mjd st sa si sc as is cs)
    (hp : PlainNames ("ins" : CStr) (allNames OiFits.wavelengthList OiWavelength.insname ins)) :
    (out.wavelengthList.map OiWavelength.insname).Nodup := by
  rw [h.waves.1]
  refine h.iinv.nodup ?_
  unfold Spec.allNames at hp
  rw [← List.map_flatMap] at hp
  exact hp

theorem Full.nodup_corr {ins : List (OiFits R)} {out : OiFits R} {mjd st sa si sc as is cs}
    (h : Full ins out mjd st sa si sc as is cs)
    (hp : PlainNames ("ins" : CStr) (allNames OiFits.corrList OiCorr.corrname ins)) :
    (out.corrList.map OiCorr.corrname).Nodup := by
  rw [h.corrs.1]
  refine h.cinv.nodup ?_
  unfold Spec.allNames at hp
  rw [← List.map_flatMap] at hp
  exact hp

/-- The revision numbers of merged OI_ARRAY tables. -/
theorem Full.array_rev {ins : List (OiFits R)} {out : OiFits R} {mjd st sa si sc as is cs}
    (h : Full ins out mjd st sa si sc as is cs) (hr : ∀ oi ∈ ins, RevisionsPositive oi) :
    ∀ y ∈ sa.list, 2 ≤ y.revision := by
  intro y hy
  obtain ⟨i, hi, rfl⟩ := List.mem_iff_getElem.mp hy
  obtain ⟨x, hx, d, n, hd, e, -⟩ := h.ainv.src i _ (List.getElem?_eq_getElem hi)
  obtain ⟨oi, hoi, hx⟩ := List.mem_flatMap.mp hx
  have := (hr oi hoi).array x hx
  rw [e, arr_dup hd]
  simp only [arrOps, upgraded]
  split <;> omega

theorem Full.wave_rev {ins : List (OiFits R)} {out : OiFits R} {mjd st sa si sc as is cs}
    (h : Full ins out mjd st sa si sc as is cs) (hr : ∀ oi ∈ ins, RevisionsPositive oi) :
    ∀ y ∈ si.list, 2 ≤ y.revision := by
  intro y hy
  obtain ⟨i, hi, rfl⟩ := List.mem_iff_getElem.mp hy
  obtain ⟨x, hx, d, n, hd, e, -⟩ := h.iinv.src i _ (List.getElem?_eq_getElem hi)
  obtain ⟨oi, hoi, hx⟩ := List.mem_flatMap.mp hx
  have := (hr oi hoi).wavelength x hx
  rw [e, (wave_dup hd).2.2.2]
  simp only [waveOps, upgraded]
  split <;> omega

theorem Full.corr_rev {ins : List (OiFits R)} {out : OiFits R} {mjd st sa si sc as is cs}
    (h : Full ins out mjd st sa si sc as is cs) (hr : ∀ oi ∈ ins, RevisionsPositive oi) :
    ∀ y ∈ sc.list, 1 ≤ y.revision := by
  intro y hy
  obtain ⟨i, hi, rfl⟩ := List.mem_iff_getElem.mp hy
  obtain ⟨x, hx, d, n, hd, e, -⟩ := h.cinv.src i _ (List.getElem?_eq_getElem hi)
  obtain ⟨oi, hoi, hx⟩ := List.mem_flatMap.mp hx
  have := (hr oi hoi).corr x hx
  rw [e, corr_dup hd]
  exact this

/-- An INSNAME that resolves in its dataset. -/
theorem Full.ins_resolves {ins : List (OiFits R)} {out : OiFits R} {mjd st sa si sc as is cs}
    (h : Full ins out mjd st sa si sc as is cs) (hn : ∀ oi ∈ ins, NamesFit oi)
    {inp : OiFits R} (hu : UniqueNames inp) {hh : HMap CStr}
    (hi : HInv (waveOps R) inp.wavelengthList si.list hh) {w : OiWavelength R}
    (hw : w ∈ inp.wavelengthList) :
    ∃ w' ∈ out.wavelengthList, w'.insname = replaceName hh w.insname ∧ SameWaves w w' := by
  obtain ⟨y, hy, h1, h2⟩ := resolve (waveLaws R) h.iinv hi
    (fun x hx => by
      obtain ⟨oi, hoi, hx⟩ := List.mem_flatMap.mp hx
      exact (hn oi hoi).wavelength x hx) hu.wavelength hw
  rw [h.waves.1]
  exact ⟨y, hy, h1, wave_joined h2⟩

/-- An ARRNAME that resolves in its dataset. -/
theorem Full.arr_resolves {ins : List (OiFits R)} {out : OiFits R} {mjd st sa si sc as is cs}
    (h : Full ins out mjd st sa si sc as is cs) (hn : ∀ oi ∈ ins, NamesFit oi)
    (hr : ∀ oi ∈ ins, RevisionsPositive oi)
    {inp : OiFits R} (hu : UniqueNames inp) {hh : HMap CStr}
    (hi : HInv (arrOps R) inp.arrayList sa.list hh) {w : OiArray R}
    (hw : w ∈ inp.arrayList) (hne : w.arrname ≠ []) :
    ∃ w' ∈ out.arrayList, w'.arrname = replaceOptName hh w.arrname ∧ SameGeometry w w' := by
  obtain ⟨y, hy, h1, h2⟩ := resolve (arrLaws R) h.ainv hi
    (fun x hx => by
      obtain ⟨oi, hoi, hx⟩ := List.mem_flatMap.mp hx
      exact (hn oi hoi).array x hx) hu.array hw
  rw [h.arrays.1]
  refine ⟨y, hy, ?_, arr_joined (h.array_rev hr y hy) h2⟩
  unfold replaceOptName
  rw [if_pos (List.length_pos_of_ne_nil hne)]
  exact h1

/-- A CORRNAME that resolves in its dataset. -/
theorem Full.corr_resolves {ins : List (OiFits R)} {out : OiFits R} {mjd st sa si sc as is cs}
    (h : Full ins out mjd st sa si sc as is cs) (hn : ∀ oi ∈ ins, NamesFit oi)
    {inp : OiFits R} (hwf : inp.WF) (hu : UniqueNames inp) {hh : HMap CStr}
    (hi : HInv (corrOps R) inp.corrList sc.list hh) {w : OiCorr R}
    (hw : w ∈ inp.corrList) (hne : w.corrname ≠ []) :
    ∃ w' ∈ out.corrList, w'.corrname = replaceOptName hh w.corrname ∧ SameCorr w w' := by
  obtain ⟨y, hy, h1, h2⟩ := resolve (corrLaws R) h.cinv hi
    (fun x hx => by
      obtain ⟨oi, hoi, hx⟩ := List.mem_flatMap.mp hx
      exact (hn oi hoi).corr x hx) hu.corr hw
  rw [h.corrs.1]
  refine ⟨y, hy, ?_, corr_joined (hwf.corr w hw) h2⟩
  unfold replaceOptName
  rw [if_pos (List.length_pos_of_ne_nil hne)]
  exact h1

theorem Full.lookup_wave {ins : List (OiFits R)} {out : OiFits R} {mjd st sa si sc as is cs}
    (h : Full ins out mjd st sa si sc as is cs)
    (hu : (out.wavelengthList.map OiWavelength.insname).Nodup) {w : OiWavelength R}
    (hw : w ∈ out.wavelengthList) : oi_fits_lookup_wavelength out w.insname = some w := by
  unfold oi_fits_lookup_wavelength
  rw [h.waves.1] at hw hu
  rw [h.waves.2.1]
  exact lookup_of_nodup h.iinv hu hw

theorem Full.lookup_array {ins : List (OiFits R)} {out : OiFits R} {mjd st sa si sc as is cs}
    (h : Full ins out mjd st sa si sc as is cs)
    (hu : (out.arrayList.map OiArray.arrname).Nodup) {w : OiArray R}
    (hw : w ∈ out.arrayList) : oi_fits_lookup_array out w.arrname = some w := by
  unfold oi_fits_lookup_array
  rw [h.arrays.1] at hw hu
  rw [h.arrays.2.1]
  exact lookup_of_nodup h.ainv hu hw

theorem Full.lookup_corr {ins : List (OiFits R)} {out : OiFits R} {mjd st sa si sc as is cs}
    (h : Full ins out mjd st sa si sc as is cs)
    (hu : (out.corrList.map OiCorr.corrname).Nodup) {w : OiCorr R}
    (hw : w ∈ out.corrList) : oi_fits_lookup_corr out w.corrname = some w := by
  unfold oi_fits_lookup_corr
  rw [h.corrs.1] at hw hu
  rw [h.corrs.2.1]
  exact lookup_of_nodup h.cinv hu hw

end Verif
