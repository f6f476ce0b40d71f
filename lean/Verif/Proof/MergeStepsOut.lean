import Verif.Proof.MergeStepsData

/-! Merging in steps. -/

namespace Verif
open Outcome Spec
variable {R : FP} {ins₁ ins₂ : List (OiFits R)} {m : OiFits R}

/-! ### What a completed merge was made of -/

/-- The parts of a completed merge. -/
structure Parts (ins : List (OiFits R)) (out : OiFits R) (mjd : Int)
    (st : List (Target R) × HMap Int) (a : NS (OiArray R) × List (HMap CStr))
    (i : NS (OiWavelength R) × List (HMap CStr)) (c : NS (OiCorr R) × List (HMap CStr)) : Prop where
  date : files_min_mjd ins = .ok mjd
  targ : (allTargets ins).foldlM mergeTargetStep ([], HMap.empty) = .ok st
  arr : gnames (arrOps R) OiFits.arrayList ins ⟨[], HMap.empty, 0⟩ [] = .ok a
  wave : gnames (waveOps R) OiFits.wavelengthList ins ⟨[], HMap.empty, 0⟩ [] = .ok i
  corr : gnames (corrOps R) OiFits.corrList ins ⟨[], HMap.empty, 0⟩ [] = .ok c
  inspol : dataOf (mergedInspol st.2) (zipTables OiFits.inspolList ins a.2 i.2 c.2) = .ok out.inspolList
  vis : dataOf (mergedVis st.2) (zipTables OiFits.visList ins a.2 i.2 c.2) = .ok out.visList
  vis2 : dataOf (mergedVis2 st.2) (zipTables OiFits.vis2List ins a.2 i.2 c.2) = .ok out.vis2List
  t3 : dataOf (mergedT3 st.2) (zipTables OiFits.t3List ins a.2 i.2 c.2) = .ok out.t3List
  flux : dataOf (mergedFlux st.2) (zipTables OiFits.fluxList ins a.2 i.2 c.2) = .ok out.fluxList
  out : out = assembled ins mjd st a.1 i.1 c.1 out.inspolList out.visList out.vis2List out.t3List
    out.fluxList

theorem merge_parts {ins : List (OiFits R)} {out : OiFits R} (h : merge_oi_fits_list ins = .ok out) :
    ∃ mjd st a i c, Parts ins out mjd st a i c := by
  rw [merge_eq_parts] at h
  unfold mergeParts at h
  obtain ⟨mjd, h0, h⟩ := bind_eq_ok.mp h
  obtain ⟨st, h1, h⟩ := bind_eq_ok.mp h
  obtain ⟨a, h2, h⟩ := bind_eq_ok.mp h
  obtain ⟨i, h3, h⟩ := bind_eq_ok.mp h
  obtain ⟨c, h4, h⟩ := bind_eq_ok.mp h
  obtain ⟨l1, h5, h⟩ := bind_eq_ok.mp h
  obtain ⟨l2, h6, h⟩ := bind_eq_ok.mp h
  obtain ⟨l3, h7, h⟩ := bind_eq_ok.mp h
  obtain ⟨l4, h8, h⟩ := bind_eq_ok.mp h
  obtain ⟨l5, h9, h⟩ := bind_eq_ok.mp h
  cases h
  exact ⟨mjd, st, a, i, c, h0, h1, h2, h3, h4, h5, h6, h7, h8, h9, rfl⟩

theorem parts_merge {ins : List (OiFits R)} {mjd st a i c} {l1 : List (OiInspol R)}
    {l2 : List (OiVis R)} {l3 : List (OiVis2 R)} {l4 : List (OiT3 R)} {l5 : List (OiFlux R)}
    (h0 : files_min_mjd ins = .ok mjd)
    (h1 : (allTargets ins).foldlM mergeTargetStep ([], HMap.empty) = .ok st)
    (h2 : gnames (arrOps R) OiFits.arrayList ins ⟨[], HMap.empty, 0⟩ [] = .ok a)
    (h3 : gnames (waveOps R) OiFits.wavelengthList ins ⟨[], HMap.empty, 0⟩ [] = .ok i)
    (h4 : gnames (corrOps R) OiFits.corrList ins ⟨[], HMap.empty, 0⟩ [] = .ok c)
    (h5 : dataOf (mergedInspol st.2) (zipTables OiFits.inspolList ins a.2 i.2 c.2) = .ok l1)
    (h6 : dataOf (mergedVis st.2) (zipTables OiFits.visList ins a.2 i.2 c.2) = .ok l2)
    (h7 : dataOf (mergedVis2 st.2) (zipTables OiFits.vis2List ins a.2 i.2 c.2) = .ok l3)
    (h8 : dataOf (mergedT3 st.2) (zipTables OiFits.t3List ins a.2 i.2 c.2) = .ok l4)
    (h9 : dataOf (mergedFlux st.2) (zipTables OiFits.fluxList ins a.2 i.2 c.2) = .ok l5) :
    merge_oi_fits_list ins = .ok (assembled ins mjd st a.1 i.1 c.1 l1 l2 l3 l4 l5) := by
  rw [merge_eq_parts]
  unfold mergeParts
  rw [h0, bind_ok, h1, bind_ok, h2, bind_ok, h3, bind_ok, h4, bind_ok, h5, bind_ok, h6, bind_ok, h7,
    bind_ok, h8, bind_ok, h9, bind_ok]
  rfl

/-! ### A part of the inputs can be merged too -/

theorem targetId_part {done : List (Target R)} {st st' : List (Target R) × HMap Int}
    (ht : TInv done st) (hext : ∀ n k, st.2.lookup n = some k → st'.2.lookup n = some k)
    {inp : OiFits R} (hin : ∀ t ∈ inp.targets.targ, t ∈ done) {id k : Int}
    (h : mergedTargetId inp st'.2 id = .ok k) : mergedTargetId inp st.2 id = .ok k := by
  unfold mergedTargetId at h ⊢
  obtain ⟨t, hl, h⟩ := bind_eq_ok.mp h
  rw [hl, bind_ok]
  have hmem : t ∈ inp.targets.targ := by
    cases hf : oi_fits_lookup_target inp id with
    | none => rw [hf] at hl; cases hl
    | some u =>
      rw [hf] at hl
      cases hl
      exact List.mem_of_find?_eq_some hf
  cases hk : st.2.lookup t.target with
  | none => exact absurd (List.mem_map.mpr ⟨t, hin t hmem, rfl⟩) ((tinv_known ht _).mp hk)
  | some k' =>
    rw [hext _ _ hk] at h
    exact h

theorem dataOf_part {τ : Type} {tabs : OiFits R → List τ}
    {f : HMap Int → OiFits R → HMap CStr → HMap CStr → HMap CStr → τ → Outcome τ}
    {ids ids' : HMap Int} {l : List τ} {as is cs as' is' cs' : List (HMap CStr)}
    (la : as.length = ins₁.length) (li : is.length = ins₁.length) (lc : cs.length = ins₁.length)
    (h : dataOf (f ids') (zipTables tabs (ins₁ ++ ins₂) (as ++ as') (is ++ is') (cs ++ cs')) = .ok l)
    (hmono : ∀ inp ∈ ins₁, ∀ a i c t t', f ids' inp a i c t = .ok t' → f ids inp a i c t = .ok t') :
    ∃ l', dataOf (f ids) (zipTables tabs ins₁ as is cs) = .ok l' := by
  rw [zipTables_append la li lc] at h
  unfold dataOf at h ⊢
  rw [List.mapM_append] at h
  obtain ⟨l', hl', -⟩ := bind_eq_ok.mp h
  exact ⟨l', mapM_mono (fun p hp t' h => hmono _ (zipTables_mem hp).1 _ _ _ _ _ h) hl'⟩

theorem merge_part {out : OiFits R} (h : merge_oi_fits_list (ins₁ ++ ins₂) = .ok out) :
    ∃ m, merge_oi_fits_list ins₁ = .ok m := by
  obtain ⟨mjd, st, a, i, c, p⟩ := merge_parts h
  have h0 := p.date
  unfold files_min_mjd at h0
  rw [List.foldlM_append] at h0
  obtain ⟨mjd₁, h0, -⟩ := bind_eq_ok.mp h0
  have h1 := p.targ
  unfold allTargets at h1
  rw [List.flatMap_append, List.foldlM_append] at h1
  obtain ⟨st₁, h1, h1'⟩ := bind_eq_ok.mp h1
  have hext := targets_extend h1'
  have ht := tinv_fold tinv_empty h1
  rw [List.nil_append] at ht
  have h2 := p.arr
  rw [gnames_append] at h2
  obtain ⟨a₁, g2, h2'⟩ := bind_eq_ok.mp h2
  rw [gnames_acc] at h2'
  obtain ⟨a₂, -, rfl⟩ := map_eq_ok h2'
  have h3 := p.wave
  rw [gnames_append] at h3
  obtain ⟨i₁, g3, h3'⟩ := bind_eq_ok.mp h3
  rw [gnames_acc] at h3'
  obtain ⟨i₂, -, rfl⟩ := map_eq_ok h3'
  have h4 := p.corr
  rw [gnames_append] at h4
  obtain ⟨c₁, g4, h4'⟩ := bind_eq_ok.mp h4
  rw [gnames_acc] at h4'
  obtain ⟨c₂, -, rfl⟩ := map_eq_ok h4'
  have la : a₁.2.length = ins₁.length := by simpa using gnames_length g2
  have li : i₁.2.length = ins₁.length := by simpa using gnames_length g3
  have lc : c₁.2.length = ins₁.length := by simpa using gnames_length g4
  have hid : ∀ inp ∈ ins₁, ∀ id k, mergedTargetId inp st.2 id = .ok k →
      mergedTargetId inp st₁.2 id = .ok k := fun inp hinp id k =>
    targetId_part ht hext fun t htt => List.mem_flatMap.mpr ⟨inp, hinp, htt⟩
  obtain ⟨l1, e1⟩ := dataOf_part (f := fun ids => mergedInspol ids) (ids := st₁.2) la li lc p.inspol
    fun inp hinp _ _ _ _ _ h => mergedInspol_mono (hid inp hinp) h
  obtain ⟨l2, e2⟩ := dataOf_part (f := fun ids => mergedVis ids) (ids := st₁.2) la li lc p.vis
    fun inp hinp _ _ _ _ _ h => mergedVis_mono (hid inp hinp) h
  obtain ⟨l3, e3⟩ := dataOf_part (f := fun ids => mergedVis2 ids) (ids := st₁.2) la li lc p.vis2
    fun inp hinp _ _ _ _ _ h => mergedVis2_mono (hid inp hinp) h
  obtain ⟨l4, e4⟩ := dataOf_part (f := fun ids => mergedT3 ids) (ids := st₁.2) la li lc p.t3
    fun inp hinp _ _ _ _ _ h => mergedT3_mono (hid inp hinp) h
  obtain ⟨l5, e5⟩ := dataOf_part (f := fun ids => mergedFlux ids) (ids := st₁.2) la li lc p.flux
    fun inp hinp _ _ _ _ _ h => mergedFlux_mono (hid inp hinp) h
  exact ⟨_, parts_merge h0 h1 g2 g3 g4 e1 e2 e3 e4 e5⟩

/-! ### Dates -/

theorem date_of_merge (hd : GoodDates ins₁) (hs : SomeDate ins₁) {mjd : Int}
    (h : files_min_mjd ins₁ = .ok mjd) : ∃ d, ValidDate d ∧ 1901 ≤ d.year ∧ d.year ≤ 2099 ∧
      mjd = dayNo d.year d.month d.day := by
  obtain ⟨m', hm', -, h2, h3⟩ := min_mjd_fold hd 100000
  unfold files_min_mjd at h
  rw [h] at hm'
  cases hm'
  rcases h2 with h2 | ⟨oi, -, d, hd', e⟩
  · obtain ⟨oi, hoi, d, hd'⟩ := hs
    have := h3 oi hoi d hd'
    have := (dayNo_bounds hd'.1 hd'.2.1 hd'.2.2.1).2
    omega
  · exact ⟨d, hd'.1, hd'.2.1, hd'.2.2.1, e⟩

theorem date_step (hd : GoodDates ins₁) (hs : SomeDate ins₁) {mjd : Int}
    (h : files_min_mjd ins₁ = .ok mjd)
    (hm : m.header.date_obs = snprintf FLEN_VALUE (fmtDate (mjd2date mjd))) :
    files_min_mjd (m :: ins₂) = files_min_mjd (ins₁ ++ ins₂) := by
  obtain ⟨d, hv, y1, y2, rfl⟩ := date_of_merge hd hs h
  unfold files_min_mjd at *
  rw [List.foldlM_append, h, bind_ok, List.foldlM_cons]
  have hstep : minMjdStep 100000 m = .ok (dayNo d.year d.month d.day) := by
    unfold minMjdStep
    rw [hm, date_out hv y1 y2, sscanfDate_iso (d := d) ⟨hv, y1, y2, [], by simp⟩]
    simp only [date2mjd_eq hv y1 y2, bind_ok]
    have := (dayNo_bounds hv y1 y2).2
    rw [if_pos (by omega)]
    rfl
  rw [hstep, bind_ok]

theorem noDate_fold {ins : List (OiFits R)} (h : NoDate ins) (m0 : Int) :
    ins.foldlM minMjdStep m0 = .ok m0 := by
  induction ins with
  | nil => rfl
  | cons oi ins ih =>
    rw [List.foldlM_cons]
    have : minMjdStep m0 oi = .ok m0 := by
      unfold minMjdStep
      rw [h oi (by simp), sscanfDate_nil]
    rw [this, bind_ok]
    exact ih fun o ho => h o (by simp [ho])

/-! ### The two ways compared -/

theorem merge_steps (hw : ∀ oi ∈ ins₁, oi.WF) (hn : ∀ oi ∈ ins₁, NamesFit oi)
    (hk : ∀ oi ∈ ins₁ ++ ins₂, HeaderFits oi) (hd : GoodDates ins₁) (hs : SomeDate ins₁)
    (h : merge_oi_fits_list ins₁ = .ok m) (hu : UniqueNames m) :
    merge_oi_fits_list (m :: ins₂) = stepped ins₁ <$> merge_oi_fits_list (ins₁ ++ ins₂) := by
  obtain ⟨mjd, st, a, i, c, p⟩ := merge_parts h
  have hm := p.out
  have la : a.2.length = ins₁.length := by simpa using gnames_length p.arr
  have li : i.2.length = ins₁.length := by simpa using gnames_length p.wave
  have lc : c.2.length = ins₁.length := by simpa using gnames_length p.corr
  have ht := tinv_fold tinv_empty p.targ
  rw [List.nil_append] at ht
  have hta := tagain_fold tinv_empty rfl (by simp [MAX_TARGET]) p.targ
  have ga := againInv_gnames (arrAgain R) (againInv_empty _) p.arr
  have gi := againInv_gnames (waveAgain R) (againInv_empty _) p.wave
  have gc := againInv_gnames (corrAgain R) (againInv_empty _) p.corr
  obtain ⟨na, -, -⟩ := gnames_inv (arrLaws R) (ninv_empty _) p.arr
  obtain ⟨ni, -, -⟩ := gnames_inv (waveLaws R) (ninv_empty _) p.wave
  obtain ⟨nc, -, -⟩ := gnames_inv (corrLaws R) (ninv_empty _) p.corr
  have fa := setName_length (arrLaws R) na (by
    intro x hx
    rw [List.nil_append] at hx
    obtain ⟨oi, hoi, hx⟩ := List.mem_flatMap.mp hx
    exact (hn oi hoi).array x hx)
  have fi := setName_length (waveLaws R) ni (by
    intro x hx
    rw [List.nil_append] at hx
    obtain ⟨oi, hoi, hx⟩ := List.mem_flatMap.mp hx
    exact (hn oi hoi).wavelength x hx)
  have fc := setName_length (corrLaws R) nc (by
    intro x hx
    rw [List.nil_append] at hx
    obtain ⟨oi, hoi, hx⟩ := List.mem_flatMap.mp hx
    exact (hn oi hoi).corr x hx)
  have ma : m.arrayList = a.1.list := by rw [hm]; rfl
  have mi : m.wavelengthList = i.1.list := by rw [hm]; rfl
  have mc : m.corrList = c.1.list := by rw [hm]; rfl
  have mt : m.targets.targ = st.1 := by rw [hm]; rfl
  have mrev : m.targets.revision = maxRev 2 ins₁ := by rw [hm]; rfl
  have mhead : m.header = mergedHeader ins₁ mjd := by rw [hm]; rfl
  have hua : (a.1.list.map (arrOps R).name).Nodup := by rw [← ma]; exact hu.array
  have hui : (i.1.list.map (waveOps R).name).Nodup := by rw [← mi]; exact hu.wavelength
  have huc : (c.1.list.map (corrOps R).name).Nodup := by rw [← mc]; exact hu.corr
  rw [merge_eq_parts, merge_eq_parts]
  unfold mergeParts
  rw [date_step hd hs p.date (by rw [mhead]; rfl)]
  cases files_min_mjd (ins₁ ++ ins₂) with
  | abort => rfl
  | ub => rfl
  | ok mjd' =>
  simp only [bind_ok]
  have et : (allTargets (m :: ins₂)).foldlM mergeTargetStep ([], HMap.empty) =
      (allTargets ins₂).foldlM mergeTargetStep st := by
    unfold allTargets
    rw [List.flatMap_cons, List.foldlM_append, mt, tagain_again hta, bind_ok]
  have et' : (allTargets (ins₁ ++ ins₂)).foldlM mergeTargetStep ([], HMap.empty) =
      (allTargets ins₂).foldlM mergeTargetStep st := by
    have := p.targ
    unfold allTargets at this ⊢
    rw [List.flatMap_append, List.foldlM_append, this, bind_ok]
  rw [et, et']
  cases hst : (allTargets ins₂).foldlM mergeTargetStep st with
  | abort => rfl
  | ub => rfl
  | ok st' =>
  have hext := targets_extend hst
  simp only [bind_ok]
  rw [again_gnames (arrLaws R) (arrAgain R) ga hua ma, gnames_append (ins := ins₁), p.arr, bind_ok,
    gnames_acc (acc := a.2)]
  cases gnames (arrOps R) OiFits.arrayList ins₂ a.1 [] with
  | abort => rfl
  | ub => rfl
  | ok a' =>
  simp only [map_ok, bind_ok]
  rw [again_gnames (waveLaws R) (waveAgain R) gi hui mi, gnames_append (ins := ins₁), p.wave, bind_ok,
    gnames_acc (acc := i.2)]
  cases gnames (waveOps R) OiFits.wavelengthList ins₂ i.1 [] with
  | abort => rfl
  | ub => rfl
  | ok i' =>
  simp only [map_ok, bind_ok]
  rw [again_gnames (corrLaws R) (corrAgain R) gc huc mc, gnames_append (ins := ins₁), p.corr, bind_ok,
    gnames_acc (acc := c.2)]
  cases gnames (corrOps R) OiFits.corrList ins₂ c.1 [] with
  | abort => rfl
  | ub => rfl
  | ok c' =>
  simp only [map_ok, bind_ok]
  have hself : ∀ inp id k, mergedTargetId inp st.2 id = .ok k → mergedTargetId m st'.2 k = .ok k :=
    fun inp id k hh => targetId_again ht mt hext hh
  have hmono : ∀ (inp : OiFits R) id k, mergedTargetId inp st.2 id = .ok k →
      mergedTargetId inp st'.2 id = .ok k := fun inp id k hh => targetId_mono hext hh
  rw [← data_steps (f := fun ids => mergedInspol ids) la li lc p.inspol
    (fun inp _ _ _ _ _ _ hh => mergedInspol_mono (hmono inp) hh)
    (fun inp hinp t ht a i c t' hh => mergedInspol_again (hself inp) (kept_replaceOpt fa)
      (kept_replace fi) ((hw inp hinp).inspol t ht) hh)]
  rw [← data_steps (f := fun ids => mergedVis ids) la li lc p.vis
    (fun inp _ _ _ _ _ _ hh => mergedVis_mono (hmono inp) hh)
    (fun inp hinp t ht a i c t' hh => mergedVis_again (hself inp) (kept_replaceOpt fa)
      (kept_replace fi) (kept_replaceOpt fc) ((hw inp hinp).vis t ht) hh)]
  rw [← data_steps (f := fun ids => mergedVis2 ids) la li lc p.vis2
    (fun inp _ _ _ _ _ _ hh => mergedVis2_mono (hmono inp) hh)
    (fun inp hinp t ht a i c t' hh => mergedVis2_again (hself inp) (kept_replaceOpt fa)
      (kept_replace fi) (kept_replaceOpt fc) ((hw inp hinp).vis2 t ht) hh)]
  rw [← data_steps (f := fun ids => mergedT3 ids) la li lc p.t3
    (fun inp _ _ _ _ _ _ hh => mergedT3_mono (hmono inp) hh)
    (fun inp hinp t ht a i c t' hh => mergedT3_again (hself inp) (kept_replaceOpt fa)
      (kept_replace fi) (kept_replaceOpt fc) ((hw inp hinp).t3 t ht) hh)]
  rw [← data_steps (f := fun ids => mergedFlux ids) la li lc p.flux
    (fun inp _ _ _ _ _ _ hh => mergedFlux_mono (hmono inp) hh)
    (fun inp hinp t ht a i c t' hh => mergedFlux_again (hself inp) (kept_replaceOpt fa)
      (kept_replace fi) (kept_replaceOpt fc) ((hw inp hinp).flux t ht) hh)]
  cases dataOf (mergedInspol st'.2) _ with
  | abort => rfl
  | ub => rfl
  | ok l1 =>
  cases dataOf (mergedVis st'.2) _ with
  | abort => rfl
  | ub => rfl
  | ok l2 =>
  cases dataOf (mergedVis2 st'.2) _ with
  | abort => rfl
  | ub => rfl
  | ok l3 =>
  cases dataOf (mergedT3 st'.2) _ with
  | abort => rfl
  | ub => rfl
  | ok l4 =>
  cases dataOf (mergedFlux st'.2) _ with
  | abort => rfl
  | ub => rfl
  | ok l5 =>
  simp only [bind_ok, pure_eq, map_ok, Outcome.ok.injEq]
  have hrev : maxRev 2 (m :: ins₂) = maxRev 2 (ins₁ ++ ins₂) := by
    rw [maxRev_append]
    have h2 := le_maxRev 2 ins₁
    unfold maxRev at mrev h2 ⊢
    rw [List.foldl_cons, mrev]
    congr 1
    split <;> omega
  have hhead : mergedHeader (m :: ins₂) mjd' =
      (stepped ins₁ (assembled (ins₁ ++ ins₂) mjd' st' a'.1 i'.1 c'.1 l1 l2 l3 l4 l5)).header := by
    have hfit₁ : ∀ key ∈ mandatoryKeys ++ optionalKeys, Fits (ins₁.map fun o => key o.header) := by
      intro key hkey v hv
      obtain ⟨oi, hoi, rfl⟩ := List.mem_map.mp hv
      exact hk oi (by simp [hoi]) key hkey
    have hfit₂ : ∀ key ∈ mandatoryKeys ++ optionalKeys, Fits (ins₂.map fun o => key o.header) := by
      intro key hkey v hv
      obtain ⟨oi, hoi, rfl⟩ := List.mem_map.mp hv
      exact hk oi (by simp [hoi]) key hkey
    have hopt : ∀ key ∈ optionalKeys,
        mergeKey (mergeKey (ins₁.map fun o => key o.header) false [] ::
          ins₂.map fun o => key o.header) false [] =
        mergeKey ((ins₁ ++ ins₂).map fun o => key o.header) false [] := by
      intro key hkey
      rw [List.map_append]
      exact optionalKey_steps (hfit₁ key (by simp [hkey])) (hfit₂ key (by simp [hkey]))
    have hman : ∀ key ∈ mandatoryKeys,
        mergeKey (mergeKey (ins₁.map fun o => key o.header) true [] ::
          ins₂.map fun o => key o.header) true [] =
        steppedKey ins₁ key (mergeKey ((ins₁ ++ ins₂).map fun o => key o.header) true []) := by
      intro key hkey
      rw [List.map_append, mandatoryKey_steps (hfit₁ key (by simp [hkey])) (hfit₂ key (by simp [hkey]))]
      unfold steppedKey
      simp only [List.mem_map, forall_exists_index, and_imp, forall_apply_eq_imp_iff₂]
    unfold mergedHeader stepped assembled
    simp only [List.map_cons, mhead]
    simp only [mergedHeader]
    rw [hman OiHeader.origin (by simp [mandatoryKeys]), hman OiHeader.telescop (by simp [mandatoryKeys]),
      hman OiHeader.instrume (by simp [mandatoryKeys]), hman OiHeader.observer (by simp [mandatoryKeys]),
      hman OiHeader.insmode (by simp [mandatoryKeys]), hman OiHeader.object (by simp [mandatoryKeys]),
      hopt OiHeader.referenc (by simp [optionalKeys]), hopt OiHeader.author (by simp [optionalKeys]),
      hopt OiHeader.prog_id (by simp [optionalKeys]), hopt OiHeader.procsoft (by simp [optionalKeys]),
      hopt OiHeader.obstech (by simp [optionalKeys])]
  have : assembled (m :: ins₂) mjd' st' a'.1 i'.1 c'.1 l1 l2 l3 l4 l5 =
      { assembled (ins₁ ++ ins₂) mjd' st' a'.1 i'.1 c'.1 l1 l2 l3 l4 l5 with
        header := mergedHeader (m :: ins₂) mjd' } := by
    unfold assembled
    rw [hrev]
  rw [this, hhead]
  rfl

end Verif
