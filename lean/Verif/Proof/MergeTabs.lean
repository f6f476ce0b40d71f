import Verif.Proof.MergeNames

/-! Merging of OI_ARRAY, OI_WAVELENGTH and OI_CORR tables. -/

namespace Verif
open Outcome Spec

variable {R : FP}

theorem memdup_ok {α : Type} {src dst : List α} {n : Nat} (h : memdup src n = .ok dst) :
    n ≠ 0 ∧ n ≤ src.length ∧ dst = src.take n := by
  unfold memdup at h
  split at h
  · cases h
  · split at h
    · cases h
    · rename_i h1 h2
      cases h
      exact ⟨h1, by omega, rfl⟩

/-! ### OI_ARRAY -/

def arrOps (R : FP) : Ops (OiArray R) where
  find x l := .ok (match_oi_array x l)
  dup x := upgrade_oi_array <$> dup_oi_array x
  name t := t.arrname
  setName t n := { t with arrname := n }
  base := "array"

def putArr (out : OiFits R) (st : NS (OiArray R)) : OiFits R :=
  { out with arrayList := st.list, arrayHash := st.hash, numArray := st.num }

theorem upgrade_array_name (t : OiArray R) : (upgrade_oi_array t).arrname = t.arrname := by
  unfold upgrade_oi_array; split <;> rfl

theorem dup_array_eq {x d : OiArray R} (h : dup_oi_array x = .ok d) : d = x := by
  unfold dup_oi_array at h
  obtain ⟨e, he, h⟩ := bind_eq_ok.mp h
  obtain ⟨-, -, rfl⟩ := memdup_ok he
  simp only [List.take_length, pure_eq, Outcome.ok.injEq] at h
  exact h.symm

theorem arr_dup {x d : OiArray R} (h : (arrOps R).dup x = .ok d) :
    d = { x with revision := upgraded x.revision } := by
  simp only [arrOps] at h
  cases hd : dup_oi_array x with
  | ok e =>
    rw [hd] at h
    have := dup_array_eq hd
    subst this
    simp only [map_ok, Outcome.ok.injEq] at h
    subst h
    unfold upgrade_oi_array upgraded OI_REVN_V1_ARRAY OI_REVN_V2_ARRAY
    by_cases hr : e.revision = 1
    · simp [hr]
    · simp [hr]
  | abort => rw [hd] at h; cases h
  | ub => rw [hd] at h; cases h

theorem arrLaws (R : FP) : (arrOps R).Laws where
  name_set _ _ := rfl
  name_dup x d h := by rw [arr_dup h]; rfl
  find_mem x l y h := by
    simp only [arrOps, match_oi_array, Outcome.ok.injEq] at h
    exact List.mem_of_find?_eq_some h
  base_len := (by decide : List.length ("array" : CStr) ≤ 60)
  base_us := (by decide : '_' ∉ ("array" : CStr))

theorem arr_step (out : OiFits R) (st : NS (OiArray R)) (h : HMap CStr) (x : OiArray R) :
    mergeArrayStep (putArr out st, h) x =
      (fun p => (putArr out p.1, p.2)) <$> gstep (arrOps R) (st, h) x := by
  unfold mergeArrayStep gstep
  simp only [arrOps, bind_ok, putArr]
  cases match_oi_array x st.list with
  | some y => rfl
  | none =>
    simp only
    cases hd : dup_oi_array x with
    | ok d =>
      simp only [bind_ok, map_ok, pure_eq, gadd, gname, upgrade_array_name]
      cases st.hash.lookup d.arrname <;> rfl
    | abort => rfl
    | ub => rfl

theorem merge_all_oi_array_eq (ins : List (OiFits R)) (out : OiFits R)
    (h : out.arrayList = [] ∧ out.arrayHash = HMap.empty ∧ out.numArray = 0) :
    merge_all_oi_array ins out = (fun p => (putArr out p.1, p.2)) <$>
      gnames (arrOps R) OiFits.arrayList ins ⟨[], HMap.empty, 0⟩ [] := by
  unfold merge_all_oi_array
  rw [h.1, List.isEmpty_nil, guardAssert_true, bind_ok, ← mergeNames_lens (arr_step out)]
  unfold putArr
  rw [← h.1, ← h.2.1, ← h.2.2]

theorem near_of_not_farApart {x y : R.Dbl} (h : ¬ farApart (arrayTol R) x y = true) : Near x y :=
  Or.inr (by simpa [farApart, arrayTol] using h)

theorem element_matches {x y : OiArray R} (hy : 2 ≤ y.revision) {e : Element R}
    (h : elementMatches x y e = true) :
    ∃ e' ∈ y.elem, SameStation (decide (2 ≤ x.revision)) e e' := by
  unfold elementMatches at h
  split at h
  · cases h
  · rename_i c hc
    unfold lookup_element at hc
    have hmem := List.mem_of_find?_eq_some hc
    have hidx := List.find?_some hc
    simp only [beq_iff_eq] at hidx
    refine ⟨c, hmem, hidx, ?_⟩
    split at h
    · cases h
    split at h
    · cases h
    split at h
    · cases h
    split at h
    · cases h
    rename_i h1 h2 h3 h4
    refine ⟨near_of_not_farApart h1, near_of_not_farApart h2, near_of_not_farApart h3,
      Or.inr (by simpa [farApartF, arrayFtol] using h4), ?_⟩
    intro hr
    simp only [decide_eq_true_eq] at hr
    rw [if_pos ⟨hr, hy⟩] at h
    split at h
    · cases h
    split at h
    · cases h
    rename_i h5 h6
    exact ⟨near_of_not_farApart h5, by simpa [eq_comm] using h6⟩

theorem arr_joined {x y : OiArray R} (hy : 2 ≤ y.revision) (h : Joined (arrOps R) x y) :
    SameGeometry x y := by
  rcases h with ⟨l, hl⟩ | ⟨d, n, hd, rfl⟩
  · simp only [arrOps, match_oi_array, Outcome.ok.injEq] at hl
    have hm := List.find?_some hl
    unfold arrayMatches at hm
    split at hm
    · cases hm
    split at hm
    · cases hm
    split at hm
    · cases hm
    rename_i h1 h2 h3
    refine ⟨near_of_not_farApart h1, near_of_not_farApart h2, near_of_not_farApart h3, ?_⟩
    intro e he
    exact element_matches hy (List.all_eq_true.mp hm e he)
  · rw [arr_dup hd]
    refine ⟨Or.inl rfl, Or.inl rfl, Or.inl rfl, ?_⟩
    intro e he
    exact ⟨e, he, rfl, Or.inl rfl, Or.inl rfl, Or.inl rfl, Or.inl rfl, fun _ => ⟨Or.inl rfl, rfl⟩⟩

/-! ### OI_WAVELENGTH -/

def waveOps (R : FP) : Ops (OiWavelength R) where
  find x l := match_oi_wavelength x l
  dup x := upgrade_oi_wavelength <$> dup_oi_wavelength x
  name t := t.insname
  setName t n := { t with insname := n }
  base := "ins"

def putWave (out : OiFits R) (st : NS (OiWavelength R)) : OiFits R :=
  { out with wavelengthList := st.list, wavelengthHash := st.hash, numWavelength := st.num }

theorem upgrade_wave_name (t : OiWavelength R) : (upgrade_oi_wavelength t).insname = t.insname := by
  unfold upgrade_oi_wavelength; split <;> rfl

theorem wave_dup {x d : OiWavelength R} (h : (waveOps R).dup x = .ok d) :
    x.nwave ≠ 0 ∧ x.nwave ≤ x.eff_wave.length ∧ x.nwave ≤ x.eff_band.length ∧
    d = { x with revision := upgraded x.revision, eff_wave := x.eff_wave.take x.nwave,
                 eff_band := x.eff_band.take x.nwave } := by
  simp only [waveOps] at h
  cases hd : dup_oi_wavelength x with
  | ok e =>
    rw [hd] at h
    simp only [map_ok, Outcome.ok.injEq] at h
    unfold dup_oi_wavelength at hd
    obtain ⟨a, ha, hd⟩ := bind_eq_ok.mp hd
    obtain ⟨b, hb, hd⟩ := bind_eq_ok.mp hd
    obtain ⟨h0, h1, rfl⟩ := memdup_ok ha
    obtain ⟨-, h2, rfl⟩ := memdup_ok hb
    refine ⟨h0, h1, h2, ?_⟩
    simp only [pure_eq, Outcome.ok.injEq] at hd
    subst hd
    subst h
    unfold upgrade_oi_wavelength upgraded OI_REVN_V1_WAVELENGTH OI_REVN_V2_WAVELENGTH
    by_cases hr : x.revision = 1
    · simp [hr]
    · simp [hr]
  | abort => rw [hd] at h; cases h
  | ub => rw [hd] at h; cases h

theorem match_wave_some {x y : OiWavelength R} {l : List (OiWavelength R)}
    (h : match_oi_wavelength x l = .ok (some y)) : y ∈ l ∧ waveMatches x y = .ok true := by
  induction l with
  | nil => simp [match_oi_wavelength] at h
  | cons c l ih =>
    unfold match_oi_wavelength at h
    obtain ⟨b, hb, h⟩ := bind_eq_ok.mp h
    cases b with
    | true =>
      simp only [if_true, pure_eq, Outcome.ok.injEq, Option.some.injEq] at h
      subst h
      exact ⟨by simp, hb⟩
    | false =>
      simp only [Bool.false_eq_true, if_false] at h
      obtain ⟨h1, h2⟩ := ih h
      exact ⟨by simp [h1], h2⟩

theorem index_ok {α : Type} {l : List α} {i : Nat} {x : α} (h : index l i = .ok x) : l[i]? = some x := by
  unfold index at h
  cases hl : l[i]? with
  | none => rw [hl] at h; cases h
  | some y => rw [hl] at h; cases h; rfl

theorem waves_match {x y : OiWavelength R} {is : List Nat} (h : wavesMatchFrom y x is = .ok true) :
    ∀ k ∈ is, ∃ a b c d, x.eff_wave[k]? = some a ∧ y.eff_wave[k]? = some b ∧
      x.eff_band[k]? = some c ∧ y.eff_band[k]? = some d ∧ NearWave b a ∧ NearWave d c := by
  induction is with
  | nil => simp
  | cons i is ih =>
    unfold wavesMatchFrom at h
    obtain ⟨b, hb, h⟩ := bind_eq_ok.mp h
    obtain ⟨a, ha, h⟩ := bind_eq_ok.mp h
    split at h
    · cases h
    rename_i h1
    obtain ⟨d, hd, h⟩ := bind_eq_ok.mp h
    obtain ⟨c, hc, h⟩ := bind_eq_ok.mp h
    split at h
    · cases h
    rename_i h2
    intro k hk
    rcases List.mem_cons.mp hk with rfl | hk
    · exact ⟨a, b, c, d, index_ok ha, index_ok hb, index_ok hc, index_ok hd,
        Or.inr (by simpa [waveTol] using h1), Or.inr (by simpa [waveTol] using h2)⟩
    · exact ih h k hk

theorem waveLaws (R : FP) : (waveOps R).Laws where
  name_set _ _ := rfl
  name_dup x d h := by rw [(wave_dup h).2.2.2]; rfl
  find_mem x l y h := (match_wave_some h).1
  base_len := (by decide : List.length ("ins" : CStr) ≤ 60)
  base_us := (by decide : '_' ∉ ("ins" : CStr))

theorem wave_joined {x y : OiWavelength R} (h : Joined (waveOps R) x y) : SameWaves x y := by
  rcases h with ⟨l, hl⟩ | ⟨d, n, hd, rfl⟩
  · have hm := (match_wave_some hl).2
    unfold waveMatches at hm
    split at hm
    · rename_i hn
      exact ⟨hn, fun k hk => waves_match hm k (List.mem_range.mpr hk)⟩
    · cases hm
  · obtain ⟨-, h1, h2, rfl⟩ := wave_dup hd
    refine ⟨rfl, ?_⟩
    intro k hk
    refine ⟨x.eff_wave[k]'(by omega), x.eff_wave[k]'(by omega), x.eff_band[k]'(by omega),
      x.eff_band[k]'(by omega), by simp, ?_, by simp, ?_, Or.inl rfl, Or.inl rfl⟩
    · simp [waveOps, hk]
    · simp [waveOps, hk]

theorem wave_step (out : OiFits R) (st : NS (OiWavelength R)) (h : HMap CStr) (x : OiWavelength R) :
    mergeWavelengthStep (putWave out st, h) x =
      (fun p => (putWave out p.1, p.2)) <$> gstep (waveOps R) (st, h) x := by
  unfold mergeWavelengthStep gstep
  simp only [waveOps, putWave]
  cases match_oi_wavelength x st.list with
  | ok r =>
    simp only [bind_ok]
    cases r with
    | some y => rfl
    | none =>
      simp only
      cases hd : dup_oi_wavelength x with
      | ok d =>
        simp only [bind_ok, map_ok, pure_eq, gadd, gname, upgrade_wave_name]
        cases st.hash.lookup d.insname <;> rfl
      | abort => rfl
      | ub => rfl
  | abort => rfl
  | ub => rfl

theorem merge_all_oi_wavelength_eq (ins : List (OiFits R)) (out : OiFits R)
    (h : out.wavelengthList = [] ∧ out.wavelengthHash = HMap.empty ∧ out.numWavelength = 0) :
    merge_all_oi_wavelength ins out = (fun p => (putWave out p.1, p.2)) <$>
      gnames (waveOps R) OiFits.wavelengthList ins ⟨[], HMap.empty, 0⟩ [] := by
  unfold merge_all_oi_wavelength
  rw [h.1, List.isEmpty_nil, guardAssert_true, bind_ok, ← mergeNames_lens (wave_step out)]
  unfold putWave
  rw [← h.1, ← h.2.1, ← h.2.2]

theorem waves_match_ok {x y : OiWavelength R} (hx : x.WF) (hy : y.WF) (hn : y.nwave = x.nwave)
    {is : List Nat} (hi : ∀ i ∈ is, i < x.nwave) : ∃ b, wavesMatchFrom y x is = .ok b := by
  induction is with
  | nil => exact ⟨true, rfl⟩
  | cons i is ih =>
    have hi0 := hi i (by simp)
    unfold wavesMatchFrom
    rw [index_of_lt (by rw [hy.eff_wave]; omega), bind_ok, index_of_lt (by rw [hx.eff_wave]; omega),
      bind_ok]
    split
    · exact ⟨false, rfl⟩
    · rw [index_of_lt (by rw [hy.eff_band]; omega), bind_ok,
        index_of_lt (by rw [hx.eff_band]; omega), bind_ok]
      split
      · exact ⟨false, rfl⟩
      · exact ih fun i h => hi i (by simp [h])

theorem wave_find_ok {x : OiWavelength R} (hx : x.WF) {l : List (OiWavelength R)}
    (hl : ∀ y ∈ l, y.WF) : ∃ r, (waveOps R).find x l = .ok r := by
  simp only [waveOps]
  induction l with
  | nil => exact ⟨none, rfl⟩
  | cons y l ih =>
    have hm : ∃ b, waveMatches x y = .ok b := by
      unfold waveMatches
      split
      · rename_i h
        exact waves_match_ok hx (hl y (by simp)) h fun i hi => List.mem_range.mp hi
      · exact ⟨false, rfl⟩
    obtain ⟨b, hb⟩ := hm
    unfold match_oi_wavelength
    rw [hb, bind_ok]
    cases b with
    | true => exact ⟨_, rfl⟩
    | false => exact ih fun y h => hl y (by simp [h])

/-! ### OI_CORR -/

def corrOps (R : FP) : Ops (OiCorr R) where
  find _ _ := .ok none
  dup x := dup_oi_corr x
  name t := t.corrname
  setName t n := { t with corrname := n }
  base := "ins"

def putCorr (out : OiFits R) (st : NS (OiCorr R)) : OiFits R :=
  { out with corrList := st.list, corrHash := st.hash, numCorr := st.num }

theorem corr_dup {x d : OiCorr R} (h : (corrOps R).dup x = .ok d) :
    d = { x with iindx := x.iindx.take x.ncorr, jindx := x.jindx.take x.ncorr,
                 corr := x.corr.take x.ncorr } := by
  simp only [corrOps, dup_oi_corr] at h
  obtain ⟨a, ha, h⟩ := bind_eq_ok.mp h
  obtain ⟨b, hb, h⟩ := bind_eq_ok.mp h
  obtain ⟨c, hc, h⟩ := bind_eq_ok.mp h
  obtain ⟨-, -, rfl⟩ := memdup_ok ha
  obtain ⟨-, -, rfl⟩ := memdup_ok hb
  obtain ⟨-, -, rfl⟩ := memdup_ok hc
  simpa [eq_comm] using h

theorem corrLaws (R : FP) : (corrOps R).Laws where
  name_set _ _ := rfl
  name_dup x d h := by rw [corr_dup h]; rfl
  find_mem x l y h := by simp [corrOps] at h
  base_len := (by decide : List.length ("ins" : CStr) ≤ 60)
  base_us := (by decide : '_' ∉ ("ins" : CStr))

theorem corr_joined {x y : OiCorr R} (hx : x.WF) (h : Joined (corrOps R) x y) : SameCorr x y := by
  rcases h with ⟨l, hl⟩ | ⟨d, n, hd, rfl⟩
  · simp [corrOps] at hl
  · rw [corr_dup hd, List.take_of_length_le (Nat.le_of_eq hx.iindx), List.take_of_length_le
      (Nat.le_of_eq hx.jindx), List.take_of_length_le (Nat.le_of_eq hx.corr)]
    rfl

theorem corr_step (out : OiFits R) (st : NS (OiCorr R)) (h : HMap CStr) (x : OiCorr R) :
    mergeCorrStep (putCorr out st, h) x =
      (fun p => (putCorr out p.1, p.2)) <$> gstep (corrOps R) (st, h) x := by
  unfold mergeCorrStep gstep
  simp only [corrOps, putCorr, bind_ok]
  cases hd : dup_oi_corr x with
  | ok d =>
    simp only [bind_ok, map_ok, pure_eq, gadd, gname]
    cases st.hash.lookup d.corrname <;> rfl
  | abort => rfl
  | ub => rfl

theorem merge_all_oi_corr_eq (ins : List (OiFits R)) (out : OiFits R)
    (h : out.corrList = [] ∧ out.corrHash = HMap.empty ∧ out.numCorr = 0) :
    merge_all_oi_corr ins out = (fun p => (putCorr out p.1, p.2)) <$>
      gnames (corrOps R) OiFits.corrList ins ⟨[], HMap.empty, 0⟩ [] := by
  unfold merge_all_oi_corr
  rw [h.1, List.isEmpty_nil, guardAssert_true, bind_ok, ← mergeNames_lens (corr_step out)]
  unfold putCorr
  rw [← h.1, ← h.2.1, ← h.2.2]

end Verif
