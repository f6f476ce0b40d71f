import Verif.Proof.FilterRec
import Verif.Props.File

/-! Filtering of tables and lists of tables meets its specification. -/

namespace Verif
open Outcome Spec Classical

variable {R : FP}

/-! ### Wavelengths -/

/-- The mask of accepted channels. -/
def maskOf (f : FilterSpec R) (w : OiWavelength R) : List Bool :=
  w.eff_wave.map fun x => !outsideF f.wave_range x

theorem usedIdx_mask {f : FilterSpec R} {w : OiWavelength R} :
    usedIdx w.nwave (maskOf f w) = keptChans f w := by
  unfold usedIdx keptChans maskOf
  apply List.filter_congr
  intro j _
  rw [List.getElem?_map]
  unfold WaveOk
  cases w.eff_wave[j]? with
  | none => simp
  | some x =>
    have := outsideF_false f.wave_range x
    by_cases h : InF f.wave_range x
    · simp [this.mpr h, h]
    · have h2 : outsideF f.wave_range x ≠ false := fun hc => h (this.mp hc)
      simp at h2
      simp [h2, h]

theorem mem_keptChans {f : FilterSpec R} {w : OiWavelength R} {j : Nat} :
    j ∈ keptChans f w ↔ j < w.nwave ∧ WaveOk f w j := by
  simp [keptChans]

theorem keptChans_ne_nil {f : FilterSpec R} {w : OiWavelength R} :
    keptChans f w ≠ [] ↔ ∃ j, j < w.nwave ∧ WaveOk f w j := by
  rw [ne_eq, List.eq_nil_iff_forall_not_mem]
  simp only [mem_keptChans, Classical.not_forall, not_not]

theorem strlcpy_short {s : CStr} {n : Nat} (h : s.length < n) : strlcpy s n = s := by
  unfold strlcpy
  rw [List.take_of_length_le (by omega)]

theorem range_filter_succ (f : FilterSpec R) (w : OiWavelength R) (n : Nat) :
    ((List.range (n + 1)).filter fun j => decide (WaveOk f w j)) =
      ((List.range n).filter fun j => decide (WaveOk f w j)) ++ if WaveOk f w n then [n] else [] := by
  rw [List.range_succ, List.filter_append]
  congr 1
  by_cases h : WaveOk f w n <;> simp [List.filter_cons, h]

theorem filter_oi_wavelength_ok {f : FilterSpec R} {w : OiWavelength R} (h : w.WF)
    (hl : w.insname.length < FLEN_VALUE) :
    filter_oi_wavelength w f.wave_range = .ok (waveOut f w, maskOf f w) := by
  unfold filter_oi_wavelength
  rw [chkmallocN_ok h.chans, bind_ok, strlcpy_short hl]
  have key : ∀ n, n ≤ w.nwave → loopN n (fun i (s : List R.Flt × List R.Flt × List Bool) => do
      let x ← index w.eff_wave i
      if outsideF f.wave_range x then return (s.1, s.2.1, s.2.2 ++ [false]) else do
      let b ← index w.eff_band i
      return (s.1 ++ [x], s.2.1 ++ [b], s.2.2 ++ [true])) ([], [], []) =
      .ok (pick ((List.range n).filter fun j => decide (WaveOk f w j)) w.eff_wave,
        pick ((List.range n).filter fun j => decide (WaveOk f w j)) w.eff_band,
        (maskOf f w).take n) := by
    intro n
    induction n with
    | zero => intro _; rfl
    | succ n ih =>
      intro hn
      have e1 : n < w.eff_wave.length := by rw [h.eff_wave]; omega
      have e2 : n < w.eff_band.length := by rw [h.eff_band]; omega
      have e3 : n < (maskOf f w).length := by simpa [maskOf] using e1
      rw [loopN_succ, ih (by omega), bind_ok]
      simp only [index_of_lt e1, bind_ok, range_filter_succ]
      have hw : WaveOk f w n ↔ outsideF f.wave_range w.eff_wave[n] = false := by
        unfold WaveOk
        rw [List.getElem?_eq_getElem e1, outsideF_false]
        simp
      have hm : (maskOf f w)[n] = !outsideF f.wave_range w.eff_wave[n] := by simp [maskOf]
      rw [← List.take_append_getElem e3, hm]
      cases ho : outsideF f.wave_range w.eff_wave[n] with
      | true =>
        have : ¬ WaveOk f w n := by rw [hw, ho]; simp
        simp [this]
      | false =>
        have : WaveOk f w n := by rw [hw, ho]
        simp [this, index_of_lt e2, pick_snoc e1, pick_snoc e2]
  rw [key w.nwave (Nat.le_refl _), bind_ok]
  have e4 : (maskOf f w).take w.nwave = maskOf f w := by
    rw [List.take_of_length_le]; simp [maskOf, h.eff_wave]
  have e5 : (pick (keptChans f w) w.eff_wave).length = (keptChans f w).length :=
    pick_length (fun i hi => by rw [h.eff_wave]; exact (mem_keptChans.mp hi).1)
  simp only [e4]
  unfold waveOut
  rw [← e5]
  rfl

/-- Inserting all tables of the list under their names. -/
def insertAll {τ : Type} (name : τ → CStr) (l : List τ) (h : HMap τ) : HMap τ :=
  l.foldl (fun h t => h.insert (name t) t) h

theorem lookup_insertAll {τ : Type} (name : τ → CStr) (l : List τ) (h : HMap τ) (n : CStr) :
    (insertAll name l h).lookup n = (lastNamed name l n).or (h.lookup n) := by
  induction l generalizing h with
  | nil => simp [insertAll, lastNamed]
  | cons t l ih =>
    have : insertAll name (t :: l) h = insertAll name l (h.insert (name t) t) := rfl
    rw [this, ih, HMap.lookup_insert]
    unfold lastNamed
    rw [List.reverse_cons, List.find?_append]
    cases List.find? (fun t => name t == n) l.reverse with
    | some x => simp
    | none =>
      by_cases hn : name t = n
      · simp [hn]
      · have : ¬ n = name t := fun h => hn h.symm
        simp [hn, this]

/-- Entering the masks of the accepted wavelength tables. -/
noncomputable def maskAll (f : FilterSpec R) (l : List (OiWavelength R)) (h : UseWave) : UseWave :=
  l.foldl (fun h w => if Glob f.insname w.insname then
    h.insert w.insname (if keptChans f w = [] then none else some (maskOf f w)) else h) h

theorem get_insert (h : UseWave) (k n : CStr) (v : Option (List Bool)) :
    (UseWave.get (h.insert k v) n) = if n = k then v else UseWave.get h n := by
  unfold UseWave.get
  rw [HMap.lookup_insert]
  by_cases hn : n = k <;> simp [hn]

theorem get_maskAll {f : FilterSpec R} (l : List (OiWavelength R)) (h : UseWave) (n : CStr)
    (hd : (l.map OiWavelength.insname).Nodup) :
    (maskAll f l h).get n = match l.find? fun w => w.insname == n with
      | some w => if Glob f.insname n then
          (if keptChans f w = [] then none else some (maskOf f w)) else h.get n
      | none => h.get n := by
  induction l generalizing h with
  | nil => rfl
  | cons w l ih =>
    rw [List.map_cons, List.nodup_cons] at hd
    have hstep : maskAll f (w :: l) h = maskAll f l (if Glob f.insname w.insname then
      h.insert w.insname (if keptChans f w = [] then none else some (maskOf f w)) else h) := rfl
    rw [hstep, ih _ hd.2]
    by_cases hn : w.insname = n
    · subst hn
      have hnone : l.find? (fun w' => w'.insname == w.insname) = none := by
        rw [List.find?_eq_none]
        intro x hx hc
        apply hd.1
        rw [List.mem_map]
        exact ⟨x, hx, by simpa using hc⟩
      rw [hnone]
      simp only [List.find?_cons, beq_self_eq_true]
      by_cases hg : Glob f.insname w.insname
      · simp [hg, get_insert]
      · simp [hg]
    · have hbeq : (w.insname == n) = false := by simpa using hn
      have hget : UseWave.get (if Glob f.insname w.insname then
          h.insert w.insname (if keptChans f w = [] then none else some (maskOf f w)) else h) n =
          h.get n := by
        by_cases hg : Glob f.insname w.insname
        · have : ¬ n = w.insname := fun h => hn h.symm
          simp [hg, get_insert, this]
        · simp [hg]
      simp only [List.find?_cons, hbeq, hget]

/-- The wavelength tables accepted by name and range. -/
noncomputable def wavesKept (f : FilterSpec R) (l : List (OiWavelength R)) :
    List (OiWavelength R) := (l.filter fun w => decide (WaveRemains f w)).map (waveOut f)

theorem waveRemains_iff {f : FilterSpec R} {w : OiWavelength R} :
    WaveRemains f w ↔ Glob f.insname w.insname ∧ keptChans f w ≠ [] := by
  rw [keptChans_ne_nil]
  exact ⟨fun h => ⟨h.1, h.2⟩, fun h => ⟨h.1, h.2⟩⟩

theorem filter_all_oi_wavelength_ok {f : FilterSpec R} {inp out : OiFits R}
    (hwf : ∀ w ∈ inp.wavelengthList, w.WF)
    (hl : ∀ w ∈ inp.wavelengthList, w.insname.length < FLEN_VALUE) :
    filter_all_oi_wavelength inp f out = .ok
      ({ out with
          wavelengthList := out.wavelengthList ++ wavesKept f inp.wavelengthList
          numWavelength := out.numWavelength + (wavesKept f inp.wavelengthList).length
          wavelengthHash := insertAll OiWavelength.insname (wavesKept f inp.wavelengthList)
            out.wavelengthHash },
        maskAll f inp.wavelengthList HMap.empty) := by
  unfold filter_all_oi_wavelength
  generalize (HMap.empty : UseWave) = h
  generalize inp.wavelengthList = l at *
  induction l generalizing out h with
  | nil => simp [wavesKept, insertAll, maskAll]
  | cons w l ih =>
    have hstep : maskAll f (w :: l) h = maskAll f l (if Glob f.insname w.insname then
      h.insert w.insname (if keptChans f w = [] then none else some (maskOf f w)) else h) := rfl
    rw [List.foldlM_cons, hstep]
    have ih := fun o h => ih (out := o) h (fun w hw => hwf w (by simp [hw]))
      (fun w hw => hl w (by simp [hw]))
    by_cases hg : Glob f.insname w.insname
    · rw [if_pos ((globMatch_iff _ _).mpr hg), chkmallocN_ok (hwf w (by simp)).chans, bind_ok,
        filter_oi_wavelength_ok (hwf w (by simp)) (hl w (by simp)), bind_ok]
      by_cases hk : keptChans f w = []
      · have h0 : ¬ (waveOut f w).nwave > 0 := by simp [waveOut, hk]
        have hr : ¬ WaveRemains f w := by rw [waveRemains_iff]; simp [hk]
        have hwk : wavesKept f (w :: l) = wavesKept f l := by simp [wavesKept, hr]
        simp only [h0, if_false]
        rw [pure_eq, bind_ok, ih, hwk]
        simp [hg, hk]
      · have h0 : (waveOut f w).nwave > 0 := by
          simp only [waveOut]; exact List.length_pos_iff.mpr hk
        have hr : WaveRemains f w := by rw [waveRemains_iff]; exact ⟨hg, hk⟩
        have hwk : wavesKept f (w :: l) = waveOut f w :: wavesKept f l := by
          simp [wavesKept, hr]
        simp only [h0, if_true]
        rw [pure_eq, bind_ok, ih, hwk]
        simp only [hg, hk, if_true, if_false, List.append_assoc, List.singleton_append,
          List.length_cons]
        congr 3
        simp; omega
    · have hgm : globMatch f.insname w.insname ≠ true := fun hc => hg ((globMatch_iff _ _).mp hc)
      have hr : ¬ WaveRemains f w := by rw [waveRemains_iff]; simp [hg]
      have hwk : wavesKept f (w :: l) = wavesKept f l := by simp [wavesKept, hr]
      rw [if_neg hgm, if_neg hg, pure_eq, bind_ok, hwk]
      exact ih _ _

/-! ### Arrays and correlations -/

theorem filter_all_oi_array_ok {f : FilterSpec R} {inp out : OiFits R}
    (hwf : ∀ t ∈ inp.arrayList, t.WF) :
    filter_all_oi_array inp f out = .ok
      { out with
          arrayList := out.arrayList ++ inp.arrayList.filter (fun t => globMatch f.arrname t.arrname)
          numArray := out.numArray +
            (inp.arrayList.filter (fun t => globMatch f.arrname t.arrname)).length
          arrayHash := insertAll OiArray.arrname
            (inp.arrayList.filter (fun t => globMatch f.arrname t.arrname)) out.arrayHash } := by
  unfold filter_all_oi_array
  generalize inp.arrayList = l at *
  induction l generalizing out with
  | nil => simp [insertAll]
  | cons t l ih =>
    rw [List.foldlM_cons]
    have ih := fun o => ih (out := o) (fun w hw => hwf w (by simp [hw]))
    by_cases hg : globMatch f.arrname t.arrname = true
    · rw [if_pos hg, C22_dup_oi_array t (hwf t (by simp)), bind_ok, pure_eq, bind_ok, ih]
      simp only [List.filter_cons, hg, if_true, List.append_assoc, List.singleton_append,
        List.length_cons]
      congr 2
      simp; omega
    · rw [if_neg hg, pure_eq, bind_ok]
      simp only [Bool.not_eq_true] at hg
      rw [List.filter_cons_of_neg (by simp [hg])]
      simpa using ih out

theorem filter_all_oi_corr_ok {f : FilterSpec R} {inp out : OiFits R}
    (hwf : ∀ t ∈ inp.corrList, t.WF) :
    filter_all_oi_corr inp f out = .ok
      { out with
          corrList := out.corrList ++ inp.corrList.filter (fun t => globMatch f.corrname t.corrname)
          numCorr := out.numCorr +
            (inp.corrList.filter (fun t => globMatch f.corrname t.corrname)).length
          corrHash := insertAll OiCorr.corrname
            (inp.corrList.filter (fun t => globMatch f.corrname t.corrname)) out.corrHash } := by
  unfold filter_all_oi_corr
  generalize inp.corrList = l at *
  induction l generalizing out with
  | nil => simp [insertAll]
  | cons t l ih =>
    rw [List.foldlM_cons]
    have ih := fun o => ih (out := o) (fun w hw => hwf w (by simp [hw]))
    by_cases hg : globMatch f.corrname t.corrname = true
    · rw [if_pos hg, C22_dup_oi_corr t (hwf t (by simp)), bind_ok, pure_eq, bind_ok, ih]
      simp only [List.filter_cons, hg, if_true, List.append_assoc, List.singleton_append,
        List.length_cons]
      congr 2
      simp; omega
    · rw [if_neg hg, pure_eq, bind_ok]
      simp only [Bool.not_eq_true] at hg
      rw [List.filter_cons_of_neg (by simp [hg])]
      simpa using ih out

/-! ### Targets -/

theorem filterTargetLoop_eq (id : Int) (out : OiTarget R) (l : List (Target R)) :
    filterTargetLoop id out l = { out with
      targ := match l.reverse.find? fun x => x.target_id == id with
        | some x => [{ x with target_id := 1 }]
        | none => out.targ } := by
  induction l generalizing out with
  | nil => rfl
  | cons t l ih =>
    unfold filterTargetLoop
    rw [List.reverse_cons, List.find?_append]
    by_cases h : t.target_id = id
    · rw [if_pos h, ih]
      cases List.find? (fun x => x.target_id == id) l.reverse <;> simp [h]
    · rw [if_neg h, ih]
      cases List.find? (fun x => x.target_id == id) l.reverse <;> simp [h]

theorem filter_oi_target_ok {f : FilterSpec R} {t out : OiTarget R}
    (h : 0 ≤ f.target_id ∨ t.targ ≠ []) (ho : out.usecategory = false) :
    filter_oi_target t f out = .ok (targetsOut f t) := by
  unfold filter_oi_target targetsOut
  by_cases hf : f.target_id ≥ 0
  · rw [if_pos hf, if_neg (by omega), filterTargetLoop_eq]
    simp only [ho]
    cases List.find? (fun x => x.target_id == f.target_id) t.targ.reverse <;> rfl
  · rw [if_neg hf, if_pos (by omega)]
    have hne : t.targ ≠ [] := h.resolve_left (by omega)
    rw [memdup_self rfl (by simpa using hne), bind_ok]
    rfl

/-! ### Data tables -/

theorem keptRecs_isEmpty {ρ : Type} {P : ρ → Prop} {l : List ρ} {c : ρ → ρ} :
    ((l.filter fun r => decide (P r)).map c).isEmpty = !decide (∃ r ∈ l, P r) := by
  rw [Bool.eq_iff_iff]
  simp [List.isEmpty_iff]

/-- The masks which filtering the wavelength tables yields. -/
def MasksOk (f : FilterSpec R) (oi : OiFits R) (h : UseWave) : Prop :=
  ∀ n, h.get n = match instTable oi n with
    | some w => if Glob f.insname n then
        (if keptChans f w = [] then none else some (maskOf f w)) else none
    | none => none

theorem masksOk {f : FilterSpec R} {oi : OiFits R}
    (h : (oi.wavelengthList.map OiWavelength.insname).Nodup) :
    MasksOk f oi (maskAll f oi.wavelengthList HMap.empty) := by
  intro n
  rw [get_maskAll _ _ _ h]
  rfl

theorem mask_get {f : FilterSpec R} {oi : OiFits R} {h : UseWave} (hm : MasksOk f oi h) {n : CStr}
    {u : List Bool} (hu : h.get n = some u) :
    ∃ w, instTable oi n = some w ∧ keptChans f w ≠ [] ∧ u = maskOf f w := by
  rw [hm n] at hu
  cases hi : instTable oi n with
  | none => rw [hi] at hu; cases hu
  | some w =>
    rw [hi] at hu
    by_cases hg : Glob f.insname n
    · simp only [hg, if_true] at hu
      by_cases hk : keptChans f w = []
      · simp [hk] at hu
      · simp [hk] at hu
        exact ⟨w, rfl, hk, hu.symm⟩
    · simp [hg] at hu

theorem mask_none {f : FilterSpec R} {oi : OiFits R} {h : UseWave} (hm : MasksOk f oi h) {n : CStr}
    (hu : h.get n = none) (hg : Glob f.insname n) {w : OiWavelength R}
    (hi : instTable oi n = some w) : keptChans f w = [] := by
  rw [hm n, hi] at hu
  simp only [hg, if_true] at hu
  by_cases hk : keptChans f w = []
  · exact hk
  · simp [hk] at hu

theorem names_iff {f : FilterSpec R} {a i c : CStr} :
    (globMatch f.insname i && globMatch f.arrname a && globMatch f.corrname c) = true ↔
      NamesOk f a i c := by
  unfold NamesOk
  rw [Bool.and_eq_true, Bool.and_eq_true, globMatch_iff, globMatch_iff, globMatch_iff]
  exact ⟨fun h => ⟨h.1.2, h.1.1, h.2⟩, fun h => ⟨⟨h.2.1, h.1⟩, h.2.2⟩⟩

theorem instTable_wf {oi : OiFits R} (h : oi.WF) {n : CStr} {w : OiWavelength R}
    (hi : instTable oi n = some w) : w.WF :=
  h.wavelength w (List.mem_of_find?_eq_some hi)

section
variable {f : FilterSpec R} {w : OiWavelength R}

theorem filter_oi_vis_ok {t : OiVis R} (ht : t.WF) (hw : w.WF) (hn : w.nwave = t.nwave)
    (hne : keptChans f w ≠ []) :
    filter_oi_vis t f (some w) (maskOf f w) = .ok (visOut f w t) := by
  have hu : (maskOf f w).length = t.nwave := by simp [maskOf, hw.eff_wave, hn]
  have hk : usedIdx t.nwave (maskOf f w) = keptChans f w := by rw [← hn]; exact usedIdx_mask
  have he : w.eff_wave.length = t.nwave := hw.eff_wave.trans hn
  unfold filter_oi_vis
  rw [countUse_ok (by omega), bind_ok, chkmallocN_ok (by simpa using ht.rows), bind_ok,
    filterRecs_ok (fun r hr => visKeep_ok (ht.recs r hr) he hu hk)
      (fun r hr hkept => filter_oi_vis_record_ok (ht.recs r hr) he hn hu hk hne
        (of_decide_eq_true hkept)), bind_ok, hk]
  rfl

theorem filter_oi_vis2_ok {t : OiVis2 R} (ht : t.WF) (hw : w.WF) (hn : w.nwave = t.nwave)
    (hne : keptChans f w ≠ []) :
    filter_oi_vis2 t f (some w) (maskOf f w) = .ok (vis2Out f w t) := by
  have hu : (maskOf f w).length = t.nwave := by simp [maskOf, hw.eff_wave, hn]
  have hk : usedIdx t.nwave (maskOf f w) = keptChans f w := by rw [← hn]; exact usedIdx_mask
  have he : w.eff_wave.length = t.nwave := hw.eff_wave.trans hn
  unfold filter_oi_vis2
  rw [countUse_ok (by omega), bind_ok, chkmallocN_ok (by simpa using ht.rows), bind_ok,
    filterRecs_ok (fun r hr => vis2Keep_ok (ht.recs r hr) he hu hk)
      (fun r hr hkept => filter_oi_vis2_record_ok (ht.recs r hr) he hu hk hne
        (of_decide_eq_true hkept)), bind_ok, hk]
  rfl

theorem filter_oi_t3_ok {t : OiT3 R} (ht : t.WF) (hw : w.WF) (hn : w.nwave = t.nwave)
    (hne : keptChans f w ≠ []) :
    filter_oi_t3 t f (some w) (maskOf f w) = .ok (t3Out f w t) := by
  have hu : (maskOf f w).length = t.nwave := by simp [maskOf, hw.eff_wave, hn]
  have hk : usedIdx t.nwave (maskOf f w) = keptChans f w := by rw [← hn]; exact usedIdx_mask
  have he : w.eff_wave.length = t.nwave := hw.eff_wave.trans hn
  unfold filter_oi_t3
  rw [countUse_ok (by omega), bind_ok, chkmallocN_ok (by simpa using ht.rows), bind_ok,
    filterRecs_ok (fun r hr => t3Keep_ok (ht.recs r hr) he hu hk)
      (fun r hr hkept => filter_oi_t3_record_ok (ht.recs r hr) he hu hk hne
        (of_decide_eq_true hkept)), bind_ok, hk]
  rfl

theorem filter_oi_flux_ok {t : OiFlux R} (ht : t.WF) (hw : w.WF) (hn : w.nwave = t.nwave)
    (hne : keptChans f w ≠ []) :
    filter_oi_flux t f (maskOf f w) = .ok (fluxOut f w t) := by
  have hu : (maskOf f w).length = t.nwave := by simp [maskOf, hw.eff_wave, hn]
  have hk : usedIdx t.nwave (maskOf f w) = keptChans f w := by rw [← hn]; exact usedIdx_mask
  unfold filter_oi_flux
  rw [countUse_ok (by omega), bind_ok, chkmallocN_ok (by simpa using ht.rows), bind_ok,
    filterRecs_ok (fun r hr => fluxKeep_ok)
      (fun r hr hkept => filter_oi_flux_record_ok (ht.recs r hr) hu hk hne), bind_ok, hk]
  rfl

end

theorem filter_all_oi_vis_ok {f : FilterSpec R} {oi out : OiFits R} {h : UseWave}
    (hf : Filterable f oi) (hm : MasksOk f oi h) :
    filter_all_oi_vis oi f h out = .ok { out with
      visList := out.visList ++ visTables f oi
      numVis := out.numVis + (visTables f oi).length } := by
  unfold filter_all_oi_vis visTables
  cases f.accept_vis with
  | false => simp
  | true =>
    simp only [Bool.not_true, Bool.false_eq_true, if_false, if_true]
    rw [filterTabs_ok (g := fun t => match instTable oi t.insname with
      | none => none
      | some w => if VisRemains f w t then some (visOut f w t) else none), bind_ok]
    · rfl
    · intro t ht hs
      cases hi : instTable oi t.insname with
      | none => rfl
      | some w =>
        dsimp only
        rw [if_neg]
        intro hr
        have hn := names_iff.mpr hr.names
        rcases hs with hs | hs
        · rw [hs] at hn; cases hn
        · exact keptChans_ne_nil.mpr hr.chan (mask_none hm hs hr.names.2.1 hi)
    · intro t ht ha u hu
      obtain ⟨w, hi, hk, rfl⟩ := mask_get hm hu
      obtain ⟨hl, hn⟩ := hf.vis t ht w hi
      refine ⟨visOut f w t, ?_, ?_⟩
      · rw [hl]
        exact filter_oi_vis_ok (hf.wf.vis t ht) (instTable_wf hf.wf hi) hn hk
      · rw [hi]
        dsimp only
        have : VisRemains f w t ↔ ∃ r ∈ t.record, VisKept f w r :=
          ⟨fun h => h.3, fun h => ⟨names_iff.mp ha, keptChans_ne_nil.mp hk, h⟩⟩
        unfold visOut
        rw [keptRecs_isEmpty]
        have hp : 0 < (keptChans f w).length := List.length_pos_iff.mpr hk
        by_cases hx : ∃ r ∈ t.record, VisKept f w r
        · simp [this, hx, hp]
        · simp [this, hx]

theorem filter_all_oi_vis2_ok {f : FilterSpec R} {oi out : OiFits R} {h : UseWave}
    (hf : Filterable f oi) (hm : MasksOk f oi h) :
    filter_all_oi_vis2 oi f h out = .ok { out with
      vis2List := out.vis2List ++ vis2Tables f oi
      numVis2 := out.numVis2 + (vis2Tables f oi).length } := by
  unfold filter_all_oi_vis2 vis2Tables
  cases f.accept_vis2 with
  | false => simp
  | true =>
    simp only [Bool.not_true, Bool.false_eq_true, if_false, if_true]
    rw [filterTabs_ok (g := fun t => match instTable oi t.insname with
      | none => none
      | some w => if Vis2Remains f w t then some (vis2Out f w t) else none), bind_ok]
    · rfl
    · intro t ht hs
      cases hi : instTable oi t.insname with
      | none => rfl
      | some w =>
        dsimp only
        rw [if_neg]
        intro hr
        have hn := names_iff.mpr hr.names
        rcases hs with hs | hs
        · rw [hs] at hn; cases hn
        · exact keptChans_ne_nil.mpr hr.chan (mask_none hm hs hr.names.2.1 hi)
    · intro t ht ha u hu
      obtain ⟨w, hi, hk, rfl⟩ := mask_get hm hu
      obtain ⟨hl, hn⟩ := hf.vis2 t ht w hi
      refine ⟨vis2Out f w t, ?_, ?_⟩
      · rw [hl]
        exact filter_oi_vis2_ok (hf.wf.vis2 t ht) (instTable_wf hf.wf hi) hn hk
      · rw [hi]
        dsimp only
        have : Vis2Remains f w t ↔ ∃ r ∈ t.record, Vis2Kept f w r :=
          ⟨fun h => h.3, fun h => ⟨names_iff.mp ha, keptChans_ne_nil.mp hk, h⟩⟩
        unfold vis2Out
        rw [keptRecs_isEmpty]
        have hp : 0 < (keptChans f w).length := List.length_pos_iff.mpr hk
        by_cases hx : ∃ r ∈ t.record, Vis2Kept f w r
        · simp [this, hx, hp]
        · simp [this, hx]

theorem filter_all_oi_t3_ok {f : FilterSpec R} {oi out : OiFits R} {h : UseWave}
    (hf : Filterable f oi) (hm : MasksOk f oi h) :
    filter_all_oi_t3 oi f h out = .ok { out with
      t3List := out.t3List ++ t3Tables f oi
      numT3 := out.numT3 + (t3Tables f oi).length } := by
  unfold filter_all_oi_t3 t3Tables
  have hb : (!f.accept_t3amp && !f.accept_t3phi) = !(f.accept_t3amp || f.accept_t3phi) := by
    cases f.accept_t3amp <;> rfl
  rw [hb]
  cases (f.accept_t3amp || f.accept_t3phi) with
  | false => simp
  | true =>
    simp only [Bool.not_true, Bool.false_eq_true, if_false, if_true]
    rw [filterTabs_ok (g := fun t => match instTable oi t.insname with
      | none => none
      | some w => if T3Remains f w t then some (t3Out f w t) else none), bind_ok]
    · rfl
    · intro t ht hs
      cases hi : instTable oi t.insname with
      | none => rfl
      | some w =>
        dsimp only
        rw [if_neg]
        intro hr
        have hn := names_iff.mpr hr.names
        rcases hs with hs | hs
        · rw [hs] at hn; cases hn
        · exact keptChans_ne_nil.mpr hr.chan (mask_none hm hs hr.names.2.1 hi)
    · intro t ht ha u hu
      obtain ⟨w, hi, hk, rfl⟩ := mask_get hm hu
      obtain ⟨hl, hn⟩ := hf.t3 t ht w hi
      refine ⟨t3Out f w t, ?_, ?_⟩
      · rw [hl]
        exact filter_oi_t3_ok (hf.wf.t3 t ht) (instTable_wf hf.wf hi) hn hk
      · rw [hi]
        dsimp only
        have : T3Remains f w t ↔ ∃ r ∈ t.record, T3Kept f w r :=
          ⟨fun h => h.3, fun h => ⟨names_iff.mp ha, keptChans_ne_nil.mp hk, h⟩⟩
        unfold t3Out
        rw [keptRecs_isEmpty]
        have hp : 0 < (keptChans f w).length := List.length_pos_iff.mpr hk
        by_cases hx : ∃ r ∈ t.record, T3Kept f w r
        · simp [this, hx, hp]
        · simp [this, hx]

theorem filter_all_oi_flux_ok {f : FilterSpec R} {oi out : OiFits R} {h : UseWave}
    (hf : Filterable f oi) (hm : MasksOk f oi h) :
    filter_all_oi_flux oi f h out = .ok { out with
      fluxList := out.fluxList ++ fluxTables f oi
      numFlux := out.numFlux + (fluxTables f oi).length } := by
  unfold filter_all_oi_flux fluxTables
  cases f.accept_flux with
  | false => simp
  | true =>
    simp only [Bool.not_true, Bool.false_eq_true, if_false, if_true]
    rw [filterTabs_ok (g := fun t => match instTable oi t.insname with
      | none => none
      | some w => if FluxRemains f w t then some (fluxOut f w t) else none), bind_ok]
    · rfl
    · intro t ht hs
      cases hi : instTable oi t.insname with
      | none => rfl
      | some w =>
        dsimp only
        rw [if_neg]
        intro hr
        have hn := names_iff.mpr hr.names
        rcases hs with hs | hs
        · rw [hs] at hn; cases hn
        · exact keptChans_ne_nil.mpr hr.chan (mask_none hm hs hr.names.2.1 hi)
    · intro t ht ha u hu
      obtain ⟨w, hi, hk, rfl⟩ := mask_get hm hu
      have hn := hf.flux t ht w hi
      refine ⟨fluxOut f w t, ?_, ?_⟩
      · exact filter_oi_flux_ok (hf.wf.flux t ht) (instTable_wf hf.wf hi) hn hk
      · rw [hi]
        dsimp only
        have : FluxRemains f w t ↔ ∃ r ∈ t.record, FluxKept f r :=
          ⟨fun h => h.3, fun h => ⟨names_iff.mp ha, keptChans_ne_nil.mp hk, h⟩⟩
        unfold fluxOut
        rw [keptRecs_isEmpty]
        have hp : 0 < (keptChans f w).length := List.length_pos_iff.mpr hk
        by_cases hx : ∃ r ∈ t.record, FluxKept f r
        · simp [this, hx, hp]
        · simp [this, hx]

end Verif
