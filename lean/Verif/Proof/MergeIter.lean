import Mathlib.Data.List.Nodup
import Verif.Spec.MergeIter
import Verif.Proof.FilterIter
import Verif.Proof.ConformMerge
import Verif.Proof.MergeWF
import Verif.Props.Merge
import Verif.Props.Iter

/-! Iterating over merged datasets: lemmas. -/

namespace Verif
open Outcome Spec

variable {R : FP} {ins : List (OiFits R)} {out : OiFits R}

theorem pairwise₂_flatMap {α β γ : Type} {P : α → β → Prop} {l : List α} {l' : List β} (h : Pairwise₂ P l l')
    {g : β → List γ} {g' : α → List γ} (hg : ∀ x ∈ l, ∀ y ∈ l', P x y → g y = g' x) :
    l'.flatMap g = l.flatMap g' := by
  induction l generalizing l' with
  | nil =>
    cases l' with
    | nil => rfl
    | cons y l' => cases h.1
  | cons x l ih =>
    cases l' with
    | nil => cases h.1
    | cons y l' =>
      rw [List.flatMap_cons, List.flatMap_cons, hg x (by simp) y (by simp) (h.2 0 x y rfl rfl)]
      congr 1
      refine ih ⟨by simpa using h.1, fun i a b ha hb => h.2 (i + 1) a b ?_ ?_⟩ fun a ha b hb =>
        hg a (by simp [ha]) b (by simp [hb])
      · simpa using ha
      · simpa using hb

theorem pairwise₂_and {α β : Type} {P Q : α → β → Prop} {l : List α} {l' : List β} (h : Pairwise₂ P l l')
    (h' : Pairwise₂ Q l l') : Pairwise₂ (fun x y => P x y ∧ Q x y) l l' :=
  ⟨h.1, fun i x y hx hy => ⟨h.2 i x y hx hy, h'.2 i x y hx hy⟩⟩


theorem corresponds_flatMap {τ β : Type} {tabs : OiFits R → List τ} {P : OiFits R → τ → τ → Prop}
    (hc : Corresponds tabs ins out P) {g : τ → List β} {g' : OiFits R → τ → List β}
    (h : ∀ oi ∈ ins, ∀ t ∈ tabs oi, ∀ t' ∈ tabs out, P oi t t' → g t' = g' oi t) :
    (tabs out).flatMap g = ins.flatMap fun oi => (tabs oi).flatMap (g' oi) := by
  rw [pairwise₂_flatMap hc (g := g) (g' := fun p => g' p.1 p.2) fun p hp t' ht' hP =>
    h p.1 (mem_tablesOf hp).1 p.2 (mem_tablesOf hp).2 t' ht' hP]
  unfold tablesOf
  rw [List.flatMap_assoc]
  congr 1
  funext oi
  rw [List.flatMap_map]

theorem filter_map_congr {β : Type} {n : Nat} {p q : Nat → Prop} {_ : DecidablePred p} {_ : DecidablePred q} {v w : Nat → β}
    (h : ∀ j < n, (p j ↔ q j) ∧ v j = w j) :
    ((List.range n).filter fun j => decide (p j)).map v = ((List.range n).filter fun j => decide (q j)).map w := by
  have e : (List.range n).filter (fun j => decide (p j)) = (List.range n).filter fun j => decide (q j) := by
    apply List.filter_congr
    intro j hj
    rw [List.mem_range] at hj
    exact decide_eq_decide.mpr (h j hj).1
  rw [e]
  apply List.map_congr_left
  intro j hj
  exact (h j (List.mem_range.mp (List.mem_filter.mp hj).1)).2

theorem denotes_name {oi : OiFits R} {id : Int} {n : CStr} (h : DenotesTarget oi id n) :
    targetName oi id = some n := by
  obtain ⟨t, h1, rfl⟩ := h
  unfold targetName
  rw [(find?_firstWith (q := fun t : Target R => t.target_id = id) (by simp) oi.targets.targ t).mpr h1]
  rfl

theorem denotes_mem {oi : OiFits R} {id : Int} {n : CStr} (h : DenotesTarget oi id n) :
    ∃ t ∈ oi.targets.targ, t.target_id = id ∧ t.target = n := by
  obtain ⟨t, ⟨a, b, e, h1, h2⟩, rfl⟩ := h
  exact ⟨t, by rw [e]; simp, h1, rfl⟩

/-- The criteria for targets agree. -/
theorem targetOk_merge (h : merge_oi_fits_list ins = .ok out) {f : FilterSpec R} {g : OiFits R → FilterSpec R}
    (hc : SameCriteria ins out f g) {oi : OiFits R} (hoi : oi ∈ ins) {id id' : Int} {n : CStr}
    (hd : DenotesTarget oi id n) (hd' : DenotesTarget out id' n) : TargetOk f id' ↔ TargetOk (g oi) id := by
  rcases hc.target with ⟨h1, h2⟩ | ⟨h1, h2, m, h3, h4⟩
  · exact ⟨fun _ => .inl (h2 oi hoi), fun _ => .inl h1⟩
  · have e : id' = f.target_id ↔ n = m := by
      constructor
      · intro e
        subst e
        have a := denotes_name hd'
        rw [denotes_name h3] at a
        exact (Option.some.inj a).symm
      · intro e
        subst e
        obtain ⟨t, ht, rfl, e1⟩ := denotes_mem hd'
        obtain ⟨t', ht', e2, e3⟩ := denotes_mem h3
        rw [← e2]
        exact congrArg Target.target_id
          (List.inj_on_of_nodup_map (C38_unique_names h).1 ht ht' (by rw [e1, e3]))
    have e' := h4 oi hoi id n hd
    have h2 := h2 oi hoi
    unfold TargetOk
    rw [e, e']
    constructor
    · rintro (a | a)
      · omega
      · exact .inr a
    · rintro (a | a)
      · omega
      · exact .inr a

/-- A merged OI_WAVELENGTH table has the channels of one of the inputs'. -/
theorem merged_wave (hw : ∀ oi ∈ ins, oi.WF) (h : merge_oi_fits_list ins = .ok out) :
    ∀ w' ∈ out.wavelengthList, ∃ oi ∈ ins, ∃ w ∈ oi.wavelengthList, w'.nwave = w.nwave ∧
      w'.eff_wave = w.eff_wave ∧ w'.eff_band = w.eff_band := by
  obtain ⟨mjd, st, sa, si, sc, as, is, cs, hf⟩ := merge_full h
  rw [hf.waves.1]
  refine ninv_all hf.iinv fun x hx d n hd => ?_
  obtain ⟨oi, hoi, hx⟩ := List.mem_flatMap.mp hx
  change upgrade_oi_wavelength <$> dup_oi_wavelength x = .ok d at hd
  rw [C22_dup_oi_wavelength x ((hw oi hoi).wavelength x hx)] at hd
  cases hd
  refine ⟨oi, hoi, x, hx, ?_⟩
  unfold upgrade_oi_wavelength
  split <;> exact ⟨rfl, rfl, rfl⟩

/-- What lookups find in the merged dataset. -/
theorem merged_effWave (hw : ∀ oi ∈ ins, oi.WF) (hx : WavesExact ins) (h : merge_oi_fits_list ins = .ok out)
    {oi : OiFits R} (hoi : oi ∈ ins) {n n' : CStr} {k : Nat} (hi : InstrumentThere oi n k)
    (hf : InsFound oi out n n') :
    (∃ w', oi_fits_lookup_wavelength out n' = some w' ∧ k ≤ w'.eff_wave.length) ∧
    ∀ j, effWave out n' j = effWave oi n j := by
  obtain ⟨w, hw1, e, hk, hl⟩ := hi
  obtain ⟨w', hl', hs⟩ := hf w hw1 e
  have hm : w' ∈ out.wavelengthList := ((C48_merge_lookups h).wavelength _ _ hl').1
  obtain ⟨oi', hoi', w'', hw'', e1, e2, e3⟩ := merged_wave hw h w' hm
  have hs' : SameWaves w w'' := by
    unfold SameWaves at hs ⊢
    rw [e1, e2, e3] at hs
    exact hs
  have e4 := hx oi hoi w hw1 oi' hoi' w'' hw'' hs'
  have e5 : w'.eff_wave = w.eff_wave := e2.trans e4
  refine ⟨⟨w', hl', by rw [e5]; exact hk⟩, fun j => ?_⟩
  unfold effWave
  rw [hl, hl']
  dsimp only
  rw [e5]

theorem vis_merged_selected (hw : ∀ oi ∈ ins, oi.WF) (hu : ∀ oi ∈ ins, UniqueNames oi) (hn : ∀ oi ∈ ins, NamesFit oi)
    (hp : PlainNames ("ins" : CStr) (Spec.allNames OiFits.wavelengthList OiWavelength.insname ins))
    (hi : ∀ oi ∈ ins, InstrumentsThere oi) (hx : WavesExact ins) (h : merge_oi_fits_list ins = .ok out)
    {f : FilterSpec R} {g : OiFits R → FilterSpec R} (hc : SameCriteria ins out f g) :
    (select (VisSelected f out) (visData out)).map (visContent out) =
      ins.flatMap fun oi => (select (VisSelected (g oi) oi) (visData oi)).map (visContent oi) := by
  have hall := corresponds_and (corresponds_and (C40_vis_preserved_partial hw h) (C39_same_targets hw h).2.1)
    (C41_lookup_partial hw hu hp hn h).2.1
  unfold visData
  rw [select_dataOf (p := fun t r j => VisSelected f out ⟨0, t, 0, r, j⟩) (P := VisSelected f out)
    (val := visContent out) (v := fun t r j => visContent out ⟨0, t, 0, r, j⟩)
    (fun d => ⟨fun h => ⟨h.1, h.2, h.3, h.4, h.5, h.6, h.7, h.8, h.9⟩,
      fun h => ⟨h.1, h.2, h.3, h.4, h.5, h.6, h.7, h.8, h.9⟩⟩) (fun d => rfl)]
  have e : ∀ oi : OiFits R, _ := fun oi => select_dataOf (record := OiVis.record) (nwave := OiVis.nwave)
    (ts := oi.visList) (p := fun t r j => VisSelected (g oi) oi ⟨0, t, 0, r, j⟩) (P := VisSelected (g oi) oi)
    (val := visContent oi) (v := fun t r j => visContent oi ⟨0, t, 0, r, j⟩)
    (fun d => ⟨fun h => ⟨h.1, h.2, h.3, h.4, h.5, h.6, h.7, h.8, h.9⟩,
      fun h => ⟨h.1, h.2, h.3, h.4, h.5, h.6, h.7, h.8, h.9⟩⟩) (fun d => rfl)
  simp only [e]
  refine corresponds_flatMap hall fun oi hoi t ht t' _ ⟨⟨h1, h2⟩, h3⟩ => ?_
  have hnw : t'.nwave = t.nwave := by rw [h1.1.1]
  have he := (merged_effWave hw hx h hoi ((hi oi hoi).vis t ht) h3).2
  refine pairwise₂_flatMap (pairwise₂_and h1.1.2 h2) fun r hr r' _ ⟨er, n, hd, hd'⟩ => ?_
  rw [hnw]
  have ht := targetOk_merge h hc hoi hd hd'
  have hg := hc.same oi hoi
  have hna := fun n => hc.names n
  refine filter_map_congr fun j hj => ⟨⟨fun s => ?_, fun s => ?_⟩, ?_⟩
  · obtain ⟨s1, s2, s3, s4, s5, s6, s7, s8, s9⟩ := s
    have s3 := ht.mp s3
    rw [er] at s4 s5 s6 s7 s8 s9
    simp only [he] at s6
    generalize (g oi).target_id = k at hg
    rw [hg] at s3 ⊢
    exact ⟨s1, ⟨(hna _).1, (hna _).2.1, (hna _).2.2⟩, s3, s4, s5, s6, s7, s8, s9⟩
  · obtain ⟨s1, s2, s3, s4, s5, s6, s7, s8, s9⟩ := s
    have s3 := ht.mpr s3
    generalize (g oi).target_id = k at hg
    rw [hg] at s1 s4 s5 s6 s7 s8 s9
    refine ⟨s1, ⟨(hna _).1, (hna _).2.1, (hna _).2.2⟩, s3, ?_, ?_, ?_, ?_, ?_, ?_⟩ <;> rw [er]
    · exact s4
    · exact s5
    · simp only [he]; exact s6
    · exact s7
    · exact s8
    · exact s9
  · unfold visContent
    simp only [he, denotes_name hd, denotes_name hd']
    rw [er]

theorem vis_merged_unflagged (hw : ∀ oi ∈ ins, oi.WF) (hu : ∀ oi ∈ ins, UniqueNames oi) (hn : ∀ oi ∈ ins, NamesFit oi)
    (hp : PlainNames ("ins" : CStr) (Spec.allNames OiFits.wavelengthList OiWavelength.insname ins))
    (hi : ∀ oi ∈ ins, InstrumentsThere oi) (hx : WavesExact ins) (h : merge_oi_fits_list ins = .ok out) :
    (select VisUnflagged (visData out)).map (visContent out) =
      ins.flatMap fun oi => (select VisUnflagged (visData oi)).map (visContent oi) := by
  have hall := corresponds_and (corresponds_and (C40_vis_preserved_partial hw h) (C39_same_targets hw h).2.1)
    (C41_lookup_partial hw hu hp hn h).2.1
  unfold visData
  rw [select_dataOf (p := fun _ r j => r.flag[j]? = some false) (P := VisUnflagged)
    (val := visContent out) (v := fun t r j => visContent out ⟨0, t, 0, r, j⟩) (fun d => Iff.rfl) (fun d => rfl)]
  have e : ∀ oi : OiFits R, _ := fun oi => select_dataOf (record := OiVis.record) (nwave := OiVis.nwave)
    (ts := oi.visList) (p := fun _ r j => r.flag[j]? = some false) (P := VisUnflagged)
    (val := visContent oi) (v := fun t r j => visContent oi ⟨0, t, 0, r, j⟩) (fun d => Iff.rfl) (fun d => rfl)
  simp only [e]
  refine corresponds_flatMap hall fun oi hoi t ht t' _ ⟨⟨h1, h2⟩, h3⟩ => ?_
  have hnw : t'.nwave = t.nwave := by rw [h1.1.1]
  have he := (merged_effWave hw hx h hoi ((hi oi hoi).vis t ht) h3).2
  refine pairwise₂_flatMap (pairwise₂_and h1.1.2 h2) fun r hr r' _ ⟨er, n, hd, hd'⟩ => ?_
  rw [hnw]
  refine filter_map_congr fun j hj => ⟨by rw [er], ?_⟩
  unfold visContent
  simp only [he, denotes_name hd, denotes_name hd']
  rw [er]

theorem vis2_merged_selected (hw : ∀ oi ∈ ins, oi.WF) (hu : ∀ oi ∈ ins, UniqueNames oi) (hn : ∀ oi ∈ ins, NamesFit oi)
    (hp : PlainNames ("ins" : CStr) (Spec.allNames OiFits.wavelengthList OiWavelength.insname ins))
    (hi : ∀ oi ∈ ins, InstrumentsThere oi) (hx : WavesExact ins) (h : merge_oi_fits_list ins = .ok out)
    {f : FilterSpec R} {g : OiFits R → FilterSpec R} (hc : SameCriteria ins out f g) :
    (select (Vis2Selected f out) (vis2Data out)).map (vis2Content out) =
      ins.flatMap fun oi => (select (Vis2Selected (g oi) oi) (vis2Data oi)).map (vis2Content oi) := by
  have hall := corresponds_and (corresponds_and (C40_vis2_preserved hw h) (C39_same_targets hw h).2.2.1)
    (C41_lookup_partial hw hu hp hn h).2.2.1
  unfold vis2Data
  rw [select_dataOf (p := fun t r j => Vis2Selected f out ⟨0, t, 0, r, j⟩) (P := Vis2Selected f out)
    (val := vis2Content out) (v := fun t r j => vis2Content out ⟨0, t, 0, r, j⟩)
    (fun d => ⟨fun h => ⟨h.1, h.2, h.3, h.4, h.5, h.6, h.7, h.8⟩,
      fun h => ⟨h.1, h.2, h.3, h.4, h.5, h.6, h.7, h.8⟩⟩) (fun d => rfl)]
  have e : ∀ oi : OiFits R, _ := fun oi => select_dataOf (record := OiVis2.record) (nwave := OiVis2.nwave)
    (ts := oi.vis2List) (p := fun t r j => Vis2Selected (g oi) oi ⟨0, t, 0, r, j⟩) (P := Vis2Selected (g oi) oi)
    (val := vis2Content oi) (v := fun t r j => vis2Content oi ⟨0, t, 0, r, j⟩)
    (fun d => ⟨fun h => ⟨h.1, h.2, h.3, h.4, h.5, h.6, h.7, h.8⟩,
      fun h => ⟨h.1, h.2, h.3, h.4, h.5, h.6, h.7, h.8⟩⟩) (fun d => rfl)
  simp only [e]
  refine corresponds_flatMap hall fun oi hoi t ht t' _ ⟨⟨h1, h2⟩, h3⟩ => ?_
  have hnw : t'.nwave = t.nwave := by rw [h1.1]
  have he := (merged_effWave hw hx h hoi ((hi oi hoi).vis2 t ht) h3).2
  refine pairwise₂_flatMap (pairwise₂_and h1.2 h2) fun r hr r' _ ⟨er, n, hd, hd'⟩ => ?_
  rw [hnw]
  have ht := targetOk_merge h hc hoi hd hd'
  have hg := hc.same oi hoi
  have hna := fun n => hc.names n
  refine filter_map_congr fun j hj => ⟨⟨fun s => ?_, fun s => ?_⟩, ?_⟩
  · obtain ⟨s1, s2, s3, s4, s5, s6, s7, s8⟩ := s
    have s3 := ht.mp s3
    rw [er] at s4 s5 s6 s7 s8
    simp only [he] at s6
    generalize (g oi).target_id = k at hg
    rw [hg] at s3 ⊢
    exact ⟨s1, ⟨(hna _).1, (hna _).2.1, (hna _).2.2⟩, s3, s4, s5, s6, s7, s8⟩
  · obtain ⟨s1, s2, s3, s4, s5, s6, s7, s8⟩ := s
    have s3 := ht.mpr s3
    generalize (g oi).target_id = k at hg
    rw [hg] at s1 s4 s5 s6 s7 s8
    refine ⟨s1, ⟨(hna _).1, (hna _).2.1, (hna _).2.2⟩, s3, ?_, ?_, ?_, ?_, ?_⟩ <;> rw [er]
    · exact s4
    · exact s5
    · simp only [he]; exact s6
    · exact s7
    · exact s8
  · unfold vis2Content
    simp only [he, denotes_name hd, denotes_name hd']
    rw [er]

theorem vis2_merged_unflagged (hw : ∀ oi ∈ ins, oi.WF) (hu : ∀ oi ∈ ins, UniqueNames oi) (hn : ∀ oi ∈ ins, NamesFit oi)
    (hp : PlainNames ("ins" : CStr) (Spec.allNames OiFits.wavelengthList OiWavelength.insname ins))
    (hi : ∀ oi ∈ ins, InstrumentsThere oi) (hx : WavesExact ins) (h : merge_oi_fits_list ins = .ok out) :
    (select Vis2Unflagged (vis2Data out)).map (vis2Content out) =
      ins.flatMap fun oi => (select Vis2Unflagged (vis2Data oi)).map (vis2Content oi) := by
  have hall := corresponds_and (corresponds_and (C40_vis2_preserved hw h) (C39_same_targets hw h).2.2.1)
    (C41_lookup_partial hw hu hp hn h).2.2.1
  unfold vis2Data
  rw [select_dataOf (p := fun _ r j => r.flag[j]? = some false) (P := Vis2Unflagged)
    (val := vis2Content out) (v := fun t r j => vis2Content out ⟨0, t, 0, r, j⟩) (fun d => Iff.rfl) (fun d => rfl)]
  have e : ∀ oi : OiFits R, _ := fun oi => select_dataOf (record := OiVis2.record) (nwave := OiVis2.nwave)
    (ts := oi.vis2List) (p := fun _ r j => r.flag[j]? = some false) (P := Vis2Unflagged)
    (val := vis2Content oi) (v := fun t r j => vis2Content oi ⟨0, t, 0, r, j⟩) (fun d => Iff.rfl) (fun d => rfl)
  simp only [e]
  refine corresponds_flatMap hall fun oi hoi t ht t' _ ⟨⟨h1, h2⟩, h3⟩ => ?_
  have hnw : t'.nwave = t.nwave := by rw [h1.1]
  have he := (merged_effWave hw hx h hoi ((hi oi hoi).vis2 t ht) h3).2
  refine pairwise₂_flatMap (pairwise₂_and h1.2 h2) fun r hr r' _ ⟨er, n, hd, hd'⟩ => ?_
  rw [hnw]
  refine filter_map_congr fun j hj => ⟨by rw [er], ?_⟩
  unfold vis2Content
  simp only [he, denotes_name hd, denotes_name hd']
  rw [er]

theorem t3_merged_selected (hw : ∀ oi ∈ ins, oi.WF) (hu : ∀ oi ∈ ins, UniqueNames oi) (hn : ∀ oi ∈ ins, NamesFit oi)
    (hp : PlainNames ("ins" : CStr) (Spec.allNames OiFits.wavelengthList OiWavelength.insname ins))
    (hi : ∀ oi ∈ ins, InstrumentsThere oi) (hx : WavesExact ins) (h : merge_oi_fits_list ins = .ok out)
    {f : FilterSpec R} {g : OiFits R → FilterSpec R} (hc : SameCriteria ins out f g) :
    (select (T3Selected f out) (t3Data out)).map (t3Content out) =
      ins.flatMap fun oi => (select (T3Selected (g oi) oi) (t3Data oi)).map (t3Content oi) := by
  have hall := corresponds_and (corresponds_and (C40_t3_preserved hw h) (C39_same_targets hw h).2.2.2.1)
    (C41_lookup_partial hw hu hp hn h).2.2.2.1
  unfold t3Data
  rw [select_dataOf (p := fun t r j => T3Selected f out ⟨0, t, 0, r, j⟩) (P := T3Selected f out)
    (val := t3Content out) (v := fun t r j => t3Content out ⟨0, t, 0, r, j⟩)
    (fun d => ⟨fun h => ⟨h.1, h.2, h.3, h.4, h.5, h.6, h.7, h.8, h.9, h.10, h.11⟩,
      fun h => ⟨h.1, h.2, h.3, h.4, h.5, h.6, h.7, h.8, h.9, h.10, h.11⟩⟩) (fun d => rfl)]
  have e : ∀ oi : OiFits R, _ := fun oi => select_dataOf (record := OiT3.record) (nwave := OiT3.nwave)
    (ts := oi.t3List) (p := fun t r j => T3Selected (g oi) oi ⟨0, t, 0, r, j⟩) (P := T3Selected (g oi) oi)
    (val := t3Content oi) (v := fun t r j => t3Content oi ⟨0, t, 0, r, j⟩)
    (fun d => ⟨fun h => ⟨h.1, h.2, h.3, h.4, h.5, h.6, h.7, h.8, h.9, h.10, h.11⟩,
      fun h => ⟨h.1, h.2, h.3, h.4, h.5, h.6, h.7, h.8, h.9, h.10, h.11⟩⟩) (fun d => rfl)
  simp only [e]
  refine corresponds_flatMap hall fun oi hoi t ht t' _ ⟨⟨h1, h2⟩, h3⟩ => ?_
  have hnw : t'.nwave = t.nwave := by rw [h1.1]
  have he := (merged_effWave hw hx h hoi ((hi oi hoi).t3 t ht) h3).2
  refine pairwise₂_flatMap (pairwise₂_and h1.2 h2) fun r hr r' _ ⟨er, n, hd, hd'⟩ => ?_
  rw [hnw]
  have ht := targetOk_merge h hc hoi hd hd'
  have hg := hc.same oi hoi
  have hna := fun n => hc.names n
  refine filter_map_congr fun j hj => ⟨⟨fun s => ?_, fun s => ?_⟩, ?_⟩
  · obtain ⟨s1, s2, s3, s4, s5, s6, s7, s8, s9, s10, s11⟩ := s
    have s3 := ht.mp s3
    rw [er] at s4 s5 s6 s7 s8 s9 s10 s11
    simp only [he] at s8
    generalize (g oi).target_id = k at hg
    rw [hg] at s3 ⊢
    exact ⟨s1, ⟨(hna _).1, (hna _).2.1, (hna _).2.2⟩, s3, s4, s5, s6, s7, s8, s9, s10, s11⟩
  · obtain ⟨s1, s2, s3, s4, s5, s6, s7, s8, s9, s10, s11⟩ := s
    have s3 := ht.mpr s3
    generalize (g oi).target_id = k at hg
    rw [hg] at s1 s4 s5 s6 s7 s8 s9 s10 s11
    refine ⟨s1, ⟨(hna _).1, (hna _).2.1, (hna _).2.2⟩, s3, ?_, ?_, ?_, ?_, ?_, ?_, ?_, ?_⟩ <;> rw [er]
    · exact s4
    · exact s5
    · exact s6
    · exact s7
    · simp only [he]; exact s8
    · exact s9
    · exact s10
    · exact s11
  · unfold t3Content
    simp only [he, denotes_name hd, denotes_name hd']
    rw [er]

theorem t3_merged_unflagged (hw : ∀ oi ∈ ins, oi.WF) (hu : ∀ oi ∈ ins, UniqueNames oi) (hn : ∀ oi ∈ ins, NamesFit oi)
    (hp : PlainNames ("ins" : CStr) (Spec.allNames OiFits.wavelengthList OiWavelength.insname ins))
    (hi : ∀ oi ∈ ins, InstrumentsThere oi) (hx : WavesExact ins) (h : merge_oi_fits_list ins = .ok out) :
    (select T3Unflagged (t3Data out)).map (t3Content out) =
      ins.flatMap fun oi => (select T3Unflagged (t3Data oi)).map (t3Content oi) := by
  have hall := corresponds_and (corresponds_and (C40_t3_preserved hw h) (C39_same_targets hw h).2.2.2.1)
    (C41_lookup_partial hw hu hp hn h).2.2.2.1
  unfold t3Data
  rw [select_dataOf (p := fun _ r j => r.flag[j]? = some false) (P := T3Unflagged)
    (val := t3Content out) (v := fun t r j => t3Content out ⟨0, t, 0, r, j⟩) (fun d => Iff.rfl) (fun d => rfl)]
  have e : ∀ oi : OiFits R, _ := fun oi => select_dataOf (record := OiT3.record) (nwave := OiT3.nwave)
    (ts := oi.t3List) (p := fun _ r j => r.flag[j]? = some false) (P := T3Unflagged)
    (val := t3Content oi) (v := fun t r j => t3Content oi ⟨0, t, 0, r, j⟩) (fun d => Iff.rfl) (fun d => rfl)
  simp only [e]
  refine corresponds_flatMap hall fun oi hoi t ht t' _ ⟨⟨h1, h2⟩, h3⟩ => ?_
  have hnw : t'.nwave = t.nwave := by rw [h1.1]
  have he := (merged_effWave hw hx h hoi ((hi oi hoi).t3 t ht) h3).2
  refine pairwise₂_flatMap (pairwise₂_and h1.2 h2) fun r hr r' _ ⟨er, n, hd, hd'⟩ => ?_
  rw [hnw]
  refine filter_map_congr fun j hj => ⟨by rw [er], ?_⟩
  unfold t3Content
  simp only [he, denotes_name hd, denotes_name hd']
  rw [er]

end Verif
