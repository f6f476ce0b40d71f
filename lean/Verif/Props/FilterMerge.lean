import Verif.Proof.FilterMerge
import Verif.Props.MergeIter
import Verif.Props.Filter
import Verif.Props.ConformKept

/-! C94: filtering a merged dataset and merging filtered ones give the same data. -/

set_option Elab.async false

namespace Verif
open Outcome Spec

variable {R : FP} {ins outs : List (OiFits R)} {m a b : OiFits R} {f : FilterSpec R}

theorem vis_datum {l : List (Datum (OiVis R) (OiVisRecord R))} {g : OiFits R → List (Datum (OiVis R) (OiVisRecord R))}
    (h : l.map (visContent m) = ins.flatMap fun oi => (g oi).map (visContent oi)) :
    l.map (visDatum m) = ins.flatMap fun oi => (g oi).map (visDatum oi) := by
  have h := congrArg (List.map fun x => (x.1, x.2.1, x.2.2.1, x.2.2.2.1, x.2.2.2.2.1, x.2.2.2.2.2.1, x.2.2.2.2.2.2.1, x.2.2.2.2.2.2.2.1, x.2.2.2.2.2.2.2.2.1, x.2.2.2.2.2.2.2.2.2.1, x.2.2.2.2.2.2.2.2.2.2.1)) h
  rw [List.map_map, List.map_flatMap] at h
  simp only [List.map_map] at h
  exact h

/-- C94 for complex visibilities. The unflagged data of a merged dataset which has been filtered are those of
the filtered inputs, one after the other, and those of the dataset to which the filtered inputs are
merged. -/
theorem C94_vis_partial (hne : ins ≠ []) (hp : PlainFilter f) (hg : Together f ins)
    (hun : ∀ oi ∈ ins, ∀ t ∈ oi.inspolList, InspolUniform f oi t)
    (hm : merge_oi_fits_list ins = .ok m) (ha : apply_oi_filter m f = .ok a)
    (ho : Pairwise₂ (fun oi o => apply_oi_filter oi f = .ok o) ins outs)
    (hb : merge_oi_fits_list outs = .ok b) :
    ((select VisUnflagged (visData a)).map (visDatum a) =
      outs.flatMap fun o => (select VisUnflagged (visData o)).map (visDatum o)) ∧
    (select VisUnflagged (visData a)).map (visDatum a) = (select VisUnflagged (visData b)).map (visDatum b) := by
  have hfm := merged_filterable hne hp.target hg hm
  have g1 := together_mergeable hg
  have g2 := filtered_mergeable hg hun ho
  have e1 := vis_filtered hfm (apply_oi_filter_spec hfm ha) hp (merged_instruments hg hm)
  have e2 := vis_datum (vis_merged_selected g1.wf g1.unique g1.fit g1.plain g1.there g1.exact hm
    (sameCriteria_const hp.names hp.target))
  have e3 := vis_datum (vis_merged_unflagged g2.wf g2.unique g2.fit g2.plain g2.there g2.exact hb)
  have e4 : (select VisUnflagged (visData a)).map (visDatum a) =
      outs.flatMap fun o => (select VisUnflagged (visData o)).map (visDatum o) := by
    rw [e1, e2]
    refine (pairwise₂_flatMap ho fun oi hoi o _ h => ?_).symm
    have hf := hg.filterable oi hoi
    exact vis_filtered hf (apply_oi_filter_spec hf h) hp (hg.instruments oi hoi)
  exact ⟨e4, e4.trans e3.symm⟩

theorem vis2_datum {l : List (Datum (OiVis2 R) (OiVis2Record R))} {g : OiFits R → List (Datum (OiVis2 R) (OiVis2Record R))}
    (h : l.map (vis2Content m) = ins.flatMap fun oi => (g oi).map (vis2Content oi)) :
    l.map (vis2Datum m) = ins.flatMap fun oi => (g oi).map (vis2Datum oi) := by
  have h := congrArg (List.map fun x => (x.1, x.2.1, x.2.2.1, x.2.2.2.1, x.2.2.2.2.1, x.2.2.2.2.2.1, x.2.2.2.2.2.2.1, x.2.2.2.2.2.2.2.1, x.2.2.2.2.2.2.2.2.1)) h
  rw [List.map_map, List.map_flatMap] at h
  simp only [List.map_map] at h
  exact h

/-- C94 for squared visibilities. The unflagged data of a merged dataset which has been filtered are those of
the filtered inputs, one after the other, and those of the dataset to which the filtered inputs are
merged. -/
theorem C94_vis2_partial (hne : ins ≠ []) (hp : PlainFilter f) (hg : Together f ins)
    (hun : ∀ oi ∈ ins, ∀ t ∈ oi.inspolList, InspolUniform f oi t)
    (hm : merge_oi_fits_list ins = .ok m) (ha : apply_oi_filter m f = .ok a)
    (ho : Pairwise₂ (fun oi o => apply_oi_filter oi f = .ok o) ins outs)
    (hb : merge_oi_fits_list outs = .ok b) :
    ((select Vis2Unflagged (vis2Data a)).map (vis2Datum a) =
      outs.flatMap fun o => (select Vis2Unflagged (vis2Data o)).map (vis2Datum o)) ∧
    (select Vis2Unflagged (vis2Data a)).map (vis2Datum a) = (select Vis2Unflagged (vis2Data b)).map (vis2Datum b) := by
  have hfm := merged_filterable hne hp.target hg hm
  have g1 := together_mergeable hg
  have g2 := filtered_mergeable hg hun ho
  have e1 := vis2_filtered hfm (apply_oi_filter_spec hfm ha) hp (merged_instruments hg hm)
  have e2 := vis2_datum (vis2_merged_selected g1.wf g1.unique g1.fit g1.plain g1.there g1.exact hm
    (sameCriteria_const hp.names hp.target))
  have e3 := vis2_datum (vis2_merged_unflagged g2.wf g2.unique g2.fit g2.plain g2.there g2.exact hb)
  have e4 : (select Vis2Unflagged (vis2Data a)).map (vis2Datum a) =
      outs.flatMap fun o => (select Vis2Unflagged (vis2Data o)).map (vis2Datum o) := by
    rw [e1, e2]
    refine (pairwise₂_flatMap ho fun oi hoi o _ h => ?_).symm
    have hf := hg.filterable oi hoi
    exact vis2_filtered hf (apply_oi_filter_spec hf h) hp (hg.instruments oi hoi)
  exact ⟨e4, e4.trans e3.symm⟩

theorem t3_datum {l : List (Datum (OiT3 R) (OiT3Record R))} {g : OiFits R → List (Datum (OiT3 R) (OiT3Record R))}
    (h : l.map (t3Content m) = ins.flatMap fun oi => (g oi).map (t3Content oi)) :
    l.map (t3Datum f m) = ins.flatMap fun oi => (g oi).map (t3Datum f oi) := by
  have h := congrArg (List.map fun x => (x.1, x.2.1, x.2.2.1, x.2.2.2.1, x.2.2.2.2.1, x.2.2.2.2.2.1, x.2.2.2.2.2.2.1, x.2.2.2.2.2.2.2.1, x.2.2.2.2.2.2.2.2.1, (if f.accept_t3amp then x.2.2.2.2.2.2.2.2.2.1 else none), x.2.2.2.2.2.2.2.2.2.2.1, (if f.accept_t3phi then x.2.2.2.2.2.2.2.2.2.2.2.1 else none), x.2.2.2.2.2.2.2.2.2.2.2.2.1)) h
  rw [List.map_map, List.map_flatMap] at h
  simp only [List.map_map] at h
  exact h

/-- C94 for triple products. The unflagged data of a merged dataset which has been filtered are those of
the filtered inputs, one after the other, and those of the dataset to which the filtered inputs are
merged. -/
theorem C94_t3_partial (hne : ins ≠ []) (hp : PlainFilter f) (hg : Together f ins)
    (hun : ∀ oi ∈ ins, ∀ t ∈ oi.inspolList, InspolUniform f oi t)
    (hm : merge_oi_fits_list ins = .ok m) (ha : apply_oi_filter m f = .ok a)
    (ho : Pairwise₂ (fun oi o => apply_oi_filter oi f = .ok o) ins outs)
    (hb : merge_oi_fits_list outs = .ok b) :
    ((select T3Unflagged (t3Data a)).map (t3Datum f a) =
      outs.flatMap fun o => (select T3Unflagged (t3Data o)).map (t3Datum f o)) ∧
    (select T3Unflagged (t3Data a)).map (t3Datum f a) = (select T3Unflagged (t3Data b)).map (t3Datum f b) := by
  have hfm := merged_filterable hne hp.target hg hm
  have g1 := together_mergeable hg
  have g2 := filtered_mergeable hg hun ho
  have e1 := t3_filtered hfm (apply_oi_filter_spec hfm ha) hp (merged_instruments hg hm)
  have e2 := t3_datum (f := f) (t3_merged_selected g1.wf g1.unique g1.fit g1.plain g1.there g1.exact hm
    (sameCriteria_const hp.names hp.target))
  have e3 := t3_datum (f := f) (t3_merged_unflagged g2.wf g2.unique g2.fit g2.plain g2.there g2.exact hb)
  have e4 : (select T3Unflagged (t3Data a)).map (t3Datum f a) =
      outs.flatMap fun o => (select T3Unflagged (t3Data o)).map (t3Datum f o) := by
    rw [e1, e2]
    refine (pairwise₂_flatMap ho fun oi hoi o _ h => ?_).symm
    have hf := hg.filterable oi hoi
    exact t3_filtered hf (apply_oi_filter_spec hf h) hp (hg.instruments oi hoi)
  exact ⟨e4, e4.trans e3.symm⟩

/-! Examples -/

/-- Short wavelengths, unflagged. -/
def Ex.shortUnflagged : FilterSpec FP.ratFP := { shortOnly with accept_flagged := false }

theorem Ex.shortUnflagged_plain : PlainFilter Ex.shortUnflagged :=
  ⟨fun n => ⟨glob_star n, glob_star n, glob_star n⟩, by decide, rfl⟩

theorem Ex.filterable2 (f : FilterSpec FP.ratFP) : Filterable f Ex.oi2 := by
  have hl : oi_fits_lookup_wavelength Ex.oi2 "INS1" = some Ex.wave2 := by decide +kernel
  have hi : ∀ n w, n = ("INS1" : CStr) → instTable Ex.oi2 n = some w → w = Ex.wave2 := by
    rintro n w rfl h
    exact List.mem_singleton.mp (instTable_some h).1
  refine ⟨Ex.oi2_wf, .inr (by decide), by decide, by decide +kernel, fun t ht => ?_, ?_, fun t ht => ?_, fun t ht => ?_⟩
  · cases ht
  · intro t ht w h
    obtain rfl := List.mem_singleton.mp ht
    rw [hi _ w rfl h]
    exact ⟨hl, rfl⟩
  · cases ht
  · cases ht

theorem Ex.both_together (f : FilterSpec FP.ratFP) : Together f Ex.both where
  filterable o ho := by
    simp only [Ex.both, List.mem_cons, List.not_mem_nil, or_false] at ho
    rcases ho with rfl | rfl
    · exact Ex.filterable f
    · exact Ex.filterable2 f
  unique := Ex.both_unique
  fit := Ex.both_fit
  plain := Ex.both_plain.2.1
  instruments o ho := by
    simp only [Ex.both, List.mem_cons, List.not_mem_nil, or_false] at ho
    rcases ho with rfl | rfl
    · have key : ∀ n : CStr, n = "INS1" → ∃ w ∈ Ex.oi.wavelengthList, w.insname = n :=
        fun n hn => ⟨Ex.wave, by simp [Ex.oi], hn.symm⟩
      exact ⟨fun t ht => key _ (by revert t; decide), fun t ht => key _ (by revert t; decide),
        fun t ht => key _ (by revert t; decide), fun t ht => key _ (by revert t; decide)⟩
    · have key : ∀ n : CStr, n = "INS1" → ∃ w ∈ Ex.oi2.wavelengthList, w.insname = n :=
        fun n hn => ⟨Ex.wave2, by simp [Ex.oi2], hn.symm⟩
      exact ⟨fun t ht => key _ (by revert t; decide), fun t ht => key _ (by revert t; decide),
        fun t ht => key _ (by revert t; decide), fun t ht => key _ (by revert t; decide)⟩
  exact := by
    have all : ∀ x, IsWavelength Ex.both x → x ∈ [Ex.numF (mkRat 1 1000000), Ex.numF (mkRat 2 1000000),
        Ex.numF (mkRat 3 1000000)] := by
      rintro x ⟨o, ho, w, hw, hx⟩
      simp only [Ex.both, List.mem_cons, List.not_mem_nil, or_false] at ho
      rcases ho with rfl | rfl
      · obtain rfl := List.mem_singleton.mp hw
        revert x; decide +kernel
      · obtain rfl := List.mem_singleton.mp hw
        revert x; decide +kernel
    intro x y hx hy h
    have key : ∀ x ∈ [Ex.numF (mkRat 1 1000000), Ex.numF (mkRat 2 1000000), Ex.numF (mkRat 3 1000000)],
        ∀ y ∈ [Ex.numF (mkRat 1 1000000), Ex.numF (mkRat 2 1000000), Ex.numF (mkRat 3 1000000)],
        FP.ratFP.le (FP.ratFP.lit (mkRat 1 10000000000)) (FP.ratFP.abs (FP.ratFP.toD (FP.ratFP.subF y x))) = false →
          y = x := by decide +kernel
    rcases h with h | h
    · exact h
    · exact key x (all x hx) y (all y hy) h

/-- Merging the datasets and filtering, and filtering and merging them; the numbers of data left. -/
def bothWays (f : FilterSpec FP.ratFP) (oi oi' : OiFits FP.ratFP) :
    Outcome ((OiFits FP.ratFP × OiFits FP.ratFP × OiFits FP.ratFP × OiFits FP.ratFP × OiFits FP.ratFP)) := do
  let m ← merge_oi_fits_list [oi, oi']
  let a ← apply_oi_filter m f
  let o ← apply_oi_filter oi f
  let o' ← apply_oi_filter oi' f
  let b ← merge_oi_fits_list [o, o']
  return (m, a, o, o', b)

theorem bothWays_ok {f : FilterSpec FP.ratFP} {oi oi' m a o o' b : OiFits FP.ratFP}
    (h : bothWays f oi oi' = .ok (m, a, o, o', b)) : merge_oi_fits_list [oi, oi'] = .ok m ∧ apply_oi_filter m f = .ok a ∧
      Pairwise₂ (fun oi o => apply_oi_filter oi f = .ok o) [oi, oi'] [o, o'] ∧ merge_oi_fits_list [o, o'] = .ok b := by
  unfold bothWays at h
  obtain ⟨m, h1, h⟩ := bind_eq_ok.mp h
  obtain ⟨a, h2, h⟩ := bind_eq_ok.mp h
  obtain ⟨o, h3, h⟩ := bind_eq_ok.mp h
  obtain ⟨o', h4, h⟩ := bind_eq_ok.mp h
  obtain ⟨b, h5, h⟩ := bind_eq_ok.mp h
  cases h
  refine ⟨h1, h2, ⟨rfl, fun i x y hx hy => ?_⟩, h5⟩
  match i with
  | 0 => cases hx; cases hy; exact h3
  | 1 => cases hx; cases hy; exact h4
  | _ + 2 => cases hx

/-- The numbers of data in the results, merged and filtered, and filtered and merged. -/
def bothCounts (f : FilterSpec FP.ratFP) (oi oi' : OiFits FP.ratFP) : Outcome (Outcome (Nat × Nat × Nat) × Outcome (Nat × Nat × Nat)) :=
  (fun x => (count_oi_fits_data x.2.1, count_oi_fits_data x.2.2.2.2)) <$> bothWays f oi oi'

/-- The conditions of the theorems are met, and data are left. -/
example : ∃ m a o o' b, PlainFilter Ex.shortUnflagged ∧ Together Ex.shortUnflagged Ex.both ∧
    (∀ oi ∈ Ex.both, ∀ t ∈ oi.inspolList, InspolUniform Ex.shortUnflagged oi t) ∧
    merge_oi_fits_list Ex.both = .ok m ∧ apply_oi_filter m Ex.shortUnflagged = .ok a ∧
    Pairwise₂ (fun oi o => apply_oi_filter oi Ex.shortUnflagged = .ok o) Ex.both [o, o'] ∧
    merge_oi_fits_list [o, o'] = .ok b := by
  have h : (fun _ => ()) <$> bothWays Ex.shortUnflagged Ex.oi Ex.oi2 = .ok () := by decide +kernel
  obtain ⟨⟨m, a, o, o', b⟩, h1, -⟩ := map_eq_ok h
  obtain ⟨e1, e2, e3, e4⟩ := bothWays_ok h1
  refine ⟨m, a, o, o', b, Ex.shortUnflagged_plain, Ex.both_together _, fun oi hoi t ht => ?_, e1, e2, e3, e4⟩
  simp only [Ex.both, List.mem_cons, List.not_mem_nil, or_false] at hoi
  rcases hoi with rfl | rfl
  · exact Ex.inspolUniform _ t ht
  · cases ht

example : bothCounts Ex.shortUnflagged Ex.oi Ex.oi2 = .ok (.ok (2, 3, 1), .ok (2, 3, 1)) := by decide +kernel

/-- C94, false without `WavelengthsExact`: merging replaces wavelengths by others within its tolerance,
and the filter tells them apart. -/
theorem C94_wave_counterexample :
    bothCounts Ex.shortUnflagged Ex.oi shifted = .ok (.ok (4, 4, 2), .ok (2, 2, 1)) := by decide +kernel

/-- C94, false of filters which look at names: merging changes names, so that data of the instrument
asked for are lost. -/
theorem C94_name_counterexample :
    bothCounts { Ex.shortUnflagged with insname := "INS1" } Ex.oi Ex.oi2 = .ok (.ok (2, 2, 1), .ok (2, 3, 1)) := by
  decide +kernel

end Verif
