import Verif.Proof.MergeIter
import Verif.Props.File

/-! C93: what is in a merged dataset, as programs see it through iterators and counts, is what is in
the inputs. -/

set_option Elab.async false

namespace Verif
open Outcome Spec

variable {R : FP} {ins : List (OiFits R)} {out : OiFits R} {f : FilterSpec R} {g : OiFits R → FilterSpec R}

theorem iterates_vis {oi : OiFits R} (hw : oi.WF) (hi : ∀ t ∈ oi.visList, ∃ w,
    oi_fits_lookup_wavelength oi t.insname = some w ∧ t.nwave ≤ w.eff_wave.length) (f : FilterSpec R) :
    Iterates visKind oi f (select (VisSelected f oi) (visData oi)) := fun n =>
  C24_vis_iter oi (some f) n hw.vis fun t ht _ => hi t ht

theorem iterates_vis2 {oi : OiFits R} (hw : oi.WF) (hi : ∀ t ∈ oi.vis2List, ∃ w,
    oi_fits_lookup_wavelength oi t.insname = some w ∧ t.nwave ≤ w.eff_wave.length) (f : FilterSpec R) :
    Iterates vis2Kind oi f (select (Vis2Selected f oi) (vis2Data oi)) := fun n =>
  C24_vis2_iter oi (some f) n hw.vis2 fun t ht _ => hi t ht

theorem iterates_t3 {oi : OiFits R} (hw : oi.WF) (hi : ∀ t ∈ oi.t3List, ∃ w,
    oi_fits_lookup_wavelength oi t.insname = some w ∧ t.nwave ≤ w.eff_wave.length) (f : FilterSpec R) :
    Iterates t3Kind oi f (select (T3Selected f oi) (t3Data oi)) := fun n =>
  C24_t3_iter oi (some f) n hw.t3 fun t ht _ => hi t ht

theorem there_found {oi : OiFits R} {n : CStr} {k : Nat} (h : InstrumentThere oi n k) :
    ∃ w, oi_fits_lookup_wavelength oi n = some w ∧ k ≤ w.eff_wave.length := by
  obtain ⟨w, -, -, h1, h2⟩ := h
  exact ⟨w, h2, h1⟩

/-- C93 for complex visibilities. Iterating over a merged dataset gives the data which iterating over
the inputs, one after the other, gives. -/
theorem C93_vis_partial (hw : ∀ oi ∈ ins, oi.WF) (hu : ∀ oi ∈ ins, UniqueNames oi) (hn : ∀ oi ∈ ins, NamesFit oi)
    (hp : PlainNames ("ins" : CStr) (Spec.allNames OiFits.wavelengthList OiWavelength.insname ins))
    (hi : ∀ oi ∈ ins, InstrumentsThere oi) (hx : WavesExact ins) (h : merge_oi_fits_list ins = .ok out)
    (hc : SameCriteria ins out f g) :
    ∃ l, ∃ each : OiFits R → List (Datum (OiVis R) (OiVisRecord R)), Iterates visKind out f l ∧ (∀ oi ∈ ins, Iterates visKind oi (g oi) (each oi)) ∧
      l.map (visContent out) = ins.flatMap fun oi => (each oi).map (visContent oi) := by
  have hall := corresponds_and (corresponds_and (C40_vis_preserved_partial hw h) (C39_same_targets hw h).2.1)
    (C41_lookup_partial hw hu hp hn h).2.1
  refine ⟨_, fun oi => select (VisSelected (g oi) oi) (visData oi), iterates_vis (merge_wf hw h) ?_ f,
    fun oi hoi => iterates_vis (hw oi hoi) (fun t ht => there_found ((hi oi hoi).vis t ht)) (g oi), ?_⟩
  · exact all_merged hall fun oi hoi t ht t' ⟨⟨h1, _⟩, h3⟩ => by
      have := (merged_effWave hw hx h hoi ((hi oi hoi).vis t ht) h3).1
      rw [h1.1.1]
      exact this
  · exact vis_merged_selected hw hu hn hp hi hx h hc

/-- C93 for squared visibilities. Iterating over a merged dataset gives the data which iterating over
the inputs, one after the other, gives. -/
theorem C93_vis2_partial (hw : ∀ oi ∈ ins, oi.WF) (hu : ∀ oi ∈ ins, UniqueNames oi) (hn : ∀ oi ∈ ins, NamesFit oi)
    (hp : PlainNames ("ins" : CStr) (Spec.allNames OiFits.wavelengthList OiWavelength.insname ins))
    (hi : ∀ oi ∈ ins, InstrumentsThere oi) (hx : WavesExact ins) (h : merge_oi_fits_list ins = .ok out)
    (hc : SameCriteria ins out f g) :
    ∃ l, ∃ each : OiFits R → List (Datum (OiVis2 R) (OiVis2Record R)), Iterates vis2Kind out f l ∧ (∀ oi ∈ ins, Iterates vis2Kind oi (g oi) (each oi)) ∧
      l.map (vis2Content out) = ins.flatMap fun oi => (each oi).map (vis2Content oi) := by
  have hall := corresponds_and (corresponds_and (C40_vis2_preserved hw h) (C39_same_targets hw h).2.2.1)
    (C41_lookup_partial hw hu hp hn h).2.2.1
  refine ⟨_, fun oi => select (Vis2Selected (g oi) oi) (vis2Data oi), iterates_vis2 (merge_wf hw h) ?_ f,
    fun oi hoi => iterates_vis2 (hw oi hoi) (fun t ht => there_found ((hi oi hoi).vis2 t ht)) (g oi), ?_⟩
  · exact all_merged hall fun oi hoi t ht t' ⟨⟨h1, _⟩, h3⟩ => by
      have := (merged_effWave hw hx h hoi ((hi oi hoi).vis2 t ht) h3).1
      rw [h1.1]
      exact this
  · exact vis2_merged_selected hw hu hn hp hi hx h hc

/-- C93 for triple products. Iterating over a merged dataset gives the data which iterating over
the inputs, one after the other, gives. -/
theorem C93_t3_partial (hw : ∀ oi ∈ ins, oi.WF) (hu : ∀ oi ∈ ins, UniqueNames oi) (hn : ∀ oi ∈ ins, NamesFit oi)
    (hp : PlainNames ("ins" : CStr) (Spec.allNames OiFits.wavelengthList OiWavelength.insname ins))
    (hi : ∀ oi ∈ ins, InstrumentsThere oi) (hx : WavesExact ins) (h : merge_oi_fits_list ins = .ok out)
    (hc : SameCriteria ins out f g) :
    ∃ l, ∃ each : OiFits R → List (Datum (OiT3 R) (OiT3Record R)), Iterates t3Kind out f l ∧ (∀ oi ∈ ins, Iterates t3Kind oi (g oi) (each oi)) ∧
      l.map (t3Content out) = ins.flatMap fun oi => (each oi).map (t3Content oi) := by
  have hall := corresponds_and (corresponds_and (C40_t3_preserved hw h) (C39_same_targets hw h).2.2.2.1)
    (C41_lookup_partial hw hu hp hn h).2.2.2.1
  refine ⟨_, fun oi => select (T3Selected (g oi) oi) (t3Data oi), iterates_t3 (merge_wf hw h) ?_ f,
    fun oi hoi => iterates_t3 (hw oi hoi) (fun t ht => there_found ((hi oi hoi).t3 t ht)) (g oi), ?_⟩
  · exact all_merged hall fun oi hoi t ht t' ⟨⟨h1, _⟩, h3⟩ => by
      have := (merged_effWave hw hx h hoi ((hi oi hoi).t3 t ht) h3).1
      rw [h1.1]
      exact this
  · exact t3_merged_selected hw hu hn hp hi hx h hc

/-- C93, counts. The numbers of unflagged data which `count_oi_fits_data` gives for a merged dataset
are the sums of those it gives for the inputs. -/
theorem C93_counts (hw : ∀ oi ∈ ins, oi.WF) (h : merge_oi_fits_list ins = .ok out) :
    ∃ a b c : OiFits R → Nat, (∀ oi ∈ ins, count_oi_fits_data oi = .ok (a oi, b oi, c oi)) ∧
      count_oi_fits_data out = .ok ((ins.map a).sum, (ins.map b).sum, (ins.map c).sum) := by
  have hc : ∀ {oi : OiFits R}, oi.WF → count_oi_fits_data oi =
      .ok ((visFlags oi).count false, (vis2Flags oi).count false, (t3Flags oi).count false) := fun hw =>
    C18_count_oi_fits_data _ (fun t ht r hr => ((hw.vis t ht).recs r hr).flag)
      (fun t ht r hr => ((hw.vis2 t ht).recs r hr).flag) (fun t ht r hr => ((hw.t3 t ht).recs r hr).flag)
  refine ⟨_, _, _, fun oi hoi => hc (hw oi hoi), ?_⟩
  have e1 : visFlags out = ins.flatMap visFlags :=
    corresponds_flatMap (C40_vis_preserved_partial hw h) fun oi _ t _ t' _ h1 =>
      pairwise₂_flatMap h1.1.2 fun r _ r' _ er => by rw [er]
  have e2 : vis2Flags out = ins.flatMap vis2Flags :=
    corresponds_flatMap (C40_vis2_preserved hw h) fun oi _ t _ t' _ h1 =>
      pairwise₂_flatMap h1.2 fun r _ r' _ er => by rw [er]
  have e3 : t3Flags out = ins.flatMap t3Flags :=
    corresponds_flatMap (C40_t3_preserved hw h) fun oi _ t _ t' _ h1 =>
      pairwise₂_flatMap h1.2 fun r _ r' _ er => by rw [er]
  rw [hc (merge_wf hw h), e1, e2, e3]
  simp only [List.count_flatMap]
  rfl

/-! Examples -/

theorem Ex.there {oi : OiFits FP.ratFP} {n : CStr} {k : Nat} (w : OiWavelength FP.ratFP) (h : w ∈ oi.wavelengthList)
    (h1 : w.insname = n) (h2 : k ≤ w.eff_wave.length) (h3 : oi_fits_lookup_wavelength oi n = some w) :
    InstrumentThere oi n k := ⟨w, h, h1, h2, h3⟩

theorem Ex.both_there : ∀ oi ∈ Ex.both, InstrumentsThere oi := by
  intro o ho
  simp only [Ex.both, List.mem_cons, List.not_mem_nil, or_false] at ho
  rcases ho with rfl | rfl
  · have key : ∀ n k, n = ("INS1" : CStr) ∧ k ≤ 2 → InstrumentThere Ex.oi n k := by
      rintro n k ⟨rfl, hk⟩
      exact Ex.there Ex.wave (by simp [Ex.oi]) rfl hk (by decide +kernel)
    exact ⟨fun t ht => key _ _ (by revert t; decide), fun t ht => key _ _ (by revert t; decide),
      fun t ht => key _ _ (by revert t; decide)⟩
  · have key : ∀ n k, n = ("INS1" : CStr) ∧ k ≤ 2 → InstrumentThere Ex.oi2 n k := by
      rintro n k ⟨rfl, hk⟩
      exact Ex.there Ex.wave2 (by simp [Ex.oi2]) rfl hk (by decide +kernel)
    exact ⟨fun t ht => key _ _ (by revert t; decide), fun t ht => key _ _ (by revert t; decide),
      fun t ht => key _ _ (by revert t; decide)⟩

theorem Ex.both_exact : WavesExact Ex.both := by
  have far : ∀ {w w' : OiWavelength FP.ratFP} {x y : FP.ratFP.Flt}, 1 < w.nwave → w.eff_wave[1]? = some x →
      w'.eff_wave[1]? = some y → ¬ NearWave y x → ¬ SameWaves w w' := by
    rintro w w' x y h0 h1 h2 h3 ⟨-, h⟩
    obtain ⟨x', y', a, b, e1, e2, -, -, h4, -⟩ := h 1 h0
    rw [h1] at e1; rw [h2] at e2
    cases e1; cases e2
    exact h3 h4
  intro o ho w hw o' ho' w' hw' hs
  simp only [Ex.both, List.mem_cons, List.not_mem_nil, or_false] at ho ho'
  rcases ho with rfl | rfl <;> rcases ho' with rfl | rfl <;>
    simp only [Ex.oi, Ex.oi2, List.mem_cons, List.not_mem_nil, or_false] at hw hw' <;> subst hw <;> subst hw'
  · rfl
  · refine absurd hs (far (x := Ex.numF (mkRat 2 1000000)) (y := Ex.numF (mkRat 3 1000000)) (by decide) rfl rfl ?_)
    rintro (h | h) <;> revert h <;> decide +kernel
  · refine absurd hs (far (x := Ex.numF (mkRat 3 1000000)) (y := Ex.numF (mkRat 2 1000000)) (by decide) rfl rfl ?_)
    rintro (h | h) <;> revert h <;> decide +kernel
  · rfl

/-- Filters which look neither at names nor at targets. -/
theorem sameCriteria_const (hn : ∀ n, Glob f.arrname n ∧ Glob f.insname n ∧ Glob f.corrname n)
    (ht : f.target_id < 0) : SameCriteria ins out f fun _ => f :=
  ⟨hn, fun _ _ => rfl, .inl ⟨ht, fun _ _ => ht⟩⟩

/-- The conditions of `C93_vis2_partial` are met. -/
example : ∃ out, merge_oi_fits_list Ex.both = .ok out ∧ (∀ oi ∈ Ex.both, oi.WF) ∧ (∀ oi ∈ Ex.both, UniqueNames oi) ∧
    (∀ oi ∈ Ex.both, NamesFit oi) ∧
    PlainNames ("ins" : CStr) (Spec.allNames OiFits.wavelengthList OiWavelength.insname Ex.both) ∧
    (∀ oi ∈ Ex.both, InstrumentsThere oi) ∧ WavesExact Ex.both ∧
    SameCriteria Ex.both out (init_oi_filter _) fun _ => init_oi_filter _ := by
  obtain ⟨out, h⟩ := merge_ok Ex.both_wf Ex.both_resolve (by decide +kernel) Ex.both_dates
  exact ⟨out, h, Ex.both_wf, Ex.both_unique, Ex.both_fit, Ex.both_plain.2.1, Ex.both_there, Ex.both_exact,
    sameCriteria_const (fun n => ⟨glob_star n, glob_star n, glob_star n⟩) (by decide)⟩

/-- So are those of the criteria with a target: Star B is 2 in the first dataset, 7 in the second and 2
in the merged one. -/
example : ∃ out, merge_oi_fits_list Ex.both = .ok out ∧
    SameCriteria Ex.both out { init_oi_filter FP.ratFP with target_id := 2 }
      fun oi => { init_oi_filter FP.ratFP with target_id := if oi.targets.targ.length = 2 ∧
        oi.targets.revision = 1 then 7 else 2 } := by
  obtain ⟨out, h⟩ := merge_ok Ex.both_wf Ex.both_resolve (by decide +kernel) Ex.both_dates
  refine ⟨out, h, fun n => ⟨glob_star n, glob_star n, glob_star n⟩, fun _ _ => rfl, .inr ⟨by decide, ?_, "Star B", ?_, ?_⟩⟩
  · decide
  · have ht : (fun o : OiFits FP.ratFP => o.targets.targ) <$> merge_oi_fits_list Ex.both =
        .ok [Ex.targ 1 "Star A", Ex.targ 2 "Star B", Ex.targ 3 "Star C"] := by decide +kernel
    rw [h, map_ok] at ht
    cases e : out.targets.targ with
    | nil => rw [Outcome.ok.injEq, e] at ht; cases ht
    | cons a l =>
      rw [Outcome.ok.injEq] at ht
      unfold DenotesTarget
      rw [ht]
      exact ⟨Ex.targ 2 "Star B", ⟨[Ex.targ 1 "Star A"], [Ex.targ 3 "Star C"], rfl, rfl, by decide⟩, rfl⟩
  · intro oi hoi id m hd
    obtain ⟨t, ht, rfl, rfl⟩ := denotes_mem hd
    clear hd
    simp only [Ex.both, List.mem_cons, List.not_mem_nil, or_false] at hoi
    rcases hoi with rfl | rfl <;> revert t <;> decide +kernel

/-- How many data the first `n` calls of an iterator give. -/
def numYielded {τ ρ : Type} : Outcome (Iter FP.ratFP τ × List (Option (Datum τ ρ))) → Option Nat
  | .ok (_, rs) => some (rs.filterMap id).length
  | _ => none

/-- `Ex.oi` with one wavelength changed by less than the tolerance. -/
def shifted : OiFits FP.ratFP :=
  let w := { Ex.wave with eff_wave := [Ex.numF (mkRat 100001 100000000000), Ex.numF (mkRat 2 1000000)] }
  { Ex.oi with wavelengthList := [w], wavelengthHash := HMap.empty.insert "INS1" w }

/-- Up to the first wavelength of `Ex.oi`. -/
def shortOnly : FilterSpec FP.ratFP :=
  { init_oi_filter FP.ratFP with wave_range := (Ex.numF 0, Ex.numF (mkRat 1 1000000)) }

/-- C93, false without `WavesExact`: wavelengths which differ by less than the tolerance of merging are
replaced by others, and a filter tells them apart. -/
theorem C93_wave_counterexample : ∃ out, merge_oi_fits_list [Ex.oi, shifted] = .ok out ∧
    numYielded (calls vis2Kind 40 (iter_init vis2Kind Ex.oi (some shortOnly))) = some 6 ∧
    numYielded (calls vis2Kind 40 (iter_init vis2Kind shifted (some shortOnly))) = some 0 ∧
    numYielded (calls vis2Kind 40 (iter_init vis2Kind out (some shortOnly))) = some 12 := by
  have h : (fun out => numYielded (calls vis2Kind 40 (iter_init vis2Kind out (some shortOnly)))) <$>
      merge_oi_fits_list [Ex.oi, shifted] = .ok (some 12) := by decide +kernel
  obtain ⟨out, h1, h2⟩ := map_eq_ok h
  exact ⟨out, h1, by decide +kernel, by decide +kernel, h2.symm⟩

end Verif
