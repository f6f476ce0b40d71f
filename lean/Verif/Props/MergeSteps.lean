import Verif.Proof.MergeStepsOut

/-! C92: merging in steps. Datasets may be merged a few at a time, the result of one merge
being an input of the next. The functions are those of `Model/Merge.lean`; what the
comparison is made with is in `Spec/MergeSteps.lean`. -/

set_option Elab.async false

namespace Verif
open Outcome Spec

variable {R : FP} {ins₁ ins₂ : List (OiFits R)} {m out : OiFits R}

/-- C92, under conditions. If merging the first datasets has given `m`, merging `m` with the
others gives what merging all at once gives, apart from mandatory keywords: one to which none
of the first datasets gives a value comes out as MULTIPLE if any of the others does. The two
ways also fail alike. The conditions: names and keyword values fit their buffers, dates are
valid, one of the first datasets has a date (see `C92_no_date_abort`), and no two tables of
`m` share a name (see `C92_names_false`; `C43_unique_partial` says when that is so). -/
theorem C92_steps_partial (hw : ∀ oi ∈ ins₁, oi.WF) (hn : ∀ oi ∈ ins₁, NamesFit oi)
    (hk : ∀ oi ∈ ins₁ ++ ins₂, HeaderFits oi) (hd : GoodDates ins₁) (hs : SomeDate ins₁)
    (h : merge_oi_fits_list ins₁ = .ok m) (hu : UniqueNames m) :
    merge_oi_fits_list (m :: ins₂) = stepped ins₁ <$> merge_oi_fits_list (ins₁ ++ ins₂) :=
  merge_steps hw hn hk hd hs h hu

theorem stepped_given (hg : KeysGiven ins₁) (out : OiFits R) : stepped ins₁ out = out := by
  have key : ∀ k ∈ mandatoryKeys, ∀ v, steppedKey ins₁ k v = v := by
    intro k hk v
    unfold steppedKey
    rw [if_neg]
    rintro ⟨h, -⟩
    obtain ⟨oi, hoi, hne⟩ := hg k hk
    exact hne (h oi hoi)
  unfold stepped
  rw [key OiHeader.origin (by simp [mandatoryKeys]), key OiHeader.telescop (by simp [mandatoryKeys]),
    key OiHeader.instrume (by simp [mandatoryKeys]), key OiHeader.observer (by simp [mandatoryKeys]),
    key OiHeader.insmode (by simp [mandatoryKeys]), key OiHeader.object (by simp [mandatoryKeys])]

/-- C92, under the condition, in addition, that the first datasets give a value to each
mandatory keyword: the two ways give the same. -/
theorem C92_same_partial (hw : ∀ oi ∈ ins₁, oi.WF) (hn : ∀ oi ∈ ins₁, NamesFit oi)
    (hk : ∀ oi ∈ ins₁ ++ ins₂, HeaderFits oi) (hd : GoodDates ins₁) (hs : SomeDate ins₁)
    (hg : KeysGiven ins₁) (h : merge_oi_fits_list ins₁ = .ok m) (hu : UniqueNames m) :
    merge_oi_fits_list (m :: ins₂) = merge_oi_fits_list (ins₁ ++ ins₂) := by
  rw [merge_steps hw hn hk hd hs h hu]
  cases merge_oi_fits_list (ins₁ ++ ins₂) with
  | ok out => rw [map_ok, stepped_given hg]
  | abort => rfl
  | ub => rfl

theorem allNames_append {τ : Type} (tabs : OiFits R → List τ) (name : τ → CStr) (l l' : List (OiFits R)) :
    Spec.allNames tabs name (l ++ l') = Spec.allNames tabs name l ++ Spec.allNames tabs name l' := by
  unfold Spec.allNames
  rw [List.flatMap_append]

/-- C92, under the same conditions, for the case where datasets are merged one by one: each
is merged with what has been merged so far. This succeeds exactly if merging all at once
does, and gives the same. -/
theorem C92_one_by_one_partial {first : OiFits R} {rest : List (OiFits R)}
    (hw : ∀ oi ∈ first :: rest, oi.WF) (hn : ∀ oi ∈ first :: rest, NamesFit oi)
    (hk : ∀ oi ∈ first :: rest, HeaderFits oi) (hd : GoodDates (first :: rest))
    (hs : SomeDate [first]) (hg : KeysGiven [first])
    (hpa : PlainNames ("array" : CStr) (Spec.allNames OiFits.arrayList OiArray.arrname (first :: rest)))
    (hpi : PlainNames ("ins" : CStr)
      (Spec.allNames OiFits.wavelengthList OiWavelength.insname (first :: rest)))
    (hpc : PlainNames ("ins" : CStr) (Spec.allNames OiFits.corrList OiCorr.corrname (first :: rest))) :
    (do rest.foldlM (fun m oi => merge_oi_fits m oi []) (← merge_oi_fits_list [first])) = .ok out ↔
      merge_oi_fits_list (first :: rest) = .ok out := by
  have key : ∀ (post pre : List (OiFits R)) (m : OiFits R), pre ++ post = rest →
      merge_oi_fits_list (first :: pre) = .ok m →
      (post.foldlM (fun m oi => merge_oi_fits m oi []) m = .ok out ↔
        merge_oi_fits_list (first :: rest) = .ok out) := by
    intro post
    induction post with
    | nil =>
      intro pre m e h
      rw [List.append_nil] at e
      subst e
      rw [h]
      rfl
    | cons x post ih =>
      intro pre m e h
      have eall : first :: rest = (first :: pre) ++ (x :: post) := by rw [← e]; rfl
      have hsub : ∀ oi ∈ (first :: pre) ++ [x], oi ∈ first :: rest := by
        intro oi hoi
        rw [eall]
        rcases List.mem_append.mp hoi with ho | ho
        · exact List.mem_append_left _ ho
        · exact List.mem_append_right _ (by simp at ho; simp [ho])
      have hsub' : ∀ oi ∈ first :: pre, oi ∈ first :: rest := fun oi hoi =>
        hsub oi (List.mem_append_left _ hoi)
      rw [eall, allNames_append] at hpa hpi hpc
      have hu : UniqueNames m := C43_unique_partial (plainNames_prefix hpa) (plainNames_prefix hpi)
        (plainNames_prefix hpc) h
      have hstep : merge_oi_fits m x [] = merge_oi_fits_list (first :: (pre ++ [x])) := by
        have : merge_oi_fits m x [] = merge_oi_fits_list (m :: [x]) := rfl
        rw [this, C92_same_partial (ins₁ := first :: pre) (ins₂ := [x]) (fun oi ho => hw oi (hsub' oi ho))
          (fun oi ho => hn oi (hsub' oi ho)) (fun oi ho => hk oi (hsub oi ho))
          (fun oi ho => hd oi (hsub' oi ho)) ?_ ?_ h hu]
        · rfl
        · obtain ⟨oi, ho, d, hod⟩ := hs
          simp only [List.mem_singleton] at ho
          subst ho
          exact ⟨oi, by simp, d, hod⟩
        · intro k hk
          obtain ⟨oi, ho, hne⟩ := hg k hk
          simp only [List.mem_singleton] at ho
          subst ho
          exact ⟨oi, by simp, hne⟩
      rw [List.foldlM_cons, hstep]
      cases hm : merge_oi_fits_list (first :: (pre ++ [x])) with
      | ok m' =>
        rw [bind_ok]
        exact ih (pre ++ [x]) m' (by simpa using e) hm
      | abort =>
        refine ⟨fun hh => (by cases hh), fun hh => ?_⟩
        rw [show first :: rest = (first :: (pre ++ [x])) ++ post by rw [eall]; simp] at hh
        obtain ⟨m', hm'⟩ := merge_part hh
        rw [hm] at hm'; cases hm'
      | ub =>
        refine ⟨fun hh => (by cases hh), fun hh => ?_⟩
        rw [show first :: rest = (first :: (pre ++ [x])) ++ post by rw [eall]; simp] at hh
        obtain ⟨m', hm'⟩ := merge_part hh
        rw [hm] at hm'; cases hm'
  cases hm : merge_oi_fits_list [first] with
  | ok m =>
    rw [bind_ok]
    exact key rest [] m rfl hm
  | abort =>
    refine ⟨fun hh => (by cases hh), fun hh => ?_⟩
    obtain ⟨m', hm'⟩ := merge_part (ins₁ := [first]) (ins₂ := rest) hh
    rw [hm] at hm'; cases hm'
  | ub =>
    refine ⟨fun hh => (by cases hh), fun hh => ?_⟩
    obtain ⟨m', hm'⟩ := merge_part (ins₁ := [first]) (ins₂ := rest) hh
    rw [hm] at hm'; cases hm'

/-- C92, under the conditions of `C92_steps_partial`: merging a merged dataset again, on its
own, changes nothing. -/
theorem C92_again_partial (hw : ∀ oi ∈ ins₁, oi.WF) (hn : ∀ oi ∈ ins₁, NamesFit oi)
    (hk : ∀ oi ∈ ins₁, HeaderFits oi) (hd : GoodDates ins₁) (hs : SomeDate ins₁)
    (h : merge_oi_fits_list ins₁ = .ok m) (hu : UniqueNames m) :
    merge_oi_fits_list [m] = .ok m := by
  rw [merge_steps hw hn (by simpa using hk) hd hs h hu, List.append_nil, h, map_ok]
  have key : ∀ k ∈ mandatoryKeys, steppedKey ins₁ k (k m.header) = k m.header := by
    intro k hk'
    unfold steppedKey
    rw [if_neg]
    rintro ⟨he, hne⟩
    have hall : ∀ v ∈ ins₁.map (fun oi => k oi.header), v = [] := by
      intro v hv
      obtain ⟨oi, hoi, rfl⟩ := List.mem_map.mp hv
      exact he oi hoi
    rcases (C44_header hk h).2.1 k hk' with ⟨-, e⟩ | ⟨h1, h2, -⟩ | ⟨⟨v, hv, _, _, h1, _⟩, -⟩
    · exact hne e
    · exact h1 (hall _ h2)
    · exact h1 (hall v hv)
  unfold stepped
  rw [key OiHeader.origin (by simp [mandatoryKeys]), key OiHeader.telescop (by simp [mandatoryKeys]),
    key OiHeader.instrume (by simp [mandatoryKeys]), key OiHeader.observer (by simp [mandatoryKeys]),
    key OiHeader.insmode (by simp [mandatoryKeys]), key OiHeader.object (by simp [mandatoryKeys])]

/-- C92, what a merge that succeeds implies: any of its first datasets can be merged on
their own. -/
theorem C92_first_step (h : merge_oi_fits_list (ins₁ ++ ins₂) = .ok out) :
    ∃ m, merge_oi_fits_list ins₁ = .ok m :=
  merge_part h

/-- C92, false without a date: if none of the merged datasets had a date, any merge of
the result with others aborts, wherever it is in the list. The first merge makes up
2132-09-01 for DATE-OBS (oimerge.c:138-157) and `date2mjd` (datemjd.c:41) refuses years
after 2099. -/
theorem C92_no_date_abort (hs : NoDate ins₁) (h : merge_oi_fits_list ins₁ = .ok m)
    {ins₀ : List (OiFits R)} (hd : GoodDates ins₀) :
    merge_oi_fits_list (ins₀ ++ m :: ins₂) = .abort := by
  have hm := C45_no_date hs h
  obtain ⟨m0, hm0, -⟩ := min_mjd_fold hd 100000
  have hf : files_min_mjd (ins₀ ++ m :: ins₂) = .abort := by
    unfold files_min_mjd
    rw [List.foldlM_append, hm0, bind_ok, List.foldlM_cons]
    have : minMjdStep m0 m = .abort := by
      unfold minMjdStep
      rw [hm]
      rfl
    rw [this]
    rfl
  rw [merge_eq_parts]
  unfold mergeParts
  rw [hf]
  rfl

/-! Examples -/

theorem Ex.both_heads : ∀ oi ∈ Ex.both, HeaderFits oi := by
  intro o ho
  simp only [Ex.both, List.mem_cons, List.not_mem_nil, or_false] at ho
  rcases ho with rfl | rfl <;> unfold HeaderFits <;> decide

theorem Ex.both_plain_one :
    PlainNames ("array" : CStr) (Spec.allNames OiFits.arrayList OiArray.arrname [Ex.oi]) ∧
    PlainNames ("ins" : CStr) (Spec.allNames OiFits.wavelengthList OiWavelength.insname [Ex.oi]) ∧
    PlainNames ("ins" : CStr) (Spec.allNames OiFits.corrList OiCorr.corrname [Ex.oi]) := by
  have h := Ex.both_plain
  rw [show Ex.both = [Ex.oi] ++ [Ex.oi2] from rfl, allNames_append, allNames_append,
    allNames_append] at h
  exact ⟨plainNames_prefix h.1, plainNames_prefix h.2.1, plainNames_prefix h.2.2⟩

/-- The conditions of `C92_one_by_one_partial` are met. -/
example : SomeDate [Ex.oi] ∧ KeysGiven [Ex.oi] ∧ (∀ oi ∈ Ex.both, oi.WF) ∧
    (∀ oi ∈ Ex.both, NamesFit oi) ∧ (∀ oi ∈ Ex.both, HeaderFits oi) ∧ GoodDates Ex.both := by
  refine ⟨⟨Ex.oi, by simp, ⟨2014, 11, 13⟩, by decide, by decide, by decide, [], by decide⟩, ?_,
    Ex.both_wf, Ex.both_fit, Ex.both_heads, Ex.both_dates⟩
  intro k hk
  refine ⟨Ex.oi, by simp, ?_⟩
  revert k
  decide

/-- Both ways of merging, compared on an example with clashing names and different
targets. -/
example : (do
      let m ← merge_oi_fits_list [Ex.oi]
      let out ← merge_oi_fits m Ex.oi2 []
      return (out.vis2List.map fun (t : OiVis2 FP.ratFP) => (t.insname, t.record.map OiVis2Record.target_id),
        out.header.telescop)) =
    .ok ([("INS1", [1, 2, 1]), ("INS1", [1, 2, 1]), ("INS1_002", [2, 3])], ("MULTIPLE" : CStr)) := by
  decide +kernel

/-- C92, false part: merging in steps can lose the value of a keyword. `Ex.oi2` has no
OBSERVER; merged with `Ex.oi` at once the result has that of `Ex.oi`, but if `Ex.oi2` goes
through a merge of its own first, it is MULTIPLE. -/
theorem C92_keyword_false : ¬ ∀ (R : FP) (ins₁ ins₂ : List (OiFits R)) (m out out' : OiFits R),
    merge_oi_fits_list ins₁ = .ok m → merge_oi_fits_list (ins₁ ++ ins₂) = .ok out →
    merge_oi_fits_list (m :: ins₂) = .ok out' → out'.header.observer = out.header.observer := by
  intro h
  have hm : (fun (o : OiFits FP.ratFP) => o.header.observer) <$> merge_oi_fits_list [Ex.oi2] = .ok ("UNKNOWN" : CStr) := by
    decide +kernel
  have ho : (fun (o : OiFits FP.ratFP) => o.header.observer) <$> merge_oi_fits_list ([Ex.oi2] ++ [Ex.oi]) =
      .ok ("A. Person" : CStr) := by
    decide +kernel
  have hs : (do
      let m ← merge_oi_fits_list [Ex.oi2]
      (fun (o : OiFits FP.ratFP) => o.header.observer) <$> merge_oi_fits_list (m :: [Ex.oi])) = .ok ("MULTIPLE" : CStr) := by
    decide +kernel
  obtain ⟨m, hm, -⟩ := map_eq_ok hm
  obtain ⟨out, ho, e⟩ := map_eq_ok ho
  rw [hm, bind_ok] at hs
  obtain ⟨out', hs, e'⟩ := map_eq_ok hs
  have := h _ _ _ m out out' hm ho hs
  rw [← e, ← e'] at this
  revert this
  decide

/-- C92, false part: if two merged tables share a name (see `C43_unique_false`), the next
merge gives one of them a new name, and it is not the table which merging at once has
under that name. -/
theorem C92_names_false : ∃ (ins : List (OiFits FP.ratFP)) (m m' : OiFits FP.ratFP),
    (∀ oi ∈ ins, oi.WF) ∧ (∀ oi ∈ ins, UniqueNames oi) ∧ merge_oi_fits_list ins = .ok m ∧
    merge_oi_fits_list [m] = .ok m' ∧
    m.wavelengthList.map (·.insname) = (["INS1", "INS1_003", "INS1_003"] : List CStr) ∧
    m'.wavelengthList.map (·.insname) = (["INS1", "INS1_003", "INS1_003_003"] : List CStr) := by
  have hm : (fun (o : OiFits FP.ratFP) => o.wavelengthList.map OiWavelength.insname) <$> merge_oi_fits_list [clash1, Ex.oi2] =
      .ok ["INS1", "INS1_003", "INS1_003"] := by decide +kernel
  have hs : (do
      let m ← merge_oi_fits_list [clash1, Ex.oi2]
      (fun (o : OiFits FP.ratFP) => o.wavelengthList.map OiWavelength.insname) <$> merge_oi_fits_list [m]) =
      .ok ["INS1", "INS1_003", "INS1_003_003"] := by decide +kernel
  obtain ⟨m, hm, e⟩ := map_eq_ok hm
  rw [hm, bind_ok] at hs
  obtain ⟨m', hs, e'⟩ := map_eq_ok hs
  refine ⟨_, m, m', ?_, ?_, hm, hs, e.symm, e'.symm⟩
  · intro o ho
    simp only [List.mem_cons, List.not_mem_nil, or_false] at ho
    rcases ho with rfl | rfl
    · exact clash1_wf
    · exact Ex.oi2_wf
  · intro o ho
    simp only [List.mem_cons, List.not_mem_nil, or_false] at ho
    rcases ho with rfl | rfl <;> exact ⟨by decide, by decide, by decide⟩

/-- A dataset without a date. -/
def undated : OiFits FP.ratFP := { Ex.oi2 with header := { Ex.oi2.header with date_obs := "" } }
/-- The condition of `C92_no_date_abort` is met. -/
example : NoDate [undated] ∧ ∃ m, merge_oi_fits_list [undated] = .ok m := by
  refine ⟨by intro oi ho; simp only [List.mem_singleton] at ho; subst ho; rfl, ?_⟩
  have : (fun (o : OiFits FP.ratFP) => o.header.date_obs) <$> merge_oi_fits_list [undated] = .ok ("2132-09-01" : CStr) := by
    decide +kernel
  obtain ⟨m, hm, -⟩ := map_eq_ok this
  exact ⟨m, hm⟩

end Verif
