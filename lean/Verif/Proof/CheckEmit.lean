import Verif.Proof.Check

/-! What each check reports, for the properties in Props/Check.lean. -/

namespace Verif
open Outcome Spec

variable {R : FP}

/-- Proves that all breaches of a list have a property, down to single breaches. -/
macro "all_breaches" : tactic => `(tactic|
  repeat' (first
    | apply forall_append
    | (apply forall_numbered; intro _ _ _)
    | (apply forall_flatMap; intro _ _)
    | apply forall_breachIf
    | apply forall_ite
    | exact forall_nil))

/-- `repeats` only depends on which names were seen. -/
theorem repeats_congr {s s' : List CStr} (h : ∀ x, x ∈ s ↔ x ∈ s') (l : List (Target R)) :
    repeats s l = repeats s' l := by
  induction l generalizing s s' with
  | nil => rfl
  | cons t l ih =>
    unfold repeats
    simp only [h t.target]
    congr 1
    exact ih (fun x => by simp [h x])

theorem emits_unique (l : List (Target R)) : ∀ idList : List CStr,
    Emits (checkUniqueLoop idList l) ((repeats idList l).map fun t =>
    ⟨.warning, "Duplicate value in TARGET column of OI_TARGET",
      shown (("TARGET_ID=" : CStr) ++ fmtInt t.target_id ++ ("  TARGET='" : CStr) ++ t.target ++
        ("'" : CStr))⟩) := by
  induction l with
  | nil => intro _; exact emits_pure
  | cons t l ih =>
    intro idList
    unfold checkUniqueLoop repeats
    rw [List.map_append]
    by_cases h : t.target ∈ idList
    · rw [if_pos (by simpa using h), if_pos h]
      refine emits_bind (emits_report _ _ _) ?_
      rw [repeats_congr (s' := idList)]
      · exact ih idList
      · intro x; simp only [List.mem_append, List.mem_singleton]
        exact ⟨fun hx => hx.elim id (fun e => e ▸ h), Or.inl⟩
    · rw [if_neg (by simpa using h), if_neg h]
      rw [repeats_congr (s' := t.target :: idList)]
      · exact ih (t.target :: idList)
      · intro x; simp [or_comm]

theorem repeats_eq_nil {s : List CStr} {l : List (Target R)} :
    repeats s l = [] ↔ (∀ t ∈ l, t.target ∉ s) ∧ (l.map (·.target)).Nodup := by
  induction l generalizing s with
  | nil => simp [repeats]
  | cons t l ih =>
    unfold repeats
    rw [List.append_eq_nil_iff, ih]
    simp only [List.map_cons, List.nodup_cons, List.mem_cons, forall_eq_or_imp, List.mem_append,
      List.mem_map, not_exists, not_and, not_or]
    constructor
    · rintro ⟨h1, h2, h3⟩
      refine ⟨⟨?_, fun a ha => (h2 a ha).1⟩, fun a ha e => (h2 a ha).2.1 e, h3⟩
      intro hm; simp [hm] at h1
    · rintro ⟨⟨h1, h2⟩, h3, h4⟩
      exact ⟨by simp [h1], fun a ha => ⟨h2 a ha, by simpa using h3 a ha⟩, h4⟩

/-- The breaches `check_elements_present` reports in OI_INSPOL tables, including
those without ARRNAME. -/
def inspolBreaches (oi : OiFits R) : List Breach :=
  numbered (fun k t => if t.arrname = [] then
      [⟨.notOifits, "ARRNAME missing", shown (atTable "OI_INSPOL" 0)⟩]
    else unknownElements oi "OI_INSPOL" t.arrname (fun r => [r.sta_index]) k t.record) oi.inspolList

theorem emits_checkElement (oi : OiFits R) (arrname name : CStr) (k i : Nat) (sta : Int) :
    Emits (checkElement oi arrname name k i sta)
      (breachIf (¬ ElementKnown oi arrname sta) .notOifits
        "Reference to missing array element" (atRecord name (k + 1) (i + 1))) := by
  unfold checkElement
  rw [recordText_eq]
  exact emits_breachIf _ _ _ (lookup_element_isNone oi _ _)

theorem emits_unknownElements {ρ : Type} {oi : OiFits R} {name arrname : CStr}
    {stations : ρ → List Int} {k : Nat} {recs : List ρ} {f : Nat → ρ → CheckM Unit}
    (h : ∀ i, ∀ r ∈ recs, Emits (f i r) ((stations r).flatMap fun sta =>
      breachIf (¬ ElementKnown oi arrname sta) .notOifits
        "Reference to missing array element" (atRecord name (k + 1) (i + 1)))) :
    Emits (whenM (decide (arrname.length > 0)) (enumM recs f))
      (unknownElements oi name arrname stations (k + 1) recs) := by
  unfold unknownElements whenM
  cases arrname with
  | nil => exact emits_pure
  | cons c s =>
    rw [if_pos (by simp), if_neg (by simp)]
    exact emits_enum h

theorem check_elements_present_eq (oi : OiFits R) :
    check_elements_present oi =
      replay (inspolBreaches oi ++ dataElementBreaches oi) init_check_result := by
  unfold check_elements_present
  apply runCheck_emits
  unfold dataElementBreaches
  rw [List.append_assoc, List.append_assoc]
  refine emits_bind (emits_enum fun k t _ => ?_) <|
    emits_bind (emits_enum fun k t _ => emits_unknownElements fun i r _ => ?_) <|
    emits_bind (emits_enum fun k t _ => emits_unknownElements fun i r _ => ?_) <|
    emits_bind (emits_enum fun k t _ => emits_unknownElements fun i r _ => ?_)
      (emits_enum fun k t _ => emits_unknownElements fun i r _ => ?_)
  · rw [tableText_neg]
    unfold unknownElements
    generalize t.arrname = a
    cases a with
    | nil => simp only [List.length_nil, gt_iff_lt, Nat.lt_irrefl, if_false, if_true]
             exact emits_report _ _ _
    | cons c s =>
      simp only [List.length_cons, gt_iff_lt, Nat.zero_lt_succ, if_true, reduceCtorEq, if_false]
      refine emits_enum fun i r _ => ?_
      simp only [List.flatMap_cons, List.flatMap_nil, List.append_nil]
      exact emits_checkElement _ _ _ _ _ _
  · simp only [List.flatMap_cons, List.flatMap_nil, List.append_nil]
    exact emits_bind (emits_checkElement _ _ _ _ _ _) (emits_checkElement _ _ _ _ _ _)
  · simp only [List.flatMap_cons, List.flatMap_nil, List.append_nil]
    exact emits_bind (emits_checkElement _ _ _ _ _ _) (emits_checkElement _ _ _ _ _ _)
  · simp only [List.flatMap_cons, List.flatMap_nil, List.append_nil]
    exact emits_bind (emits_checkElement _ _ _ _ _ _) <|
      emits_bind (emits_checkElement _ _ _ _ _ _) (emits_checkElement _ _ _ _ _ _)
  · unfold whenM
    by_cases h : r.sta_index = -1
    · simp only [h]; exact emits_pure
    · rw [if_pos (by simpa using h), if_neg h]
      simp only [List.flatMap_cons, List.flatMap_nil, List.append_nil]
      exact emits_checkElement _ _ _ _ _ _

theorem elementBreaches_all (oi : OiFits R) :
    ∀ b ∈ inspolElementBreaches oi ++ dataElementBreaches oi, b.level = .notOifits ∧
      b.description = ("Reference to missing array element" : CStr) := by
  unfold inspolElementBreaches dataElementBreaches unknownElements
  all_breaches <;> exact ⟨rfl, rfl⟩

theorem flatMap_congr_mem {α β : Type} {l : List α} {f g : α → List β}
    (h : ∀ a ∈ l, f a = g a) : l.flatMap f = l.flatMap g := by
  induction l with
  | nil => rfl
  | cons a l ih =>
    rw [List.flatMap_cons, List.flatMap_cons, h a (by simp), ih fun b hb => h b (by simp [hb])]

theorem inspolBreaches_named {oi : OiFits R} (h : ∀ t ∈ oi.inspolList, t.arrname ≠ []) :
    inspolBreaches oi = inspolElementBreaches oi := by
  unfold inspolBreaches inspolElementBreaches numbered
  rw [flatMap_congr_mem]
  intro e he
  simp only
  rw [if_neg (h e.1 (List.fst_mem_of_mem_zipIdx he))]

theorem unknownElements_eq_nil {ρ : Type} {oi : OiFits R} {name arrname : CStr}
    {stations : ρ → List Int} {k : Nat} {recs : List ρ} :
    unknownElements oi name arrname stations k recs = [] ↔
      (arrname ≠ [] → ∀ r ∈ recs, ∀ s ∈ stations r, ElementKnown oi arrname s) := by
  unfold unknownElements
  split
  · simp_all
  · rename_i h
    rw [numbered_eq_nil (P := fun r => ∀ s ∈ stations r, ElementKnown oi arrname s)]
    · simp [h]
    · intro k x _
      simp only [List.flatMap_eq_nil_iff, breachIf_eq_nil, Decidable.not_not]

theorem inspolBreaches_nameless {oi : OiFits R} {b : Breach} (hb : b ∈ inspolBreaches oi) :
    b.level = .notOifits ∧
    (b.description = ("ARRNAME missing" : CStr) ∨ b ∈ inspolElementBreaches oi) := by
  unfold inspolBreaches numbered at hb
  obtain ⟨e, he, hb⟩ := List.mem_flatMap.mp hb
  simp only at hb
  split at hb
  · simp only [List.mem_singleton] at hb
    subst hb; exact ⟨rfl, Or.inl rfl⟩
  · have : b ∈ inspolElementBreaches oi := List.mem_flatMap.mpr ⟨e, he, hb⟩
    exact ⟨(elementBreaches_all oi b (List.mem_append_left _ this)).1, Or.inr this⟩

theorem emits_badRevisions {τ : Type} (tabs : List τ) (revision : τ → Int) (name : CStr)
    (rev rev' : Int) (h : rev = rev') :
    Emits (checkBadTabRevision tabs revision name rev) (badRevisions name revision rev' tabs) := by
  subst h
  refine emits_enum fun k t _ => ?_
  rw [tableText_eq]
  exact emits_breachIf _ _ _ (by simp)

theorem check_tables_eq (oi : OiFits R) (hc : oi.CountsAgree) :
    check_tables oi = replay (missingTables oi ++ revisionBreaches oi) init_check_result := by
  have e0 : ∀ {α : Type} (l : List α), ((l.length : Int) == 0) = true ↔ l = [] := by
    intro α l; cases l <;> simp; omega
  unfold check_tables
  apply runCheck_emits
  unfold missingTables revisionBreaches
  simp only
  by_cases hv : V2 oi
  · rw [if_pos ((is_two_iff oi).mpr hv), if_pos hv, if_pos hv]
    simp only [List.append_assoc]
    refine emits_bind (emits_breachIf _ _ _ (by rw [hc.array]; exact e0 _)) <|
      emits_bind (emits_breachIf _ _ _ (by rw [hc.wavelength]; exact e0 _)) <|
      emits_bind (emits_breachIf _ _ _ ?_) <|
      emits_bind (emits_breachIf _ _ _ (by simp [OI_REVN_V2_TARGET])) <|
      emits_bind (emits_badRevisions _ _ _ _ _ rfl) <| emits_bind (emits_badRevisions _ _ _ _ _ rfl) <|
      emits_bind (emits_badRevisions _ _ _ _ _ rfl) <| emits_bind (emits_badRevisions _ _ _ _ _ rfl) <|
      emits_bind (emits_badRevisions _ _ _ _ _ rfl) <| emits_bind (emits_badRevisions _ _ _ _ _ rfl) <|
      emits_bind (emits_badRevisions _ _ _ _ _ rfl) (emits_badRevisions _ _ _ _ _ rfl)
    rw [hc.vis, hc.vis2, hc.t3, hc.flux]
    simp only [Bool.and_eq_true, e0, and_assoc]
  · rw [if_neg (fun h => hv ((is_two_iff oi).mp h)), if_neg hv, if_neg hv]
    simp only [List.append_assoc]
    refine emits_bind (emits_breachIf _ _ _ (by rw [hc.wavelength]; exact e0 _)) <|
      emits_bind (emits_breachIf _ _ _ ?_) <|
      emits_bind (emits_breachIf _ _ _ (by simp [OI_REVN_V1_TARGET])) <|
      emits_bind (emits_badRevisions _ _ _ _ _ rfl) <| emits_bind (emits_badRevisions _ _ _ _ _ rfl) <|
      emits_bind (emits_badRevisions _ _ _ _ _ rfl) <| emits_bind (emits_badRevisions _ _ _ _ _ rfl)
        (emits_badRevisions _ _ _ _ _ rfl)
    rw [hc.vis, hc.vis2, hc.t3]
    simp only [Bool.and_eq_true, e0, and_assoc]

theorem missingTables_all (oi : OiFits R) : ∀ b ∈ missingTables oi, b.level = .notOifits ∧
    b.description = ("Mandatory table missing" : CStr) := by
  unfold missingTables
  all_breaches <;> exact ⟨rfl, rfl⟩

theorem revisionBreaches_all (oi : OiFits R) : ∀ b ∈ revisionBreaches oi, b.level = .notOifits ∧
    b.description = ("Invalid OI_REVN" : CStr) := by
  unfold revisionBreaches badRevisions
  all_breaches <;> exact ⟨rfl, rfl⟩

theorem missingTables_eq_nil (oi : OiFits R) : missingTables oi = [] ↔ TablesPresent oi := by
  unfold missingTables TablesPresent
  by_cases hv : V2 oi
  · simp only [hv, if_true, List.append_eq_nil_iff, breachIf_eq_nil, true_and, forall_const,
      and_assoc]
    simp only [not_and, ne_eq]
    refine and_congr Iff.rfl (and_congr Iff.rfl ?_)
    by_cases h1 : oi.visList = [] <;> by_cases h2 : oi.vis2List = [] <;>
      by_cases h3 : oi.t3List = [] <;> simp [h1, h2, h3]
  · simp only [hv, if_false, List.append_eq_nil_iff, breachIf_eq_nil, false_and, or_false,
      false_implies, true_and]
    simp only [not_and, ne_eq]
    refine and_congr Iff.rfl ?_
    by_cases h1 : oi.visList = [] <;> by_cases h2 : oi.vis2List = [] <;> simp [h1, h2]

theorem revisionBreaches_eq_nil (oi : OiFits R) : revisionBreaches oi = [] ↔ RevisionsRight oi := by
  have key : ∀ {τ : Type} (name : CStr) (revision : τ → Int) (rev : Int) (tabs : List τ),
      badRevisions name revision rev tabs = [] ↔ ∀ t ∈ tabs, revision t = rev := by
    intro τ name revision rev tabs
    exact numbered_eq_nil fun k t _ => by rw [breachIf_eq_nil, Decidable.not_not]
  unfold revisionBreaches RevisionsRight
  by_cases hv : V2 oi
  · simp only [hv, if_true, List.append_eq_nil_iff, key, breachIf_eq_nil, Decidable.not_not,
      and_assoc, forall_const, not_true_eq_false, false_implies, and_true]
  · simp only [hv, if_false, List.append_eq_nil_iff, key, breachIf_eq_nil, Decidable.not_not,
      and_assoc, false_implies, not_false_eq_true, forall_const, true_and]

theorem emits_badChannels {ρ : Type} {desc name : CStr} {n k : Nat} {bad : ρ → Nat → Prop}
    [∀ r j, Decidable (bad r j)] {recs : List ρ} {f : Nat → ρ → Nat → CheckM Unit}
    (h : ∀ i, ∀ r ∈ recs, ∀ j, j < n → Emits (f i r j)
      (breachIf (bad r j) .notOifits desc (atChannel name k (i + 1) (j + 1)))) :
    Emits (enumM recs fun i r => rangeM n (f i r)) (badChannels desc name n k bad recs) :=
  emits_enum fun i r hr => emits_range fun j hj => h i r hr j hj

theorem breachIf_congr {p q : Prop} [Decidable p] [Decidable q] {l : Level} {d t : CStr}
    (h : p ↔ q) : breachIf p l d t = breachIf q l d t := by
  unfold breachIf
  by_cases hp : p
  · rw [if_pos hp, if_pos (h.mp hp)]
  · rw [if_neg hp, if_neg (fun hq => hp (h.mpr hq))]

theorem unflagged_iff {flag : List Bool} {j : Nat} {f : Bool} (h : flag[j]? = some f) :
    Unflagged flag j ↔ f = false := by
  unfold Unflagged; rw [h]; simp

theorem has_iff {α : Type} {l : List α} {j : Nat} {x : α} {p : α → Bool} (h : l[j]? = some x) :
    Has l j p ↔ p x = true := by
  unfold Has; rw [h]; simp

/-- A test which is only made for unflagged data. -/
theorem emits_unflagged {m : CheckM Unit} {p : Prop} [Decidable p] {f : Bool} {l : Level}
    {d t : CStr} (h : Emits m (breachIf p l d t)) :
    Emits (whenM (!f) m) (breachIf (f = false ∧ p) l d t) := by
  cases f with
  | true =>
    rw [show breachIf (true = false ∧ p) l d t = [] from breachIf_eq_nil.mpr (by simp)]
    exact emits_pure
  | false => rw [breachIf_congr (q := p) (by simp)]; exact h

theorem emits_twoErrors {name : CStr} {flag : List Bool} {err1 err2 : List R.Dbl} {k i j n : Nat}
    (hf : flag.length = n) (h1 : err1.length = n) (h2 : err2.length = n) (hj : j < n) :
    Emits (checkTwoErrors name flag err1 err2 k i j)
      (breachIf (Unflagged flag j ∧ (Has err1 j neg ∨ Has err2 j neg)) .notOifits
        "Data table contains negative error bar" (atChannel name (k + 1) (i + 1) (j + 1))) := by
  have ef := List.getElem?_eq_getElem (show j < flag.length by omega)
  have e1 := List.getElem?_eq_getElem (show j < err1.length by omega)
  have e2 := List.getElem?_eq_getElem (show j < err2.length by omega)
  unfold checkTwoErrors
  refine emits_read ef ?_
  rw [channelText_eq, breachIf_congr (and_congr (unflagged_iff ef)
    (or_congr (has_iff e1) (has_iff e2)))]
  apply emits_unflagged
  refine emits_read e1 ?_
  have hx : isNeg err1[j] = neg err1[j] := rfl
  rw [hx]
  cases neg err1[j] with
  | true =>
    rw [breachIf_congr (q := True) (by simp)]
    simp only [orM, if_true, pure_bind]
    exact emits_breachIf (c := true) _ _ _ (by simp)
  | false =>
    rw [breachIf_congr (q := neg err2[j] = true) (by simp)]
    simp only [orM, Bool.false_eq_true, if_false, bind_assoc]
    refine emits_read e2 ?_
    simp only [pure_bind]
    exact emits_breachIf (c := isNeg err2[j]) _ _ _ Iff.rfl

theorem emits_oneError {name : CStr} {flag : List Bool} {err : List R.Dbl} {k i j n : Nat}
    (hf : flag.length = n) (h1 : err.length = n) (hj : j < n) :
    Emits (checkOneError name flag err k i j)
      (breachIf (Unflagged flag j ∧ Has err j neg) .notOifits
        "Data table contains negative error bar" (atChannel name (k + 1) (i + 1) (j + 1))) := by
  have ef := List.getElem?_eq_getElem (show j < flag.length by omega)
  have e1 := List.getElem?_eq_getElem (show j < err.length by omega)
  unfold checkOneError
  refine emits_read ef ?_
  rw [channelText_eq, breachIf_congr (and_congr (unflagged_iff ef) (has_iff e1))]
  apply emits_unflagged
  refine emits_read e1 ?_
  exact emits_breachIf (c := isNeg err[j]) _ _ _ Iff.rfl

theorem badChannels_eq_nil {ρ : Type} {desc name : CStr} {n k : Nat} {bad : ρ → Nat → Prop}
    [∀ r j, Decidable (bad r j)] {recs : List ρ} :
    badChannels desc name n k bad recs = [] ↔ ∀ r ∈ recs, ∀ j < n, ¬ bad r j := by
  unfold badChannels
  refine numbered_eq_nil fun i r _ => ?_
  rw [List.flatMap_eq_nil_iff]
  simp only [breachIf_eq_nil, List.mem_range]

end Verif
