import Verif.Model.Merge
import Verif.Spec.Merge
import Verif.Proof.Loop
import Verif.Proof.File
import Mathlib.Data.List.Perm.Subperm

/-! Merging of OI_TARGET tables. -/

namespace Verif
open Outcome Spec

variable {R : FP}

theorem mem_distinct {l : List CStr} {x : CStr} : x ∈ distinct l ↔ x ∈ l := by
  induction l with
  | nil => simp [distinct]
  | cons y l ih =>
    simp only [distinct, List.mem_cons, List.mem_filter, decide_eq_true_eq, ih]
    by_cases h : x = y <;> simp [h]

theorem nodup_distinct (l : List CStr) : (distinct l).Nodup := by
  induction l with
  | nil => simp [distinct]
  | cons y l ih =>
    simp only [distinct, List.nodup_cons, List.mem_filter]
    exact ⟨by simp, ih.filter _⟩

theorem distinct_concat (l : List CStr) (x : CStr) :
    distinct (l ++ [x]) = if x ∈ l then distinct l else distinct l ++ [x] := by
  induction l with
  | nil => simp [distinct]
  | cons y l ih =>
    simp only [List.cons_append, distinct, ih]
    by_cases hy : x = y
    · subst hy
      by_cases hx : x ∈ l
      · simp [hx]
      · simp [hx]
    · by_cases hx : x ∈ l
      · simp [hx]
      · simp [hx, hy]

theorem firstWith_append {α : Type} {p : α → Prop} {l l' : List α} {x : α} (h : FirstWith p l x) :
    FirstWith p (l ++ l') x := by
  obtain ⟨a, b, rfl, h1, h2⟩ := h
  exact ⟨a, b ++ l', by simp, h1, h2⟩

/-- Invariant of the merged targets after the input targets `done`. -/
structure TInv (done : List (Target R)) (st : List (Target R) × HMap Int) : Prop where
  names : st.1.map (·.target) = distinct (done.map (·.target))
  ids : ∀ (i : Nat) t, st.1[i]? = some t → t.target_id = (i : Int) + 1
  first : ∀ t ∈ st.1, ∃ t0, FirstWith (fun u => u.target = t.target) done t0 ∧
    t = { t0 with target_id := t.target_id }
  hash : ∀ n k, st.2.lookup n = some k ↔ ∃ (i : Nat) (t : Target R), st.1[i]? = some t ∧
    t.target = n ∧ k = (i : Int) + 1

theorem tinv_known {done : List (Target R)} {st : List (Target R) × HMap Int} (h : TInv done st)
    (n : CStr) : st.2.lookup n = none ↔ n ∉ done.map (·.target) := by
  rw [← mem_distinct, ← h.names]
  constructor
  · intro hn hm
    obtain ⟨t, ht, rfl⟩ := List.mem_map.mp hm
    obtain ⟨i, hi, rfl⟩ := List.mem_iff_getElem.mp ht
    have := (h.hash st.1[i].target ((i : Int) + 1)).mpr ⟨i, _, by simp [hi], rfl, rfl⟩
    rw [hn] at this; cases this
  · intro hn
    cases hl : st.2.lookup n with
    | none => rfl
    | some k =>
      obtain ⟨i, t, ht, rfl, -⟩ := (h.hash n k).mp hl
      exact absurd (List.mem_map.mpr ⟨t, List.mem_of_getElem? ht, rfl⟩) hn

theorem tinv_step {done : List (Target R)} {st st' : List (Target R) × HMap Int} {t : Target R}
    (h : TInv done st) (hs : mergeTargetStep st t = .ok st') : TInv (done ++ [t]) st' := by
  unfold mergeTargetStep at hs
  split at hs
  · rename_i k hk
    cases hs
    have hm : t.target ∈ done.map (·.target) := by
      by_contra hn
      rw [(tinv_known h _).mpr hn] at hk; cases hk
    refine ⟨?_, h.ids, ?_, h.hash⟩
    · rw [List.map_append, List.map_cons, List.map_nil, distinct_concat, if_pos hm, h.names]
    · intro u hu
      obtain ⟨t0, h0, e⟩ := h.first u hu
      exact ⟨t0, firstWith_append h0, e⟩
  · rename_i hk
    have hm := (tinv_known h _).mp hk
    obtain ⟨_, -, hs⟩ := bind_eq_ok.mp hs
    simp only [pure_eq, Outcome.ok.injEq] at hs
    subst hs
    refine ⟨?_, ?_, ?_, ?_⟩
    · rw [List.map_append, List.map_cons, List.map_nil, List.map_append, List.map_cons,
        List.map_nil, distinct_concat, if_neg hm, h.names]
    · intro i u hu
      by_cases hi : i < st.1.length
      · simp only [List.getElem?_append_left hi] at hu
        exact h.ids i u hu
      · simp only [List.getElem?_append_right (Nat.le_of_not_lt hi)] at hu
        have hi0 : i = st.1.length := by
          have := (List.getElem?_eq_some_iff.mp hu).1
          simp at this; omega
        subst hi0
        simp at hu
        subst hu; rfl
    · intro u hu
      rcases List.mem_append.mp hu with hu | hu
      · obtain ⟨t0, h0, e⟩ := h.first u hu
        exact ⟨t0, firstWith_append h0, e⟩
      · simp only [List.mem_singleton] at hu
        subst hu
        refine ⟨t, ⟨done, [], rfl, rfl, ?_⟩, rfl⟩
        intro y hy e
        exact hm (List.mem_map.mpr ⟨y, hy, e⟩)
    · intro n k
      rw [HMap.lookup_insert]
      constructor
      · intro hl
        split at hl
        · rename_i e
          cases hl
          exact ⟨st.1.length, { t with target_id := (st.1.length : Int) + 1 }, by simp, e.symm, rfl⟩
        · obtain ⟨i, u, hu, r⟩ := (h.hash n k).mp hl
          exact ⟨i, u, by rw [List.getElem?_append_left (List.getElem?_eq_some_iff.mp hu).1]; exact hu,
            r⟩
      · rintro ⟨i, u, hu, rfl, rfl⟩
        by_cases hi : i < st.1.length
        · simp only [List.getElem?_append_left hi] at hu
          have : st.2.lookup u.target = some ((i : Int) + 1) := (h.hash _ _).mpr ⟨i, u, hu, rfl, rfl⟩
          rw [if_neg]
          · exact this
          · intro e; rw [e, hk] at this; cases this
        · simp only [List.getElem?_append_right (Nat.le_of_not_lt hi)] at hu
          have hi0 : i = st.1.length := by
            have := (List.getElem?_eq_some_iff.mp hu).1
            simp at this; omega
          subst hi0
          simp at hu
          subst hu
          simp

theorem tinv_fold {ts : List (Target R)} : ∀ {done : List (Target R)}
    {st st' : List (Target R) × HMap Int}, TInv done st →
    ts.foldlM mergeTargetStep st = .ok st' → TInv (done ++ ts) st' := by
  induction ts with
  | nil => intro done st st' h hs; cases hs; simpa using h
  | cons t ts ih =>
    intro done st st' h hs
    rw [List.foldlM_cons] at hs
    obtain ⟨s1, h1, hs⟩ := bind_eq_ok.mp hs
    simpa using ih (tinv_step h h1) hs

theorem tinv_empty : TInv ([] : List (Target R)) ([], HMap.empty) :=
  ⟨rfl, by simp, by simp, by simp⟩

theorem distinct_length_append (l l' : List CStr) : (distinct l).length ≤ (distinct (l ++ l')).length := by
  refine (List.Nodup.subperm (nodup_distinct l) ?_).length_le
  intro x hx
  rw [mem_distinct] at hx ⊢
  simp [hx]

theorem tfold_ok {ts : List (Target R)} : ∀ {done : List (Target R)}
    {st : List (Target R) × HMap Int}, TInv done st →
    (distinct ((done ++ ts).map (·.target))).length < 100 →
    ∃ st', ts.foldlM mergeTargetStep st = .ok st' := by
  induction ts with
  | nil => intro done st h _; exact ⟨st, rfl⟩
  | cons t ts ih =>
    intro done st h hlt
    have hs : ∃ s1, mergeTargetStep st t = .ok s1 := by
      unfold mergeTargetStep
      split
      · exact ⟨_, rfl⟩
      · rename_i hk
        have hm := (tinv_known h _).mp hk
        have hle : st.1.length + 1 < MAX_TARGET := by
          have e1 : st.1.length = (distinct (done.map (·.target))).length := by
            rw [← h.names, List.length_map]
          have e2 : (distinct ((done ++ [t]).map (·.target))).length =
              (distinct (done.map (·.target))).length + 1 := by
            rw [List.map_append, List.map_cons, List.map_nil, distinct_concat, if_neg hm]
            simp
          have e3 := distinct_length_append ((done ++ [t]).map (·.target)) (ts.map (·.target))
          rw [← List.map_append, List.append_assoc, List.singleton_append] at e3
          unfold MAX_TARGET
          omega
        rw [decide_eq_true hle, guardAssert_true, bind_ok]
        exact ⟨_, rfl⟩
    obtain ⟨s1, h1⟩ := hs
    rw [List.foldlM_cons, h1, bind_ok]
    exact ih (tinv_step h h1) (by simpa using hlt)

theorem tfold_abort {ts : List (Target R)} : ∀ {done : List (Target R)}
    {st : List (Target R) × HMap Int}, TInv done st → st.1.length < 100 →
    100 ≤ (distinct ((done ++ ts).map (·.target))).length →
    ts.foldlM mergeTargetStep st = .abort := by
  induction ts with
  | nil =>
    intro done st h h1 h2
    rw [List.append_nil, ← h.names, List.length_map] at h2
    omega
  | cons t ts ih =>
    intro done st h hlt hge
    rw [List.foldlM_cons]
    cases hs : mergeTargetStep st t with
    | ok s1 =>
      rw [bind_ok]
      refine ih (tinv_step h hs) ?_ (by simpa using hge)
      unfold mergeTargetStep at hs
      split at hs
      · cases hs; exact hlt
      · by_cases hc : st.1.length + 1 < MAX_TARGET
        · rw [decide_eq_true hc, guardAssert_true, bind_ok] at hs
          cases hs
          simpa [MAX_TARGET] using hc
        · rw [decide_eq_false hc, guardAssert_false, bind_abort] at hs
          cases hs
    | abort => rfl
    | ub =>
      exfalso
      unfold mergeTargetStep at hs
      split at hs
      · cases hs
      · by_cases hc : st.1.length + 1 < MAX_TARGET
        · rw [decide_eq_true hc, guardAssert_true, bind_ok] at hs
          cases hs
        · rw [decide_eq_false hc, guardAssert_false, bind_abort] at hs
          cases hs

/-- The largest of the revision numbers. -/
def maxRev (rev : Int) (ins : List (OiFits R)) : Int :=
  ins.foldl (fun r oi => if oi.targets.revision > r then oi.targets.revision else r) rev

theorem le_maxRev (rev : Int) (ins : List (OiFits R)) : rev ≤ maxRev rev ins := by
  induction ins generalizing rev with
  | nil => exact Int.le_refl _
  | cons oi ins ih =>
    unfold maxRev
    rw [List.foldl_cons]
    have := ih (if oi.targets.revision > rev then oi.targets.revision else rev)
    unfold maxRev at this
    split at this <;> split <;> omega

theorem mergeTargetLoop_eq (ins : List (OiFits R)) (rev : Int) (st : List (Target R) × HMap Int) :
    mergeTargetLoop ins (rev, st) = (fun s => (maxRev rev ins, s)) <$>
      (allTargets ins).foldlM mergeTargetStep st := by
  induction ins generalizing rev st with
  | nil => rfl
  | cons oi ins ih =>
    unfold mergeTargetLoop allTargets
    rw [List.flatMap_cons, List.foldlM_append]
    cases hf : oi.targets.targ.foldlM mergeTargetStep st with
    | ok s => simp only [bind_ok, ih]; rfl
    | abort => rfl
    | ub => rfl

theorem merge_oi_target_eq (ins : List (OiFits R)) (out : OiFits R) :
    merge_oi_target ins out = (fun s => ({ out with
      targets := { out.targets with revision := maxRev 2 ins, targ := s.1 } }, s.2)) <$>
      (allTargets ins).foldlM mergeTargetStep ([], HMap.empty) := by
  unfold merge_oi_target
  rw [mergeTargetLoop_eq]
  cases (allTargets ins).foldlM mergeTargetStep ([], HMap.empty) with
  | ok s => rfl
  | abort => rfl
  | ub => rfl

/-- The new TARGET_ID denotes a target of the same name. -/
theorem mergedTargetId_ok {done : List (Target R)} {st : List (Target R) × HMap Int} (h : TInv done st)
    {inp out : OiFits R} (hout : out.targets.targ = st.1) {id id' : Int}
    (hid : mergedTargetId inp st.2 id = .ok id') :
    ∃ n, DenotesTarget inp id n ∧ DenotesTarget out id' n := by
  unfold mergedTargetId at hid
  obtain ⟨t, ht, hid⟩ := bind_eq_ok.mp hid
  cases hl : oi_fits_lookup_target inp id with
  | none => rw [hl] at ht; cases ht
  | some t' =>
    rw [hl, deref_some, Outcome.ok.injEq] at ht
    subst ht
    cases hk : st.2.lookup t'.target with
    | none => rw [hk] at hid; cases hid
    | some k =>
      rw [hk] at hid
      cases hid
      refine ⟨t'.target, ⟨t', (find?_firstWith (by simp) _ _).mp hl, rfl⟩, ?_⟩
      obtain ⟨i, u, hu, hn, rfl⟩ := (h.hash _ _).mp hk
      refine ⟨u, ?_, hn⟩
      rw [hout]
      obtain ⟨hi, rfl⟩ := List.getElem?_eq_some_iff.mp hu
      refine ⟨st.1.take i, st.1.drop (i + 1), ?_, h.ids i _ hu, ?_⟩
      · rw [List.getElem_cons_drop, List.take_append_drop]
      · intro y hy
        obtain ⟨j, hj, rfl⟩ := List.mem_iff_getElem.mp hy
        rw [List.length_take] at hj
        have := h.ids j _ (List.getElem?_eq_getElem (by omega))
        simp only [List.getElem_take]
        omega

theorem mergedTargetId_exists {ins : List (OiFits R)} {st : List (Target R) × HMap Int}
    (h : TInv (allTargets ins) st) {inp : OiFits R} (hi : inp ∈ ins) {id : Int} {n : CStr}
    (hd : DenotesTarget inp id n) : ∃ id', mergedTargetId inp st.2 id = .ok id' := by
  obtain ⟨t, hf, rfl⟩ := hd
  have hl : oi_fits_lookup_target inp id = some t := (find?_firstWith (by simp) _ _).mpr hf
  unfold mergedTargetId
  rw [hl, deref_some, bind_ok]
  cases hk : st.2.lookup t.target with
  | some k => exact ⟨k, rfl⟩
  | none =>
    refine absurd ?_ ((tinv_known h _).mp hk)
    obtain ⟨a, b, e, -, -⟩ := hf
    exact List.mem_map.mpr ⟨t, List.mem_flatMap.mpr ⟨inp, hi, by rw [e]; simp⟩, rfl⟩

end Verif
