import Verif.Proof.MergeWF
import Verif.Spec.MergeSteps

/-! Merging the result of an earlier merge with further datasets. -/

namespace Verif
open Outcome Spec
variable {R : FP} {τ : Type}

/-! ### The merge as one chain of steps -/

/-- The merged tables of one type. -/
def dataOf (f : OiFits R → HMap CStr → HMap CStr → HMap CStr → τ → Outcome τ)
    (l : List ((OiFits R × HMap CStr × HMap CStr × HMap CStr) × τ)) : Outcome (List τ) :=
  l.mapM fun p => f p.1.1 p.1.2.1 p.1.2.2.1 p.1.2.2.2 p.2

theorem foldlM_app {α σ β : Type} {step : σ → α → Outcome σ} {f : α → Outcome β} {app : σ → β → σ}
    (hstep : ∀ s x, step s x = (f x >>= fun y => .ok (app s y))) (l : List α) (s : σ) :
    l.foldlM step s = (fun L => L.foldl app s) <$> l.mapM f := by
  induction l generalizing s with
  | nil => rfl
  | cons x l ih =>
    rw [List.foldlM_cons, hstep, List.mapM_cons]
    cases f x with
    | ok y =>
      simp only [bind_ok, ih]
      cases l.mapM f with
      | ok L => rfl
      | abort => rfl
      | ub => rfl
    | abort => rfl
    | ub => rfl

theorem mergeData_eq {tabs : OiFits R → List τ}
    {step : OiFits R → HMap CStr → HMap CStr → HMap CStr → OiFits R → τ → Outcome (OiFits R)}
    {f : OiFits R → HMap CStr → HMap CStr → HMap CStr → τ → Outcome τ} {app : OiFits R → τ → OiFits R}
    (hstep : ∀ inp a i c out t, step inp a i c out t =
      (f inp a i c t >>= fun t' => .ok (app out t'))) {ins : List (OiFits R)} :
    ∀ {as is cs : List (HMap CStr)} {out : OiFits R}, as.length = ins.length →
    is.length = ins.length → cs.length = ins.length →
    mergeData tabs step ins as is cs out =
      (fun L => L.foldl app out) <$> dataOf f (zipTables tabs ins as is cs) := by
  induction ins with
  | nil => intro as is cs out _ _ _; simp [mergeData, zipTables, dataOf]
  | cons inp ins ih =>
    intro as is cs out ha hi hc
    cases as with
    | nil => simp at ha
    | cons a as =>
    cases is with
    | nil => simp at hi
    | cons i is =>
    cases cs with
    | nil => simp at hc
    | cons c cs =>
    simp only [List.length_cons, Nat.add_right_cancel_iff] at ha hi hc
    unfold mergeData zipTables dataOf
    rw [foldlM_app (hstep inp a i c), List.mapM_append, List.mapM_map]
    cases hm : (tabs inp).mapM (f inp a i c) with
    | ok L =>
      simp only [map_ok, bind_ok, Function.comp_def, hm]
      rw [ih ha hi hc]
      unfold dataOf
      cases (zipTables tabs ins as is cs).mapM
        (fun p => f p.1.1 p.1.2.1 p.1.2.2.1 p.1.2.2.2 p.2) with
      | ok L' => simp
      | abort => rfl
      | ub => rfl
    | abort => simp only [Function.comp_def, hm]; rfl
    | ub => simp only [Function.comp_def, hm]; rfl

/-- A dataset made of its parts. -/
def assembled (ins : List (OiFits R)) (mjd : Int) (st : List (Target R) × HMap Int)
    (sa : NS (OiArray R)) (si : NS (OiWavelength R)) (sc : NS (OiCorr R))
    (l1 : List (OiInspol R)) (l2 : List (OiVis R)) (l3 : List (OiVis2 R)) (l4 : List (OiT3 R))
    (l5 : List (OiFlux R)) : OiFits R :=
  { init_oi_fits R with
    header := mergedHeader ins mjd
    targets := ⟨maxRev 2 ins, st.1, false⟩
    arrayList := sa.list, arrayHash := sa.hash, numArray := sa.num
    wavelengthList := si.list, wavelengthHash := si.hash, numWavelength := si.num
    corrList := sc.list, corrHash := sc.hash, numCorr := sc.num
    inspolList := l1, numInspol := l1.length
    visList := l2, numVis := l2.length
    vis2List := l3, numVis2 := l3.length
    t3List := l4, numT3 := l4.length
    fluxList := l5, numFlux := l5.length }

theorem gnames_length {o : Ops τ} {tabs : OiFits R → List τ} {ins : List (OiFits R)} :
    ∀ {st st' : NS τ} {acc hs : List (HMap CStr)}, gnames o tabs ins st acc = .ok (st', hs) →
    hs.length = acc.length + ins.length := by
  induction ins with
  | nil => intro st st' acc hs h; cases h; rfl
  | cons inp ins ih =>
    intro st st' acc hs h
    unfold gnames at h
    obtain ⟨⟨s1, h1⟩, -, h⟩ := bind_eq_ok.mp h
    have := ih h
    simp at this ⊢
    omega

theorem bind_map {α β γ : Type} (x : Outcome α) (g : α → β) (k : β → Outcome γ) :
    (g <$> x >>= k) = (x >>= fun a => k (g a)) := by
  cases x <;> rfl

/-- What merging computes. -/
def mergeParts (ins : List (OiFits R)) : Outcome (OiFits R) := do
  let mjd ← files_min_mjd ins
  let st ← (allTargets ins).foldlM mergeTargetStep ([], HMap.empty)
  let a ← gnames (arrOps R) OiFits.arrayList ins ⟨[], HMap.empty, 0⟩ []
  let i ← gnames (waveOps R) OiFits.wavelengthList ins ⟨[], HMap.empty, 0⟩ []
  let c ← gnames (corrOps R) OiFits.corrList ins ⟨[], HMap.empty, 0⟩ []
  let l1 ← dataOf (mergedInspol st.2) (zipTables OiFits.inspolList ins a.2 i.2 c.2)
  let l2 ← dataOf (mergedVis st.2) (zipTables OiFits.visList ins a.2 i.2 c.2)
  let l3 ← dataOf (mergedVis2 st.2) (zipTables OiFits.vis2List ins a.2 i.2 c.2)
  let l4 ← dataOf (mergedT3 st.2) (zipTables OiFits.t3List ins a.2 i.2 c.2)
  let l5 ← dataOf (mergedFlux st.2) (zipTables OiFits.fluxList ins a.2 i.2 c.2)
  return assembled ins mjd st a.1 i.1 c.1 l1 l2 l3 l4 l5

theorem merge_eq_parts (ins : List (OiFits R)) : merge_oi_fits_list ins = mergeParts ins := by
  unfold merge_oi_fits_list mergeParts
  simp only
  rw [merge_oi_header_eq, bind_map]
  congr 1; funext mjd
  rw [merge_oi_target_eq, bind_map]
  congr 1; funext st
  simp only
  rw [merge_all_oi_array_eq _ _ ⟨rfl, rfl, rfl⟩, bind_map]
  cases ha : gnames (arrOps R) OiFits.arrayList ins ⟨[], HMap.empty, 0⟩ [] with
  | abort => rfl
  | ub => rfl
  | ok a =>
  simp only [bind_ok]
  rw [merge_all_oi_wavelength_eq _ _ ⟨rfl, rfl, rfl⟩, bind_map]
  cases hi : gnames (waveOps R) OiFits.wavelengthList ins ⟨[], HMap.empty, 0⟩ [] with
  | abort => rfl
  | ub => rfl
  | ok i =>
  simp only [bind_ok]
  rw [merge_all_oi_corr_eq _ _ ⟨rfl, rfl, rfl⟩, bind_map]
  cases hc : gnames (corrOps R) OiFits.corrList ins ⟨[], HMap.empty, 0⟩ [] with
  | abort => rfl
  | ub => rfl
  | ok c =>
  simp only [bind_ok]
  have la : a.2.length = ins.length := by have := gnames_length ha; simpa using this
  have li : i.2.length = ins.length := by have := gnames_length hi; simpa using this
  have lc : c.2.length = ins.length := by have := gnames_length hc; simpa using this
  rw [merge_all_oi_inspol_eq _ _ _ _ c.2 _ lc,
    mergeData_eq (fun inp a i c out t => inspol_tab st.2 inp a i c out t) la li lc, bind_map]
  congr 1; funext l1
  unfold merge_all_oi_vis merge_all_oi_vis2 merge_all_oi_t3 merge_all_oi_flux
  rw [mergeData_eq (fun inp a i c out t => vis_tab st.2 inp a i c out t) la li lc, bind_map]
  congr 1; funext l2
  rw [mergeData_eq (fun inp a i c out t => vis2_tab st.2 inp a i c out t) la li lc, bind_map]
  congr 1; funext l3
  rw [mergeData_eq (fun inp a i c out t => t3_tab st.2 inp a i c out t) la li lc, bind_map]
  congr 1; funext l4
  rw [mergeData_eq (fun inp a i c out t => flux_tab st.2 inp a i c out t) la li lc]
  cases dataOf (mergedFlux st.2) (zipTables OiFits.fluxList ins a.2 i.2 c.2) with
  | abort => rfl
  | ub => rfl
  | ok l5 =>
    simp only [map_ok, bind_ok, pure_eq, Outcome.ok.injEq, foldl_appInspol, foldl_appVis,
      foldl_appVis2, foldl_appT3, foldl_appFlux]
    simp [assembled, putArr, putWave, putCorr, init_oi_fits]

/-! ### Tables with names -/

theorem gnames_acc {o : Ops τ} {tabs : OiFits R → List τ} {ins : List (OiFits R)} :
    ∀ {st : NS τ} {acc : List (HMap CStr)}, gnames o tabs ins st acc =
      (fun p => (p.1, acc ++ p.2)) <$> gnames o tabs ins st [] := by
  induction ins with
  | nil => intro st acc; simp [gnames]
  | cons inp ins ih =>
    intro st acc
    unfold gnames
    cases (tabs inp).foldlM (gstep o) (st, HMap.empty) with
    | abort => rfl
    | ub => rfl
    | ok p =>
      simp only [bind_ok]
      rw [ih (acc := acc ++ [p.2]), ih (acc := [] ++ [p.2])]
      cases gnames o tabs ins p.1 [] with
      | ok q => simp
      | abort => rfl
      | ub => rfl

theorem gnames_cons {o : Ops τ} {tabs : OiFits R → List τ} (inp : OiFits R) (ins : List (OiFits R))
    (st : NS τ) (acc : List (HMap CStr)) : gnames o tabs (inp :: ins) st acc =
      ((tabs inp).foldlM (gstep o) (st, HMap.empty) >>= fun p =>
        gnames o tabs ins p.1 (acc ++ [p.2])) := rfl

theorem gnames_append {o : Ops τ} {tabs : OiFits R → List τ} {ins ins' : List (OiFits R)} :
    ∀ {st : NS τ} {acc : List (HMap CStr)}, gnames o tabs (ins ++ ins') st acc =
      (gnames o tabs ins st acc >>= fun p => gnames o tabs ins' p.1 p.2) := by
  induction ins with
  | nil => intro st acc; rfl
  | cons inp ins ih =>
    intro st acc
    rw [List.cons_append, gnames_cons, gnames_cons]
    cases (tabs inp).foldlM (gstep o) (st, HMap.empty) with
    | abort => rfl
    | ub => rfl
    | ok p =>
      simp only [bind_ok]
      exact ih

/-- What makes a merged table one that is merged as it is. -/
structure Ops.Again (o : Ops τ) : Prop where
  set_self : ∀ y, o.setName y (o.name y) = y
  dup_again : ∀ x d n, o.dup x = .ok d → o.dup (o.setName d n) = .ok (o.setName d n)
  find_again : ∀ x d n l, o.dup x = .ok d → (∀ y ∈ l, ∃ x' d' n', o.dup x' = .ok d' ∧ y = o.setName d' n') →
    o.find x l = .ok none → o.find (o.setName d n) l = .ok none

/-- The state reached when the tables have been added as they are. -/
def plainState (o : Ops τ) (l : List τ) : NS τ :=
  ⟨l, l.foldl (fun h y => h.insert (o.name y) y) HMap.empty, l.length⟩

/-- The merged tables so far are merged as they are. -/
structure AgainInv (o : Ops τ) (st : NS τ) : Prop where
  plain : st = plainState o st.list
  made : ∀ y ∈ st.list, ∃ x d n, o.dup x = .ok d ∧ y = o.setName d n
  fresh : ∀ (i : Nat) y, st.list[i]? = some y → o.find y (st.list.take i) = .ok none

theorem againInv_empty (o : Ops τ) : AgainInv o ⟨[], HMap.empty, 0⟩ :=
  ⟨rfl, by simp, by simp⟩

theorem againInv_step {o : Ops τ} (ha : o.Again) {s s' : NS τ × HMap CStr} {x : τ}
    (hi : AgainInv o s.1) (h : gstep o s x = .ok s') : AgainInv o s'.1 := by
  rcases gstep_cases h with ⟨y, hf, rfl⟩ | ⟨d, hf, hd, rfl⟩
  · exact hi
  · refine ⟨?_, ?_, ?_⟩
    · have hp := hi.plain
      simp only [plainState] at hp
      simp only [gadd, plainState, List.foldl_append, List.foldl_cons, List.foldl_nil, NS.mk.injEq,
        true_and]
      constructor
      · congr 1
        exact congrArg NS.hash hp
      · rw [show s.1.num = (s.1.list.length : Int) from congrArg NS.num hp]
        simp
    · intro y hy
      simp only [gadd, List.mem_append, List.mem_singleton] at hy
      rcases hy with hy | rfl
      · exact hi.made y hy
      · exact ⟨x, d, _, hd, rfl⟩
    · intro i y hy
      simp only [gadd] at hy ⊢
      by_cases hlt : i < s.1.list.length
      · rw [List.getElem?_append_left hlt] at hy
        rw [List.take_append_of_le_length (by omega)]
        exact hi.fresh i y hy
      · rw [List.getElem?_append_right (by omega)] at hy
        have hi0 : i = s.1.list.length := by
          have := (List.getElem?_eq_some_iff.mp hy).1
          simp at this; omega
        subst hi0
        simp at hy
        subst hy
        rw [List.take_left']
        · exact ha.find_again x d _ _ hd hi.made hf
        · rfl

theorem againInv_fold {o : Ops τ} (ha : o.Again) {xs : List τ} : ∀ {s s' : NS τ × HMap CStr},
    AgainInv o s.1 → xs.foldlM (gstep o) s = .ok s' → AgainInv o s'.1 := by
  induction xs with
  | nil => intro s s' hi h; cases h; exact hi
  | cons x xs ih =>
    intro s s' hi h
    rw [List.foldlM_cons] at h
    obtain ⟨s1, h1, h⟩ := bind_eq_ok.mp h
    exact ih (againInv_step ha hi h1) h

theorem againInv_gnames {o : Ops τ} (ha : o.Again) {tabs : OiFits R → List τ} {ins : List (OiFits R)} :
    ∀ {st st' : NS τ} {acc hs : List (HMap CStr)}, AgainInv o st →
    gnames o tabs ins st acc = .ok (st', hs) → AgainInv o st' := by
  induction ins with
  | nil => intro st st' acc hs hi h; cases h; exact hi
  | cons inp ins ih =>
    intro st st' acc hs hi h
    unfold gnames at h
    obtain ⟨⟨s1, h1⟩, hf, h⟩ := bind_eq_ok.mp h
    exact ih (againInv_fold ha hi hf) h

/-- The hash table of new names of tables that keep theirs. -/
def keptNames (o : Ops τ) (l : List τ) : HMap CStr :=
  l.foldl (fun h y => h.insert (o.name y) (o.name y)) HMap.empty

theorem plainHash_lookup {o : Ops τ} (l : List τ) (n : CStr) :
    ∀ h : HMap τ, n ∉ l.map o.name → h.lookup n = none →
    (l.foldl (fun h y => h.insert (o.name y) y) h).lookup n = none := by
  induction l with
  | nil => intro h _ hn; exact hn
  | cons y l ih =>
    intro h hm hn
    simp only [List.map_cons, List.mem_cons, not_or] at hm
    rw [List.foldl_cons]
    refine ih _ hm.2 ?_
    rw [HMap.lookup_insert, if_neg hm.1]
    exact hn

theorem keptNames_lookup {o : Ops τ} (l : List τ) : ∀ (h : HMap CStr),
    (∀ n v, h.lookup n = some v → v = n ∧ ∃ y ∈ l, o.name y = n) → ∀ m : List τ, (∀ y ∈ m, y ∈ l) →
    ∀ n v, (m.foldl (fun h y => h.insert (o.name y) (o.name y)) h).lookup n = some v →
      v = n ∧ ∃ y ∈ l, o.name y = n := by
  intro h hh m
  induction m generalizing h with
  | nil => intro _ n v hv; exact hh n v hv
  | cons y m ih =>
    intro hm
    rw [List.foldl_cons]
    refine ih _ ?_ fun z hz => hm z (by simp [hz])
    intro n v hv
    rw [HMap.lookup_insert] at hv
    split at hv
    · rename_i e
      cases hv
      exact ⟨e.symm, y, hm y (by simp), e.symm⟩
    · exact hh n v hv

/-- Merging merged tables first, they come out as they are. -/
theorem again_fold {o : Ops τ} (hl : o.Laws) (ha : o.Again) {st : NS τ} (hi : AgainInv o st)
    (hu : (st.list.map o.name).Nodup) : ∀ (post pre : List τ) (h : HMap CStr), pre ++ post = st.list →
    post.foldlM (gstep o) (plainState o pre, h) =
      .ok (st, post.foldl (fun h y => h.insert (o.name y) (o.name y)) h) := by
  intro post
  induction post with
  | nil =>
    intro pre h e
    rw [List.append_nil] at e
    subst e
    rw [← hi.plain]
    rfl
  | cons y post ih =>
    intro pre h e
    rw [List.foldlM_cons]
    have hy : st.list[pre.length]? = some y := by rw [← e]; simp
    have hfind := hi.fresh _ y hy
    rw [show st.list.take pre.length = pre by rw [← e]; simp] at hfind
    obtain ⟨x, d, n, hd, he⟩ := hi.made y (List.mem_of_getElem? hy)
    have hdup : o.dup y = .ok y := by rw [he]; exact ha.dup_again x d n hd
    have hnone : (plainState o pre).hash.lookup (o.name y) = none := by
      refine plainHash_lookup pre _ _ ?_ (by simp)
      intro hm
      rw [← e, List.map_append, List.map_cons] at hu
      exact (List.nodup_append.mp hu).2.2 _ hm _ (by simp) rfl
    have hg : gname o (plainState o pre) y = o.name y := by
      unfold gname
      rw [hnone]
    have hstep : gstep o (plainState o pre, h) y =
        .ok (plainState o (pre ++ [y]), h.insert (o.name y) (o.name y)) := by
      unfold gstep
      simp only
      rw [show o.find y (plainState o pre).list = .ok none from hfind, bind_ok, hdup, bind_ok, hg,
        ha.set_self]
      have : gadd o (plainState o pre) y = plainState o (pre ++ [y]) := by
        unfold gadd
        simp only [hg, ha.set_self]
        simp [plainState]
      rw [this]
      rfl
    rw [hstep, bind_ok, List.foldl_cons]
    exact ih (pre ++ [y]) _ (by simpa using e)

theorem again_gnames {o : Ops τ} (hl : o.Laws) (ha : o.Again) {st : NS τ} (hi : AgainInv o st)
    (hu : (st.list.map o.name).Nodup) {tabs : OiFits R → List τ} {m : OiFits R}
    (hm : tabs m = st.list) (ins : List (OiFits R)) :
    gnames o tabs (m :: ins) ⟨[], HMap.empty, 0⟩ [] =
      (fun p => (p.1, keptNames o st.list :: p.2)) <$> gnames o tabs ins st [] := by
  rw [gnames_cons, hm]
  rw [show (⟨[], HMap.empty, 0⟩ : NS τ) = plainState o [] from rfl,
    again_fold hl ha hi hu st.list [] _ rfl, bind_ok]
  simp only
  rw [gnames_acc]
  rfl

theorem kept_replace {o : Ops τ} {l : List τ} (hfit : ∀ y ∈ l, (o.name y).length < FLEN_VALUE)
    (n : CStr) : replaceName (keptNames o l) n = n := by
  unfold replaceName
  cases hv : (keptNames o l).lookup n with
  | none => rfl
  | some v =>
    obtain ⟨rfl, y, hy, rfl⟩ := keptNames_lookup (o := o) l HMap.empty (by simp) l (fun _ h => h) n v hv
    have := hfit y hy
    unfold strlcpy
    exact List.take_of_length_le (by unfold FLEN_VALUE at *; omega)

theorem kept_replaceOpt {o : Ops τ} {l : List τ} (hfit : ∀ y ∈ l, (o.name y).length < FLEN_VALUE)
    (n : CStr) : replaceOptName (keptNames o l) n = n := by
  unfold replaceOptName
  split
  · exact kept_replace hfit n
  · rfl

/-! The three types. -/

theorem upgraded_ne_one (r : Int) : upgraded r ≠ 1 := by
  unfold upgraded; split <;> omega

theorem upgraded_again (r : Int) : upgraded (upgraded r) = upgraded r := by
  have := upgraded_ne_one r
  generalize upgraded r = u at this
  unfold upgraded
  rw [if_neg this]

theorem arr_dup_of {x : OiArray R} (h : x.elem ≠ []) :
    (arrOps R).dup x = .ok { x with revision := upgraded x.revision } := by
  have hd : dup_oi_array x = .ok x := C22_dup_oi_array x ⟨h⟩
  have : (arrOps R).dup x = upgrade_oi_array <$> dup_oi_array x := rfl
  rw [this, hd, map_ok]
  congr 1
  have : (arrOps R).dup x = .ok (upgrade_oi_array x) := by rw [this, hd, map_ok]
  exact arr_dup this

theorem arr_dup_rows {x d : OiArray R} (h : (arrOps R).dup x = .ok d) : x.elem ≠ [] := by
  simp only [arrOps] at h
  obtain ⟨e, he, -⟩ := map_eq_ok h
  unfold dup_oi_array at he
  obtain ⟨l, hl, -⟩ := bind_eq_ok.mp he
  intro hx
  exact (memdup_ok hl).1 (by rw [hx]; rfl)

theorem arrayMatches_again {x y : OiArray R} {r : Int} {n : CStr} (hr : x.revision ≤ r)
    (h : arrayMatches x y = false) : arrayMatches { x with revision := r, arrname := n } y = false := by
  unfold arrayMatches at h ⊢
  simp only at h ⊢
  split
  · rfl
  split
  · rfl
  split
  · rfl
  rename_i h1 h2 h3
  rw [if_neg h1, if_neg h2, if_neg h3, List.all_eq_false] at h
  rw [List.all_eq_false]
  obtain ⟨e, he, hf⟩ := h
  refine ⟨e, he, ?_⟩
  intro ht
  apply hf
  unfold elementMatches at ht ⊢
  split at ht
  · cases ht
  · split at ht
    · cases ht
    split at ht
    · cases ht
    split at ht
    · cases ht
    split at ht
    · cases ht
    rename_i k1 k2 k3 k4
    rw [if_neg k1, if_neg k2, if_neg k3, if_neg k4]
    by_cases hx : x.revision ≥ 2 ∧ y.revision ≥ 2
    · rw [if_pos hx]
      rw [if_pos ⟨by have := hx.1; simp only; omega, hx.2⟩] at ht
      exact ht
    · rw [if_neg hx]

theorem le_upgraded (r : Int) : r ≤ upgraded r := by unfold upgraded; split <;> omega

theorem arrAgain (R : FP) : (arrOps R).Again where
  set_self _ := rfl
  dup_again x d n h := by
    have hx := arr_dup_rows h
    rw [arr_dup h]
    have : (arrOps R).setName { x with revision := upgraded x.revision } n =
      { x with revision := upgraded x.revision, arrname := n } := rfl
    rw [this, arr_dup_of (by exact hx)]
    simp only [upgraded_again]
  find_again x d n l h _ hf := by
    rw [arr_dup h]
    simp only [arrOps, match_oi_array, Outcome.ok.injEq, List.find?_eq_none] at hf ⊢
    intro y hy
    have := arrayMatches_again (r := upgraded x.revision) (n := n) (le_upgraded _)
      (by simpa using hf y hy)
    simpa using this

theorem take_getElem_lt {α : Type} {l : List α} {n i : Nat} (h : i < n) : (l.take n)[i]? = l[i]? := by
  simp [h]

theorem wavesMatch_again {x y w : OiWavelength R}
    (h1 : w.eff_wave = x.eff_wave.take x.nwave) (h2 : w.eff_band = x.eff_band.take x.nwave) :
    ∀ is : List Nat, (∀ i ∈ is, i < x.nwave) → wavesMatchFrom y w is = wavesMatchFrom y x is := by
  intro is
  induction is with
  | nil => intro _; rfl
  | cons i is ih =>
    intro hi
    unfold wavesMatchFrom
    have e1 : index w.eff_wave i = index x.eff_wave i := by
      unfold index; rw [h1, take_getElem_lt (hi i (by simp))]
    have e2 : index w.eff_band i = index x.eff_band i := by
      unfold index; rw [h2, take_getElem_lt (hi i (by simp))]
    rw [e1, e2, ih fun j hj => hi j (by simp [hj])]

theorem match_wave_again {x w : OiWavelength R} (h0 : w.nwave = x.nwave)
    (h1 : w.eff_wave = x.eff_wave.take x.nwave) (h2 : w.eff_band = x.eff_band.take x.nwave)
    (l : List (OiWavelength R)) : match_oi_wavelength w l = match_oi_wavelength x l := by
  induction l with
  | nil => rfl
  | cons y l ih =>
    unfold match_oi_wavelength
    have : waveMatches w y = waveMatches x y := by
      unfold waveMatches
      rw [h0, wavesMatch_again h1 h2 _ fun i hi => List.mem_range.mp hi]
    rw [this, ih]

theorem wave_dup_of {x : OiWavelength R} (h : x.WF) :
    (waveOps R).dup x = .ok { x with revision := upgraded x.revision } := by
  have : (waveOps R).dup x = .ok (upgrade_oi_wavelength x) := by
    have : (waveOps R).dup x = upgrade_oi_wavelength <$> dup_oi_wavelength x := rfl
    rw [this, C22_dup_oi_wavelength x h, map_ok]
  rw [this]
  congr 1
  rw [(wave_dup this).2.2.2, List.take_of_length_le (Nat.le_of_eq h.eff_wave),
    List.take_of_length_le (Nat.le_of_eq h.eff_band)]

theorem waveAgain (R : FP) : (waveOps R).Again where
  set_self _ := rfl
  dup_again x d n h := by
    obtain ⟨h0, h1, h2, rfl⟩ := wave_dup h
    rw [wave_dup_of]
    · simp only [waveOps, upgraded_again]
    · exact ⟨h0, by simp [waveOps, h1], by simp [waveOps, h2]⟩
  find_again x d n l h _ hf := by
    obtain ⟨h0, h1, h2, rfl⟩ := wave_dup h
    simp only [waveOps] at hf ⊢
    refine Eq.trans (match_wave_again (x := x) ?_ ?_ ?_ l) hf <;> rfl

theorem corrAgain (R : FP) : (corrOps R).Again where
  set_self _ := rfl
  dup_again x d n h := by
    have hd := corr_dup h
    simp only [corrOps, dup_oi_corr] at h
    obtain ⟨a, ha, h⟩ := bind_eq_ok.mp h
    obtain ⟨b, hb, h⟩ := bind_eq_ok.mp h
    obtain ⟨c, hc, h⟩ := bind_eq_ok.mp h
    obtain ⟨n0, la, -⟩ := memdup_ok ha
    obtain ⟨-, lb, -⟩ := memdup_ok hb
    obtain ⟨-, lc, -⟩ := memdup_ok hc
    rw [hd]
    exact C22_dup_oi_corr _ ⟨n0, by simp [corrOps, la], by simp [corrOps, lb], by simp [corrOps, lc]⟩
  find_again _ _ _ _ _ _ _ := rfl

/-! ### Targets -/

/-- The merged targets so far come out as they are. -/
structure TAgain (st : List (Target R) × HMap Int) : Prop where
  hash : st.2 = st.1.foldl (fun h t => h.insert t.target t.target_id) HMap.empty
  ids : ∀ (i : Nat) t, st.1[i]? = some t → t.target_id = (i : Int) + 1
  nodup : (st.1.map (·.target)).Nodup
  few : st.1.length < MAX_TARGET

theorem tagain_step {done : List (Target R)} {st st' : List (Target R) × HMap Int} {t : Target R}
    (_ : TInv done st) (h : st.2 = st.1.foldl (fun h t => h.insert t.target t.target_id) HMap.empty)
    (hf : st.1.length < MAX_TARGET) (hs : mergeTargetStep st t = .ok st') :
    st'.2 = st'.1.foldl (fun h t => h.insert t.target t.target_id) HMap.empty ∧
    st'.1.length < MAX_TARGET := by
  unfold mergeTargetStep at hs
  split at hs
  · cases hs; exact ⟨h, hf⟩
  · by_cases hc : st.1.length + 1 < MAX_TARGET
    · rw [decide_eq_true hc, guardAssert_true, bind_ok] at hs
      cases hs
      simp only [List.foldl_append, List.foldl_cons, List.foldl_nil, List.length_append,
        List.length_cons, List.length_nil]
      exact ⟨by rw [h], hc⟩
    · rw [decide_eq_false hc, guardAssert_false, bind_abort] at hs
      cases hs

theorem tagain_fold {ts : List (Target R)} : ∀ {done : List (Target R)}
    {st st' : List (Target R) × HMap Int}, TInv done st →
    st.2 = st.1.foldl (fun h t => h.insert t.target t.target_id) HMap.empty →
    st.1.length < MAX_TARGET → ts.foldlM mergeTargetStep st = .ok st' → TAgain st' := by
  induction ts with
  | nil =>
    intro done st st' ht h hf hs
    cases hs
    exact ⟨h, ht.ids, by rw [ht.names]; exact nodup_distinct _, hf⟩
  | cons t ts ih =>
    intro done st st' ht h hf hs
    rw [List.foldlM_cons] at hs
    obtain ⟨s1, h1, hs⟩ := bind_eq_ok.mp hs
    obtain ⟨a, b⟩ := tagain_step ht h hf h1
    exact ih (tinv_step ht h1) a b hs

theorem targetHash_lookup (l : List (Target R)) (n : CStr) : ∀ h : HMap Int, n ∉ l.map (·.target) →
    h.lookup n = none →
    (l.foldl (fun h t => h.insert t.target t.target_id) h).lookup n = none := by
  induction l with
  | nil => intro h _ hn; exact hn
  | cons y l ih =>
    intro h hm hn
    simp only [List.map_cons, List.mem_cons, not_or] at hm
    rw [List.foldl_cons]
    refine ih _ hm.2 ?_
    rw [HMap.lookup_insert, if_neg hm.1]
    exact hn

theorem tagain_again {st : List (Target R) × HMap Int} (h : TAgain st) :
    st.1.foldlM mergeTargetStep ([], HMap.empty) = .ok st := by
  have key : ∀ (post pre : List (Target R)), pre ++ post = st.1 →
      post.foldlM mergeTargetStep
        (pre, pre.foldl (fun h t => h.insert t.target t.target_id) HMap.empty) = .ok st := by
    intro post
    induction post with
    | nil =>
      intro pre e
      rw [List.append_nil] at e
      subst e
      rw [← h.hash]
      rfl
    | cons t post ih =>
      intro pre e
      rw [List.foldlM_cons]
      have ht : st.1[pre.length]? = some t := by rw [← e]; simp
      have hid := h.ids _ t ht
      have hn := h.nodup
      have hf := h.few
      rw [← e] at hf
      simp only [List.length_append, List.length_cons] at hf
      have hstep : mergeTargetStep
          (pre, pre.foldl (fun h t => h.insert t.target t.target_id) HMap.empty) t =
          .ok (pre ++ [t], (pre ++ [t]).foldl (fun h t => h.insert t.target t.target_id) HMap.empty) := by
        unfold mergeTargetStep
        simp only
        rw [targetHash_lookup pre _ _ ?_ (by simp)]
        · simp only
          rw [decide_eq_true (by omega), guardAssert_true, bind_ok]
          simp only [List.foldl_append, List.foldl_cons, List.foldl_nil, pure_eq, ← hid]
        · intro hm
          rw [← e, List.map_append, List.map_cons] at hn
          exact (List.nodup_append.mp hn).2.2 _ hm _ (by simp) rfl
      rw [hstep, bind_ok]
      exact ih (pre ++ [t]) (by simpa using e)
  exact key st.1 [] rfl

theorem targets_extend {ts : List (Target R)} : ∀ {st st' : List (Target R) × HMap Int},
    ts.foldlM mergeTargetStep st = .ok st' →
    ∀ n k, st.2.lookup n = some k → st'.2.lookup n = some k := by
  induction ts with
  | nil => intro st st' h n k hk; cases h; exact hk
  | cons t ts ih =>
    intro st st' h n k hk
    rw [List.foldlM_cons] at h
    obtain ⟨s1, h1, h⟩ := bind_eq_ok.mp h
    refine ih h n k ?_
    unfold mergeTargetStep at h1
    split at h1
    · cases h1; exact hk
    · rename_i hnone
      obtain ⟨_, -, h1⟩ := bind_eq_ok.mp h1
      cases h1
      rw [HMap.lookup_insert, if_neg]
      · exact hk
      · intro e; rw [e, hnone] at hk; cases hk

theorem maxRev_append (r : Int) (l l' : List (OiFits R)) :
    maxRev r (l ++ l') = maxRev (maxRev r l) l' := by
  unfold maxRev
  rw [List.foldl_append]

/-! ### Data tables -/

theorem zipTables_append {tabs : OiFits R → List τ} {ins ins' : List (OiFits R)} :
    ∀ {as is cs as' is' cs' : List (HMap CStr)}, as.length = ins.length → is.length = ins.length →
    cs.length = ins.length → zipTables tabs (ins ++ ins') (as ++ as') (is ++ is') (cs ++ cs') =
      zipTables tabs ins as is cs ++ zipTables tabs ins' as' is' cs' := by
  induction ins with
  | nil =>
    intro as is cs as' is' cs' ha hi hc
    simp only [List.length_nil, List.length_eq_zero_iff] at ha hi hc
    subst ha; subst hi; subst hc
    simp [zipTables]
  | cons inp ins ih =>
    intro as is cs as' is' cs' ha hi hc
    cases as with
    | nil => simp at ha
    | cons a as =>
    cases is with
    | nil => simp at hi
    | cons i is =>
    cases cs with
    | nil => simp at hc
    | cons c cs =>
    simp only [List.length_cons, Nat.add_right_cancel_iff] at ha hi hc
    simp only [List.cons_append, zipTables, ih ha hi hc, List.append_assoc]

theorem zipTables_mem {tabs : OiFits R → List τ} {ins : List (OiFits R)} :
    ∀ {as is cs : List (HMap CStr)} {p}, p ∈ zipTables tabs ins as is cs →
    p.1.1 ∈ ins ∧ p.2 ∈ tabs p.1.1 := by
  induction ins with
  | nil => intro as is cs p h; simp [zipTables] at h
  | cons inp ins ih =>
    intro as is cs p h
    match as, is, cs, h with
    | a :: as, i :: is, c :: cs, h =>
      unfold zipTables at h
      rcases List.mem_append.mp h with h | h
      · obtain ⟨t, ht, rfl⟩ := List.mem_map.mp h
        exact ⟨by simp, ht⟩
      · obtain ⟨h1, h2⟩ := ih h
        exact ⟨by simp [h1], h2⟩
    | [], _, _, h => simp [zipTables] at h
    | _ :: _, [], _, h => simp [zipTables] at h
    | _ :: _, _ :: _, [], h => simp [zipTables] at h

theorem mapM_mono {α β : Type} {f g : α → Outcome β} : ∀ {l : List α} {l' : List β},
    (∀ x ∈ l, ∀ y, f x = .ok y → g x = .ok y) → l.mapM f = .ok l' → l.mapM g = .ok l' := by
  intro l
  induction l with
  | nil => intro l' _ h; simpa using h
  | cons x l ih =>
    intro l' hfg h
    rw [List.mapM_cons] at h ⊢
    obtain ⟨y, hy, h⟩ := bind_eq_ok.mp h
    obtain ⟨ys, hys, h⟩ := bind_eq_ok.mp h
    rw [hfg x (by simp) y hy, bind_ok, ih (fun x hx => hfg x (by simp [hx])) hys, bind_ok]
    exact h

/-- What the second merge does to the tables of one type. -/
theorem data_steps {tabs : OiFits R → List τ}
    {f : HMap Int → OiFits R → HMap CStr → HMap CStr → HMap CStr → τ → Outcome τ}
    {ids ids' : HMap Int} {ins₁ ins₂ : List (OiFits R)} {as₁ is₁ cs₁ as₂ is₂ cs₂ : List (HMap CStr)}
    {m : OiFits R} {ha hi hc : HMap CStr}
    (la : as₁.length = ins₁.length) (li : is₁.length = ins₁.length) (lc : cs₁.length = ins₁.length)
    (h1 : dataOf (f ids) (zipTables tabs ins₁ as₁ is₁ cs₁) = .ok (tabs m))
    (hmono : ∀ inp ∈ ins₁, ∀ a i c t t', f ids inp a i c t = .ok t' → f ids' inp a i c t = .ok t')
    (hself : ∀ inp ∈ ins₁, ∀ t ∈ tabs inp, ∀ a i c t', f ids inp a i c t = .ok t' →
      f ids' m ha hi hc t' = .ok t') :
    dataOf (f ids') (zipTables tabs (ins₁ ++ ins₂) (as₁ ++ as₂) (is₁ ++ is₂) (cs₁ ++ cs₂)) =
      dataOf (f ids') (zipTables tabs (m :: ins₂) (ha :: as₂) (hi :: is₂) (hc :: cs₂)) := by
  have e1 : dataOf (f ids') (zipTables tabs ins₁ as₁ is₁ cs₁) = .ok (tabs m) :=
    mapM_mono (fun p hp t' h => hmono _ (zipTables_mem hp).1 _ _ _ _ _ h) h1
  have e2 : dataOf (f ids') ((tabs m).map fun t => ((m, ha, hi, hc), t)) = .ok (tabs m) := by
    unfold dataOf
    rw [List.mapM_map]
    refine mapM_ok_id ?_
    intro t' ht'
    have hf := mapM_forall₂ h1
    obtain ⟨k, hk, rfl⟩ := List.mem_iff_getElem.mp ht'
    have hk' : k < (zipTables tabs ins₁ as₁ is₁ cs₁).length := by rw [hf.length_eq]; exact hk
    have := (List.forall₂_iff_get.mp hf).2 k hk' hk
    obtain ⟨m1, m2⟩ := zipTables_mem (List.get_mem _ ⟨k, hk'⟩)
    exact hself _ m1 _ m2 _ _ _ _ this
  rw [zipTables_append la li lc]
  unfold dataOf at *
  rw [show zipTables tabs (m :: ins₂) (ha :: as₂) (hi :: is₂) (hc :: cs₂) =
    (tabs m).map (fun t => ((m, ha, hi, hc), t)) ++ zipTables tabs ins₂ as₂ is₂ cs₂ from rfl,
    List.mapM_append, List.mapM_append, e1, e2]

end Verif
