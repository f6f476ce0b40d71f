import Verif.Proof.UnsetFilter
import Verif.Model.Merge

/-! Merging does not look at the members which are not set. -/

namespace Verif
open Spec Outcome

variable {R : FP} {α β γ δ : Type}

theorem bind_ok_congr {m : Outcome α} {f : α → Outcome β} {f' : α → Outcome γ} {g : β → Outcome γ}
    (h : ∀ a, f' a = (f a).bind g) : (m >>= f') = (m >>= f).bind g := by
  cases m with
  | ok a => exact h a
  | abort => rfl
  | ub => rfl

theorem bind_of_ok (a : α) (f : α → Outcome β) : (Outcome.ok a >>= f) = f a := rfl

theorem obind_of_ok (a : α) (f : α → Outcome β) : (Outcome.ok a).bind f = f a := rfl

theorem obind_assoc' (m : Outcome α) (f : α → Outcome β) (g : β → Outcome γ) :
    (m.bind f >>= g) = m >>= fun x => (f x).bind g := by
  cases m <;> rfl

theorem mapM_map_self (g : α → α) {f : α → Outcome α}
    (h : ∀ r, f (g r) = (f r).bind fun x => .ok (g x)) (l : List α) :
    (l.map g).mapM f = (l.mapM f).bind fun x => .ok (x.map g) := by
  induction l with
  | nil => rfl
  | cons r l ih =>
    rw [List.map_cons, List.mapM_cons, List.mapM_cons, h, ih]
    cases f r with
    | ok x => cases l.mapM f <;> rfl
    | abort => rfl
    | ub => rfl

theorem memdup_map (g : α → β) (l : List α) (n : Nat) :
    memdup (l.map g) n = (memdup l n).bind fun x => .ok (x.map g) := by
  unfold memdup
  rw [List.length_map]
  split
  · rfl
  · split
    · rfl
    · show _ = Outcome.ok _
      rw [List.map_take]

theorem mergedTargetId_blank (inp : OiFits R) (ids : HMap Int) (id : Int) :
    mergedTargetId inp.blank ids id = mergedTargetId inp ids id := by
  unfold mergedTargetId oi_fits_lookup_target OiFits.blank OiTarget.blank
  simp only [List.find?_map]
  rw [show ((fun t : Target R => t.target_id == id) ∘ fun x : Target R =>
    { x with category := if inp.targets.usecategory then x.category else [] })
    = fun t => t.target_id == id from rfl]
  cases inp.targets.targ.find? fun t => t.target_id == id <;> rfl

theorem replaceOptName_nil_blank {h : HMap CStr} {n : CStr} (e : n = []) : replaceOptName h n = [] := by
  subst e; rfl

theorem if_of_imp {c d : Prop} [Decidable c] [Decidable d] (h : d → c) (x z : α) :
    (if c then z else (if d then z else x)) = if c then z else x := by
  by_cases hc : c
  · rw [if_pos hc, if_pos hc]
  · rw [if_neg hc, if_neg hc, if_neg fun hd => hc (h hd)]

theorem if_of_imp' {c d : Prop} [Decidable c] [Decidable d] (h : c → d) (x z : α) :
    (if c then (if d then x else z) else z) = if c then x else z := by
  by_cases hc : c
  · rw [if_pos hc, if_pos hc, if_pos (h hc)]
  · rw [if_neg hc, if_neg hc]

/-! ### OI_VIS -/

theorem dup_vis_blank (t : OiVis R) : dup_oi_vis t.blank = (dup_oi_vis t).bind fun x => .ok x.blank := by
  unfold dup_oi_vis
  rw [show t.blank.record = t.record.map (visBlank t.usecomplex t.corrname) from rfl, memdup_map, List.length_map]
  cases memdup t.record t.record.length with
  | ok l =>
    simp only [bind_of_ok, obind_of_ok]
    rw [mapM_map_self (visBlank t.usecomplex t.corrname) (fun r => by repeat' (first | rfl | (refine bind_ok_congr fun _ => ?_)))]
    refine (obind_assoc' _ _ _).trans ?_
    exact bind_ok_congr fun _ => rfl
  | abort => rfl
  | ub => rfl

theorem upgrade_vis_blank (t : OiVis R) : upgrade_oi_vis t.blank = (upgrade_oi_vis t).blank := by
  unfold upgrade_oi_vis
  rw [show t.blank.revision = t.revision from rfl]
  split
  · simp only [OiVis.blank, List.map_map, Function.comp_def]
  · rfl

theorem add_vis_blank {x x' : OiFits R} {t t' : OiVis R} (h : x.blank = x'.blank) (ht : t.blank = t'.blank) :
    ({ x with visList := x.visList ++ [t], numVis := x.numVis + 1 } : OiFits R).blank
      = ({ x' with visList := x'.visList ++ [t'], numVis := x'.numVis + 1 } : OiFits R).blank := by
  have key : ∀ (x : OiFits R) (t : OiVis R),
      ({ x with visList := x.visList ++ [t], numVis := x.numVis + 1 } : OiFits R).blank
        = { x.blank with visList := x.blank.visList ++ [t.blank], numVis := x.blank.numVis + 1 } := by
    intro x t
    simp only [OiFits.blank, List.map_append, List.map_cons, List.map_nil]
  rw [key, key, h, ht]

theorem mergeVisTab_blank (inp : OiFits R) (ids : HMap Int) (ah ih ch : HMap CStr) {x x' : OiFits R} (h : x.blank = x'.blank)
    (t : OiVis R) : bl (mergeVisTab inp.blank ids ah ih ch x t.blank) = bl (mergeVisTab inp ids ah ih ch x' t) := by
  unfold mergeVisTab
  rw [dup_vis_blank]
  cases dup_oi_vis t with
  | abort => rfl
  | ub => rfl
  | ok d =>
    simp only [bind_of_ok, obind_of_ok, mergedTargetId_blank, upgrade_vis_blank]
    generalize upgrade_oi_vis d = u
    rw [show u.blank.record = u.record.map (visBlank u.usecomplex u.corrname) from rfl,
      mapM_map_self (visBlank u.usecomplex u.corrname) (fun r => by refine bind_ok_congr fun _ => ?_; rfl)]
    generalize List.mapM (m := Outcome) _ u.record = m
    cases m with
    | abort => rfl
    | ub => rfl
    | ok l =>
      show Outcome.ok _ = Outcome.ok _
      congr 1
      apply add_vis_blank h
      unfold OiVis.blank
      simp only [List.map_map, Function.comp_def, visBlank, if_if_some]
      congr 1
      apply List.map_congr_left
      intro r _
      rw [if_of_imp (fun e => replaceOptName_nil_blank e), if_of_imp (fun e => replaceOptName_nil_blank e),
        if_of_imp' (fun e => ⟨e.1, fun k => e.2 (replaceOptName_nil_blank k)⟩),
        if_of_imp' (fun e => ⟨e.1, fun k => e.2 (replaceOptName_nil_blank k)⟩)]

/-! ### OI_VIS2 -/

/-- The indices as they are after `blank`. -/
def vis2Blank (corrname : CStr) (r : OiVis2Record R) : OiVis2Record R :=
  { r with
    corrindx_vis2data := if corrname = [] then 0 else r.corrindx_vis2data }

theorem dup_vis2_blank (t : OiVis2 R) : dup_oi_vis2 t.blank = (dup_oi_vis2 t).bind fun x => .ok x.blank := by
  unfold dup_oi_vis2
  rw [show t.blank.record = t.record.map (vis2Blank t.corrname) from rfl, memdup_map, List.length_map]
  cases memdup t.record t.record.length with
  | ok l =>
    simp only [bind_of_ok, obind_of_ok]
    rw [mapM_map_self (vis2Blank t.corrname) (fun r => by repeat' (first | rfl | (refine bind_ok_congr fun _ => ?_)))]
    refine (obind_assoc' _ _ _).trans ?_
    exact bind_ok_congr fun _ => rfl
  | abort => rfl
  | ub => rfl

theorem upgrade_vis2_blank (t : OiVis2 R) : upgrade_oi_vis2 t.blank = (upgrade_oi_vis2 t).blank := by
  unfold upgrade_oi_vis2
  rw [show t.blank.revision = t.revision from rfl]
  split
  · simp only [OiVis2.blank, List.map_map, Function.comp_def]
  · rfl

theorem add_vis2_blank {x x' : OiFits R} {t t' : OiVis2 R} (h : x.blank = x'.blank) (ht : t.blank = t'.blank) :
    ({ x with vis2List := x.vis2List ++ [t], numVis2 := x.numVis2 + 1 } : OiFits R).blank
      = ({ x' with vis2List := x'.vis2List ++ [t'], numVis2 := x'.numVis2 + 1 } : OiFits R).blank := by
  have key : ∀ (x : OiFits R) (t : OiVis2 R),
      ({ x with vis2List := x.vis2List ++ [t], numVis2 := x.numVis2 + 1 } : OiFits R).blank
        = { x.blank with vis2List := x.blank.vis2List ++ [t.blank], numVis2 := x.blank.numVis2 + 1 } := by
    intro x t
    simp only [OiFits.blank, List.map_append, List.map_cons, List.map_nil]
  rw [key, key, h, ht]

theorem mergeVis2Tab_blank (inp : OiFits R) (ids : HMap Int) (ah ih ch : HMap CStr) {x x' : OiFits R} (h : x.blank = x'.blank)
    (t : OiVis2 R) : bl (mergeVis2Tab inp.blank ids ah ih ch x t.blank) = bl (mergeVis2Tab inp ids ah ih ch x' t) := by
  unfold mergeVis2Tab
  rw [dup_vis2_blank]
  cases dup_oi_vis2 t with
  | abort => rfl
  | ub => rfl
  | ok d =>
    simp only [bind_of_ok, obind_of_ok, mergedTargetId_blank, upgrade_vis2_blank]
    generalize upgrade_oi_vis2 d = u
    rw [show u.blank.record = u.record.map (vis2Blank u.corrname) from rfl,
      mapM_map_self (vis2Blank u.corrname) (fun r => by refine bind_ok_congr fun _ => ?_; rfl)]
    generalize List.mapM (m := Outcome) _ u.record = m
    cases m with
    | abort => rfl
    | ub => rfl
    | ok l =>
      show Outcome.ok _ = Outcome.ok _
      congr 1
      apply add_vis2_blank h
      unfold OiVis2.blank
      simp only [List.map_map, Function.comp_def, vis2Blank, if_if_some]
      congr 1
      apply List.map_congr_left
      intro r _
      rw [if_of_imp (fun e => replaceOptName_nil_blank e)]

/-! ### OI_T3 -/

/-- The indices as they are after `blank`. -/
def t3Blank (corrname : CStr) (r : OiT3Record R) : OiT3Record R :=
  { r with
    corrindx_t3amp := if corrname = [] then 0 else r.corrindx_t3amp
    corrindx_t3phi := if corrname = [] then 0 else r.corrindx_t3phi }

theorem dup_t3_blank (t : OiT3 R) : dup_oi_t3 t.blank = (dup_oi_t3 t).bind fun x => .ok x.blank := by
  unfold dup_oi_t3
  rw [show t.blank.record = t.record.map (t3Blank t.corrname) from rfl, memdup_map, List.length_map]
  cases memdup t.record t.record.length with
  | ok l =>
    simp only [bind_of_ok, obind_of_ok]
    rw [mapM_map_self (t3Blank t.corrname) (fun r => by repeat' (first | rfl | (refine bind_ok_congr fun _ => ?_)))]
    refine (obind_assoc' _ _ _).trans ?_
    exact bind_ok_congr fun _ => rfl
  | abort => rfl
  | ub => rfl

theorem upgrade_t3_blank (t : OiT3 R) : upgrade_oi_t3 t.blank = (upgrade_oi_t3 t).blank := by
  unfold upgrade_oi_t3
  rw [show t.blank.revision = t.revision from rfl]
  split
  · simp only [OiT3.blank, List.map_map, Function.comp_def]
  · rfl

theorem add_t3_blank {x x' : OiFits R} {t t' : OiT3 R} (h : x.blank = x'.blank) (ht : t.blank = t'.blank) :
    ({ x with t3List := x.t3List ++ [t], numT3 := x.numT3 + 1 } : OiFits R).blank
      = ({ x' with t3List := x'.t3List ++ [t'], numT3 := x'.numT3 + 1 } : OiFits R).blank := by
  have key : ∀ (x : OiFits R) (t : OiT3 R),
      ({ x with t3List := x.t3List ++ [t], numT3 := x.numT3 + 1 } : OiFits R).blank
        = { x.blank with t3List := x.blank.t3List ++ [t.blank], numT3 := x.blank.numT3 + 1 } := by
    intro x t
    simp only [OiFits.blank, List.map_append, List.map_cons, List.map_nil]
  rw [key, key, h, ht]

theorem mergeT3Tab_blank (inp : OiFits R) (ids : HMap Int) (ah ih ch : HMap CStr) {x x' : OiFits R} (h : x.blank = x'.blank)
    (t : OiT3 R) : bl (mergeT3Tab inp.blank ids ah ih ch x t.blank) = bl (mergeT3Tab inp ids ah ih ch x' t) := by
  unfold mergeT3Tab
  rw [dup_t3_blank]
  cases dup_oi_t3 t with
  | abort => rfl
  | ub => rfl
  | ok d =>
    simp only [bind_of_ok, obind_of_ok, mergedTargetId_blank, upgrade_t3_blank]
    generalize upgrade_oi_t3 d = u
    rw [show u.blank.record = u.record.map (t3Blank u.corrname) from rfl,
      mapM_map_self (t3Blank u.corrname) (fun r => by refine bind_ok_congr fun _ => ?_; rfl)]
    generalize List.mapM (m := Outcome) _ u.record = m
    cases m with
    | abort => rfl
    | ub => rfl
    | ok l =>
      show Outcome.ok _ = Outcome.ok _
      congr 1
      apply add_t3_blank h
      unfold OiT3.blank
      simp only [List.map_map, Function.comp_def, t3Blank, if_if_some]
      congr 1
      apply List.map_congr_left
      intro r _
      rw [if_of_imp (fun e => replaceOptName_nil_blank e), if_of_imp (fun e => replaceOptName_nil_blank e)]

/-! ### OI_FLUX -/

/-- The indices as they are after `blank`. -/
def fluxBlank (corrname : CStr) (r : OiFluxRecord R) : OiFluxRecord R :=
  { r with
    corrindx_fluxdata := if corrname = [] then 0 else r.corrindx_fluxdata }

theorem dup_flux_blank (t : OiFlux R) : dup_oi_flux t.blank = (dup_oi_flux t).bind fun x => .ok x.blank := by
  unfold dup_oi_flux
  rw [show t.blank.record = t.record.map (fluxBlank t.corrname) from rfl, memdup_map, List.length_map]
  cases memdup t.record t.record.length with
  | ok l =>
    simp only [bind_of_ok, obind_of_ok]
    rw [mapM_map_self (fluxBlank t.corrname) (fun r => by repeat' (first | rfl | (refine bind_ok_congr fun _ => ?_)))]
    refine (obind_assoc' _ _ _).trans ?_
    exact bind_ok_congr fun _ => rfl
  | abort => rfl
  | ub => rfl

theorem add_flux_blank {x x' : OiFits R} {t t' : OiFlux R} (h : x.blank = x'.blank) (ht : t.blank = t'.blank) :
    ({ x with fluxList := x.fluxList ++ [t], numFlux := x.numFlux + 1 } : OiFits R).blank
      = ({ x' with fluxList := x'.fluxList ++ [t'], numFlux := x'.numFlux + 1 } : OiFits R).blank := by
  have key : ∀ (x : OiFits R) (t : OiFlux R),
      ({ x with fluxList := x.fluxList ++ [t], numFlux := x.numFlux + 1 } : OiFits R).blank
        = { x.blank with fluxList := x.blank.fluxList ++ [t.blank], numFlux := x.blank.numFlux + 1 } := by
    intro x t
    simp only [OiFits.blank, List.map_append, List.map_cons, List.map_nil]
  rw [key, key, h, ht]

theorem mergeFluxTab_blank (inp : OiFits R) (ids : HMap Int) (ah ih ch : HMap CStr) {x x' : OiFits R} (h : x.blank = x'.blank)
    (t : OiFlux R) : bl (mergeFluxTab inp.blank ids ah ih ch x t.blank) = bl (mergeFluxTab inp ids ah ih ch x' t) := by
  unfold mergeFluxTab
  rw [dup_flux_blank]
  cases dup_oi_flux t with
  | abort => rfl
  | ub => rfl
  | ok d =>
    simp only [bind_of_ok, obind_of_ok, mergedTargetId_blank]
    generalize d = u
    rw [show u.blank.record = u.record.map (fluxBlank u.corrname) from rfl,
      mapM_map_self (fluxBlank u.corrname) (fun r => by refine bind_ok_congr fun _ => ?_; rfl)]
    generalize List.mapM (m := Outcome) _ u.record = m
    cases m with
    | abort => rfl
    | ub => rfl
    | ok l =>
      show Outcome.ok _ = Outcome.ok _
      congr 1
      apply add_flux_blank h
      unfold OiFlux.blank
      simp only [List.map_map, Function.comp_def, fluxBlank, if_if_some]
      congr 1
      apply List.map_congr_left
      intro r _
      rw [if_of_imp (fun e => replaceOptName_nil_blank e)]

/-! ### The other tables -/

theorem header_map_blank (ins : List (OiFits R)) (out : OiFits R) :
    merge_oi_header (ins.map OiFits.blank) out = merge_oi_header ins out := by
  have h1 : files_min_mjd (ins.map OiFits.blank) = files_min_mjd ins := by
    unfold files_min_mjd
    rw [List.foldlM_map]
    rfl
  unfold merge_oi_header
  simp only [h1, List.map_map, Function.comp_def]
  rfl

/-- The target without its category. -/
def bareTarget (t : Target R) : Target R := { t with category := [] }

/-- Target lists which differ only in what is not set. -/
def NearTargets (a b : List (Target R)) : Prop := a.map bareTarget = b.map bareTarget

theorem NearTargets.step {a b : List (Target R)} (h : NearTargets a b) {t t' : Target R}
    (ht : bareTarget t = bareTarget t') (ids : HMap Int) :
    (∃ a' b' ids', mergeTargetStep (a, ids) t = .ok (a', ids') ∧ mergeTargetStep (b, ids) t' = .ok (b', ids') ∧ NearTargets a' b')
      ∨ (mergeTargetStep (a, ids) t = mergeTargetStep (b, ids) t' ∧ ∀ x, mergeTargetStep (a, ids) t ≠ .ok x) := by
  obtain ⟨_, tn⟩ := t
  obtain ⟨_, _⟩ := t'
  unfold bareTarget at ht
  cases ht
  have hl : a.length = b.length := by simpa using congrArg List.length h
  unfold mergeTargetStep
  simp only [← hl]
  cases ids.lookup tn with
  | some i => exact .inl ⟨a, b, ids, rfl, rfl, h⟩
  | none =>
    simp only
    cases hd : decide (a.length + 1 < MAX_TARGET) with
    | false => exact .inr ⟨rfl, fun x e => by cases e⟩
    | true =>
      refine .inl ⟨_, _, _, rfl, rfl, ?_⟩
      unfold NearTargets at h ⊢
      rw [List.map_append, List.map_append, h]
      congr 1

theorem NearTargets.fold {g : Target R → Target R} (hg : ∀ t, bareTarget (g t) = bareTarget t)
    (l : List (Target R)) : ∀ {a b : List (Target R)} (_ : NearTargets a b) (ids : HMap Int),
    (∃ a' b' ids', (l.map g).foldlM mergeTargetStep (a, ids) = .ok (a', ids') ∧ l.foldlM mergeTargetStep (b, ids) = .ok (b', ids') ∧ NearTargets a' b')
      ∨ ((l.map g).foldlM mergeTargetStep (a, ids) = l.foldlM mergeTargetStep (b, ids) ∧ ∀ x, l.foldlM mergeTargetStep (b, ids) ≠ .ok x) := by
  induction l with
  | nil => intro a b h ids; exact .inl ⟨a, b, ids, rfl, rfl, h⟩
  | cons t l ih =>
    intro a b h ids
    rw [List.map_cons, List.foldlM_cons, List.foldlM_cons]
    rcases h.step (hg t) ids with ⟨a', b', ids', e1, e2, h'⟩ | ⟨e, hn⟩
    · rw [e1, e2]
      exact ih h' ids'
    · rw [← e]
      cases hm : mergeTargetStep (a, ids) (g t) with
      | ok x => exact absurd hm (hn x)
      | abort => exact .inr ⟨rfl, fun x e => by cases e⟩
      | ub => exact .inr ⟨rfl, fun x e => by cases e⟩

theorem NearTargets.loop (ins : List (OiFits R)) : ∀ (rev : Int) {a b : List (Target R)} (_ : NearTargets a b) (ids : HMap Int),
    (∃ a' b', ∃ r' : Int × HMap Int, mergeTargetLoop (ins.map OiFits.blank) (rev, a, ids) = .ok (r'.1, a', r'.2)
        ∧ mergeTargetLoop ins (rev, b, ids) = .ok (r'.1, b', r'.2) ∧ NearTargets a' b')
      ∨ (mergeTargetLoop (ins.map OiFits.blank) (rev, a, ids) = mergeTargetLoop ins (rev, b, ids)
        ∧ ∀ x, mergeTargetLoop ins (rev, b, ids) ≠ .ok x) := by
  induction ins with
  | nil => intro rev a b h ids; exact .inl ⟨a, b, (rev, ids), rfl, rfl, h⟩
  | cons oi ins ih =>
    intro rev a b h ids
    rw [List.map_cons]
    unfold mergeTargetLoop
    rw [show oi.blank.targets.targ = oi.targets.targ.map fun x => { x with category := if oi.targets.usecategory then x.category else [] } from rfl]
    rcases h.fold (g := fun x => { x with category := if oi.targets.usecategory then x.category else [] }) (fun t => rfl) oi.targets.targ ids with ⟨a', b', ids', e1, e2, h'⟩ | ⟨e, hn⟩
    · rw [e1, e2]
      exact ih _ h' ids'
    · rw [e]
      cases hm : oi.targets.targ.foldlM mergeTargetStep (b, ids) with
      | ok x => exact absurd hm (hn x)
      | abort => exact .inr ⟨rfl, fun x e => by cases e⟩
      | ub => exact .inr ⟨rfl, fun x e => by cases e⟩

theorem target_map_blank (ins : List (OiFits R)) (out : OiFits R) (hc : out.targets.usecategory = false) :
    blp (merge_oi_target (ins.map OiFits.blank) out) = blp (merge_oi_target ins out) := by
  unfold merge_oi_target
  rcases NearTargets.loop ins OI_REVN_V2_TARGET (rfl : NearTargets ([] : List (Target R)) []) HMap.empty
    with ⟨a', b', r', e1, e2, h⟩ | ⟨e, _⟩
  · rw [e1, e2]
    show Outcome.ok _ = Outcome.ok _
    unfold OiFits.blank OiTarget.blank
    simp only [hc]
    exact congrArg (fun l => Outcome.ok (({ out with
      targets := { revision := r'.1, targ := l, usecategory := false }
      visList := out.visList.map OiVis.blank
      vis2List := out.vis2List.map OiVis2.blank
      t3List := out.t3List.map OiT3.blank
      fluxList := out.fluxList.map OiFlux.blank } : OiFits R), r'.2)) h
  · rw [e]

theorem mergeArrayStep_blank (x : OiFits R) (y : HMap CStr) (a : OiArray R) :
    mergeArrayStep (x.blank, y) a = blp (mergeArrayStep (x, y) a) := by
  unfold mergeArrayStep
  simp only
  rw [show x.blank.arrayList = x.arrayList from rfl]
  cases match_oi_array a x.arrayList with
  | some b => rfl
  | none => cases dup_oi_array a <;> rfl

theorem mergeWavelengthStep_blank (x : OiFits R) (y : HMap CStr) (a : OiWavelength R) :
    mergeWavelengthStep (x.blank, y) a = blp (mergeWavelengthStep (x, y) a) := by
  unfold mergeWavelengthStep
  simp only
  rw [show x.blank.wavelengthList = x.wavelengthList from rfl]
  cases match_oi_wavelength a x.wavelengthList with
  | abort => rfl
  | ub => rfl
  | ok m =>
    cases m with
    | some b => rfl
    | none => simp only [bind_of_ok]; cases dup_oi_wavelength a <;> rfl

theorem mergeCorrStep_blank (x : OiFits R) (y : HMap CStr) (a : OiCorr R) :
    mergeCorrStep (x.blank, y) a = blp (mergeCorrStep (x, y) a) := by
  unfold mergeCorrStep
  cases dup_oi_corr a <;> rfl

theorem mergeNames_blank {τ : Type} {tabs : OiFits R → List τ}
    {step : OiFits R × HMap CStr → τ → Outcome (OiFits R × HMap CStr)} (ht : ∀ i, tabs (OiFits.blank i) = tabs i)
    (hs : ∀ x y a, step (OiFits.blank x, y) a = blp (step (x, y) a)) (ins : List (OiFits R)) :
    ∀ (x : OiFits R) (l : List (HMap CStr)), mergeNames tabs step (ins.map OiFits.blank) x.blank l = blp (mergeNames tabs step ins x l) := by
  induction ins with
  | nil => intro x l; rfl
  | cons i ins ih =>
    intro x l
    rw [List.map_cons]
    unfold mergeNames
    rw [ht, foldlM_blp hs]
    cases (tabs i).foldlM step (x, HMap.empty) with
    | ok z => exact ih z.1 _
    | abort => rfl
    | ub => rfl

theorem map_blank_blank (ins : List (OiFits R)) : (ins.map OiFits.blank).map OiFits.blank = ins.map OiFits.blank := by
  rw [List.map_map]
  exact List.map_congr_left fun x _ => x.blank_blank

theorem names_alike {s : List (OiFits R) → OiFits R → Outcome (OiFits R × α)}
    (hs : ∀ ins x, s (ins.map OiFits.blank) (OiFits.blank x) = blp (s ins x)) (ins : List (OiFits R)) {x x' : OiFits R}
    (h : x.blank = x'.blank) : blp (s (ins.map OiFits.blank) x) = blp (s ins x') := by
  rw [← hs, ← hs, map_blank_blank, h]

theorem merge_array_blank (ins : List (OiFits R)) (x : OiFits R) :
    merge_all_oi_array (ins.map OiFits.blank) x.blank = blp (merge_all_oi_array ins x) := by
  unfold merge_all_oi_array
  rw [show x.blank.arrayList = x.arrayList from rfl]
  cases x.arrayList.isEmpty with
  | false => rfl
  | true => exact mergeNames_blank (fun _ => rfl) mergeArrayStep_blank ins x []

theorem merge_wavelength_blank (ins : List (OiFits R)) (x : OiFits R) :
    merge_all_oi_wavelength (ins.map OiFits.blank) x.blank = blp (merge_all_oi_wavelength ins x) := by
  unfold merge_all_oi_wavelength
  rw [show x.blank.wavelengthList = x.wavelengthList from rfl]
  cases x.wavelengthList.isEmpty with
  | false => rfl
  | true => exact mergeNames_blank (fun _ => rfl) mergeWavelengthStep_blank ins x []

theorem merge_corr_blank (ins : List (OiFits R)) (x : OiFits R) :
    merge_all_oi_corr (ins.map OiFits.blank) x.blank = blp (merge_all_oi_corr ins x) := by
  unfold merge_all_oi_corr
  rw [show x.blank.corrList = x.corrList from rfl]
  cases x.corrList.isEmpty with
  | false => rfl
  | true => exact mergeNames_blank (fun _ => rfl) mergeCorrStep_blank ins x []

theorem merge_inspol_blank (ids : HMap Int) (ins : List (OiFits R)) : ∀ (as is : List (HMap CStr)) (x : OiFits R),
    merge_all_oi_inspol ids (ins.map OiFits.blank) as is x.blank = bl (merge_all_oi_inspol ids ins as is x) := by
  induction ins with
  | nil => intro as is x; rfl
  | cons i ins ih =>
    intro as is x
    rw [List.map_cons]
    cases as with
    | nil => rfl
    | cons a as =>
      cases is with
      | nil => rfl
      | cons s is =>
        unfold merge_all_oi_inspol
        rw [show i.blank.inspolList = i.inspolList from rfl, foldlM_bl (f := mergeInspolTab i.blank ids a s) fun x t => by
            unfold mergeInspolTab
            cases dup_oi_inspol t with
            | abort => rfl
            | ub => rfl
            | ok d =>
              simp only [bind_of_ok]
              generalize List.mapM (m := Outcome) _ d.record = m
              cases m <;> rfl]
        have hc : mergeInspolTab i.blank ids a s = mergeInspolTab i ids a s := by
          funext x t
          unfold mergeInspolTab
          simp only [mergedTargetId_blank]
        rw [hc]
        cases i.inspolList.foldlM (mergeInspolTab i ids a s) x with
        | ok z => exact ih as is z
        | abort => rfl
        | ub => rfl

theorem foldlM_near {τ : Type} {f f' : OiFits R → τ → Outcome (OiFits R)} {g : τ → τ}
    (hf : ∀ x x' t, OiFits.blank x = OiFits.blank x' → bl (f x (g t)) = bl (f' x' t)) (l : List τ) :
    ∀ {x x' : OiFits R}, x.blank = x'.blank → bl ((l.map g).foldlM f x) = bl (l.foldlM f' x') := by
  induction l with
  | nil => intro x x' h; exact congrArg Outcome.ok h
  | cons t l ih =>
    intro x x' h
    rw [List.map_cons, List.foldlM_cons, List.foldlM_cons]
    exact bl_bind (hf x x' t h) fun y y' hy => ih hy

theorem mergeData_blank {τ : Type} {tabs : OiFits R → List τ} {g : τ → τ}
    {step : OiFits R → HMap CStr → HMap CStr → HMap CStr → OiFits R → τ → Outcome (OiFits R)}
    (ht : ∀ i, tabs (OiFits.blank i) = (tabs i).map g)
    (hs : ∀ i a s c x x' t, OiFits.blank x = OiFits.blank x' → bl (step (OiFits.blank i) a s c x (g t)) = bl (step i a s c x' t))
    (ins : List (OiFits R)) : ∀ (as is cs : List (HMap CStr)) {x x' : OiFits R}, x.blank = x'.blank →
      bl (mergeData tabs step (ins.map OiFits.blank) as is cs x) = bl (mergeData tabs step ins as is cs x') := by
  induction ins with
  | nil => intro as is cs x x' h; exact congrArg Outcome.ok h
  | cons i ins ih =>
    intro as is cs x x' h
    rw [List.map_cons]
    cases as with
    | nil => rfl
    | cons a as =>
      cases is with
      | nil => rfl
      | cons s is =>
        cases cs with
        | nil => rfl
        | cons c cs =>
          unfold mergeData
          rw [ht]
          exact bl_bind (foldlM_near (fun x x' t => hs i a s c x x' t) _ h) fun y y' hy => ih as is cs hy

/-- Merging does not look at what is not set. -/
theorem merge_map_blank (ins : List (OiFits R)) :
    bl (merge_oi_fits_list (ins.map OiFits.blank)) = bl (merge_oi_fits_list ins) := by
  unfold merge_oi_fits_list
  simp only [header_map_blank]
  have hc : ∀ out : OiFits R, merge_oi_header ins (init_oi_fits R) = .ok out → out.targets.usecategory = false := by
    intro out h
    unfold merge_oi_header at h
    cases hg : guardAssert ((init_oi_fits R).header.origin.length == 0) with
    | abort => rw [hg] at h; cases h
    | ub => rw [hg] at h; cases h
    | ok u =>
      rw [hg] at h
      cases hm : files_min_mjd ins with
      | abort => rw [hm] at h; cases h
      | ub => rw [hm] at h; cases h
      | ok m => rw [hm] at h; cases h; rfl
  cases hh : merge_oi_header ins (init_oi_fits R) with
  | abort => rfl
  | ub => rfl
  | ok out =>
    simp only [bind_of_ok]
    refine blp_bind (target_map_blank ins out (hc out hh)) fun x x' ids h => ?_
    refine blp_bind (names_alike merge_array_blank ins h) fun x x' as h => ?_
    refine blp_bind (names_alike merge_wavelength_blank ins h) fun x x' is h => ?_
    refine blp_bind (names_alike merge_corr_blank ins h) fun x x' cs h => ?_
    refine bl_bind (m := merge_all_oi_inspol ids (ins.map OiFits.blank) as is x)
      (m' := merge_all_oi_inspol ids ins as is x') ?_ fun x x' h => ?_
    · rw [← merge_inspol_blank, ← merge_inspol_blank, map_blank_blank, h]
    refine bl_bind (mergeData_blank (g := OiVis.blank) (fun _ => rfl)
      (fun i a s c x x' t h => mergeVisTab_blank i ids a s c h t) ins as is cs h) fun x x' h => ?_
    refine bl_bind (mergeData_blank (g := OiVis2.blank) (fun _ => rfl)
      (fun i a s c x x' t h => mergeVis2Tab_blank i ids a s c h t) ins as is cs h) fun x x' h => ?_
    refine bl_bind (mergeData_blank (g := OiT3.blank) (fun _ => rfl)
      (fun i a s c x x' t h => mergeT3Tab_blank i ids a s c h t) ins as is cs h) fun x x' h => ?_
    exact mergeData_blank (g := OiFlux.blank) (fun _ => rfl)
      (fun i a s c x x' t h => mergeFluxTab_blank i ids a s c h t) ins as is cs h

theorem merge_alike {as bs : List (OiFits R)} (h : as.map OiFits.blank = bs.map OiFits.blank) :
    bl (merge_oi_fits_list as) = bl (merge_oi_fits_list bs) := by
  rw [← merge_map_blank as, ← merge_map_blank bs, h]

end Verif
