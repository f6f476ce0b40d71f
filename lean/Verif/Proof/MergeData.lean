import Verif.Proof.MergeTabs
import Verif.Proof.MergeTarget
import Verif.Props.File

/-! Merging of data tables, and what a completed merge consists of. -/

namespace Verif
open Outcome Spec

variable {R : FP} {τ : Type}

theorem forall₂_pairwise₂ {α β : Type} {P : α → β → Prop} {l : List α} {l' : List β}
    (h : List.Forall₂ P l l') : Pairwise₂ P l l' := by
  induction h with
  | nil => exact ⟨rfl, by simp⟩
  | cons hx _ ih =>
    refine ⟨by simp [ih.1], ?_⟩
    intro i x y hx' hy'
    cases i with
    | zero => simp at hx' hy'; subst hx'; subst hy'; exact hx
    | succ i => exact ih.2 i x y (by simpa using hx') (by simpa using hy')

theorem forall₂_map {α β : Type} {P : α → β → Prop} {f : α → β} {l : List α}
    (h : ∀ x ∈ l, P x (f x)) : List.Forall₂ P l (l.map f) := by
  induction l with
  | nil => exact .nil
  | cons x l ih => exact .cons (h x (by simp)) (ih fun y hy => h y (by simp [hy]))

theorem mapM_forall₂ {α β : Type} {f : α → Outcome β} {l : List α} {l' : List β}
    (h : l.mapM f = .ok l') : List.Forall₂ (fun x y => f x = .ok y) l l' := by
  induction l generalizing l' with
  | nil => cases h; exact .nil
  | cons x l ih =>
    rw [List.mapM_cons] at h
    obtain ⟨y, hy, h⟩ := bind_eq_ok.mp h
    obtain ⟨ys, hys, h⟩ := bind_eq_ok.mp h
    cases h
    exact .cons hy (ih hys)

theorem mapM_exists {α β : Type} {f : α → Outcome β} {l : List α}
    (h : ∀ x ∈ l, ∃ y, f x = .ok y) : ∃ l', l.mapM f = .ok l' := by
  induction l with
  | nil => exact ⟨[], rfl⟩
  | cons x l ih =>
    obtain ⟨y, hy⟩ := h x (by simp)
    obtain ⟨ys, hys⟩ := ih fun x hx => h x (by simp [hx])
    exact ⟨y :: ys, by rw [List.mapM_cons, hy, bind_ok, hys]; rfl⟩

theorem forall₂_mono {α β : Type} {P Q : α → β → Prop} {l : List α} {l' : List β}
    (hpq : ∀ x ∈ l, ∀ y, P x y → Q x y) (h : List.Forall₂ P l l') : List.Forall₂ Q l l' := by
  induction h with
  | nil => exact .nil
  | cons hx _ ih =>
    exact .cons (hpq _ (by simp) _ hx) (ih fun x hx => hpq x (by simp [hx]))

theorem forall₂_append {α β : Type} {P : α → β → Prop} {l m : List α} {l' m' : List β}
    (h : List.Forall₂ P l l') (h' : List.Forall₂ P m m') : List.Forall₂ P (l ++ m) (l' ++ m') := by
  induction h with
  | nil => exact h'
  | cons hx _ ih => exact .cons hx ih

/-! ### The generic loop -/

theorem mergeData_spec {tabs : OiFits R → List τ}
    {step : OiFits R → HMap CStr → HMap CStr → HMap CStr → OiFits R → τ → Outcome (OiFits R)}
    {f : OiFits R → HMap CStr → HMap CStr → HMap CStr → τ → Outcome τ} {app : OiFits R → τ → OiFits R}
    (hstep : ∀ inp a i c out t, step inp a i c out t =
      (f inp a i c t >>= fun t' => .ok (app out t')))
    {PA PI PC : OiFits R → HMap CStr → Prop} {ins : List (OiFits R)} :
    ∀ {as is cs : List (HMap CStr)} {out out' : OiFits R},
    List.Forall₂ PA ins as → List.Forall₂ PI ins is → List.Forall₂ PC ins cs →
    mergeData tabs step ins as is cs out = .ok out' →
    ∃ L, out' = L.foldl app out ∧
      List.Forall₂ (fun p t' => ∃ a i c, PA p.1 a ∧ PI p.1 i ∧ PC p.1 c ∧ f p.1 a i c p.2 = .ok t')
        (tablesOf tabs ins) L := by
  have hfold : ∀ (inp : OiFits R) a i c (xs : List τ) out out',
      xs.foldlM (step inp a i c) out = .ok out' →
      ∃ L, out' = L.foldl app out ∧ List.Forall₂ (fun x t' => f inp a i c x = .ok t') xs L := by
    intro inp a i c xs
    induction xs with
    | nil => intro out out' h; cases h; exact ⟨[], rfl, .nil⟩
    | cons x xs ih =>
      intro out out' h
      rw [List.foldlM_cons] at h
      obtain ⟨o1, h1, h⟩ := bind_eq_ok.mp h
      rw [hstep] at h1
      obtain ⟨t', ht', h1⟩ := bind_eq_ok.mp h1
      cases h1
      obtain ⟨L, rfl, hL⟩ := ih _ _ h
      exact ⟨t' :: L, rfl, .cons ht' hL⟩
  induction ins with
  | nil =>
    intro as is cs out out' ha hi hc h
    cases ha; cases hi; cases hc
    simp only [mergeData, Outcome.ok.injEq] at h
    exact ⟨[], h.symm, .nil⟩
  | cons inp ins ih =>
    intro as is cs out out' ha hi hc h
    cases ha with
    | cons ha1 ha =>
    cases hi with
    | cons hi1 hi =>
    cases hc with
    | cons hc1 hc =>
    unfold mergeData at h
    obtain ⟨o1, h1, h⟩ := bind_eq_ok.mp h
    obtain ⟨L1, rfl, hL1⟩ := hfold _ _ _ _ _ _ _ h1
    obtain ⟨L2, rfl, hL2⟩ := ih ha hi hc h
    refine ⟨L1 ++ L2, by simp, ?_⟩
    unfold tablesOf
    rw [List.flatMap_cons]
    refine forall₂_append ?_ hL2
    rw [List.forall₂_map_left_iff]
    exact forall₂_mono (fun x _ y h => ⟨_, _, _, ha1, hi1, hc1, h⟩) hL1

/-- The tables with the hash tables of new names of their dataset. -/
def zipTables (tabs : OiFits R → List τ) :
    List (OiFits R) → List (HMap CStr) → List (HMap CStr) → List (HMap CStr) →
      List ((OiFits R × HMap CStr × HMap CStr × HMap CStr) × τ)
  | inp :: ins, a :: as, i :: is, c :: cs =>
    (tabs inp).map (fun t => ((inp, a, i, c), t)) ++ zipTables tabs ins as is cs
  | _, _, _, _ => []

theorem mergeData_zip {tabs : OiFits R → List τ}
    {step : OiFits R → HMap CStr → HMap CStr → HMap CStr → OiFits R → τ → Outcome (OiFits R)}
    {f : OiFits R → HMap CStr → HMap CStr → HMap CStr → τ → Outcome τ} {app : OiFits R → τ → OiFits R}
    (hstep : ∀ inp a i c out t, step inp a i c out t =
      (f inp a i c t >>= fun t' => .ok (app out t'))) {ins : List (OiFits R)} :
    ∀ {as is cs : List (HMap CStr)} {out out' : OiFits R},
    mergeData tabs step ins as is cs out = .ok out' →
    ∃ L, out' = L.foldl app out ∧
      List.Forall₂ (fun p t' => f p.1.1 p.1.2.1 p.1.2.2.1 p.1.2.2.2 p.2 = .ok t')
        (zipTables tabs ins as is cs) L := by
  have hfold : ∀ (inp : OiFits R) a i c (xs : List τ) out out',
      xs.foldlM (step inp a i c) out = .ok out' →
      ∃ L, out' = L.foldl app out ∧ List.Forall₂ (fun x t' => f inp a i c x = .ok t') xs L := by
    intro inp a i c xs
    induction xs with
    | nil => intro out out' h; cases h; exact ⟨[], rfl, .nil⟩
    | cons x xs ih =>
      intro out out' h
      rw [List.foldlM_cons] at h
      obtain ⟨o1, h1, h⟩ := bind_eq_ok.mp h
      rw [hstep] at h1
      obtain ⟨t', ht', h1⟩ := bind_eq_ok.mp h1
      cases h1
      obtain ⟨L, rfl, hL⟩ := ih _ _ h
      exact ⟨t' :: L, rfl, .cons ht' hL⟩
  induction ins with
  | nil =>
    intro as is cs out out' h
    simp only [mergeData, Outcome.ok.injEq] at h
    exact ⟨[], h.symm, .nil⟩
  | cons inp ins ih =>
    intro as is cs out out' h
    match as, is, cs, h with
    | a :: as, i :: is, c :: cs, h =>
      unfold mergeData at h
      obtain ⟨o1, h1, h⟩ := bind_eq_ok.mp h
      obtain ⟨L1, rfl, hL1⟩ := hfold _ _ _ _ _ _ _ h1
      obtain ⟨L2, rfl, hL2⟩ := ih h
      refine ⟨L1 ++ L2, by simp, ?_⟩
      unfold zipTables
      refine forall₂_append ?_ hL2
      rw [List.forall₂_map_left_iff]
      exact hL1
    | [], _, _, h => simp [mergeData] at h
    | _ :: _, [], _, h => simp [mergeData] at h
    | _ :: _, _ :: _, [], h => simp [mergeData] at h

theorem mergeData_ok {tabs : OiFits R → List τ}
    {step : OiFits R → HMap CStr → HMap CStr → HMap CStr → OiFits R → τ → Outcome (OiFits R)}
    {f : OiFits R → HMap CStr → HMap CStr → HMap CStr → τ → Outcome τ} {app : OiFits R → τ → OiFits R}
    (hstep : ∀ inp a i c out t, step inp a i c out t =
      (f inp a i c t >>= fun t' => .ok (app out t'))) {ins : List (OiFits R)}
    (hf : ∀ inp ∈ ins, ∀ t ∈ tabs inp, ∀ a i c, ∃ t', f inp a i c t = .ok t') :
    ∀ {as is cs : List (HMap CStr)} {out : OiFits R},
    as.length = ins.length → is.length = ins.length → cs.length = ins.length →
    ∃ out', mergeData tabs step ins as is cs out = .ok out' := by
  have hfold : ∀ (inp : OiFits R) a i c (xs : List τ), (∀ t ∈ xs, ∃ t', f inp a i c t = .ok t') →
      ∀ out, ∃ out', xs.foldlM (step inp a i c) out = .ok out' := by
    intro inp a i c xs
    induction xs with
    | nil => intro _ out; exact ⟨out, rfl⟩
    | cons x xs ih =>
      intro hx out
      obtain ⟨t', ht'⟩ := hx x (by simp)
      obtain ⟨o', ho'⟩ := ih (fun t ht => hx t (by simp [ht])) (app out t')
      refine ⟨o', ?_⟩
      rw [List.foldlM_cons, hstep, ht', bind_ok, bind_ok, ho']
  induction ins with
  | nil =>
    intro as is cs out _ _ _
    exact ⟨out, by unfold mergeData; rfl⟩
  | cons inp ins ih =>
    intro as is cs out ha hi hc
    cases as with
    | nil => simp at ha
    | cons a as =>
    cases is with
    | nil => simp at hi
    | cons i is =>
    cases cs with
    | nil => simp at hc
    | cons c cs =>
    simp only [List.length_cons, Nat.add_right_cancel_iff] at ha hi hc
    obtain ⟨o1, h1⟩ := hfold inp a i c (tabs inp)
      (fun t ht => hf inp (by simp) t ht a i c) out
    obtain ⟨o2, h2⟩ := ih (fun inp h => hf inp (by simp [h])) (out := o1) ha hi hc
    refine ⟨o2, ?_⟩
    unfold mergeData
    rw [h1, bind_ok, h2]

/-! ### One table -/

/-- A merged OI_INSPOL table. -/
def mergedInspol (ids : HMap Int) (inp : OiFits R) (a i _c : HMap CStr) (t : OiInspol R) :
    Outcome (OiInspol R) := do
  let t ← dup_oi_inspol t
  let record ← t.record.mapM fun r => do
    let id ← mergedTargetId inp ids r.target_id
    return { r with target_id := id }
  return { t with
    arrname := replaceOptName a t.arrname
    record := record.map fun r => { r with insname := replaceName i r.insname } }

/-- A merged OI_VIS table. -/
def mergedVis (ids : HMap Int) (inp : OiFits R) (a i c : HMap CStr) (t : OiVis R) :
    Outcome (OiVis R) := do
  let t ← dup_oi_vis t
  let record ← (upgrade_oi_vis t).record.mapM fun r => do
    let id ← mergedTargetId inp ids r.target_id
    return { r with target_id := id }
  return { upgrade_oi_vis t with
    arrname := replaceOptName a (upgrade_oi_vis t).arrname
    insname := replaceName i (upgrade_oi_vis t).insname
    corrname := replaceOptName c (upgrade_oi_vis t).corrname
    record := record }

/-- A merged OI_VIS2 table. -/
def mergedVis2 (ids : HMap Int) (inp : OiFits R) (a i c : HMap CStr) (t : OiVis2 R) :
    Outcome (OiVis2 R) := do
  let t ← dup_oi_vis2 t
  let record ← (upgrade_oi_vis2 t).record.mapM fun r => do
    let id ← mergedTargetId inp ids r.target_id
    return { r with target_id := id }
  return { upgrade_oi_vis2 t with
    arrname := replaceOptName a (upgrade_oi_vis2 t).arrname
    insname := replaceName i (upgrade_oi_vis2 t).insname
    corrname := replaceOptName c (upgrade_oi_vis2 t).corrname
    record := record }

/-- A merged OI_T3 table. -/
def mergedT3 (ids : HMap Int) (inp : OiFits R) (a i c : HMap CStr) (t : OiT3 R) :
    Outcome (OiT3 R) := do
  let t ← dup_oi_t3 t
  let record ← (upgrade_oi_t3 t).record.mapM fun r => do
    let id ← mergedTargetId inp ids r.target_id
    return { r with target_id := id }
  return { upgrade_oi_t3 t with
    arrname := replaceOptName a (upgrade_oi_t3 t).arrname
    insname := replaceName i (upgrade_oi_t3 t).insname
    corrname := replaceOptName c (upgrade_oi_t3 t).corrname
    record := record }

/-- A merged OI_FLUX table. -/
def mergedFlux (ids : HMap Int) (inp : OiFits R) (a i c : HMap CStr) (t : OiFlux R) :
    Outcome (OiFlux R) := do
  let t ← dup_oi_flux t
  let record ← t.record.mapM fun r => do
    let id ← mergedTargetId inp ids r.target_id
    return { r with target_id := id }
  return { t with
    arrname := replaceOptName a t.arrname
    insname := replaceName i t.insname
    corrname := replaceOptName c t.corrname
    record := record }

def appInspol (out : OiFits R) (t : OiInspol R) : OiFits R :=
  { out with inspolList := out.inspolList ++ [t], numInspol := out.numInspol + 1 }
def appVis (out : OiFits R) (t : OiVis R) : OiFits R :=
  { out with visList := out.visList ++ [t], numVis := out.numVis + 1 }
def appVis2 (out : OiFits R) (t : OiVis2 R) : OiFits R :=
  { out with vis2List := out.vis2List ++ [t], numVis2 := out.numVis2 + 1 }
def appT3 (out : OiFits R) (t : OiT3 R) : OiFits R :=
  { out with t3List := out.t3List ++ [t], numT3 := out.numT3 + 1 }
def appFlux (out : OiFits R) (t : OiFlux R) : OiFits R :=
  { out with fluxList := out.fluxList ++ [t], numFlux := out.numFlux + 1 }

theorem foldl_appInspol (L : List (OiInspol R)) (out : OiFits R) : L.foldl appInspol out =
    { out with inspolList := out.inspolList ++ L, numInspol := out.numInspol + L.length } := by
  induction L generalizing out with
  | nil => simp
  | cons t L ih => rw [List.foldl_cons, ih]; simp [appInspol]; omega
theorem foldl_appVis (L : List (OiVis R)) (out : OiFits R) : L.foldl appVis out =
    { out with visList := out.visList ++ L, numVis := out.numVis + L.length } := by
  induction L generalizing out with
  | nil => simp
  | cons t L ih => rw [List.foldl_cons, ih]; simp [appVis]; omega
theorem foldl_appVis2 (L : List (OiVis2 R)) (out : OiFits R) : L.foldl appVis2 out =
    { out with vis2List := out.vis2List ++ L, numVis2 := out.numVis2 + L.length } := by
  induction L generalizing out with
  | nil => simp
  | cons t L ih => rw [List.foldl_cons, ih]; simp [appVis2]; omega
theorem foldl_appT3 (L : List (OiT3 R)) (out : OiFits R) : L.foldl appT3 out =
    { out with t3List := out.t3List ++ L, numT3 := out.numT3 + L.length } := by
  induction L generalizing out with
  | nil => simp
  | cons t L ih => rw [List.foldl_cons, ih]; simp [appT3]; omega
theorem foldl_appFlux (L : List (OiFlux R)) (out : OiFits R) : L.foldl appFlux out =
    { out with fluxList := out.fluxList ++ L, numFlux := out.numFlux + L.length } := by
  induction L generalizing out with
  | nil => simp
  | cons t L ih => rw [List.foldl_cons, ih]; simp [appFlux]; omega

theorem inspol_tab (ids : HMap Int) (inp : OiFits R) (a i c : HMap CStr) (out : OiFits R)
    (t : OiInspol R) : mergeInspolTab inp ids a i out t =
      (mergedInspol ids inp a i c t >>= fun t' => .ok (appInspol out t')) := by
  unfold mergeInspolTab mergedInspol
  simp only [bind_assoc]
  rfl
theorem vis_tab (ids : HMap Int) (inp : OiFits R) (a i c : HMap CStr) (out : OiFits R)
    (t : OiVis R) : mergeVisTab inp ids a i c out t =
      (mergedVis ids inp a i c t >>= fun t' => .ok (appVis out t')) := by
  unfold mergeVisTab mergedVis
  simp only [bind_assoc]
  rfl
theorem vis2_tab (ids : HMap Int) (inp : OiFits R) (a i c : HMap CStr) (out : OiFits R)
    (t : OiVis2 R) : mergeVis2Tab inp ids a i c out t =
      (mergedVis2 ids inp a i c t >>= fun t' => .ok (appVis2 out t')) := by
  unfold mergeVis2Tab mergedVis2
  simp only [bind_assoc]
  rfl
theorem t3_tab (ids : HMap Int) (inp : OiFits R) (a i c : HMap CStr) (out : OiFits R)
    (t : OiT3 R) : mergeT3Tab inp ids a i c out t =
      (mergedT3 ids inp a i c t >>= fun t' => .ok (appT3 out t')) := by
  unfold mergeT3Tab mergedT3
  simp only [bind_assoc]
  rfl
theorem flux_tab (ids : HMap Int) (inp : OiFits R) (a i c : HMap CStr) (out : OiFits R)
    (t : OiFlux R) : mergeFluxTab inp ids a i c out t =
      (mergedFlux ids inp a i c t >>= fun t' => .ok (appFlux out t')) := by
  unfold mergeFluxTab mergedFlux
  simp only [bind_assoc]
  rfl

/-- OI_INSPOL tables have no CORRNAME; the third list of hash tables is not used. -/
theorem merge_all_oi_inspol_eq (ids : HMap Int) (ins : List (OiFits R)) :
    ∀ (as is cs : List (HMap CStr)) (out : OiFits R), cs.length = ins.length →
    merge_all_oi_inspol ids ins as is out =
      mergeData OiFits.inspolList (fun inp a i _ => mergeInspolTab inp ids a i) ins as is cs out := by
  induction ins with
  | nil => intro as is cs out _; unfold merge_all_oi_inspol mergeData; rfl
  | cons inp ins ih =>
    intro as is cs out hc
    cases cs with
    | nil => simp at hc
    | cons c cs =>
    cases as with
    | nil => unfold merge_all_oi_inspol mergeData; rfl
    | cons a as =>
    cases is with
    | nil => unfold merge_all_oi_inspol mergeData; rfl
    | cons i is =>
    unfold merge_all_oi_inspol mergeData
    congr 1
    funext out
    exact ih as is cs out (by simpa using hc)

/-! ### The merged dataset -/

/-- The header of the merged dataset. -/
def mergedHeader (ins : List (OiFits R)) (mjd : Int) : OiHeader :=
  let key (f : OiHeader → CStr) (required : Bool) : CStr :=
    mergeKey (ins.map fun i => f i.header) required []
  { date_obs := snprintf FLEN_VALUE (fmtDate (mjd2date mjd))
    date := snprintf FLEN_VALUE ("[unset]" : CStr)
    content := snprintf FLEN_VALUE ("OIFITS2" : CStr)
    origin := key OiHeader.origin true
    telescop := key OiHeader.telescop true
    instrume := key OiHeader.instrume true
    observer := key OiHeader.observer true
    insmode := key OiHeader.insmode true
    object := key OiHeader.object true
    referenc := key OiHeader.referenc false
    author := key OiHeader.author false
    prog_id := key OiHeader.prog_id false
    procsoft := key OiHeader.procsoft false
    obstech := key OiHeader.obstech false }

theorem merge_oi_header_eq (ins : List (OiFits R)) :
    merge_oi_header ins (init_oi_fits R) =
      (fun mjd => { init_oi_fits R with header := mergedHeader ins mjd }) <$> files_min_mjd ins := by
  unfold merge_oi_header
  rw [show ((init_oi_fits R).header.origin.length == 0) = true from rfl, guardAssert_true, bind_ok]
  cases files_min_mjd ins with
  | ok m => rfl
  | abort => rfl
  | ub => rfl

/-- What a completed merge consists of. -/
structure Merged (ins : List (OiFits R)) (out : OiFits R) (mjd : Int)
    (st : List (Target R) × HMap Int) (sa : NS (OiArray R)) (si : NS (OiWavelength R))
    (sc : NS (OiCorr R)) (as is cs : List (HMap CStr)) : Prop where
  date : files_min_mjd ins = .ok mjd
  header : out.header = mergedHeader ins mjd
  targ : (allTargets ins).foldlM mergeTargetStep ([], HMap.empty) = .ok st
  targets : out.targets = ⟨maxRev 2 ins, st.1, false⟩
  arr : gnames (arrOps R) OiFits.arrayList ins ⟨[], HMap.empty, 0⟩ [] = .ok (sa, as)
  arrays : out.arrayList = sa.list ∧ out.arrayHash = sa.hash ∧ out.numArray = sa.num
  wave : gnames (waveOps R) OiFits.wavelengthList ins ⟨[], HMap.empty, 0⟩ [] = .ok (si, is)
  waves : out.wavelengthList = si.list ∧ out.wavelengthHash = si.hash ∧ out.numWavelength = si.num
  corr : gnames (corrOps R) OiFits.corrList ins ⟨[], HMap.empty, 0⟩ [] = .ok (sc, cs)
  corrs : out.corrList = sc.list ∧ out.corrHash = sc.hash ∧ out.numCorr = sc.num
  nums : out.numInspol = out.inspolList.length ∧ out.numVis = out.visList.length ∧
    out.numVis2 = out.vis2List.length ∧ out.numT3 = out.t3List.length ∧
    out.numFlux = out.fluxList.length
  data : ∀ (PA PI PC : OiFits R → HMap CStr → Prop), List.Forall₂ PA ins as →
    List.Forall₂ PI ins is → List.Forall₂ PC ins cs →
    List.Forall₂ (fun p t' => ∃ a i c, PA p.1 a ∧ PI p.1 i ∧ PC p.1 c ∧
      mergedInspol st.2 p.1 a i c p.2 = .ok t') (tablesOf OiFits.inspolList ins) out.inspolList ∧
    List.Forall₂ (fun p t' => ∃ a i c, PA p.1 a ∧ PI p.1 i ∧ PC p.1 c ∧
      mergedVis st.2 p.1 a i c p.2 = .ok t') (tablesOf OiFits.visList ins) out.visList ∧
    List.Forall₂ (fun p t' => ∃ a i c, PA p.1 a ∧ PI p.1 i ∧ PC p.1 c ∧
      mergedVis2 st.2 p.1 a i c p.2 = .ok t') (tablesOf OiFits.vis2List ins) out.vis2List ∧
    List.Forall₂ (fun p t' => ∃ a i c, PA p.1 a ∧ PI p.1 i ∧ PC p.1 c ∧
      mergedT3 st.2 p.1 a i c p.2 = .ok t') (tablesOf OiFits.t3List ins) out.t3List ∧
    List.Forall₂ (fun p t' => ∃ a i c, PA p.1 a ∧ PI p.1 i ∧ PC p.1 c ∧
      mergedFlux st.2 p.1 a i c p.2 = .ok t') (tablesOf OiFits.fluxList ins) out.fluxList
  zip : List.Forall₂ (fun p t' => mergedInspol st.2 p.1.1 p.1.2.1 p.1.2.2.1 p.1.2.2.2 p.2 = .ok t')
      (zipTables OiFits.inspolList ins as is cs) out.inspolList ∧
    List.Forall₂ (fun p t' => mergedVis st.2 p.1.1 p.1.2.1 p.1.2.2.1 p.1.2.2.2 p.2 = .ok t')
      (zipTables OiFits.visList ins as is cs) out.visList ∧
    List.Forall₂ (fun p t' => mergedVis2 st.2 p.1.1 p.1.2.1 p.1.2.2.1 p.1.2.2.2 p.2 = .ok t')
      (zipTables OiFits.vis2List ins as is cs) out.vis2List ∧
    List.Forall₂ (fun p t' => mergedT3 st.2 p.1.1 p.1.2.1 p.1.2.2.1 p.1.2.2.2 p.2 = .ok t')
      (zipTables OiFits.t3List ins as is cs) out.t3List ∧
    List.Forall₂ (fun p t' => mergedFlux st.2 p.1.1 p.1.2.1 p.1.2.2.1 p.1.2.2.2 p.2 = .ok t')
      (zipTables OiFits.fluxList ins as is cs) out.fluxList

theorem map_eq_ok {α β : Type} {x : Outcome α} {f : α → β} {b : β} (h : f <$> x = .ok b) :
    ∃ a, x = .ok a ∧ b = f a := by
  cases x with
  | ok a => simp only [map_ok, Outcome.ok.injEq] at h; exact ⟨a, rfl, h.symm⟩
  | abort => cases h
  | ub => cases h

theorem merge_spec {ins : List (OiFits R)} {out : OiFits R} (h : merge_oi_fits_list ins = .ok out) :
    ∃ mjd st sa si sc as is cs, Merged ins out mjd st sa si sc as is cs := by
  unfold merge_oi_fits_list at h
  simp only at h
  rw [merge_oi_header_eq] at h
  obtain ⟨o1, h1, h⟩ := bind_eq_ok.mp h
  obtain ⟨mjd, hmjd, rfl⟩ := map_eq_ok h1
  obtain ⟨⟨o2, ids⟩, h2, h⟩ := bind_eq_ok.mp h
  rw [merge_oi_target_eq] at h2
  obtain ⟨st, hst, e2⟩ := map_eq_ok h2
  simp only [Prod.mk.injEq] at e2
  obtain ⟨rfl, rfl⟩ := e2
  simp only at h
  obtain ⟨⟨o3, as⟩, h3, h⟩ := bind_eq_ok.mp h
  rw [merge_all_oi_array_eq _ _ ⟨rfl, rfl, rfl⟩] at h3
  obtain ⟨⟨sa, as'⟩, hsa, e3⟩ := map_eq_ok h3
  simp only [Prod.mk.injEq] at e3
  obtain ⟨rfl, rfl⟩ := e3
  simp only at h
  obtain ⟨⟨o4, is⟩, h4, h⟩ := bind_eq_ok.mp h
  rw [merge_all_oi_wavelength_eq _ _ ⟨rfl, rfl, rfl⟩] at h4
  obtain ⟨⟨si, is'⟩, hsi, e4⟩ := map_eq_ok h4
  simp only [Prod.mk.injEq] at e4
  obtain ⟨rfl, rfl⟩ := e4
  simp only at h
  obtain ⟨⟨o5, cs⟩, h5, h⟩ := bind_eq_ok.mp h
  rw [merge_all_oi_corr_eq _ _ ⟨rfl, rfl, rfl⟩] at h5
  obtain ⟨⟨sc, cs'⟩, hsc, e5⟩ := map_eq_ok h5
  simp only [Prod.mk.injEq] at e5
  obtain ⟨rfl, rfl⟩ := e5
  simp only at h
  obtain ⟨-, -, as', hasEq, hasF⟩ := gnames_inv (arrLaws R) (ninv_empty _) hsa
  obtain ⟨-, -, is', hisEq, hisF⟩ := gnames_inv (waveLaws R) (ninv_empty _) hsi
  obtain ⟨-, -, cs', hcsEq, hcsF⟩ := gnames_inv (corrLaws R) (ninv_empty _) hsc
  simp only [List.nil_append] at hasEq hisEq hcsEq
  subst hasEq; subst hisEq; subst hcsEq
  obtain ⟨o6, h6, h⟩ := bind_eq_ok.mp h
  rw [merge_all_oi_inspol_eq _ _ _ _ cs _ hcsF.length_eq.symm] at h6
  obtain ⟨o7, h7, h⟩ := bind_eq_ok.mp h
  obtain ⟨o8, h8, h⟩ := bind_eq_ok.mp h
  obtain ⟨o9, h9, h10⟩ := bind_eq_ok.mp h
  unfold merge_all_oi_vis at h7
  unfold merge_all_oi_vis2 at h8
  unfold merge_all_oi_t3 at h9
  unfold merge_all_oi_flux at h10
  refine ⟨mjd, st, sa, si, sc, as, is, cs, ?_⟩
  obtain ⟨L6, e6, -⟩ := mergeData_spec (fun inp a i c out t => inspol_tab st.2 inp a i c out t)
    hasF hisF hcsF h6
  obtain ⟨L7, e7, -⟩ := mergeData_spec (fun inp a i c out t => vis_tab st.2 inp a i c out t)
    hasF hisF hcsF h7
  obtain ⟨L8, e8, -⟩ := mergeData_spec (fun inp a i c out t => vis2_tab st.2 inp a i c out t)
    hasF hisF hcsF h8
  obtain ⟨L9, e9, -⟩ := mergeData_spec (fun inp a i c out t => t3_tab st.2 inp a i c out t)
    hasF hisF hcsF h9
  obtain ⟨L10, e10, -⟩ := mergeData_spec (fun inp a i c out t => flux_tab st.2 inp a i c out t)
    hasF hisF hcsF h10
  rw [foldl_appInspol] at e6
  rw [foldl_appVis] at e7
  rw [foldl_appVis2] at e8
  rw [foldl_appT3] at e9
  rw [foldl_appFlux] at e10
  have k6 : out.inspolList = o6.inspolList := by rw [e10, e9, e8, e7]
  have k7 : out.visList = o7.visList := by rw [e10, e9, e8]
  have k8 : out.vis2List = o8.vis2List := by rw [e10, e9]
  have k9 : out.t3List = o9.t3List := by rw [e10]
  have data : ∀ (PA PI PC : OiFits R → HMap CStr → Prop), List.Forall₂ PA ins as →
      List.Forall₂ PI ins is → List.Forall₂ PC ins cs →
      List.Forall₂ (fun p t' => ∃ a i c, PA p.1 a ∧ PI p.1 i ∧ PC p.1 c ∧
        mergedInspol st.2 p.1 a i c p.2 = .ok t') (tablesOf OiFits.inspolList ins) out.inspolList ∧
      List.Forall₂ (fun p t' => ∃ a i c, PA p.1 a ∧ PI p.1 i ∧ PC p.1 c ∧
        mergedVis st.2 p.1 a i c p.2 = .ok t') (tablesOf OiFits.visList ins) out.visList ∧
      List.Forall₂ (fun p t' => ∃ a i c, PA p.1 a ∧ PI p.1 i ∧ PC p.1 c ∧
        mergedVis2 st.2 p.1 a i c p.2 = .ok t') (tablesOf OiFits.vis2List ins) out.vis2List ∧
      List.Forall₂ (fun p t' => ∃ a i c, PA p.1 a ∧ PI p.1 i ∧ PC p.1 c ∧
        mergedT3 st.2 p.1 a i c p.2 = .ok t') (tablesOf OiFits.t3List ins) out.t3List ∧
      List.Forall₂ (fun p t' => ∃ a i c, PA p.1 a ∧ PI p.1 i ∧ PC p.1 c ∧
        mergedFlux st.2 p.1 a i c p.2 = .ok t') (tablesOf OiFits.fluxList ins) out.fluxList := by
    intro PA PI PC ha hi hc
    obtain ⟨M6, d6, f6⟩ := mergeData_spec (fun inp a i c out t => inspol_tab st.2 inp a i c out t)
      ha hi hc h6
    obtain ⟨M7, d7, f7⟩ := mergeData_spec (fun inp a i c out t => vis_tab st.2 inp a i c out t)
      ha hi hc h7
    obtain ⟨M8, d8, f8⟩ := mergeData_spec (fun inp a i c out t => vis2_tab st.2 inp a i c out t)
      ha hi hc h8
    obtain ⟨M9, d9, f9⟩ := mergeData_spec (fun inp a i c out t => t3_tab st.2 inp a i c out t)
      ha hi hc h9
    obtain ⟨M10, d10, f10⟩ := mergeData_spec (fun inp a i c out t => flux_tab st.2 inp a i c out t)
      ha hi hc h10
    rw [foldl_appInspol] at d6
    rw [foldl_appVis] at d7
    rw [foldl_appVis2] at d8
    rw [foldl_appT3] at d9
    rw [foldl_appFlux] at d10
    have j7 : o6.visList = [] := by rw [d6]; rfl
    have j8 : o7.vis2List = [] := by rw [d7, d6]; rfl
    have j9 : o8.t3List = [] := by rw [d8, d7, d6]; rfl
    have j10 : o9.fluxList = [] := by rw [d9, d8, d7, d6]; rfl
    rw [k6, k7, k8, k9]
    refine ⟨?_, ?_, ?_, ?_, ?_⟩
    · rw [d6]; exact f6
    · rw [d7]; simp only [j7, List.nil_append]; exact f7
    · rw [d8]; simp only [j8, List.nil_append]; exact f8
    · rw [d9]; simp only [j9, List.nil_append]; exact f9
    · rw [d10]; simp only [j10, List.nil_append]; exact f10
  have zip : List.Forall₂ (fun p t' => mergedInspol st.2 p.1.1 p.1.2.1 p.1.2.2.1 p.1.2.2.2 p.2 = .ok t')
        (zipTables OiFits.inspolList ins as is cs) out.inspolList ∧
      List.Forall₂ (fun p t' => mergedVis st.2 p.1.1 p.1.2.1 p.1.2.2.1 p.1.2.2.2 p.2 = .ok t')
        (zipTables OiFits.visList ins as is cs) out.visList ∧
      List.Forall₂ (fun p t' => mergedVis2 st.2 p.1.1 p.1.2.1 p.1.2.2.1 p.1.2.2.2 p.2 = .ok t')
        (zipTables OiFits.vis2List ins as is cs) out.vis2List ∧
      List.Forall₂ (fun p t' => mergedT3 st.2 p.1.1 p.1.2.1 p.1.2.2.1 p.1.2.2.2 p.2 = .ok t')
        (zipTables OiFits.t3List ins as is cs) out.t3List ∧
      List.Forall₂ (fun p t' => mergedFlux st.2 p.1.1 p.1.2.1 p.1.2.2.1 p.1.2.2.2 p.2 = .ok t')
        (zipTables OiFits.fluxList ins as is cs) out.fluxList := by
    obtain ⟨M6, d6, f6⟩ := mergeData_zip (fun inp a i c out t => inspol_tab st.2 inp a i c out t) h6
    obtain ⟨M7, d7, f7⟩ := mergeData_zip (fun inp a i c out t => vis_tab st.2 inp a i c out t) h7
    obtain ⟨M8, d8, f8⟩ := mergeData_zip (fun inp a i c out t => vis2_tab st.2 inp a i c out t) h8
    obtain ⟨M9, d9, f9⟩ := mergeData_zip (fun inp a i c out t => t3_tab st.2 inp a i c out t) h9
    obtain ⟨M10, d10, f10⟩ := mergeData_zip (fun inp a i c out t => flux_tab st.2 inp a i c out t) h10
    rw [foldl_appInspol] at d6
    rw [foldl_appVis] at d7
    rw [foldl_appVis2] at d8
    rw [foldl_appT3] at d9
    rw [foldl_appFlux] at d10
    have j7 : o6.visList = [] := by rw [d6]; rfl
    have j8 : o7.vis2List = [] := by rw [d7, d6]; rfl
    have j9 : o8.t3List = [] := by rw [d8, d7, d6]; rfl
    have j10 : o9.fluxList = [] := by rw [d9, d8, d7, d6]; rfl
    rw [k6, k7, k8, k9]
    refine ⟨?_, ?_, ?_, ?_, ?_⟩
    · rw [d6]; exact f6
    · rw [d7]; simp only [j7, List.nil_append]; exact f7
    · rw [d8]; simp only [j8, List.nil_append]; exact f8
    · rw [d9]; simp only [j9, List.nil_append]; exact f9
    · rw [d10]; simp only [j10, List.nil_append]; exact f10
  subst e6; subst e7; subst e8; subst e9; subst e10
  refine ⟨hmjd, rfl, hst, rfl, hsa, ⟨rfl, rfl, rfl⟩, hsi, ⟨rfl, rfl, rfl⟩, hsc, ⟨rfl, rfl, rfl⟩,
    ?_, data, zip⟩
  simp [putArr, putWave, putCorr, init_oi_fits]

end Verif
