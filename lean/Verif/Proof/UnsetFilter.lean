import Verif.Proof.UnsetRead
import Verif.Model.Filter

/-! Filtering does not look at the members which are not set. -/

namespace Verif
open Spec Outcome

variable {R : FP} {α β γ δ : Type}

/-- The outcome with a fixed value for what is not set. -/
def bl (m : Outcome (OiFits R)) : Outcome (OiFits R) := m.bind fun x => .ok x.blank

/-- The same for functions which also return something else. -/
def blp (m : Outcome (OiFits R × α)) : Outcome (OiFits R × α) := m.bind fun x => .ok (x.1.blank, x.2)

theorem OiTarget.blank_blank (t : OiTarget R) : t.blank.blank = t.blank := by
  unfold OiTarget.blank
  simp only [List.map_map]
  congr 2
  funext x
  cases t.usecategory <;> rfl

theorem if_if_zero {c : Prop} [Decidable c] (x : α) (z : α) : (if c then z else (if c then z else x)) = if c then z else x := by
  split <;> rfl

theorem if_if_some {c : Prop} [Decidable c] (x : α) (z : α) : (if c then (if c then x else z) else z) = if c then x else z := by
  split <;> rfl

theorem OiVis.blank_blank (t : OiVis R) : t.blank.blank = t.blank := by
  unfold OiVis.blank
  simp only [List.map_map, Function.comp_def, if_if_zero, if_if_some]

theorem OiVis2.blank_blank (t : OiVis2 R) : t.blank.blank = t.blank := by
  unfold OiVis2.blank
  simp only [List.map_map, Function.comp_def, if_if_zero]

theorem OiT3.blank_blank (t : OiT3 R) : t.blank.blank = t.blank := by
  unfold OiT3.blank
  simp only [List.map_map, Function.comp_def, if_if_zero]

theorem OiFlux.blank_blank (t : OiFlux R) : t.blank.blank = t.blank := by
  unfold OiFlux.blank
  simp only [List.map_map, Function.comp_def, if_if_zero]

theorem OiFits.blank_blank (oi : OiFits R) : oi.blank.blank = oi.blank := by
  unfold OiFits.blank
  simp only [List.map_map, Function.comp_def, OiTarget.blank_blank, OiVis.blank_blank, OiVis2.blank_blank,
    OiT3.blank_blank, OiFlux.blank_blank]

theorem bl_bind {m m' : Outcome (OiFits R)} {f f' : OiFits R → Outcome (OiFits R)} (hm : bl m = bl m')
    (hf : ∀ x x', x.blank = x'.blank → bl (f x) = bl (f' x')) : bl (m >>= f) = bl (m' >>= f') := by
  cases m <;> cases m' <;> first | rfl | cases hm | skip
  rename_i a b
  exact hf a b (Outcome.ok.inj hm)

theorem blp_bind {m m' : Outcome (OiFits R × α)} {f f' : OiFits R × α → Outcome (OiFits R)} (hm : blp m = blp m')
    (hf : ∀ x x' y, OiFits.blank x = OiFits.blank x' → bl (f (x, y)) = bl (f' (x', y))) : bl (m >>= f) = bl (m' >>= f') := by
  cases m <;> cases m' <;> first | rfl | cases hm | skip
  rename_i a b
  obtain ⟨a, x⟩ := a
  obtain ⟨b, y⟩ := b
  have h := Prod.mk.inj (Outcome.ok.inj hm)
  obtain rfl : x = y := h.2
  exact hf a b x h.1

theorem bl_of_commute {s : OiFits R → Outcome (OiFits R)} (hs : ∀ x, s x.blank = bl (s x)) {x x' : OiFits R}
    (h : x.blank = x'.blank) : bl (s x) = bl (s x') := by
  rw [← hs, ← hs, h]

theorem blp_of_commute {s : OiFits R → Outcome (OiFits R × α)} (hs : ∀ x, s x.blank = blp (s x)) {x x' : OiFits R}
    (h : x.blank = x'.blank) : blp (s x) = blp (s x') := by
  rw [← hs, ← hs, h]

theorem bl_bind_ok {s : Outcome α} {f f' : α → Outcome (OiFits R)} (h : ∀ a, bl (f a) = bl (f' a)) :
    bl (s >>= f) = bl (s >>= f') := by
  cases s <;> first | rfl | exact h _

theorem foldlM_bl {f : OiFits R → α → Outcome (OiFits R)} (hf : ∀ x a, f x.blank a = bl (f x a)) (l : List α) (x : OiFits R) :
    l.foldlM f x.blank = bl (l.foldlM f x) := by
  induction l generalizing x with
  | nil => rfl
  | cons a l ih =>
    rw [List.foldlM_cons, List.foldlM_cons, hf]
    cases f x a with
    | ok y => exact ih y
    | abort => rfl
    | ub => rfl

theorem foldlM_blp {f : OiFits R × β → α → Outcome (OiFits R × β)}
    (hf : ∀ x y a, f (OiFits.blank x, y) a = blp (f (x, y) a)) (l : List α) (x : OiFits R) (y : β) :
    l.foldlM f (x.blank, y) = blp (l.foldlM f (x, y)) := by
  induction l generalizing x y with
  | nil => rfl
  | cons a l ih =>
    rw [List.foldlM_cons, List.foldlM_cons, hf]
    cases f (x, y) a with
    | ok z => exact ih z.1 z.2
    | abort => rfl
    | ub => rfl

/-! ### Tables which hold no data -/

theorem filter_array_blank (inp : OiFits R) (f : FilterSpec R) (out : OiFits R) :
    filter_all_oi_array inp f out.blank = bl (filter_all_oi_array inp f out) := by
  apply foldlM_bl
  intro x a
  split
  · cases dup_oi_array a <;> rfl
  · rfl

theorem filter_corr_blank (inp : OiFits R) (f : FilterSpec R) (out : OiFits R) :
    filter_all_oi_corr inp f out.blank = bl (filter_all_oi_corr inp f out) := by
  apply foldlM_bl
  intro x a
  split
  · cases dup_oi_corr a <;> rfl
  · rfl

theorem filter_wavelength_blank (inp : OiFits R) (f : FilterSpec R) (out : OiFits R) :
    filter_all_oi_wavelength inp f out.blank = blp (filter_all_oi_wavelength inp f out) := by
  apply foldlM_blp
  intro x y a
  split
  · cases chkmallocN a.nwave with
    | ok u =>
      cases hw : filter_oi_wavelength a f.wave_range with
      | ok w =>
        simp only [bind, Outcome.bind]
        split <;> rfl
      | abort => rfl
      | ub => rfl
    | abort => rfl
    | ub => rfl
  · rfl

theorem filter_inspol_blank (inp : OiFits R) (f : FilterSpec R) (u : UseWave) (out : OiFits R) :
    filter_all_oi_inspol inp f u out.blank = bl (filter_all_oi_inspol inp f u out) := by
  unfold filter_all_oi_inspol
  generalize filterTabs _ _ _ _ inp.inspolList = m
  cases m <;> rfl

/-! ### Data tables -/

theorem filterRecs_map {ρ : Type} (g : ρ → ρ) {keep keep' : ρ → Outcome Bool} {conv conv' : ρ → Outcome ρ}
    (hk : ∀ r, keep' (g r) = keep r) (hc : ∀ r, conv' (g r) = (conv r).bind fun x => .ok (g x)) (l : List ρ) :
    filterRecs keep' conv' (l.map g) = (filterRecs keep conv l).bind fun x => .ok (x.map g) := by
  induction l with
  | nil => rfl
  | cons r l ih =>
    simp only [List.map_cons, filterRecs, hk, hc, ih]
    cases keep r with
    | ok b =>
      cases b with
      | false => rfl
      | true =>
        cases conv r with
        | ok x => cases filterRecs keep conv l <;> rfl
        | abort => rfl
        | ub => rfl
    | abort => rfl
    | ub => rfl

theorem filterTabs_map {τ : Type} (g : τ → τ) {accept : τ → Bool} {useWave : τ → Option (List Bool)}
    {filt filt' : τ → List Bool → Outcome τ} {nonempty : τ → Bool} (ha : ∀ t, accept (g t) = accept t)
    (hu : ∀ t, useWave (g t) = useWave t) (hn : ∀ t, nonempty (g t) = nonempty t)
    (hf : ∀ t u, filt' (g t) u = (filt t u).bind fun x => .ok (g x)) (l : List τ) :
    filterTabs accept useWave filt' nonempty (l.map g)
      = (filterTabs accept useWave filt nonempty l).bind fun x => .ok (x.map g) := by
  induction l with
  | nil => rfl
  | cons t l ih =>
    simp only [List.map_cons, filterTabs, ha, hu, hf, ih]
    split
    · rfl
    · cases useWave t with
      | none => rfl
      | some u =>
        simp only
        cases filt t u with
        | ok x =>
          cases filterTabs accept useWave filt nonempty l with
          | ok xs =>
            simp only [bind, Outcome.bind, hn]
            split <;> rfl
          | abort => rfl
          | ub => rfl
        | abort => rfl
        | ub => rfl

theorem bind_assoc_ok {m : Outcome α} {f : α → β} {g : β → Outcome γ} :
    ((m.bind fun x => .ok (f x)) >>= g) = (m >>= fun x => g (f x)) := by
  cases m <;> rfl

theorem filter_oi_vis_blank (t : OiVis R) (f : FilterSpec R) (w : Option (OiWavelength R)) (u : List Bool) :
    filter_oi_vis t.blank f w u = (filter_oi_vis t f w u).bind fun x => .ok x.blank := by
  unfold filter_oi_vis
  rw [show t.blank.nwave = t.nwave from rfl, show t.blank.record = t.record.map (visBlank t.usecomplex t.corrname) from rfl,
    List.length_map]
  cases countUse t.nwave u with
  | ok n =>
    simp only [bind, Outcome.bind]
    cases chkmallocN t.record.length with
    | ok _ =>
      simp only [Outcome.bind]
      have h := filterRecs_map (visBlank t.usecomplex t.corrname) (keep := visKeep f w u t.nwave)
        (keep' := visKeep f w u t.nwave) (conv := filter_oi_vis_record f w u t.nwave n t.usevisrefmap t.usecomplex)
        (conv' := filter_oi_vis_record f w u t.nwave n t.usevisrefmap t.usecomplex) (fun r => rfl)
        (fun r => by
          unfold filter_oi_vis_record
          cases chkmallocN n with
          | ok _ =>
            rw [show filterVisChan f w u t.nwave n t.usevisrefmap t.usecomplex (visBlank t.usecomplex t.corrname r)
              = filterVisChan f w u t.nwave n t.usevisrefmap t.usecomplex r from rfl]
            simp only [bind, Outcome.bind]
            cases useLoop t.nwave u (filterVisChan f w u t.nwave n t.usevisrefmap t.usecomplex r) _ with
            | ok s =>
              simp only [Outcome.bind]
              cases guardAssert (f.accept_flagged || s.flag.any (!·)) <;> rfl
            | abort => rfl
            | ub => rfl
          | abort => rfl
          | ub => rfl) t.record
      rw [show t.blank.usevisrefmap = t.usevisrefmap from rfl, show t.blank.usecomplex = t.usecomplex from rfl, h]
      cases filterRecs (visKeep f w u t.nwave)
        (filter_oi_vis_record f w u t.nwave n t.usevisrefmap t.usecomplex) t.record <;> rfl
    | abort => rfl
    | ub => rfl
  | abort => rfl
  | ub => rfl

theorem filter_oi_vis2_blank (t : OiVis2 R) (f : FilterSpec R) (w : Option (OiWavelength R)) (u : List Bool) :
    filter_oi_vis2 t.blank f w u = (filter_oi_vis2 t f w u).bind fun x => .ok x.blank := by
  unfold filter_oi_vis2
  rw [show t.blank.nwave = t.nwave from rfl, show t.blank.record = t.record.map (fun r => { r with
    corrindx_vis2data := if t.corrname = [] then 0 else r.corrindx_vis2data }) from rfl, List.length_map]
  cases countUse t.nwave u with
  | ok n =>
    simp only [bind, Outcome.bind]
    cases chkmallocN t.record.length with
    | ok _ =>
      simp only [Outcome.bind]
      have h := filterRecs_map (fun r : OiVis2Record R => { r with
          corrindx_vis2data := if t.corrname = [] then 0 else r.corrindx_vis2data })
        (keep := vis2Keep f w u t.nwave) (keep' := vis2Keep f w u t.nwave)
        (conv := filter_oi_vis2_record f w u t.nwave n) (conv' := filter_oi_vis2_record f w u t.nwave n) (fun r => rfl)
        (fun r => by
          unfold filter_oi_vis2_record
          cases chkmallocN n with
          | ok _ =>
            rw [show filterVis2Chan f w n { r with
                corrindx_vis2data := if t.corrname = [] then 0 else r.corrindx_vis2data }
              = filterVis2Chan f w n r from rfl]
            simp only [bind, Outcome.bind]
            cases useLoop t.nwave u (filterVis2Chan f w n r) _ with
            | ok s =>
              simp only [Outcome.bind]
              cases guardAssert (f.accept_flagged || s.flag.any (!·)) <;> rfl
            | abort => rfl
            | ub => rfl
          | abort => rfl
          | ub => rfl) t.record
      rw [h]
      cases filterRecs (vis2Keep f w u t.nwave) (filter_oi_vis2_record f w u t.nwave n) t.record <;> rfl
    | abort => rfl
    | ub => rfl
  | abort => rfl
  | ub => rfl

theorem filter_oi_t3_blank (t : OiT3 R) (f : FilterSpec R) (w : Option (OiWavelength R)) (u : List Bool) :
    filter_oi_t3 t.blank f w u = (filter_oi_t3 t f w u).bind fun x => .ok x.blank := by
  unfold filter_oi_t3
  rw [show t.blank.nwave = t.nwave from rfl, show t.blank.record = t.record.map (fun r => { r with
    corrindx_t3amp := if t.corrname = [] then 0 else r.corrindx_t3amp
    corrindx_t3phi := if t.corrname = [] then 0 else r.corrindx_t3phi }) from rfl, List.length_map]
  cases countUse t.nwave u with
  | ok n =>
    simp only [bind, Outcome.bind]
    cases chkmallocN t.record.length with
    | ok _ =>
      simp only [Outcome.bind]
      have h := filterRecs_map (fun r : OiT3Record R => { r with
          corrindx_t3amp := if t.corrname = [] then 0 else r.corrindx_t3amp
          corrindx_t3phi := if t.corrname = [] then 0 else r.corrindx_t3phi })
        (keep := t3Keep f w u t.nwave) (keep' := t3Keep f w u t.nwave)
        (conv := filter_oi_t3_record f w u t.nwave n) (conv' := filter_oi_t3_record f w u t.nwave n) (fun r => rfl)
        (fun r => by
          unfold filter_oi_t3_record
          cases chkmallocN n with
          | ok _ =>
            rw [show filterT3Chan f w n { r with
                corrindx_t3amp := if t.corrname = [] then 0 else r.corrindx_t3amp
                corrindx_t3phi := if t.corrname = [] then 0 else r.corrindx_t3phi }
              = filterT3Chan f w n r from rfl]
            simp only [bind, Outcome.bind]
            cases useLoop t.nwave u (filterT3Chan f w n r) _ with
            | ok s =>
              simp only [Outcome.bind]
              cases guardAssert (f.accept_flagged || s.flag.any (!·)) <;> rfl
            | abort => rfl
            | ub => rfl
          | abort => rfl
          | ub => rfl) t.record
      rw [h]
      cases filterRecs (t3Keep f w u t.nwave) (filter_oi_t3_record f w u t.nwave n) t.record <;> rfl
    | abort => rfl
    | ub => rfl
  | abort => rfl
  | ub => rfl

theorem filter_oi_flux_blank (t : OiFlux R) (f : FilterSpec R) (u : List Bool) :
    filter_oi_flux t.blank f u = (filter_oi_flux t f u).bind fun x => .ok x.blank := by
  unfold filter_oi_flux
  rw [show t.blank.nwave = t.nwave from rfl, show t.blank.record = t.record.map (fun r => { r with
    corrindx_fluxdata := if t.corrname = [] then 0 else r.corrindx_fluxdata }) from rfl, List.length_map]
  cases countUse t.nwave u with
  | ok n =>
    simp only [bind, Outcome.bind]
    cases chkmallocN t.record.length with
    | ok _ =>
      simp only [Outcome.bind]
      have h := filterRecs_map (fun r : OiFluxRecord R => { r with
          corrindx_fluxdata := if t.corrname = [] then 0 else r.corrindx_fluxdata })
        (keep := fluxKeep f) (keep' := fluxKeep f)
        (conv := filter_oi_flux_record f u t.nwave n) (conv' := filter_oi_flux_record f u t.nwave n) (fun r => rfl)
        (fun r => by
          unfold filter_oi_flux_record
          cases chkmallocN n with
          | ok _ =>
            rw [show filterFluxChan f n { r with
                corrindx_fluxdata := if t.corrname = [] then 0 else r.corrindx_fluxdata }
              = filterFluxChan f n r from rfl]
            simp only [bind, Outcome.bind]
            cases useLoop t.nwave u (filterFluxChan f n r) _ <;> rfl
          | abort => rfl
          | ub => rfl) t.record
      rw [h]
      cases filterRecs (fluxKeep f) (filter_oi_flux_record f u t.nwave n) t.record <;> rfl
    | abort => rfl
    | ub => rfl
  | abort => rfl
  | ub => rfl

theorem filter_vis_blank (inp : OiFits R) (f : FilterSpec R) (u : UseWave) (out : OiFits R) :
    filter_all_oi_vis inp.blank f u out.blank = bl (filter_all_oi_vis inp f u out) := by
  unfold filter_all_oi_vis
  split
  · rfl
  rw [show inp.blank.visList = inp.visList.map OiVis.blank from rfl, filterTabs_map OiVis.blank
    (filt := fun t useWave => filter_oi_vis t f (oi_fits_lookup_wavelength inp t.insname) useWave)
    (fun _ => rfl) (fun _ => rfl)
    (fun t => by simp only [OiVis.blank, List.isEmpty_map]; rfl)
    (fun t u => filter_oi_vis_blank t f _ u)]
  generalize filterTabs _ _ _ _ inp.visList = m
  cases m with
  | ok ts =>
    show Outcome.ok _ = Outcome.ok _
    congr 1
    simp only [OiFits.blank, List.map_append, List.length_map]
  | abort => rfl
  | ub => rfl

theorem filter_vis2_blank (inp : OiFits R) (f : FilterSpec R) (u : UseWave) (out : OiFits R) :
    filter_all_oi_vis2 inp.blank f u out.blank = bl (filter_all_oi_vis2 inp f u out) := by
  unfold filter_all_oi_vis2
  split
  · rfl
  rw [show inp.blank.vis2List = inp.vis2List.map OiVis2.blank from rfl, filterTabs_map OiVis2.blank
    (filt := fun t useWave => filter_oi_vis2 t f (oi_fits_lookup_wavelength inp t.insname) useWave)
    (fun _ => rfl) (fun _ => rfl)
    (fun t => by simp only [OiVis2.blank, List.isEmpty_map]; rfl)
    (fun t u => filter_oi_vis2_blank t f _ u)]
  generalize filterTabs _ _ _ _ inp.vis2List = m
  cases m with
  | ok ts =>
    show Outcome.ok _ = Outcome.ok _
    congr 1
    simp only [OiFits.blank, List.map_append, List.length_map]
  | abort => rfl
  | ub => rfl

theorem filter_t3_blank (inp : OiFits R) (f : FilterSpec R) (u : UseWave) (out : OiFits R) :
    filter_all_oi_t3 inp.blank f u out.blank = bl (filter_all_oi_t3 inp f u out) := by
  unfold filter_all_oi_t3
  split
  · rfl
  rw [show inp.blank.t3List = inp.t3List.map OiT3.blank from rfl, filterTabs_map OiT3.blank
    (filt := fun t useWave => filter_oi_t3 t f (oi_fits_lookup_wavelength inp t.insname) useWave)
    (fun _ => rfl) (fun _ => rfl)
    (fun t => by simp only [OiT3.blank, List.isEmpty_map]; rfl)
    (fun t u => filter_oi_t3_blank t f _ u)]
  generalize filterTabs _ _ _ _ inp.t3List = m
  cases m with
  | ok ts =>
    show Outcome.ok _ = Outcome.ok _
    congr 1
    simp only [OiFits.blank, List.map_append, List.length_map]
  | abort => rfl
  | ub => rfl

theorem filter_flux_blank (inp : OiFits R) (f : FilterSpec R) (u : UseWave) (out : OiFits R) :
    filter_all_oi_flux inp.blank f u out.blank = bl (filter_all_oi_flux inp f u out) := by
  unfold filter_all_oi_flux
  split
  · rfl
  rw [show inp.blank.fluxList = inp.fluxList.map OiFlux.blank from rfl, filterTabs_map OiFlux.blank
    (filt := fun t useWave => filter_oi_flux t f useWave) (fun _ => rfl) (fun _ => rfl)
    (fun t => by simp only [OiFlux.blank, List.isEmpty_map]; rfl)
    (fun t u => filter_oi_flux_blank t f u)]
  generalize filterTabs _ _ _ _ inp.fluxList = m
  cases m with
  | ok ts =>
    show Outcome.ok _ = Outcome.ok _
    congr 1
    simp only [OiFits.blank, List.map_append, List.length_map]
  | abort => rfl
  | ub => rfl

/-! ### The whole dataset -/

theorem arrnames_blank (oi : OiFits R) : get_arrname_list oi.blank = get_arrname_list oi := by
  unfold get_arrname_list
  simp only [OiFits.blank, List.map_map]
  rfl

theorem insnames_blank (oi : OiFits R) : get_insname_list oi.blank = get_insname_list oi := by
  unfold get_insname_list
  simp only [OiFits.blank, List.map_map]
  rfl

theorem corrnames_blank (oi : OiFits R) : get_corrname_list oi.blank = get_corrname_list oi := by
  unfold get_corrname_list
  simp only [OiFits.blank, List.map_map]
  rfl

theorem prune_blank (oi : OiFits R) : pruneOrphans oi.blank = (pruneOrphans oi).blank := by
  unfold pruneOrphans
  rw [arrnames_blank, insnames_blank, corrnames_blank]
  rfl

theorem filterTargetLoop_blank (c : Target R → CStr) (id : Int) (l : List (Target R)) (out out' : OiTarget R)
    (hu : out.usecategory = false) (h : out.blank = out'.blank) :
    (filterTargetLoop id out (l.map fun t => { t with category := c t })).blank = (filterTargetLoop id out' l).blank := by
  have hu' : out'.usecategory = false := by
    have := congrArg OiTarget.usecategory h
    exact this.symm.trans hu
  have hr : out.revision = out'.revision := by
    have := congrArg OiTarget.revision h
    exact this
  induction l generalizing out out' with
  | nil => exact h
  | cons t l ih =>
    simp only [List.map_cons, filterTargetLoop]
    split
    · refine ih _ _ hu ?_ hu' hr
      simp only [OiTarget.blank, hu, hu', hr, List.map_cons, List.map_nil, Bool.false_eq_true, if_false]
    · exact ih _ _ hu h hu' hr

theorem filter_target_blank (t : OiTarget R) (f : FilterSpec R) (out : OiTarget R) (hu : out.usecategory = false) :
    ((filter_oi_target t.blank f out).bind fun x => .ok x.blank)
      = (filter_oi_target t f out).bind fun x => .ok x.blank := by
  unfold filter_oi_target
  split
  · show Outcome.ok _ = Outcome.ok _
    rw [show t.blank.targ = t.targ.map fun x => { x with
      category := (fun x : Target R => if t.usecategory then x.category else []) x } from rfl,
      filterTargetLoop_blank _ _ _ _ _ (by exact hu) rfl]
    rfl
  · unfold memdup
    rw [show t.blank.targ.length = t.targ.length by simp [OiTarget.blank]]
    split
    · rfl
    · rw [if_neg (by simp), if_neg (by omega), List.take_length,
        List.take_of_length_le (by simp [OiTarget.blank])]
      exact congrArg Outcome.ok t.blank_blank

/-- `apply_oi_filter` after the targets. -/
def filterRest (inp : OiFits R) (f : FilterSpec R) (out : OiFits R) : Outcome (OiFits R) := do
  let out ← filter_all_oi_array inp f out
  let out ← filter_all_oi_corr inp f out
  let (out, useWaveHash) ← filter_all_oi_wavelength inp f out
  let out ← filter_all_oi_inspol inp f useWaveHash out
  let out ← filter_all_oi_vis inp f useWaveHash out
  let out ← filter_all_oi_vis2 inp f useWaveHash out
  let out ← filter_all_oi_t3 inp f useWaveHash out
  let out ← filter_all_oi_flux inp f useWaveHash out
  return pruneOrphans out

theorem apply_rest (inp : OiFits R) (f : FilterSpec R) :
    apply_oi_filter inp f = (filter_oi_target inp.targets f (init_oi_fits R).targets >>= fun t =>
      filterRest inp f { init_oi_fits R with header := filter_oi_header inp.header, targets := t }) := rfl

theorem bl_stage {s : OiFits R → OiFits R → Outcome (OiFits R)} (hs : ∀ i x, s i.blank x.blank = bl (s i x))
    (i : OiFits R) {x x' : OiFits R} (h : x.blank = x'.blank) : bl (s i.blank x) = bl (s i x') := by
  have h1 := hs i.blank x
  rw [OiFits.blank_blank] at h1
  rw [← h1, h, hs]

theorem filterRest_blank (inp : OiFits R) (f : FilterSpec R) {x x' : OiFits R} (h : x.blank = x'.blank) :
    bl (filterRest inp.blank f x) = bl (filterRest inp f x') := by
  unfold filterRest
  refine bl_bind (bl_of_commute (filter_array_blank inp f) h) fun x x' h => ?_
  refine bl_bind (bl_of_commute (filter_corr_blank inp f) h) fun x x' h => ?_
  refine blp_bind (blp_of_commute (filter_wavelength_blank inp f) h) fun x x' y h => ?_
  refine bl_bind (bl_of_commute (filter_inspol_blank inp f y) h) fun x x' h => ?_
  refine bl_bind (bl_stage (s := fun i x => filter_all_oi_vis i f y x) (fun i x => filter_vis_blank i f y x) inp h)
    fun x x' h => ?_
  refine bl_bind (bl_stage (s := fun i x => filter_all_oi_vis2 i f y x) (fun i x => filter_vis2_blank i f y x) inp h)
    fun x x' h => ?_
  refine bl_bind (bl_stage (s := fun i x => filter_all_oi_t3 i f y x) (fun i x => filter_t3_blank i f y x) inp h)
    fun x x' h => ?_
  refine bl_bind (bl_stage (s := fun i x => filter_all_oi_flux i f y x) (fun i x => filter_flux_blank i f y x) inp h)
    fun x x' h => ?_
  show Outcome.ok _ = Outcome.ok _
  rw [← prune_blank, ← prune_blank, h]

theorem filter_blank (inp : OiFits R) (f : FilterSpec R) : bl (apply_oi_filter inp.blank f) = bl (apply_oi_filter inp f) := by
  have ht := filter_target_blank inp.targets f (init_oi_fits R).targets rfl
  rw [apply_rest, apply_rest, show inp.blank.targets = inp.targets.blank from rfl, show inp.blank.header = inp.header from rfl]
  cases h1 : filter_oi_target inp.targets.blank f (init_oi_fits R).targets <;>
    cases h2 : filter_oi_target inp.targets f (init_oi_fits R).targets <;>
    rw [h1, h2] at ht <;> first | rfl | cases ht | skip
  rename_i tg tg'
  replace ht : tg.blank = tg'.blank := Outcome.ok.inj ht
  refine filterRest_blank inp f ?_
  unfold OiFits.blank
  simp only [ht]

/-- Datasets which only differ in what is not set are filtered alike. -/
theorem filter_alike {a b : OiFits R} (h : a.blank = b.blank) (f : FilterSpec R) :
    bl (apply_oi_filter a f) = bl (apply_oi_filter b f) := by
  rw [← filter_blank, h, filter_blank]

end Verif
