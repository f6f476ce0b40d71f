import Verif.Proof.Sizes

/-! # Reference maps which are too large after filtering: lemmas -/

set_option Elab.async false

namespace Verif
open Outcome

variable {R : FP} {bits : Nat}

theorem filterRecs_ub {ρ : Type} {keep : ρ → Outcome Bool} {conv conv' : ρ → Outcome ρ}
    (hc : ∀ r r', conv r = .ok r' → conv' r = .ub) {l out : List ρ} (h : filterRecs keep conv l = .ok out)
    (hne : out ≠ []) : filterRecs keep conv' l = .ub := by
  induction l with
  | nil => cases h; exact absurd rfl hne
  | cons r l ih =>
    unfold filterRecs at h ⊢
    rw [Outcome.bind_eq_ok] at h
    obtain ⟨b, hb, h⟩ := h
    rw [hb, Outcome.bind_ok]
    cases b with
    | false => exact ih h
    | true =>
      rw [if_pos rfl, Outcome.bind_eq_ok] at h
      obtain ⟨r', hr, -⟩ := h
      rw [if_pos rfl, hc r r' hr]
      rfl

theorem filter_record_large {f : FilterSpec R} {w : Option (OiWavelength R)} {useWave : List Bool} {nIn nOut : Nat}
    {c : Bool} (hl : ¬ Holds bits (nOut * nOut)) {r r' : OiVisRecord R}
    (h : filter_oi_vis_record f w useWave nIn nOut true c r = .ok r') :
    filter_oi_vis_recordM bits f w useWave nIn nOut true c r = .ub := by
  unfold filter_oi_vis_record at h
  unfold filter_oi_vis_recordM
  rw [Outcome.bind_eq_ok] at h
  obtain ⟨x, h1, -⟩ := h
  rw [h1, Outcome.bind_ok, newRefmapSize, if_pos rfl, machine_over hl]
  rfl

theorem filter_large {t t' : OiVis R} {f : FilterSpec R} {w : Option (OiWavelength R)} {useWave : List Bool}
    (h : filter_oi_vis t f w useWave = .ok t') (hl : TooLarge bits t') (hr : t'.record ≠ []) :
    filter_oi_visM bits t f w useWave = .ub := by
  unfold filter_oi_vis at h
  unfold filter_oi_visM
  rw [Outcome.bind_eq_ok] at h
  obtain ⟨n, h1, h⟩ := h
  rw [Outcome.bind_eq_ok] at h
  obtain ⟨x, h2, h⟩ := h
  rw [Outcome.bind_eq_ok] at h
  obtain ⟨rs, h3, h⟩ := h
  cases h
  have hu : t.usevisrefmap = true := hl.1
  rw [h1, Outcome.bind_ok, h2, Outcome.bind_ok]
  rw [hu] at h3 ⊢
  rw [filterRecs_ub (fun r r' hr => filter_record_large hl.2 hr) h3 hr]
  rfl

end Verif
