import Verif.Spec.EndToEnd

/-! Specification of a filter that has the criteria of two filters. -/

namespace Verif.Spec
variable {R : FP}

/-- The filter `h` asks for what `f` and `g` ask for together, the filter `g` being
applied after `f`: a name, wavelength, baseline, UV radius or signal-to-noise ratio passes
`h` if it passes both; so does a date with each end of the range of dates; at most one of the two asks for a target; the choice of
closure amplitude and phase is the same; and if flagged data pass `g` they pass `f`. -/
structure Combines (f g h : FilterSpec R) : Prop where
  arrname : ∀ s, Glob h.arrname s ↔ Glob f.arrname s ∧ Glob g.arrname s
  insname : ∀ s, Glob h.insname s ↔ Glob f.insname s ∧ Glob g.insname s
  corrname : ∀ s, Glob h.corrname s ↔ Glob f.corrname s ∧ Glob g.corrname s
  target : (g.target_id < 0 ∧ h.target_id = f.target_id) ∨
    (f.target_id < 0 ∧ h.target_id = g.target_id)
  mjd_from : ∀ x, R.lt x h.mjd_range.1 = false ↔
    R.lt x f.mjd_range.1 = false ∧ R.lt x g.mjd_range.1 = false
  mjd_to : ∀ x, R.lt h.mjd_range.2 x = false ↔
    R.lt f.mjd_range.2 x = false ∧ R.lt g.mjd_range.2 x = false
  wave : ∀ x, InF h.wave_range x ↔ InF f.wave_range x ∧ InF g.wave_range x
  bas : ∀ x, InD h.bas_range x ↔ InD f.bas_range x ∧ InD g.bas_range x
  uvrad : ∀ x, InD h.uvrad_range x ↔ InD f.uvrad_range x ∧ InD g.uvrad_range x
  snr : ∀ x, InF h.snr_range x ↔ InF f.snr_range x ∧ InF g.snr_range x
  accept_vis : h.accept_vis = (f.accept_vis && g.accept_vis)
  accept_vis2 : h.accept_vis2 = (f.accept_vis2 && g.accept_vis2)
  accept_flux : h.accept_flux = (f.accept_flux && g.accept_flux)
  accept_t3amp : f.accept_t3amp = h.accept_t3amp ∧ g.accept_t3amp = h.accept_t3amp
  accept_t3phi : f.accept_t3phi = h.accept_t3phi ∧ g.accept_t3phi = h.accept_t3phi
  accept_flagged : h.accept_flagged = g.accept_flagged ∧
    (g.accept_flagged = true → f.accept_flagged = true)

end Verif.Spec
