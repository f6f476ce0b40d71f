import Verif.Spec.Iter

/-! Specification of one filter being narrower than another. -/

namespace Verif.Spec
variable {R : FP}

/-- The filter `f` asks for no less than `g` does: what passes a criterion of `f` passes the
same criterion of `g`. The choice of closure amplitude and phase, which also decides whose
signal-to-noise ratios are tested, is the same. -/
structure Narrower (f g : FilterSpec R) : Prop where
  arrname : ∀ s, Glob f.arrname s → Glob g.arrname s
  insname : ∀ s, Glob f.insname s → Glob g.insname s
  corrname : ∀ s, Glob f.corrname s → Glob g.corrname s
  target : g.target_id < 0 ∨ f.target_id = g.target_id
  mjd : ∀ x, InD f.mjd_range x → InD g.mjd_range x
  wave : ∀ x, InF f.wave_range x → InF g.wave_range x
  bas : ∀ x, InD f.bas_range x → InD g.bas_range x
  uvrad : ∀ x, InD f.uvrad_range x → InD g.uvrad_range x
  snr : ∀ x, InF f.snr_range x → InF g.snr_range x
  accept_vis : f.accept_vis = true → g.accept_vis = true
  accept_vis2 : f.accept_vis2 = true → g.accept_vis2 = true
  accept_t3amp : f.accept_t3amp = g.accept_t3amp
  accept_t3phi : f.accept_t3phi = g.accept_t3phi
  accept_flagged : f.accept_flagged = true → g.accept_flagged = true

end Verif.Spec
