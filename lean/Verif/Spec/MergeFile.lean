import Verif.Spec.Unset
import Verif.Spec.Exact

/-! Datasets which a file holds without loss. -/

namespace Verif.Spec
variable {R : FP}

/-- A file holds all that the dataset says: its strings fit and do not end with blanks, the numbers which are
written to keywords have few enough digits, TIME is 0, as version 2 prescribes, and there are no OI_INSPOL tables. What
means nothing (see `OiFits.blank`) does not count, and neither does the date of writing. -/
structure Kept (oi : OiFits R) : Prop where
  header : ∀ s ∈ [oi.header.origin, oi.header.date_obs, oi.header.telescop, oi.header.instrume, oi.header.observer,
    oi.header.insmode, oi.header.object, oi.header.referenc, oi.header.author, oi.header.prog_id, oi.header.procsoft,
    oi.header.obstech], CardText s
  targets : oi.targets.blank.Exact []
  array : ∀ t ∈ oi.arrayList, t.Exact
  wavelength : ∀ t ∈ oi.wavelengthList, t.Exact
  corr : ∀ t ∈ oi.corrList, t.Exact
  inspol : oi.inspolList = []
  vis : ∀ t ∈ oi.visList, t.blank.Exact 0
  vis2 : ∀ t ∈ oi.vis2List, t.blank.Exact 0
  t3 : ∀ t ∈ oi.t3List, t.blank.Exact 0
  flux : ∀ t ∈ oi.fluxList, t.blank.Exact 0

end Verif.Spec
