import Verif.Spec.Exact
import Verif.Spec.FilterTwo

/-! Datasets whose names a file holds without loss. -/

namespace Verif.Spec
variable {R : FP}

/-- The names by which the tables refer to each other fit on a header card and do not end with a blank. -/
structure NamesHeld (oi : OiFits R) : Prop where
  array : ∀ t ∈ oi.arrayList, CardText t.arrname
  wavelength : ∀ t ∈ oi.wavelengthList, CardText t.insname
  corr : ∀ t ∈ oi.corrList, CardText t.corrname
  vis : ∀ t ∈ oi.visList, CardText t.arrname ∧ CardText t.insname ∧ CardText t.corrname
  vis2 : ∀ t ∈ oi.vis2List, CardText t.arrname ∧ CardText t.insname ∧ CardText t.corrname
  t3 : ∀ t ∈ oi.t3List, CardText t.arrname ∧ CardText t.insname ∧ CardText t.corrname
  flux : ∀ t ∈ oi.fluxList, CardText t.arrname ∧ CardText t.insname ∧ CardText t.corrname

end Verif.Spec
