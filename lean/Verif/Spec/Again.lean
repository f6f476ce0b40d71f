import Verif.Spec.Exact

/-! Datasets for which a second round trip is the same as the first one. -/

namespace Verif
variable {R : FP}

namespace Spec

/-- Once the number has been written to a keyword and read back, it does not change when
that is done again. Fifteen digits always survive conversion to a `double` and back, so
this is true of all numbers which can be written to a keyword. -/
def Settles (x : R.Dbl) : Prop := CardNum (asKey x)

instance (x : R.Dbl) : Decidable (Settles x) := inferInstanceAs (Decidable (_ = _))

end Spec
open Spec

/-- The strings on which the presence of other parts of the file depends are stored
without loss. (A name consisting of blanks, say, would
be read back as no name.) -/
structure OiFits.Settled (oi : OiFits R) : Prop where
  header : ∀ s ∈ [oi.header.referenc, oi.header.author, oi.header.prog_id, oi.header.procsoft,
    oi.header.obstech], CardText s
  array : ∀ t ∈ oi.arrayList, Settles t.arrayx ∧ Settles t.arrayy ∧ Settles t.arrayz
  vis : ∀ t ∈ oi.visList, CardText t.arrname ∧ CardText t.corrname ∧ CardText t.amptyp ∧ CardText t.phityp
  vis2 : ∀ t ∈ oi.vis2List, CardText t.arrname ∧ CardText t.corrname
  t3 : ∀ t ∈ oi.t3List, CardText t.arrname ∧ CardText t.corrname
  flux : ∀ t ∈ oi.fluxList, CardText t.arrname ∧ CardText t.corrname ∧ CardText t.fovtype ∧
    (t.fovtype ≠ [] → Settles t.fov)

end Verif
