import Verif.Spec.Filter

/-! Specification of a filter which everything in a dataset meets. -/

namespace Verif.Spec
variable {R : FP}

/-- Everything in the dataset meets the filter: no target is asked for, all kinds of data there are and the names of
their tables are accepted, all values are within the ranges, and no record has only flagged data, unless these are
accepted. -/
structure AllMeet (f : FilterSpec R) (oi : OiFits R) : Prop where
  target : f.target_id < 0
  ranges : WithinRanges f oi
  vis : ∀ t ∈ oi.visList, f.accept_vis = true ∧ NamesOk f t.arrname t.insname t.corrname ∧
    (f.accept_flagged = true ∨ ∀ r ∈ t.record, false ∈ r.flag)
  vis2 : ∀ t ∈ oi.vis2List, f.accept_vis2 = true ∧ NamesOk f t.arrname t.insname t.corrname ∧
    (f.accept_flagged = true ∨ ∀ r ∈ t.record, false ∈ r.flag)
  t3 : ∀ t ∈ oi.t3List, f.accept_t3amp = true ∧ f.accept_t3phi = true ∧ NamesOk f t.arrname t.insname t.corrname ∧
    (f.accept_flagged = true ∨ ∀ r ∈ t.record, false ∈ r.flag)
  flux : ∀ t ∈ oi.fluxList, f.accept_flux = true ∧ NamesOk f t.arrname t.insname t.corrname

open Classical in
/-- `out` is `oi` without the OI_ARRAY, OI_CORR and OI_WAVELENGTH tables which no data refer to; what becomes of
OI_INSPOL tables is not said. -/
structure SameButOrphans (oi out : OiFits R) : Prop where
  header : out.header = oi.header
  targets : out.targets = oi.targets
  vis : out.visList = oi.visList
  vis2 : out.vis2List = oi.vis2List
  t3 : out.t3List = oi.t3List
  flux : out.fluxList = oi.fluxList
  array : out.arrayList = oi.arrayList.filter fun t => decide (ArrReferenced oi t.arrname)
  corr : out.corrList = oi.corrList.filter fun t => decide (CorrReferenced oi t.corrname)
  wavelength : out.wavelengthList = oi.wavelengthList.filter fun t => decide (InsReferenced oi t.insname)

end Verif.Spec
