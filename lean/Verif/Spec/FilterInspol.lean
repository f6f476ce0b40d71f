import Verif.Spec.Filter

/-! Specification of the OI_INSPOL tables that can be filtered. -/

namespace Verif.Spec
variable {R : FP}

/-- The instruments named by the records of the table that are kept have as many channels
as the table (as the OIFITS format requires). -/
def InspolAligned (f : FilterSpec R) (oi : OiFits R) (t : OiInspol R) : Prop :=
  ∀ r ∈ inspolRecs f oi t, ∀ w, instTable oi r.insname = some w → w.nwave = t.nwave

/-- No record that is kept has more channels in range than the first of them. -/
def InspolFits (f : FilterSpec R) (oi : OiFits R) (t : OiInspol R) : Prop :=
  ∀ r0, (inspolRecs f oi t).head? = some r0 → ∀ r ∈ inspolRecs f oi t,
    (instChans f oi r.insname).length ≤ (instChans f oi r0.insname).length

end Verif.Spec
