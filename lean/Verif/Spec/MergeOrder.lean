import Verif.Spec.MergeIter

/-! What a dataset holds, apart from the names of its tables and the numbers of its targets: these depend on the order
of the inputs of a merge. -/

namespace Verif.Spec
variable {R : FP}

/-- The OI_VIS tables of a dataset, without the names by which they refer to other tables, and with the name of the
target of each record in place of its number. -/
def visUnnamed (oi : OiFits R) : List (OiVis R × List (Option CStr × OiVisRecord R)) :=
  oi.visList.map fun t => ({ t with arrname := [], insname := [], corrname := [], record := [] },
    t.record.map fun r => (targetName oi r.target_id, { r with target_id := 0 }))

/-- The same for OI_VIS2 tables. -/
def vis2Unnamed (oi : OiFits R) : List (OiVis2 R × List (Option CStr × OiVis2Record R)) :=
  oi.vis2List.map fun t => ({ t with arrname := [], insname := [], corrname := [], record := [] },
    t.record.map fun r => (targetName oi r.target_id, { r with target_id := 0 }))

/-- The same for OI_T3 tables. -/
def t3Unnamed (oi : OiFits R) : List (OiT3 R × List (Option CStr × OiT3Record R)) :=
  oi.t3List.map fun t => ({ t with arrname := [], insname := [], corrname := [], record := [] },
    t.record.map fun r => (targetName oi r.target_id, { r with target_id := 0 }))

/-- The same for OI_FLUX tables. -/
def fluxUnnamed (oi : OiFits R) : List (OiFlux R × List (Option CStr × OiFluxRecord R)) :=
  oi.fluxList.map fun t => ({ t with arrname := [], insname := [], corrname := [], record := [] },
    t.record.map fun r => (targetName oi r.target_id, { r with target_id := 0 }))

/-- The same for OI_INSPOL tables, whose records refer to instruments by name. -/
def inspolUnnamed (oi : OiFits R) : List (OiInspol R × List (Option CStr × OiInspolRecord R)) :=
  oi.inspolList.map fun t => ({ t with arrname := [], record := [] },
    t.record.map fun r => (targetName oi r.target_id, { r with target_id := 0, insname := [] }))

end Verif.Spec
