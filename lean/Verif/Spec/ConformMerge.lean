import Verif.Spec.Conform
import Verif.Spec.Merge

/-! What datasets must have so that merging, and upgrading, gives one which oifits-check passes. -/

namespace Verif.Spec
variable {R : FP}

/-- The dataset has what version 2 requires and version 1 does not: an OI_ARRAY table, an ARRNAME in each data table,
known types of amplitude and phase, and the revision number 1 in the tables which version 1 does not have. -/
structure ReadyForV2 (oi : OiFits R) : Prop where
  arrays : oi.arrayList ≠ []
  vis : ∀ t ∈ oi.visList, t.arrname ≠ [] ∧ t.amptyp ∈ amptyps ∧ t.phityp ∈ phityps
  vis2 : ∀ t ∈ oi.vis2List, t.arrname ≠ []
  t3 : ∀ t ∈ oi.t3List, t.arrname ≠ []
  flux : ∀ t ∈ oi.fluxList, t.revision = 1
  corr : ∀ t ∈ oi.corrList, t.revision = 1
  inspol : ∀ t ∈ oi.inspolList, t.revision = 1

/-- Names in the datasets allow references to be kept: in each dataset they are distinct, no
OI_ARRAY table has an empty name, they fit their buffers, and none looks like one which merging generates. -/
structure NamesMergeable (ins : List (OiFits R)) : Prop where
  unique : ∀ oi ∈ ins, UniqueNames oi
  named : ∀ oi ∈ ins, ∀ t ∈ oi.arrayList, t.arrname ≠ []
  fit : ∀ oi ∈ ins, NamesFit oi
  arrays : PlainNames ("array" : CStr) (allNames OiFits.arrayList OiArray.arrname ins)
  corrs : PlainNames ("ins" : CStr) (allNames OiFits.corrList OiCorr.corrname ins)

/-- The names of OI_ARRAY and OI_CORR tables leave room on a header card (where a quote takes two characters) for what
merging may append: an underscore and a number of up to four digits. -/
structure NamesShort (oi : OiFits R) : Prop where
  array : ∀ t ∈ oi.arrayList, (t.arrname.map fun c => if c = '\'' then 2 else 1).sum ≤ 63
  corr : ∀ t ∈ oi.corrList, (t.corrname.map fun c => if c = '\'' then 2 else 1).sum ≤ 63

/-- A dataset of version 1 which can be turned into one of version 2: there is an array for each table, types of amplitude and
phase are known ones, and tables have names which are not empty and, for arrays, distinct. -/
structure Upgradable (oi : OiFits R) : Prop where
  arrays : oi.arrayList ≠ []
  vis : ∀ t ∈ oi.visList, t.arrname ≠ [] ∧ t.amptyp ∈ amptyps ∧ t.phityp ∈ phityps
  vis2 : ∀ t ∈ oi.vis2List, t.arrname ≠ []
  t3 : ∀ t ∈ oi.t3List, t.arrname ≠ []
  named : (∀ t ∈ oi.arrayList, t.arrname ≠ []) ∧ (∀ t ∈ oi.wavelengthList, t.insname ≠ []) ∧
    ∀ x ∈ oi.targets.targ, x.target ≠ []
  unique : (oi.arrayList.map (·.arrname)).Nodup

end Verif.Spec
