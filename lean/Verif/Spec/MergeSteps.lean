import Verif.Spec.Merge

/-! Specification of merging in steps: what merging the result of an earlier merge with
further datasets gives, compared with merging everything at once. -/

namespace Verif.Spec
variable {R : FP}

/-- Some dataset gives a date. -/
def SomeDate (ins : List (OiFits R)) : Prop :=
  ∃ oi ∈ ins, ∃ d, StartsWithDate oi.header.date_obs d

/-- No dataset gives a date. -/
def NoDate (ins : List (OiFits R)) : Prop := ∀ oi ∈ ins, oi.header.date_obs = []

/-- Value `v` of a mandatory keyword as it comes out if the datasets `first` are merged
in a step of their own: if none of them gives a value, the first step puts UNKNOWN there,
which any value that follows contradicts. -/
def steppedKey (first : List (OiFits R)) (key : OiHeader → CStr) (v : CStr) : CStr :=
  if (∀ oi ∈ first, key oi.header = []) ∧ v ≠ ("UNKNOWN" : CStr) then "MULTIPLE" else v

/-- A dataset merged at once as it comes out if the datasets `first` are merged in a step
of their own. -/
def stepped (first : List (OiFits R)) (out : OiFits R) : OiFits R :=
  { out with header := { out.header with
    origin := steppedKey first OiHeader.origin out.header.origin
    telescop := steppedKey first OiHeader.telescop out.header.telescop
    instrume := steppedKey first OiHeader.instrume out.header.instrume
    observer := steppedKey first OiHeader.observer out.header.observer
    insmode := steppedKey first OiHeader.insmode out.header.insmode
    object := steppedKey first OiHeader.object out.header.object } }

/-- Each mandatory keyword has a value in some dataset. -/
def KeysGiven (ins : List (OiFits R)) : Prop :=
  ∀ key ∈ mandatoryKeys, ∃ oi ∈ ins, key oi.header ≠ []

end Verif.Spec
