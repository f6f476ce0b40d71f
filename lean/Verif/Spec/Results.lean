import Verif.Model.Results
import Verif.Spec.Cli

/-! Specification of the use of check results and texts: what each call of a program should
return, given the calls before it, and the rules which the program has to keep. -/

namespace Verif.Spec
open Outcome
variable {R : FP}

/-- The breaches which the check should find in the dataset. -/
def CheckName.breaches : CheckName → OiFits R → List Breach
  | .tables, oi => missingTables oi ++ revisionBreaches oi
  | .header, oi => headerBreaches oi
  | .keywords, oi => keywordBreaches oi
  | .visrefmap, oi => visrefmapBreaches oi
  | .uniqueTargets, oi => uniqueBreaches oi
  | .targetsPresent, oi => targetBreaches oi
  | .arrname, oi => arrnameBreaches (fun _ => 0) oi
  | .elementsPresent, oi => elementBreaches oi
  | .corrPresent, oi => corrBreaches oi
  | .flagging, oi => flaggingBreaches oi
  | .t3amp, oi => t3ampBreaches oi
  | .waveorder, oi => waveorderBreaches oi
  | .time, oi => timeBreaches oi
  | .flux, oi => fluxBreaches oi

/-- The number for the worst of some breaches: 0 if there is none, 1 for a warning, 2 for what
is not OIFITS, 3 for what is not FITS. -/
def worst (bs : List Breach) : Nat :=
  if bs.any (·.level = .notFits) then 3
  else if bs.any (·.level = .notOifits) then 2
  else if bs.any (·.level = .warning) then 1
  else 0

/-- The call gives variable `v` a new result, or frees the one it has. -/
def concerns (v : Nat) : ResultCall R → Bool
  | .check w _ _ => w = v
  | .free w => w = v
  | _ => false

/-- What variable `v` has after some calls: the breaches found by the last check made with it, if
that has not been freed. -/
def found (oi : List (OiFits R)) (calls : List (ResultCall R)) (v : Nat) : Option (List Breach) :=
  match (calls.filter (concerns v)).getLast? with
  | some (.check _ c i) => oi[i]?.map (CheckName.breaches c)
  | _ => none

/-- The text which a call should make, after the calls `before`, if it should make one. -/
def textMade (oi : List (OiFits R)) (before : List (ResultCall R)) : ResultCall R → Option CStr
  | .format v =>
    match found oi before v with
    | some (b :: bs) => some (reportText (b :: bs))
    | _ => none
  | .summary i => oi[i]?.map summary
  | .filter f => some (filterText f)
  | _ => none

/-- The last text made by some calls, with the number of the call which made it. -/
def lastText (oi : List (OiFits R)) (calls : List (ResultCall R)) : Option (Nat × CStr) :=
  ((List.range calls.length).filterMap fun k =>
    calls[k]?.bind fun c => (textMade oi (calls.take k) c).map fun t => (k, t)).getLast?

/-- What a call should return, after the calls `before`. -/
def answer (oi : List (OiFits R)) (before : List (ResultCall R)) : ResultCall R → ResultValue
  | .check _ c i => .level (worst ((oi[i]?.map (CheckName.breaches c)).getD []))
  | .look v =>
    let bs := (found oi before v).getD []
    .members bs.length (bs.head?.map (·.description))
  | .free _ => .nothing
  | .use _ => .text ((lastText oi before).map (·.2))
  | c => .text (textMade oi before c)

/-- The rules for a call: a check is made of a dataset there is, in which what it finds is all of
one kind (else the check aborts: `C04_aborts`); a result is used or freed only after a check made
it and before it is freed; a text is used only until another one is made. -/
def Allowed (oi : List (OiFits R)) (before : List (ResultCall R)) : ResultCall R → Prop
  | .check _ c i => ∃ d, oi[i]? = some d ∧ SameDescription (CheckName.breaches c d)
  | .format v => found oi before v ≠ none
  | .look v => found oi before v ≠ none
  | .free v => found oi before v ≠ none
  | .summary i => i < oi.length
  | .filter _ => True
  | .use k => (lastText oi before).map (·.1) = some k

/-- All calls of a program keep to the rules. -/
def AllAllowed (oi : List (OiFits R)) (calls : List (ResultCall R)) : Prop :=
  ∀ before c after, calls = before ++ c :: after → Allowed oi before c

/-- The number of checks made. -/
def checksMade (calls : List (ResultCall R)) : Nat :=
  calls.countP fun | .check .. => true | _ => false

/-- The number of results freed. -/
def resultsFreed (calls : List (ResultCall R)) : Nat :=
  calls.countP fun | .free _ => true | _ => false

/-! ### Python -/

/-- The checks which a Python program has made, in order; that of a dataset which there is not
raises an exception. -/
def pyChecks (oi : List (OiFits R)) (calls : List (PyCheckCall R)) : List (CheckName × OiFits R) :=
  calls.filterMap fun
    | .check c i => oi[i]?.map fun d => (c, d)
    | _ => none

/-- What a step should yield, after the steps `before`; `none` is an exception. -/
def pyAnswer (oi : List (OiFits R)) (before : List (PyCheckCall R)) : PyCheckCall R → Option ResultValue
  | .check c i => oi[i]?.map fun d => .level (worst (CheckName.breaches c d))
  | .str r => (pyChecks oi before)[r]?.map fun x =>
      .text (some (match CheckName.breaches x.1 x.2 with
        | [] => "Check passed\n"
        | b :: bs => reportText (b :: bs)))
  | .members r => (pyChecks oi before)[r]?.map fun x =>
      let bs := CheckName.breaches x.1 x.2
      .members bs.length (bs.head?.map (·.description))
  | .del _ => some .nothing
  | .strFits i => oi[i]?.map fun d => .text (some (summary d))
  | .strFilter f => some (.text (some (filterText f)))

/-- What each check of the program finds is all of one kind. -/
def OneKind (oi : List (OiFits R)) (calls : List (PyCheckCall R)) : Prop :=
  ∀ x ∈ pyChecks oi calls, SameDescription (CheckName.breaches x.1 x.2)

end Verif.Spec
