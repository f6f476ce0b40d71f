import Verif.Model.Fault

/-! Failing calls of CFITSIO: what it means that a file is written although calls may fail. -/

namespace Verif.Spec

variable {R : FP}

/-- The programs, if calls of CFITSIO made for writing the output file fail. -/
def filterFailing (F : Faults R) (u : Undef R) (today : CStr) (removable : CStr → Bool) (line : CommandLine R) :
    Prog R Unit := filterMain (writeFileFailing F today) u removable line

@[inherit_doc filterFailing]
def mergeFailing (F : Faults R) (u : Undef R) (today : CStr) (argv : List CStr) : Prog R Unit :=
  mergeMain (writeFileFailing F today) u argv

@[inherit_doc filterFailing]
def upgradeFailing (F : Faults R) (u : Undef R) (today : CStr) (argv : List CStr) : Prog R Unit :=
  upgradeMain (writeFileFailing F today) u argv

/-- Nothing fails. -/
def NothingFails (F : Faults R) : Prop := F.create = none ∧ (∀ i j, F.calls i j = none) ∧ F.close = none

/-- While the dataset is written, number `j` of what is done for part `i` is a call of CFITSIO. -/
def IsCall (today : CStr) (oi : OiFits R) (i j : Nat) : Prop :=
  ∃ part op, (fileSteps today oi)[i]? = some part ∧ part[j]? = some op ∧ op.isCall = true

/-- That call is the first one which fails. -/
def FailsFirst (F : Faults R) (i j : Nat) (f : Fault R) : Prop :=
  F.create = none ∧ (∀ a b, a < i → F.calls a b = none) ∧ (∀ b, b < j → F.calls i b = none) ∧ F.calls i j = some f

/-- Number of calls of CFITSIO between creating and closing the file. -/
def callCount (today : CStr) (oi : OiFits R) : Nat :=
  ((fileSteps today oi).map fun part => part.countP WriteOp.isCall).sum

end Verif.Spec
