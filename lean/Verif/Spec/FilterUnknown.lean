import Verif.Spec.Filter

/-! What filtering does to a table whose wavelengths are not known. -/

namespace Verif

variable {R : FP}

namespace Spec

/-- The channels where the mask is set. -/
def maskChans (n : Nat) (u : List Bool) : List Nat :=
  (List.range n).filter fun j => u[j]? == some true

/-- The limits on signal-to-noise ratio alone, for the kinds of table. -/
def VisSnr (f : FilterSpec R) (r : OiVisRecord R) (j : Nat) : Prop :=
  SnrAmpOk f r.visamp r.visamperr j ∧ SnrPhiOk f r.visphierr j
def Vis2Snr (f : FilterSpec R) (r : OiVis2Record R) (j : Nat) : Prop :=
  SnrAmpOk f r.vis2data r.vis2err j
def T3Snr (f : FilterSpec R) (r : OiT3Record R) (j : Nat) : Prop :=
  (f.accept_t3amp = true → SnrAmpOk f r.t3amp r.t3amperr j) ∧
  (f.accept_t3phi = true → SnrPhiOk f r.t3phierr j)

/-- The flags of a record after filtering, given what counts as in range. -/
def FlagsFrom (ks : List Nat) (inRange : Nat → Prop) (flag flag' : List Bool) : Prop :=
  flag'.length = ks.length ∧ ∀ k j : Nat, ks[k]? = some j →
    ∃ b, flag'[k]? = some b ∧ (b = true ↔ flag[j]? = some true ∨ ¬ inRange j)

/-- The record is for the target, in the range of times and of baselines. -/
def PointOk (f : FilterSpec R) (target : Int) (mjd : R.Dbl) (bases : List R.Dbl) : Prop :=
  TargetOk f target ∧ InD f.mjd_range mjd ∧ ∀ b ∈ bases, InD f.bas_range b

/-- Flagged records are accepted, or some datum is neither flagged nor out of range. -/
def SomeGood (f : FilterSpec R) (ks : List Nat) (inRange : Nat → Prop) (flag : List Bool) : Prop :=
  f.accept_flagged = true ∨ ∃ j ∈ ks, flag[j]? = some false ∧ inRange j

end Spec

end Verif
