import Verif.Spec.Machine

/-! # Tables whose reference maps are too large for an `int` -/

namespace Verif


variable {R : FP}

/-- The OI_VIS table has a reference map whose number of elements a signed integer of this many bits cannot hold. -/
def TooLarge (bits : Nat) (t : OiVis R) : Prop := t.usevisrefmap = true ∧ ¬ Holds bits (t.nwave * t.nwave)

/-- The squares of the numbers of channels in the OI_VIS tables of the file can be held. (The number of channels is the
number of elements in the column VISAMP.) -/
def FewChannels (bits : Nat) (hdus : List (Hdu R)) : Prop :=
  ∀ h ∈ hdus, ∀ c ∈ h.cols, upper c.name = ("VISAMP" : CStr) → Holds bits (c.rep * c.rep)

end Verif
