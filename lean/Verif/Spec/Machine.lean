import Verif.Model.Machine

/-! # Which numbers machine integers can hold -/

namespace Verif

/-- A signed integer of this many bits can hold the number. -/
def Holds (bits : Nat) (x : Int) : Prop := -2 ^ (bits - 1) ≤ x ∧ x < 2 ^ (bits - 1)

/-- The days whose calendar dates can be computed: the conversion multiplies by four the number of
days since the day 2468570 days before MJD 0. -/
def DayFits (bits : Nat) (mjd : Int) : Prop := Holds bits (4 * (mjd + 2468570))

end Verif
