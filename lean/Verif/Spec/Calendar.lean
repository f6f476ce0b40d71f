import Verif.Model.Date

/-! Specification: the Gregorian calendar, by its own successor rule. Only the
type `Date` is taken from the model. -/

namespace Verif.Spec

/-- The leap year rule of the Gregorian calendar. -/
def isLeap (y : Int) : Bool := (y % 4 == 0 && y % 100 != 0) || y % 400 == 0

/-- Number of days of month `m` (1-12) of year `y`. -/
def daysInMonth (y m : Int) : Int :=
  if m = 2 then (if isLeap y then 29 else 28)
  else if m = 4 ∨ m = 6 ∨ m = 9 ∨ m = 11 then 30
  else 31

/-- The date exists in the (proleptic) Gregorian calendar. -/
def ValidDate (d : Date) : Prop :=
  1 ≤ d.month ∧ d.month ≤ 12 ∧ 1 ≤ d.day ∧ d.day ≤ daysInMonth d.year d.month

instance (d : Date) : Decidable (ValidDate d) := by unfold ValidDate; infer_instance

/-- The calendar day after `d`. -/
def nextDay (d : Date) : Date :=
  if d.day < daysInMonth d.year d.month then ⟨d.year, d.month, d.day + 1⟩
  else if d.month < 12 then ⟨d.year, d.month + 1, 1⟩
  else ⟨d.year + 1, 1, 1⟩

/-- `MJD d n`: calendar date `d` is reached from 1858-11-17, whose Modified
Julian Day is 0, by moving on `n` times to the next day. -/
inductive MJD : Date → Int → Prop
  | epoch : MJD ⟨1858, 11, 17⟩ 0
  | next {d : Date} {n : Int} : MJD d n → MJD (nextDay d) (n + 1)

end Verif.Spec
