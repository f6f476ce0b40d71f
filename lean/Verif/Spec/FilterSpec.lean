import Verif.Model.FilterSpec

/-! Specification vocabulary for filters: the meaning of patterns and ranges. -/

namespace Verif.Spec
variable {R : FP}

/-- The string matches the pattern: `*` stands for any string, `?` for any one
character, any other character for itself. -/
inductive Glob : CStr → CStr → Prop
  | nil : Glob [] []
  | star {p s : CStr} (a : CStr) : Glob p s → Glob ('*' :: p) (a ++ s)
  | any {p s : CStr} (c : Char) : Glob p s → Glob ('?' :: p) (c :: s)
  | char {p s : CStr} (c : Char) : c ≠ '*' → c ≠ '?' → Glob p s → Glob (c :: p) (c :: s)

/-- A `double` is not below or above the range. (A NaN is neither.) -/
def InD (range : R.Dbl × R.Dbl) (x : R.Dbl) : Prop :=
  R.lt x range.1 = false ∧ R.lt range.2 x = false

/-- A `float` is not below or above the range. -/
def InF (range : R.Flt × R.Flt) (x : R.Flt) : Prop :=
  R.lt (R.toD x) (R.toD range.1) = false ∧ R.lt (R.toD range.2) (R.toD x) = false

/-- Projected baseline in metres: the square root of u² + v². -/
def baseline (u v : R.Dbl) : R.Dbl := R.powHalf (R.add (R.mul u u) (R.mul v v))

/-- Amplitude signal-to-noise ratio: value over error, as a `float`. -/
def snrAmp (x err : R.Dbl) : R.Flt := R.toF (R.div x err)

/-- Phase signal-to-noise ratio: a radian in degrees over the error, as a `float`. -/
def snrPhi (err : R.Dbl) : R.Flt :=
  R.toF (R.div (R.div (R.lit 180) (R.lit (mkRat 314159 100000))) err)

end Verif.Spec
