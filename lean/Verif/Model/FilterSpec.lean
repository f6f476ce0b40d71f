import Verif.Model.File

/-! Filter specifications: `oi_filter_spec` (oifilter.h) and its matching macros. -/

namespace Verif
open Outcome

variable {R : FP}

/-- oifilter.h:73-97 `oi_filter_spec`. Two-element arrays are pairs, `int` switches
are `Bool`. The compiled patterns are not modelled: they are NULL except during
a call (init_oi_filter, oifilter.c:511-513; end of apply_oi_filter, 1819-1825; end
of the iterator functions, oiiter.c:434-441), and during a call they are compiled
from the pattern strings. -/
structure FilterSpec (R : FP) where
  arrname : CStr
  insname : CStr
  corrname : CStr
  target_id : Int
  mjd_range : R.Dbl × R.Dbl
  wave_range : R.Flt × R.Flt
  bas_range : R.Dbl × R.Dbl
  uvrad_range : R.Dbl × R.Dbl
  snr_range : R.Flt × R.Flt
  accept_vis : Bool
  accept_vis2 : Bool
  accept_t3amp : Bool
  accept_t3phi : Bool
  accept_flux : Bool
  accept_flagged : Bool
deriving DecidableEq

/-- oifilter.c:488-514 `init_oi_filter`. -/
def init_oi_filter (R : FP) : FilterSpec R where
  arrname := "*"
  insname := "*"
  corrname := "*"
  target_id := -1
  mjd_range := (R.lit 0, R.lit 10000000)
  wave_range := (R.toF (R.lit 0), R.toF (R.lit (mkRat 1 10000)))
  bas_range := (R.lit 0, R.lit 10000)
  uvrad_range := (R.lit 0, R.lit 100000000000)
  snr_range := (R.toF (R.lit (-5)), R.toF (R.lit 10000000000))
  accept_vis := true
  accept_vis2 := true
  accept_t3amp := true
  accept_t3phi := true
  accept_flux := true
  accept_flagged := true

/-- `g_pattern_match_string` (GLib, not part of the repository) as documented: `*`
matches an arbitrary, possibly empty, string, and `?` an arbitrary character. -/
def globMatch : CStr → CStr → Bool
  | [], s => s.isEmpty
  | p :: ps, s =>
    if p == '*' then (List.range (s.length + 1)).any fun i => globMatch ps (s.drop i)
    else match s with
      | [] => false
      | c :: cs => (p == '?' || p == c) && globMatch ps cs

/-- oifilter.c:1009, 1083, 1249, 1296 and the like: `x < range[0] || x > range[1]` for `double` values. -/
def outsideD (range : R.Dbl × R.Dbl) (x : R.Dbl) : Bool := R.lt x range.1 || R.lt range.2 x

/-- oifilter.c:756-757 and the like: `x < range[0] || x > range[1]` for `float` values. -/
def outsideF (range : R.Flt × R.Flt) (x : R.Flt) : Bool :=
  R.lt (R.toD x) (R.toD range.1) || R.lt (R.toD range.2) (R.toD x)

/-- `RAD2DEG` (oiiter.c:30, oifilter.c:30). -/
def RAD2DEG : R.Dbl := R.div (R.lit 180) (R.lit (mkRat 314159 100000))

/-- oifilter.c:1079, 1292 and the like: `pow(x * x + y * y, 0.5)`. -/
def hypot2 (x y : R.Dbl) : R.Dbl := R.powHalf (R.add (R.mul x x) (R.mul y y))

end Verif
