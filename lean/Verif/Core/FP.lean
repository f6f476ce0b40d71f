/-! Floating point arithmetic as a parameter. -/

namespace Verif

/-- The floating-point operations the code uses, for `double` (`Dbl`) and `float`
(`Flt`). Nothing is assumed of them here: theorems quantify over all `R : FP`.
`DecidableEq` is identity of representation, which the C code never tests; it is
there so that examples can be evaluated. -/
structure FP where
  /-- values of C type `double` -/
  Dbl : Type
  /-- values of C type `float` -/
  Flt : Type
  /-- `a < b` on doubles -/
  lt : Dbl → Dbl → Bool
  /-- `a <= b` on doubles -/
  le : Dbl → Dbl → Bool
  add : Dbl → Dbl → Dbl
  sub : Dbl → Dbl → Dbl
  mul : Dbl → Dbl → Dbl
  div : Dbl → Dbl → Dbl
  /-- `a - b` on floats -/
  subF : Flt → Flt → Flt
  /-- `fabs` -/
  abs : Dbl → Dbl
  /-- `pow(x, 0.5)` -/
  powHalf : Dbl → Dbl
  /-- conversion of `float` to `double` -/
  toD : Flt → Dbl
  /-- conversion of `double` to `float` -/
  toF : Dbl → Flt
  /-- `(long)floor(x)` -/
  floor : Dbl → Int
  /-- a decimal literal of type `double` -/
  lit : Rat → Dbl
  /-- the NaN written as a null value -/
  nan : Dbl
  /-- the number read back from the text CFITSIO writes for a `double` keyword value,
  with 15 significant digits (`fits_write_key` with `TDOUBLE`); `none` if it refuses to
  write it (NaN and infinities) -/
  keyD : Dbl → Option Dbl
  /-- the bytes of a `double`, seen as a `float complex` -/
  pun : Dbl → Flt × Flt
  /-- `printf` of a `double` with the given conversion -/
  fmt : String → Dbl → List Char
  decD : DecidableEq Dbl
  decF : DecidableEq Flt

instance (R : FP) : DecidableEq R.Dbl := R.decD
instance (R : FP) : DecidableEq R.Flt := R.decF

namespace FP

/-- Newton iteration for the integer square root, for `ratFP` only. -/
def isqrtAux : Nat → Nat → Nat → Nat
  | 0, _, g => g
  | f + 1, n, g => let g' := (g + n / g) / 2; if g' < g then isqrtAux f n g' else g

/-- Integer square root, for `ratFP` only. -/
def isqrt (n : Nat) : Nat := if n = 0 then 0 else isqrtAux 200 n n

/-- Round a rational number to 15 significant decimal digits, for `ratFP` only. -/
def sig15 (x : Rat) : Rat :=
  let n := x.num.natAbs
  let len (n : Nat) : Int := (Nat.toDigits 10 n).length
  let scaled (e : Int) : Nat :=
    let a := n * 10 ^ e.toNat
    let b := x.den * 10 ^ (-e).toNat
    (2 * a + b) / (2 * b)
  let e := 15 - (len n - len x.den)
  let e := if scaled e < 10 ^ 15 then e else e - 1
  let m : Rat := mkRat (scaled e) 1 * (if e < 0 then mkRat (10 ^ (-e).toNat) 1 else mkRat 1 (10 ^ e.toNat))
  if n = 0 then 0 else if x.num < 0 then -m else m

/-- A concrete instance: rational numbers, exact but for `pow(x, 0.5)`, with a
NaN (`none`) which compares false with everything and is also the result of a
division by zero. `pun` and `fmt` are arbitrary. Used to show that hypotheses can be met. -/
def ratFP : FP where
  Dbl := Option Rat
  Flt := Option Rat
  lt a b := match a, b with
    | some x, some y => decide (x < y)
    | _, _ => false
  le a b := match a, b with
    | some x, some y => decide (x ≤ y)
    | _, _ => false
  add a b := match a, b with
    | some x, some y => some (x + y)
    | _, _ => none
  sub a b := match a, b with
    | some x, some y => some (x - y)
    | _, _ => none
  mul a b := match a, b with
    | some x, some y => some (x * y)
    | _, _ => none
  div a b := match a, b with
    | some x, some y => if y = 0 then none else some (x / y)
    | _, _ => none
  subF a b := match a, b with
    | some x, some y => some (x - y)
    | _, _ => none
  abs a := match a with
    | some x => some (if x < 0 then -x else x)
    | none => none
  powHalf a := match a with
    | some x => if x < 0 then none else some (mkRat (isqrt (x.num.natAbs * x.den)) x.den)
    | none => none
  toD := id
  toF := id
  floor a := match a with
    | some x => x.floor
    | none => 0
  lit := some
  nan := none
  keyD a := a.map fun x => some (sig15 x)
  pun a := (a, some 0)
  fmt _ a := match a with
    | some x => (if x.num < 0 then ['-'] else []) ++ Nat.toDigits 10 x.num.natAbs ++ ['/'] ++ Nat.toDigits 10 x.den
    | none => "nan".toList
  decD := inferInstance
  decF := inferInstance

end FP

end Verif
