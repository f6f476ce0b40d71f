import Verif.Core.FP

/-!
# Attributes of Python objects which are tuples

Members of C structs which are arrays of fixed length (`sta_index`, `staxyz`, `mjd_range`,
`wave_range` and so on) are Python attributes whose value is a tuple. This is a model of the
conversion functions and typemaps of src/python-oifits/oifits_typemaps.i which read and assign
them.

Simplifications: a Python value is an integer of any size, a float, or anything else; a
sequence yields the same elements each time it is asked. The names of the C API are those of
Python 2, which SWIG defines as their successors for Python 3 (`PyInt_Check` as
`PyLong_Check`).
-/

namespace Verif.Py

variable {R : FP}

/-- An element of a sequence. -/
inductive Val (R : FP) where
  | int (n : Int)
  | float (x : R.Dbl)
  | other

/-- What is assigned to the attribute. -/
inductive Arg (R : FP) where
  | seq (l : List (Val R))
  | notSeq

/-- Python exceptions. `system` is the SystemError which the interpreter raises for a function
that has set an exception (here OverflowError) and returns as if it had succeeded. -/
inductive Exc where
  | type | value | system
deriving DecidableEq, Repr

/-- `PyInt_AsLong`: the value, and whether OverflowError is set; the value is then -1. -/
def asLong (n : Int) : Int × Bool :=
  if -(2 ^ 63) ≤ n ∧ n < 2 ^ 63 then (n, false) else (-1, true)

/-- The conversion of `long` to `int`, which keeps the lower 32 bits. -/
def toInt (n : Int) : Int := (n + 2 ^ 31) % 2 ^ 32 - 2 ^ 31

/-- One element of an array of int; `none` if it has another type.
oifits_typemaps.i:26-33. -/
def intItem : Val R → Option (Int × Bool)
  | .int n => some (toInt (asLong n).1, (asLong n).2)
  | _ => none

/-- One element of an array of float. oifits_typemaps.i:56-63. -/
def floatItem : Val R → Option (R.Flt × Bool)
  | .float x => some (R.toF x, false)
  | _ => none

/-- One element of an array of double. oifits_typemaps.i:86-93. -/
def doubleItem : Val R → Option (R.Dbl × Bool)
  | .float x => some (x, false)
  | _ => none

/-- The loop over the elements: it stops at the first of another type. The Bool says whether
OverflowError is set. -/
def items {α : Type} (item : Val R → Option (α × Bool)) : List (Val R) → Option (List α × Bool)
  | [] => some ([], false)
  | v :: vs =>
    match item v with
    | none => none
    | some (a, e) =>
      match items item vs with
      | none => none
      | some (l, e') => some (a :: l, e || e')

/-- oifits_typemaps.i:8-36, 38-66, 68-96 `convert_int_array`, `convert_float_array`,
`convert_double_array`: NULL with an exception, or the array; and the number of blocks
allocated by it which are not returned to the caller (the array is not freed when an element
has another type). -/
def convert {α : Type} (item : Val R → Option (α × Bool)) (input : Arg R) (expectedDim : Nat) :
    Except Exc (List α × Bool) × Nat :=
  match input with
  | .notSeq => (.error .type, 0)
  | .seq l =>
    if l.length ≠ expectedDim then (.error .value, 0)
    else match items item l with
      | none => (.error .value, 1)
      | some r => (.ok r, 0)

/-- The outcome of an assignment: the attribute, the exception raised, if any, and the number
of blocks lost. -/
structure Result (α : Type) where
  attr : List α
  raised : Option Exc
  lost : Nat
deriving DecidableEq, Repr

/-- oifits_typemaps.i:117-176. The setter which SWIG generates with the typemaps `in` (117-122, 141-146, 165-170) and
`freearg` (124-128, 148-152, 172-176): the array is copied into the struct and freed. The
struct is in memory already, so an exception set on the way does not undo it. -/
def assign {α : Type} (item : Val R → Option (α × Bool)) (old : List α) (input : Arg R) :
    Result α :=
  match convert item input old.length with
  | (.error e, n) => ⟨old, some e, n⟩
  | (.ok (new, overflow), n) => ⟨new, if overflow then some .system else none, n⟩

/-- The getters: oifits_typemaps.i:106-115, 130-139, 154-163, typemap `out`. -/
def getInts (a : List Int) : List (Val R) := a.map .int
def getFloats (a : List R.Flt) : List (Val R) := a.map fun x => .float (R.toD x)
def getDoubles (a : List R.Dbl) : List (Val R) := a.map .float

end Verif.Py
