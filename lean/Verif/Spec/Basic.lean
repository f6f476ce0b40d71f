import Verif.Core.FP

/-! Small specification vocabulary. -/

namespace Verif.Spec

/-- `x` is the first entry of `l` with property `p`. -/
def FirstWith {α : Type} (p : α → Prop) (l : List α) (x : α) : Prop :=
  ∃ pre post, l = pre ++ x :: post ∧ p x ∧ ∀ y ∈ pre, ¬ p y

/-- Facts about floating point comparison and subtraction which IEEE 754
arithmetic satisfies: finite values denote rational numbers (`val`; `none` for
NaN and infinities), comparison of finite values compares these, subtraction of
values of magnitude at most 10^6 rounds the exact difference by a monotone and
odd function, `fabs` is exact, and 0 and 100000 are representable. -/
structure Lawful (R : FP) where
  val : R.Dbl → Option Rat
  rnd : Rat → Rat
  lt_iff : ∀ x y a b, val x = some a → val y = some b → (R.lt x y = true ↔ a < b)
  sub_val : ∀ x y a b, val x = some a → val y = some b → -1000000 ≤ a → a ≤ 1000000 →
    -1000000 ≤ b → b ≤ 1000000 → val (R.sub x y) = some (rnd (a - b))
  rnd_mono : ∀ a b, a ≤ b → rnd a ≤ rnd b
  rnd_neg : ∀ a, rnd (-a) = -rnd a
  abs_val : ∀ x a, val x = some a → val (R.abs x) = some (if a < 0 then -a else a)
  lit_int : ∀ n : Int, -1000000 ≤ n → n ≤ 1000000 → val (R.lit n) = some (n : Rat)

end Verif.Spec
