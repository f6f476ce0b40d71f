import Verif.Model.PyTuple
import Mathlib.Data.List.Forall2

/-! C88: assigning to attributes of Python objects which are tuples. -/

namespace Verif.Py

variable {R : FP} {α : Type}

/-! ### Auxiliary facts -/

theorem items_some {item : Val R → Option (α × Bool)} {f : Val R → α} (l : List (Val R))
    (h : ∀ v ∈ l, item v = some (f v, false)) : items item l = some (l.map f, false) := by
  induction l with
  | nil => rfl
  | cons v vs ih =>
    simp only [items, h v (by simp), ih fun v hv => h v (List.mem_cons_of_mem _ hv)]
    rfl

theorem items_none {item : Val R → Option (α × Bool)} (l : List (Val R)) :
    items item l = none ↔ ∃ v ∈ l, item v = none := by
  induction l with
  | nil => simp [items]
  | cons v vs ih =>
    simp only [items, List.mem_cons, exists_eq_or_imp, ← ih]
    cases hv : item v with
    | none => simp
    | some x =>
      cases hs : items item vs with
      | none => simp
      | some y => simp

theorem items_length {item : Val R → Option (α × Bool)} (l : List (Val R)) {r : List α × Bool}
    (h : items item l = some r) : r.1.length = l.length := by
  induction l generalizing r with
  | nil => cases h; rfl
  | cons v vs ih =>
    simp only [items] at h
    cases hv : item v with
    | none => rw [hv] at h; cases h
    | some x =>
      rw [hv] at h
      cases hs : items item vs with
      | none => rw [hs] at h; cases h
      | some y =>
        rw [hs] at h
        have := ih hs
        cases h
        simp [this]

theorem toInt_eq {n : Int} (h : -(2 ^ 31) ≤ n ∧ n < 2 ^ 31) : toInt n = n := by
  unfold toInt
  have : (n + 2 ^ 31) % 2 ^ 32 = n + 2 ^ 31 := Int.emod_eq_of_lt (by omega) (by omega)
  rw [this]; omega

theorem intItem_fits {n : Int} (h : -(2 ^ 31) ≤ n ∧ n < 2 ^ 31) :
    intItem (R := R) (.int n) = some (n, false) := by
  have : asLong n = (n, false) := if_pos ⟨by omega, by omega⟩
  simp only [intItem, this, toInt_eq h]

/-! ### Assignments which succeed -/

/-- C88, integers: a sequence of the right length of integers which fit in 32 bits is stored,
and read back, without an exception. Missing: larger integers, which are changed
(`C88_int_truncated`) or raise an exception although the attribute has changed
(`C88_int_overflow`). -/
theorem C88_int_partial (old new : List Int) (hl : new.length = old.length)
    (hn : ∀ n ∈ new, -(2 ^ 31) ≤ n ∧ n < 2 ^ 31) :
    assign (R := R) intItem old (.seq (new.map .int)) = ⟨new, none, 0⟩ ∧
    getInts (R := R) (assign (R := R) intItem old (.seq (new.map .int))).attr = new.map .int := by
  have h : items (R := R) intItem (new.map .int) = some (new, false) := by
    have := items_some (R := R) (item := intItem) (f := fun | .int n => n | _ => 0)
      (new.map .int) (fun v hv => by
        obtain ⟨n, hm, rfl⟩ := List.mem_map.mp hv
        exact intItem_fits (hn n hm))
    rw [this, List.map_map]
    congr 2
    exact List.map_id new
  have : assign (R := R) intItem old (.seq (new.map .int)) = ⟨new, none, 0⟩ := by
    simp only [assign, convert, List.length_map, hl, ne_eq, not_true_eq_false, if_false, h]
    rfl
  exact ⟨this, by rw [this]; rfl⟩

/-- C88, floats, for attributes in double precision: a sequence of the right length of floats
is stored, and read back, without an exception. -/
theorem C88_double (old new : List R.Dbl) (hl : new.length = old.length) :
    assign (R := R) doubleItem old (.seq (new.map .float)) = ⟨new, none, 0⟩ ∧
    getDoubles (R := R) (assign (R := R) doubleItem old (.seq (new.map .float))).attr =
      new.map .float := by
  have h : items (R := R) doubleItem (new.map .float) = some (new, false) := by
    have := items_some (R := R) (item := doubleItem) (f := fun | .float x => x | _ => R.nan)
      (new.map .float) (fun v hv => by
        obtain ⟨x, hm, rfl⟩ := List.mem_map.mp hv
        rfl)
    rw [this, List.map_map]
    congr 2
    exact List.map_id new
  have : assign (R := R) doubleItem old (.seq (new.map .float)) = ⟨new, none, 0⟩ := by
    simp only [assign, convert, List.length_map, hl, ne_eq, not_true_eq_false, if_false, h]
    rfl
  exact ⟨this, by rw [this]; rfl⟩

/-- C88, floats, for attributes in single precision (`wave_range`, `snr_range`): each element is
rounded to single precision, and what is read back is the rounded value. -/
theorem C88_single (old : List R.Flt) (new : List R.Dbl) (hl : new.length = old.length) :
    assign (R := R) floatItem old (.seq (new.map .float)) = ⟨new.map R.toF, none, 0⟩ ∧
    getFloats (R := R) (assign (R := R) floatItem old (.seq (new.map .float))).attr =
      new.map (fun x => .float (R.toD (R.toF x))) := by
  have h : items (R := R) floatItem (new.map .float) = some (new.map R.toF, false) := by
    have := items_some (R := R) (item := floatItem)
      (f := fun | .float x => R.toF x | _ => R.toF R.nan)
      (new.map .float) (fun v hv => by
        obtain ⟨x, hm, rfl⟩ := List.mem_map.mp hv
        rfl)
    rw [this, List.map_map]
    rfl
  have : assign (R := R) floatItem old (.seq (new.map .float)) = ⟨new.map R.toF, none, 0⟩ := by
    simp only [assign, convert, List.length_map, hl, ne_eq, not_true_eq_false, if_false, h]
    rfl
  refine ⟨this, ?_⟩
  rw [this]
  simp only [getFloats, List.map_map]
  rfl

/-! ### Assignments which raise an exception -/

/-- The assignment raises the exception and leaves the attribute as it was. -/
def Refused (r : Result α) (old : List α) (e : Exc) : Prop := r.attr = old ∧ r.raised = some e

/-- C88, refusal: whatever is not a sequence raises TypeError, a sequence of another length or
with an element of another type raises ValueError, and the attribute keeps its value. (An
integer is of another type than a float.) -/
theorem C88_refused (oi : List Int) (of : List R.Flt) (od : List R.Dbl) :
    (Refused (assign (R := R) intItem oi .notSeq) oi .type ∧
     Refused (assign (R := R) floatItem of .notSeq) of .type ∧
     Refused (assign (R := R) doubleItem od .notSeq) od .type) ∧
    (∀ l : List (Val R),
      (l.length ≠ oi.length ∨ (∃ v ∈ l, ∀ n, v ≠ .int n) →
        Refused (assign intItem oi (.seq l)) oi .value) ∧
      (l.length ≠ of.length ∨ (∃ v ∈ l, ∀ x, v ≠ .float x) →
        Refused (assign floatItem of (.seq l)) of .value) ∧
      (l.length ≠ od.length ∨ (∃ v ∈ l, ∀ x, v ≠ .float x) →
        Refused (assign doubleItem od (.seq l)) od .value)) := by
  refine ⟨⟨⟨rfl, rfl⟩, ⟨rfl, rfl⟩, ⟨rfl, rfl⟩⟩, fun l => ?_⟩
  have main : ∀ {α : Type} (item : Val R → Option (α × Bool)) (old : List α),
      (l.length ≠ old.length ∨ ∃ v ∈ l, item v = none) →
      Refused (assign item old (.seq l)) old .value := by
    intro α item old h
    unfold assign convert
    by_cases hl : l.length ≠ old.length
    · simp only [if_pos hl]; exact ⟨rfl, rfl⟩
    · have hn := (items_none (item := item) l).mpr (h.resolve_left hl)
      simp only [if_neg hl, hn]
      exact ⟨rfl, rfl⟩
  refine ⟨fun h => main _ _ (h.imp id ?_), fun h => main _ _ (h.imp id ?_),
    fun h => main _ _ (h.imp id ?_)⟩
  · rintro ⟨v, hv, hne⟩
    refine ⟨v, hv, ?_⟩
    cases v with
    | int n => exact absurd rfl (hne n)
    | float x => rfl
    | other => rfl
  · rintro ⟨v, hv, hne⟩
    refine ⟨v, hv, ?_⟩
    cases v with
    | int n => rfl
    | float x => exact absurd rfl (hne x)
    | other => rfl
  · rintro ⟨v, hv, hne⟩
    refine ⟨v, hv, ?_⟩
    cases v with
    | int n => rfl
    | float x => exact absurd rfl (hne x)
    | other => rfl

/-- C88, shape: after any assignment of anything the attribute has as many elements as
before. -/
theorem C88_length (item : Val R → Option (α × Bool)) (old : List α) (a : Arg R) :
    (assign item old a).attr.length = old.length := by
  unfold assign convert
  cases a with
  | notSeq => rfl
  | seq l =>
    simp only
    by_cases hl : l.length ≠ old.length
    · simp only [if_pos hl]
    · simp only [if_neg hl]
      cases h : items item l with
      | none => rfl
      | some r =>
        simp only
        rw [items_length l h]
        exact Decidable.not_not.mp hl

/-- What is stored for the integer `n`: its lower 32 bits, as a signed number, if it fits in 64 bits, else -1. -/
def StoredInt (n m : Int) : Prop :=
  if -(2 ^ 63) ≤ n ∧ n < 2 ^ 63 then -(2 ^ 31) ≤ m ∧ m < 2 ^ 31 ∧ (2 ^ 32 : Int) ∣ n - m else m = -1

theorem intItem_int (n : Int) : ∃ m, StoredInt n m ∧
    intItem (R := R) (.int n) = some (m, !decide (-(2 ^ 63) ≤ n ∧ n < 2 ^ 63)) := by
  by_cases h : -(2 ^ 63) ≤ n ∧ n < 2 ^ 63
  · have e : asLong n = (n, false) := if_pos h
    refine ⟨toInt n, ?_, by simp only [intItem, e, decide_eq_true h, Bool.not_true]⟩
    unfold StoredInt toInt
    rw [if_pos h]
    omega
  · have e : asLong n = (-1, true) := if_neg h
    refine ⟨-1, ?_, ?_⟩
    · unfold StoredInt
      rw [if_neg h]
    · simp only [intItem, e, decide_eq_false h, Bool.not_false]
      rfl

theorem items_int (l : List Int) : ∃ new, List.Forall₂ StoredInt l new ∧
    items (R := R) intItem (l.map .int) = some (new, l.any fun n => !decide (-(2 ^ 63) ≤ n ∧ n < 2 ^ 63)) := by
  induction l with
  | nil => exact ⟨[], .nil, rfl⟩
  | cons n l ih =>
    obtain ⟨new, h1, h2⟩ := ih
    obtain ⟨m, h3, h4⟩ := intItem_int (R := R) n
    exact ⟨m :: new, .cons h3 h1, by simp only [List.map_cons, items, h4, h2, List.any_cons]⟩

/-- C88, what becomes of any sequence of integers of the right length: each has its lower 32 bits stored, or -1 if it
does not fit in 64 bits, and an exception is raised just if there is one of the latter. -/
theorem C88_int_any (old l : List Int) (hl : l.length = old.length) :
    List.Forall₂ StoredInt l (assign (R := R) intItem old (.seq (l.map .int))).attr ∧
    (assign (R := R) intItem old (.seq (l.map .int))).lost = 0 ∧
    ((assign (R := R) intItem old (.seq (l.map .int))).raised = none ↔ ∀ n ∈ l, -(2 ^ 63) ≤ n ∧ n < 2 ^ 63) ∧
    ((assign (R := R) intItem old (.seq (l.map .int))).raised = some .system ↔ ∃ n ∈ l, ¬ (-(2 ^ 63) ≤ n ∧ n < 2 ^ 63)) := by
  obtain ⟨new, h1, h2⟩ := items_int (R := R) l
  have e : assign (R := R) intItem old (.seq (l.map .int)) =
      ⟨new, if l.any fun n => !decide (-(2 ^ 63) ≤ n ∧ n < 2 ^ 63) then some .system else none, 0⟩ := by
    simp only [assign, convert, List.length_map, hl, ne_eq, not_true_eq_false, if_false, h2]
  rw [e]
  refine ⟨h1, rfl, ?_, ?_⟩
  · cases h : l.any fun n => !decide (-(2 ^ 63) ≤ n ∧ n < 2 ^ 63)
    · refine ⟨fun _ n hn => ?_, fun _ => rfl⟩
      have := List.any_eq_false.mp h n hn
      simpa using this
    · refine ⟨fun hc => (nomatch hc), fun hc => ?_⟩
      obtain ⟨n, hn, hb⟩ := List.any_eq_true.mp h
      rw [decide_eq_true (hc n hn)] at hb
      cases hb
  · cases h : l.any fun n => !decide (-(2 ^ 63) ≤ n ∧ n < 2 ^ 63)
    · refine ⟨fun hc => (nomatch hc), fun ⟨n, hn, hc⟩ => ?_⟩
      have := List.any_eq_false.mp h n hn
      rw [decide_eq_false hc] at this
      exact absurd rfl this
    · refine ⟨fun _ => ?_, fun _ => rfl⟩
      obtain ⟨n, hn, hb⟩ := List.any_eq_true.mp h
      exact ⟨n, hn, fun hc => by rw [decide_eq_true hc] at hb; cases hb⟩

/-! ### Examples -/

example : (assign (R := R) intItem [7, 8, 9] (.seq ([2 ^ 63 - 1, 2 ^ 63, 5].map .int))).attr = [-1, -1, 5] ∧
    (assign (R := R) intItem [7, 8, 9] (.seq ([2 ^ 63 - 1, 2 ^ 63, 5].map .int))).raised = some .system :=
  ⟨rfl, (C88_int_any [7, 8, 9] [2 ^ 63 - 1, 2 ^ 63, 5] rfl).2.2.2.mpr ⟨2 ^ 63, by simp, by omega⟩⟩

example : assign (R := R) intItem [1, 2, 3] (.seq [.int 4, .int (-5), .int 6]) =
    ⟨[4, -5, 6], none, 0⟩ :=
  (C88_int_partial [1, 2, 3] [4, -5, 6] rfl (by decide)).1

example (x y a b : R.Dbl) : assign doubleItem [x, y] (.seq [.float a, .float b]) =
    ⟨[a, b], none, 0⟩ := (C88_double [x, y] [a, b] rfl).1

example (x y : R.Dbl) : Refused (assign (R := R) doubleItem [x, y] (.seq [.int 51836, .int 51837]))
    [x, y] .value :=
  ((C88_refused [] [] [x, y]).2 _).2.2 (.inr ⟨.int 51836, by simp, by simp⟩)

/-! ### What goes wrong -/

/-- Larger integers are changed without notice: assigning (4294967297, 2, 3) stores (1, 2, 3). -/
theorem C88_int_truncated :
    assign (R := R) intItem [7, 8, 9] (.seq [.int 4294967297, .int 2, .int 3]) =
      ⟨[1, 2, 3], none, 0⟩ := rfl

/-- Integers of more than 64 bits raise an exception, but the attribute is changed. -/
theorem C88_int_overflow :
    assign (R := R) intItem [7, 8] (.seq [.int (2 ^ 64), .int 2]) = ⟨[-1, 2], some .system, 0⟩ := rfl

/-- A block is lost when an element has another type. -/
theorem C88_lost :
    (assign (R := R) intItem [7, 8] (.seq [.int 1, .other])).lost = 1 := rfl

end Verif.Py
