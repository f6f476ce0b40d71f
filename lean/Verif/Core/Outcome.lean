/-! Outcomes of running a C function. -/

namespace Verif

/-- The outcome of running a piece of C code.
* `ok a`: returns normally with result `a`;
* `abort`: the process is terminated by `assert`, `g_assert`, `g_error` or by
  `chkmalloc` (chkmalloc.c:36-) refusing a request;
* `ub`: undefined behaviour (NULL dereference, out-of-bounds access). -/
inductive Outcome (α : Type) where
  | ok (a : α)
  | abort
  | ub
deriving DecidableEq, Repr

namespace Outcome

/-- Sequencing: an abort or undefined behaviour ends the run. -/
protected def bind {α β : Type} (x : Outcome α) (f : α → Outcome β) : Outcome β :=
  match x with
  | .ok a => f a
  | .abort => .abort
  | .ub => .ub

instance : Monad Outcome where
  pure := .ok
  bind := Outcome.bind

variable {α β : Type}

@[simp] theorem pure_eq (a : α) : (pure a : Outcome α) = .ok a := rfl
@[simp] theorem bind_ok (a : α) (f : α → Outcome β) : ((.ok a : Outcome α) >>= f) = f a := rfl
@[simp] theorem bind_abort (f : α → Outcome β) : ((.abort : Outcome α) >>= f) = .abort := rfl
@[simp] theorem bind_ub (f : α → Outcome β) : ((.ub : Outcome α) >>= f) = .ub := rfl
@[simp] theorem map_ok (f : α → β) (a : α) : (f <$> (.ok a : Outcome α)) = .ok (f a) := rfl
@[simp] theorem map_abort (f : α → β) : (f <$> (.abort : Outcome α)) = .abort := rfl
@[simp] theorem map_ub (f : α → β) : (f <$> (.ub : Outcome α)) = .ub := rfl

instance : LawfulMonad Outcome := LawfulMonad.mk'
  (id_map := by intro α x; cases x <;> rfl)
  (pure_bind := by intros; rfl)
  (bind_assoc := by intro α β γ x f g; cases x <;> rfl)

theorem bind_eq_ok {x : Outcome α} {f : α → Outcome β} {b : β} :
    (x >>= f) = .ok b ↔ ∃ a, x = .ok a ∧ f a = .ok b := by
  cases x <;> simp

instance (x : Outcome α) : Decidable (x = .ub) :=
  match x with
  | .ok _ => isFalse nofun
  | .abort => isFalse nofun
  | .ub => isTrue rfl

instance (x : Outcome α) : Decidable (x = .abort) :=
  match x with
  | .ok _ => isFalse nofun
  | .abort => isTrue rfl
  | .ub => isFalse nofun

/-- C's `assert`/`g_assert`. -/
def guardAssert (b : Bool) : Outcome Unit := if b then .ok () else .abort

@[simp] theorem guardAssert_true : guardAssert true = .ok () := rfl
@[simp] theorem guardAssert_false : guardAssert false = .abort := rfl

/-- Dereference a pointer that may be NULL (`none`). -/
def deref (x : Option α) : Outcome α :=
  match x with
  | some a => .ok a
  | none => .ub

@[simp] theorem deref_some (a : α) : deref (some a) = .ok a := rfl
@[simp] theorem deref_none : deref (none : Option α) = .ub := rfl

/-- Read element `i` of a C array holding the elements of `l`. -/
def index (l : List α) (i : Nat) : Outcome α := deref l[i]?

@[simp] theorem index_of_lt {l : List α} {i : Nat} (h : i < l.length) : index l i = .ok l[i] := by
  simp [index, h]

theorem index_of_ge {l : List α} {i : Nat} (h : l.length ≤ i) : index l i = .ub := by
  simp [index, h]

end Outcome

end Verif
