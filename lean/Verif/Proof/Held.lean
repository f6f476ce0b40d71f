import Verif.Proof.FitsFail
import Verif.Proof.FitsWF
import Verif.Spec.Held

/-! Reading a table, as a function of the HDU alone. -/

namespace Verif
open Outcome Spec

variable {R : FP} {α β γ ι : Type} {soft : Prop} {h : Hdu R}

/-- An error which is not going to be cleared. -/
def Bad (soft : Prop) (st : Status) : Prop := st ≠ .ok ∧ (st = .COL_NOT_FOUND → soft)

theorem bad_of {st : Status} (h1 : st ≠ .ok) (h2 : st ≠ .COL_NOT_FOUND) : Bad soft st := ⟨h1, fun h => absurd h h2⟩

/-- On the given HDU, the code returns the given value, or aborts or fails if there is none. -/
structure Sem (soft : Prop) (h : Hdu R) (m : FitsM R α) (v : Option α) : Prop where
  ok : ∀ a, v = some a → ∀ s, At s h → m s = .ok (a, s)
  err : v = none → ∀ s, At s h → m s = .abort ∨ ∃ a s', m s = .ok (a, s') ∧ Bad soft s'.status

/-- An error pending remains. -/
structure Still (soft : Prop) (m : FitsM R α) : Prop where
  run : ∀ s, Bad soft s.status → m s = .abort ∨ ∃ a s', m s = .ok (a, s') ∧ Bad soft s'.status

theorem Still.of {m : FitsM R α} (hi : Inert m) : Still soft m :=
  ⟨fun s hs => .inr (by obtain ⟨a, ha⟩ := hi.run s hs.1; exact ⟨a, s, ha, hs⟩)⟩

theorem Still.lift (x : Outcome α) (hx : x ≠ .ub) : Still soft (FitsM.lift (R := R) x) := by
  constructor
  intro s hs
  cases x with
  | ok a => exact .inr ⟨a, s, rfl, hs⟩
  | abort => exact .inl rfl
  | ub => exact absurd rfl hx

theorem Still.bind {m : FitsM R α} {f : α → FitsM R β} (hm : Still soft m) (hf : ∀ a, Still soft (f a)) :
    Still soft (m >>= f) := by
  constructor
  intro s hs
  rcases hm.run s hs with h1 | ⟨a, s', h1, h2⟩
  · left; change FitsM.bind _ _ s = _; simp [FitsM.bind, h1]
  · rw [FitsM.bind_ok h1]; exact (hf a).run s' h2

theorem Still.forRecs {body : Nat → α → FitsM R β} (hb : ∀ i x, Still soft (body i x)) (first : Nat) (l : List α) :
    Still soft (forRecs first l body) := by
  induction l generalizing first with
  | nil => exact Still.of (Inert.pure _)
  | cons x l ih =>
    rw [Verif.forRecs]
    exact (hb _ _).bind fun _ => (ih _).bind fun _ => Still.of (Inert.pure _)

theorem Sem.bind {m : FitsM R α} {f : α → FitsM R β} {v : Option α} {w : α → Option β}
    (hm : Sem soft h m v) (hf : ∀ a, Sem soft h (f a) (w a)) (hs : ∀ a, Still soft (f a)) :
    Sem soft h (m >>= f) (v.bind w) := by
  cases hv : v with
  | none =>
    refine ⟨fun a ha => (by cases ha), fun _ s hs' => ?_⟩
    rcases hm.err hv s hs' with h1 | ⟨a, s', h1, h2⟩
    · left; change FitsM.bind _ _ s = _; simp [FitsM.bind, h1]
    · rw [FitsM.bind_ok h1]; exact (hs a).run s' h2
  | some a =>
    refine ⟨fun b hb s hs' => ?_, fun hb s hs' => ?_⟩
    · rw [FitsM.bind_ok (hm.ok a hv s hs')]; exact (hf a).ok b hb s hs'
    · rw [FitsM.bind_ok (hm.ok a hv s hs')]; exact (hf a).err hb s hs'

theorem Sem.bind2 {m : FitsM R (α × β)} {f : α × β → FitsM R γ} {v : Option (α × β)} {w : α → β → Option γ}
    (hm : Sem soft h m v) (hf : ∀ a b, Sem soft h (f (a, b)) (w a b)) (hs : ∀ a b, Still soft (f (a, b))) :
    Sem soft h (m >>= f) (v.bind fun p => w p.1 p.2) :=
  Sem.bind hm (fun p => hf p.1 p.2) fun p => hs p.1 p.2

theorem Sem.pure (a : α) : Sem soft h (pure a : FitsM R α) (some a) :=
  ⟨fun _ hb _ _ => by cases hb; rfl, fun hb => by cases hb⟩

theorem Sem.guard {m : FitsM R α} {v : Option α} (out : α) (hm : Sem soft h m v) : Sem soft h (guardStatus out m) v :=
  ⟨fun a ha s hs => by rw [guardStatus_ok hs.ok]; exact hm.ok a ha s hs,
   fun ha s hs => by rw [guardStatus_ok hs.ok]; exact hm.err ha s hs⟩

theorem Sem.cfRead {f : Hdu R → Except Status α} (hf : ∀ st, f h = .error st → Bad soft st) (junk : α) :
    Sem soft h (cfRead junk f) (f h).toOption := by
  cases hr : f h with
  | ok a => exact ⟨fun b hb s hs => by cases hb; exact cfRead_ok hs hr _, fun hb => by cases hb⟩
  | error st => exact ⟨fun b hb => (by cases hb), fun _ s hs => .inr ⟨_, _, cfRead_error hs hr junk, hf st hr⟩⟩

theorem Sem.congr {m : FitsM R α} {v w : Option α} (hm : Sem soft h m v) (e : v = w) : Sem soft h m w := e ▸ hm

theorem Sem.ite {c : Prop} [Decidable c] {m n : FitsM R α} {v w : Option α} (hm : c → Sem soft h m v)
    (hn : ¬ c → Sem soft h n w) : Sem soft h (if c then m else n) (if c then v else w) := by
  split
  · exact hm ‹_›
  · exact hn ‹_›

/-- Rows. -/
def valRows (w : Nat → Option α) (first : Nat) : Nat → Option (List α)
  | 0 => some []
  | n + 1 => (w first).bind fun x => (valRows w (first + 1) n).bind fun xs => some (x :: xs)

theorem Sem.forRows {body : Nat → FitsM R α} {w : Nat → Option α} (hb : ∀ i, Sem soft h (body i) (w i))
    (hs : ∀ i, Still soft (body i)) (first n : Nat) : Sem soft h (forRows first n body) (valRows w first n) := by
  have hst : ∀ first n, Still soft (Verif.forRows first n body) := by
    intro first n
    induction n generalizing first with
    | zero => exact Still.of (Inert.pure _)
    | succ n ih => exact (hs _).bind fun _ => (ih _).bind fun _ => Still.of (Inert.pure _)
  induction n generalizing first with
  | zero => exact Sem.pure _
  | succ n ih =>
    rw [Verif.forRows, valRows]
    exact (hb _).bind (fun _ => (ih _).bind (fun _ => Sem.pure _) fun _ => Still.of (Inert.pure _))
      fun _ => (hst _ _).bind fun _ => Still.of (Inert.pure _)

theorem valRows_some {w : Nat → Option α} {first n : Nat} {xs : List α} :
    valRows w first n = some xs ↔ xs.length = n ∧ ∀ i x, xs[i]? = some x → w (first + i) = some x := by
  induction n generalizing first xs with
  | zero =>
    constructor
    · intro h; cases h; exact ⟨rfl, fun i x h => by simp at h⟩
    · rintro ⟨h, -⟩; rw [List.length_eq_zero_iff.mp h]; rfl
  | succ n ih =>
    simp only [valRows, Option.bind_eq_some_iff, ih]
    constructor
    · rintro ⟨x, hx, ys, ⟨h1, h2⟩, h3⟩
      cases h3
      refine ⟨by simp [h1], fun i y hy => ?_⟩
      cases i with
      | zero => simp at hy; rw [← hy]; exact hx
      | succ i =>
        simp at hy
        rw [show first + (i + 1) = first + 1 + i by omega]
        exact h2 i y hy
    · rintro ⟨h1, h2⟩
      cases xs with
      | nil => simp at h1
      | cons x xs =>
        refine ⟨x, h2 0 x rfl, xs, ⟨by simpa using h1, fun i y hy => ?_⟩, rfl⟩
        have := h2 (i + 1) y (by simpa using hy)
        rwa [show first + (i + 1) = first + 1 + i by omega] at this

theorem valRows_exists {w : Nat → Option α} {first n : Nat} (hw : ∀ i, i < n → ∃ x, w (first + i) = some x) :
    ∃ xs, valRows w first n = some xs := by
  induction n generalizing first with
  | zero => exact ⟨_, rfl⟩
  | succ n ih =>
    obtain ⟨x, hx⟩ := hw 0 (by omega)
    obtain ⟨xs, hxs⟩ := ih (first := first + 1) fun i hi => by
      have := hw (i + 1) (by omega)
      rwa [show first + (i + 1) = first + 1 + i by omega] at this
    exact ⟨x :: xs, by rw [valRows]; rw [Nat.add_zero] at hx; simp [hx, hxs]⟩

/-- Records which are changed. -/
def valRecs (w : Nat → α → Option β) (first : Nat) : List α → Option (List β)
  | [] => some []
  | x :: xs => (w first x).bind fun y => (valRecs w (first + 1) xs).bind fun ys => some (y :: ys)

theorem Sem.forRecs {body : Nat → α → FitsM R β} {w : Nat → α → Option β} (hb : ∀ i x, Sem soft h (body i x) (w i x))
    (hs : ∀ i x, Still soft (body i x)) (first : Nat) (l : List α) :
    Sem soft h (forRecs first l body) (valRecs w first l) := by
  induction l generalizing first with
  | nil => exact Sem.pure _
  | cons x l ih =>
    rw [Verif.forRecs, valRecs]
    exact (hb _ _).bind (fun _ => (ih _).bind (fun _ => Sem.pure _) fun _ => Still.of (Inert.pure _))
      fun _ => (Still.forRecs hs _ _).bind fun _ => Still.of (Inert.pure _)

theorem valRecs_some {w : Nat → α → Option β} {first : Nat} {l : List α} {ys : List β} :
    valRecs w first l = some ys ↔ ys.length = l.length ∧
      ∀ i x y, l[i]? = some x → ys[i]? = some y → w (first + i) x = some y := by
  induction l generalizing first ys with
  | nil =>
    constructor
    · intro h; cases h; exact ⟨rfl, fun i x y h => by simp at h⟩
    · rintro ⟨h, -⟩; rw [List.length_eq_zero_iff.mp h]; rfl
  | cons x l ih =>
    simp only [valRecs, Option.bind_eq_some_iff, ih]
    constructor
    · rintro ⟨y, hy, ys, ⟨h1, h2⟩, h3⟩
      cases h3
      refine ⟨by simp [h1], fun i x' y' hx' hy' => ?_⟩
      cases i with
      | zero => simp at hy' hx'; rw [← hy', ← hx']; exact hy
      | succ i =>
        simp at hy' hx'
        rw [show first + (i + 1) = first + 1 + i by omega]
        exact h2 i x' y' hx' hy'
    · rintro ⟨h1, h2⟩
      cases ys with
      | nil => simp at h1
      | cons y ys =>
        refine ⟨y, h2 0 x y rfl rfl, ys, ⟨by simpa using h1, fun i x' y' hx' hy' => ?_⟩, rfl⟩
        have := h2 (i + 1) x' y' (by simpa using hx') (by simpa using hy')
        rwa [show first + (i + 1) = first + 1 + i by omega] at this

theorem valRecs_exists {w : Nat → α → Option β} {first : Nat} {l : List α}
    (hw : ∀ i x, l[i]? = some x → ∃ y, w (first + i) x = some y) : ∃ ys, valRecs w first l = some ys := by
  induction l generalizing first with
  | nil => exact ⟨_, rfl⟩
  | cons x l ih =>
    obtain ⟨y, hy⟩ := hw 0 x rfl
    obtain ⟨ys, hys⟩ := ih (first := first + 1) fun i x' hx' => by
      have := hw (i + 1) x' (by simpa using hx')
      rwa [show first + (i + 1) = first + 1 + i by omega] at this
    exact ⟨y :: ys, by rw [valRecs]; rw [Nat.add_zero] at hy; simp [hy, hys]⟩

/-! ### Allocation -/

theorem Sem.alloc {n : Nat} {f : Unit → FitsM R β} {v : Option β} (hf : Sem soft h (f ()) v) :
    Sem soft h (FitsM.lift (chkmallocN n) >>= f) (if n = 0 then none else v) := by
  by_cases hn : n = 0
  · subst hn
    rw [if_pos rfl]
    exact ⟨fun a ha => (by cases ha), fun _ s _ => .inl rfl⟩
  · rw [if_neg hn]
    have ha : ∀ s : FState R, FitsM.lift (chkmallocN n) s = .ok ((), s) := fun s => by simp [FitsM.lift, chkmallocN, hn]
    exact ⟨fun a hv s hs => by rw [FitsM.bind_ok (ha s)]; exact hf.ok a hv s hs,
      fun hv s hs => by rw [FitsM.bind_ok (ha s)]; exact hf.err hv s hs⟩

theorem Sem.allocRecords {n w : Nat} {f : Unit → FitsM R β} {v : Option β} (hf : Sem soft h (f ()) v) :
    Sem soft h (FitsM.lift (allocRecords n w) >>= f) (if n = 0 ∨ w = 0 then none else v) := by
  by_cases hn : n = 0 ∨ w = 0
  · rw [if_pos hn]
    refine ⟨fun a ha => by (cases ha), fun _ s _ => .inl ?_⟩
    have ha : FitsM.lift (Verif.allocRecords n w) s = .abort := by
      rcases hn with rfl | rfl
      · rfl
      · by_cases hn : n = 0
        · subst hn; rfl
        · simp [FitsM.lift, Verif.allocRecords, chkmallocN, hn]
    change FitsM.bind _ _ s = _
    simp [FitsM.bind, ha]
  · rw [if_neg hn]
    have ha : ∀ s : FState R, FitsM.lift (Verif.allocRecords n w) s = .ok ((), s) := fun s => by
      simp only [not_or] at hn
      simp [FitsM.lift, Verif.allocRecords, chkmallocN, hn.1, hn.2]
    exact ⟨fun a hv s hs => by rw [FitsM.bind_ok (ha s)]; exact hf.ok a hv s hs,
      fun hv s hs => by rw [FitsM.bind_ok (ha s)]; exact hf.err hv s hs⟩

/-! ### Keywords -/

theorem sem_key_str (n d : CStr) : Sem soft h (fits_read_key_str n d) (h.readStr n).toOption := by
  refine Sem.cfRead (fun st hst => ?_) _
  unfold Hdu.readStr at hst
  split at hst <;> first | (cases hst; done) | (injection hst with hst; subst hst; exact bad_of (by decide) (by decide))

theorem sem_key_int (n : CStr) (d : Int) : Sem soft h (fits_read_key_int n d) (h.readInt n).toOption := by
  refine Sem.cfRead (fun st hst => ?_) _
  unfold Hdu.readInt at hst
  split at hst <;> first | (cases hst; done) | (injection hst with hst; subst hst; exact bad_of (by decide) (by decide))

theorem sem_key_dbl (n : CStr) (d : R.Dbl) : Sem soft h (fits_read_key_dbl n d) (h.readDbl n).toOption := by
  refine Sem.cfRead (fun st hst => ?_) _
  unfold Hdu.readDbl at hst
  split at hst <;> first | (cases hst; done) | (injection hst with hst; subst hst; exact bad_of (by decide) (by decide))

/-- A keyword which may be missing. -/
def valOpt (x : Except Status α) (missing : α) : Option (Bool × α) :=
  match x with
  | .ok a => some (true, a)
  | .error .KEY_NO_EXIST => some (false, missing)
  | .error _ => none

theorem sem_keyOpt {f : Hdu R → Except Status α} (hf : ∀ st, f h = .error st → Bad soft st) (d m : α) :
    Sem soft h (readKeyOpt (cfRead d f) d m) (valOpt (f h) m) := by
  unfold readKeyOpt
  apply Sem.guard
  cases hr : f h with
  | ok a =>
    refine ⟨fun b hb s hs => ?_, fun hb => by (cases hb)⟩
    cases hb
    rw [FitsM.bind_ok (cfRead_ok hs hr d), FitsM.bind_ok (run_getStatus _), if_pos hs.ok]
    rfl
  | error st =>
    have hb := hf st hr
    by_cases hk : st = .KEY_NO_EXIST
    · subst hk
      refine ⟨fun b hb s hs => ?_, fun hb => by (cases hb)⟩
      cases hb
      rw [FitsM.bind_ok (cfRead_error hs hr d), FitsM.bind_ok (run_getStatus _), if_neg hb.1, if_pos rfl]
      change Outcome.ok ((false, m), { s with status := .ok }) = _
      rw [status_reset hs.ok]
    · have e : valOpt (.error st) m = none := by
        unfold valOpt; split <;> first | rfl | simp_all
      rw [e]
      refine ⟨fun b hb => by (cases hb), fun _ s hs => .inr ⟨(false, m), { s with status := st }, ?_, hb⟩⟩
      rw [FitsM.bind_ok (cfRead_error hs hr d), FitsM.bind_ok (run_getStatus _), if_neg hb.1, if_neg hk]
      rfl

theorem sem_opt_str (n d : CStr) : Sem soft h (read_key_opt_string n d) (valOpt (h.readStr n) []) := by
  refine sem_keyOpt (fun st hst => ?_) _ _
  unfold Hdu.readStr at hst
  split at hst <;> first | (cases hst; done) | (injection hst with hst; subst hst; exact bad_of (by decide) (by decide))

theorem sem_opt_int (n : CStr) (d : Int) : Sem soft h (read_key_opt_int n d) (valOpt (h.readInt n) (-1)) := by
  refine sem_keyOpt (fun st hst => ?_) _ _
  unfold Hdu.readInt at hst
  split at hst <;> first | (cases hst; done) | (injection hst with hst; subst hst; exact bad_of (by decide) (by decide))

theorem sem_opt_dbl (n : CStr) (d : R.Dbl) : Sem soft h (read_key_opt_double n d) (valOpt (h.readDbl n) R.nan) := by
  refine sem_keyOpt (fun st hst => ?_) _ _
  unfold Hdu.readDbl at hst
  split at hst <;> first | (cases hst; done) | (injection hst with hst; subst hst; exact bad_of (by decide) (by decide))

/-- The unit of column `k`. -/
def unitOf (h : Hdu R) (k : Nat) : Except Status CStr :=
  match h.cols[k - 1]? with
  | some c => match c.unit with
    | some u => .ok u
    | none => .error .KEY_NO_EXIST
  | none => .error .KEY_NO_EXIST

theorem unitOf_error {k : Nat} {st : Status} (hst : unitOf h k = .error st) : st = .KEY_NO_EXIST := by
  unfold unitOf at hst
  split at hst
  · split at hst
    · cases hst
    · injection hst with hst; exact hst.symm
  · injection hst with hst; exact hst.symm

theorem sem_colUnit (k : Nat) (d : CStr) : Sem soft h (readColUnit k d) (unitOf h k).toOption :=
  Sem.cfRead (f := fun h => unitOf h k) (fun st hst => by rw [unitOf_error hst]; exact bad_of (by decide) (by decide)) d

theorem sem_optUnit (k : Nat) (d : CStr) : Sem soft h (readKeyOpt (readColUnit k d) d []) (valOpt (unitOf h k) []) :=
  sem_keyOpt (f := fun h => unitOf h k) (fun st hst => by rw [unitOf_error hst]; exact bad_of (by decide) (by decide)) d []

/-! ### Columns -/

theorem colnum_ok_iff (name : CStr) (hb : h.type = .binary) : (∃ k, h.colnum name = .ok k) ↔ hasColumn name h = true := by
  unfold Hdu.colnum hasColumn
  rw [if_pos hb]
  cases hf : h.cols.findIdx? fun c => upper c.name == upper name with
  | none =>
    rw [List.findIdx?_eq_none_iff] at hf
    simp only [reduceCtorEq, exists_false, false_iff, List.any_eq_true, not_exists, not_and]
    intro c hc
    simpa using hf c hc
  | some k =>
    simp only [Except.ok.injEq, exists_eq', true_iff, List.any_eq_true]
    rw [List.findIdx?_eq_some_iff_getElem] at hf
    obtain ⟨hk, h1, -⟩ := hf
    exact ⟨_, List.getElem_mem hk, h1⟩

/-- A missing column is an error which is not cleared, or the column is there. -/
def Found (soft : Prop) (h : Hdu R) (name : CStr) : Prop := soft ∨ hasColumn name h = true

theorem colnum_bad {name : CStr} (hb : h.type = .binary) (hf : Found soft h name) {st : Status}
    (hst : h.colnum name = .error st) : Bad soft st := by
  refine ⟨fun e => ?_, fun e => ?_⟩
  · subst e
    unfold Hdu.colnum at hst
    rw [if_pos hb] at hst
    split at hst <;> cases hst
  · rcases hf with hf | hf
    · exact hf
    · obtain ⟨k, hk⟩ := (colnum_ok_iff name hb).mpr hf
      rw [hk] at hst; cases hst

theorem sem_colnum {name : CStr} (hb : h.type = .binary) (hf : Found soft h name) (d : Nat) :
    Sem soft h (fits_get_colnum name d) (h.colnum name).toOption :=
  Sem.cfRead (fun _ hst => colnum_bad hb hf hst) d

theorem readCol_bad {conv : Cell R → Option α} {k i n : Nat} {st : Status}
    (hst : h.readCol k i n conv = .error st) : Bad soft st := by
  unfold Hdu.readCol at hst
  split at hst
  · injection hst with e; subst e; exact bad_of (by decide) (by decide)
  · split at hst
    · injection hst with e; subst e; exact bad_of (by decide) (by decide)
    · split at hst
      · injection hst with e; subst e; exact bad_of (by decide) (by decide)
      · split at hst
        · cases hst
        · injection hst with e; subst e; exact bad_of (by decide) (by decide)

theorem sem_read_col (conv : Cell R → Option α) (k i n : Nat) (a : List α) :
    Sem soft h (fits_read_col conv k i n a) (h.readCol k i n conv).toOption :=
  Sem.cfRead (fun _ hst => readCol_bad hst) a

theorem sem_coltype (k : Nat) (j : ColType × Nat) :
    Sem soft h (fits_get_coltype k j) ((h.cols[k - 1]?).map fun c => (c.type, c.rep)) := by
  refine (Sem.cfRead (f := fun h : Hdu R => match h.cols[k - 1]? with
    | some c => .ok (c.type, c.rep) | none => .error BAD_COL_NUM) (fun st hst => ?_) j).congr ?_
  · revert hst
    cases h.cols[k - 1]? with
    | none => intro hst; injection hst with e; subst e; exact bad_of (by decide) (by decide)
    | some c => intro hst; cases hst
  · cases h.cols[k - 1]? <;> rfl

theorem sem_num_rows (hb : h.type = .binary) (j : Nat) : Sem soft h (fits_get_num_rows j) (some h.nrows) := by
  refine (Sem.cfRead (fun st hst => ?_) j).congr ?_
  · rw [if_neg (by rw [hb]; decide)] at hst; cases hst
  · rw [if_neg (by rw [hb]; decide)]; rfl

/-- Elements of a column. -/
def valArr (h : Hdu R) (conv : Cell R → Option α) (name : CStr) (i n : Nat) : Option (List α) :=
  (h.colnum name).toOption.bind fun k => (h.readCol k i n conv).toOption

theorem toOption_eq_some {ε : Type} {x : Except ε α} {a : α} : x.toOption = some a ↔ x = .ok a := by
  cases x <;> simp [Except.toOption]

theorem valArr_some {conv : Cell R → Option α} {name : CStr} {i n : Nat} {xs : List α} :
    valArr h conv name i n = some xs ↔ Cells conv h name i n xs := by
  unfold valArr Cells
  simp only [Option.bind_eq_some_iff, toOption_eq_some]

theorem cells_length {conv : Cell R → Option α} {name : CStr} {i n : Nat} {xs : List α}
    (hc : Cells conv h name i n xs) : xs.length = n := by
  obtain ⟨k, -, hr⟩ := hc
  unfold Hdu.readCol at hr
  split at hr
  · cases hr
  · rename_i c _
    split at hr
    · cases hr
    · split at hr
      · cases hr
      · split at hr
        · rename_i ys hy
          injection hr with e; subst e
          have := mapM_length hy
          rw [this]
          split <;> simp [Col.get, Col.getParts]
        · cases hr

theorem sem_arr (hb : h.type = .binary) {name : CStr} (hf : Found soft h name) (conv : Cell R → Option α) (j : α)
    (i n : Nat) : Sem soft h (readArr conv j name i n) (valArr h conv name i n) := by
  unfold readArr
  exact (sem_colnum hb hf _).bind (fun k => sem_read_col _ _ _ _ _) fun k => Still.of (inert_read_col _ _ _ _ _)

/-- A single element. -/
def valOne (h : Hdu R) (conv : Cell R → Option α) (name : CStr) (i : Nat) : Option α :=
  (valArr h conv name i 1).bind (·.head?)

theorem valOne_some {conv : Cell R → Option α} {name : CStr} {i : Nat} {x : α} :
    valOne h conv name i = some x ↔ Cells conv h name i 1 [x] := by
  unfold valOne
  rw [Option.bind_eq_some_iff, ← valArr_some]
  constructor
  · rintro ⟨xs, h1, h2⟩
    have := cells_length (valArr_some.mp h1)
    match xs, this with
    | [y], _ => cases h2; exact h1
  · intro h1
    exact ⟨_, h1, rfl⟩

theorem sem_one (hb : h.type = .binary) {name : CStr} (hf : Found soft h name) (conv : Cell R → Option α) (j : α)
    (i : Nat) : Sem soft h (readOne conv j name i) (valOne h conv name i) := by
  unfold readOne
  refine ((sem_arr hb hf conv j i 1).bind (fun xs => Sem.pure _) fun _ => Still.of (Inert.pure _)).congr ?_
  unfold valOne
  cases hv : valArr h conv name i 1 with
  | none => rfl
  | some xs =>
    have := cells_length (valArr_some.mp hv)
    match xs, this with
    | [y], _ => rfl

/-- A string. -/
def valText (h : Hdu R) (name : CStr) (width : Option Nat) (i : Nat) : Option CStr :=
  (h.colnum name).toOption.bind fun k => (h.cols[k - 1]?).bind fun c =>
    if c.type = .A ∧ ∀ w ∈ width, c.rep ≤ w then ((h.readCol k i 1 Cell.toStr).toOption.bind (·.head?)) else none

theorem valText_some {name : CStr} {width : Option Nat} {i : Nat} {v : CStr} :
    valText h name width i = some v ↔ Text h name width i v := by
  unfold valText Text
  simp only [Option.bind_eq_some_iff, toOption_eq_some, Option.ite_none_right_eq_some]
  constructor
  · rintro ⟨k, hk, c, hc, ⟨h1, h2⟩, xs, h3, h4⟩
    refine ⟨k, c, hk, hc, h1, fun w hw => h2 w hw, ?_⟩
    have := cells_length (conv := Cell.toStr) ⟨k, hk, h3⟩
    match xs, this with
    | [y], _ => cases h4; exact h3
  · rintro ⟨k, c, hk, hc, h1, h2, h3⟩
    exact ⟨k, hk, c, hc, ⟨h1, fun w hw => h2 w hw⟩, _, h3, rfl⟩

end Verif

namespace Verif
open Outcome Spec

variable {R : FP} {α β γ ι : Type} {soft : Prop} {h : Hdu R}

theorem bad_format : Bad soft .BAD_BTABLE_FORMAT := bad_of (by decide) (by decide)

theorem still_strCol (k : Nat) (m : Option Nat) (i : Nat) (v : CStr) : Still soft (readStrCol (R := R) k m i v) := by
  unfold readStrCol
  have hset : ∀ x : Bool × CStr, Still soft (setStatus (R := R) .BAD_BTABLE_FORMAT >>= fun _ => pure x) := fun x =>
    ⟨fun s _ => .inr ⟨x, { s with status := .BAD_BTABLE_FORMAT }, rfl, bad_format⟩⟩
  refine (Still.of (inert_coltype _ _)).bind fun p => ?_
  obtain ⟨t, r⟩ := p
  dsimp only
  split
  · exact hset _
  · split
    · exact hset _
    · exact (Still.of (inert_read_col _ _ _ _ _)).bind fun _ => (Still.of Inert.getStatus).bind fun _ =>
        Still.of (Inert.pure _)

theorem sem_strCol {k : Nat} {c : Col R} (hc : h.cols[k - 1]? = some c) (m : Option Nat) (i : Nat) (v : CStr) :
    Sem soft h (readStrCol k m i v) ((if c.type = .A ∧ ∀ w ∈ m, c.rep ≤ w then
      ((h.readCol k i 1 Cell.toStr).toOption.bind (·.head?)) else none).map fun x => (true, x)) := by
  have hct : ∀ s, At s h → fits_get_coltype k (.A, 0) s = .ok ((c.type, c.rep), s) := fun s hs =>
    (sem_coltype (soft := True) k (.A, 0)).ok _ (by rw [hc]; rfl) s hs
  by_cases h1 : c.type = .A
  · by_cases h2 : ∀ w ∈ m, c.rep ≤ w
    · have h3 : m.any (· < c.rep) = false := by
        cases m with
        | none => rfl
        | some w => simpa using h2 w rfl
      rw [if_pos ⟨h1, h2⟩]
      have hr : ∀ s, At s h → readStrCol k m i v s = (fits_read_col Cell.toStr k i 1 [v] >>= fun xs =>
          getStatus >>= fun st => pure (decide (st = .ok), xs.headD v)) s := by
        intro s hs
        rw [readStrCol, FitsM.bind_ok (hct s hs)]
        dsimp only
        rw [if_neg (by simp [h1]), if_neg (by rw [h3]; decide)]
      cases hx : h.readCol k i 1 Cell.toStr with
      | error st =>
        refine ⟨fun a ha => by (cases ha), fun _ s hs => .inr ⟨(decide (st = .ok), v), { s with status := st }, ?_, readCol_bad hx⟩⟩
        have e : fits_read_col Cell.toStr k i 1 [v] s = .ok ([v], { s with status := st }) := cfRead_error hs hx _
        rw [hr s hs, FitsM.bind_ok e]
        rfl
      | ok xs =>
        have hl : xs.length = 1 := by
          have hcell : Cells Cell.toStr { h with type := .binary, cols := [{ c with name := [] }] } [] i 1 xs := by
            refine ⟨1, rfl, ?_⟩
            unfold Hdu.readCol at hx ⊢
            rw [hc] at hx
            exact hx
          exact cells_length hcell
        match xs, hl with
        | [y], _ =>
          refine ⟨fun a ha s hs => ?_, fun ha => by (cases ha)⟩
          cases ha
          have e : fits_read_col Cell.toStr k i 1 [v] s = .ok ([y], s) := cfRead_ok hs hx _
          rw [hr s hs, FitsM.bind_ok e, FitsM.bind_ok (run_getStatus _), hs.ok]
          rfl
    · have h3 : m.any (· < c.rep) = true := by
        cases m with
        | none => exact absurd (fun w hw => by cases hw) h2
        | some w =>
          simp only [Option.any_some, decide_eq_true_eq]
          apply Classical.byContradiction
          intro hw
          exact h2 fun w' hw' => by cases hw'; omega
      rw [if_neg (fun hh => h2 hh.2)]
      refine ⟨fun a ha => by (cases ha), fun _ s hs => .inr ⟨(false, v), { s with status := .BAD_BTABLE_FORMAT }, ?_, bad_format⟩⟩
      rw [readStrCol, FitsM.bind_ok (hct s hs)]
      dsimp only
      rw [if_neg (by simp [h1]), if_pos h3]
      rfl
  · rw [if_neg (fun hh => h1 hh.1)]
    refine ⟨fun a ha => by (cases ha), fun _ s hs => .inr ⟨(false, v), { s with status := .BAD_BTABLE_FORMAT }, ?_, bad_format⟩⟩
    rw [readStrCol, FitsM.bind_ok (hct s hs)]
    dsimp only
    rw [if_pos h1]
    rfl

theorem colnum_col {name : CStr} {k : Nat} (hk : h.colnum name = .ok k) : ∃ c, h.cols[k - 1]? = some c := by
  unfold Hdu.colnum at hk
  split at hk
  · split at hk
    · rename_i i hi
      cases hk
      rw [List.findIdx?_eq_some_iff_getElem] at hi
      obtain ⟨hl, -, -⟩ := hi
      exact ⟨_, List.getElem?_eq_getElem (by simpa using hl)⟩
    · cases hk
  · cases hk

/-- A string which may be missing. -/
def valTextOpt (h : Hdu R) (optional : Bool) (name : CStr) (width : Option Nat) (i : Nat) (v : CStr) :
    Option (Bool × CStr) :=
  if optional = true ∧ hasColumn name h = false then some (false, v)
  else (valText h name width i).map fun x => (true, x)

theorem sem_findStrCol (hb : h.type = .binary) {name : CStr} {o : Bool} (hf : o = true ∨ Found soft h name)
    (m : Option Nat) (i : Nat) (v : CStr) :
    Sem soft h (findStrCol o name m i v) (valTextOpt h o name m i v) := by
  unfold findStrCol
  apply Sem.guard
  cases hk : h.colnum name with
  | ok k =>
    obtain ⟨c, hc⟩ := colnum_col hk
    have hcol : hasColumn name h = true := (colnum_ok_iff name hb).mp ⟨k, hk⟩
    have hv : valTextOpt h o name m i v = ((if c.type = .A ∧ ∀ w ∈ m, c.rep ≤ w then
      ((h.readCol k i 1 Cell.toStr).toOption.bind (·.head?)) else none).map fun x => (true, x)) := by
      rw [valTextOpt, if_neg (by simp [hcol]), valText, hk]
      simp only [Except.toOption, Option.bind_some, hc]
    rw [hv]
    have hrun : ∀ s, At s h → (fits_get_colnum name 0 >>= fun colnum => getStatus >>= fun st =>
        if st = .COL_NOT_FOUND then (if o = true then (setStatus .ok >>= fun _ => pure (false, v)) else pure (false, v))
        else readStrCol colnum m i v) s = readStrCol k m i v s := by
      intro s hs
      have e : fits_get_colnum name 0 s = .ok (k, s) := cfRead_ok hs hk 0
      rw [FitsM.bind_ok e, FitsM.bind_ok (run_getStatus _), hs.ok, if_neg (by decide)]
    have hsem := sem_strCol (soft := soft) hc m i v
    exact ⟨fun a ha s hs => (hrun s hs).trans (hsem.ok a ha s hs), fun ha s hs => by
      have := hsem.err ha s hs
      rw [← hrun s hs] at this
      exact this⟩
  | error st =>
    have hcol : hasColumn name h = false := by
      cases hh : hasColumn name h with
      | false => rfl
      | true => obtain ⟨k, hk'⟩ := (colnum_ok_iff name hb).mpr hh; rw [hk'] at hk; cases hk
    have hst : st = .COL_NOT_FOUND := by
      have := colnum_missing hb hcol
      rw [this] at hk; cases hk; rfl
    subst hst
    have hrun : ∀ s, At s h → fits_get_colnum name 0 s = .ok (0, { s with status := .COL_NOT_FOUND }) :=
      fun s hs => cfRead_error hs hk 0
    cases o with
    | true =>
      have e : valTextOpt h true name m i v = some (false, v) := if_pos ⟨rfl, hcol⟩
      rw [e]
      refine ⟨fun a ha s hs => ?_, fun ha => by (cases ha)⟩
      cases ha
      rw [FitsM.bind_ok (hrun s hs), FitsM.bind_ok (run_getStatus _), if_pos rfl, if_pos rfl]
      change Outcome.ok ((false, v), { s with status := .ok }) = _
      rw [status_reset hs.ok]
    | false =>
      have e : valTextOpt h false name m i v = none := by
        rw [valTextOpt, if_neg (by simp), valText, hk]; rfl
      rw [e]
      refine ⟨fun a ha => by (cases ha), fun _ s hs => .inr ⟨(false, v), { s with status := .COL_NOT_FOUND }, ?_, ?_⟩⟩
      · rw [FitsM.bind_ok (hrun s hs), FitsM.bind_ok (run_getStatus _), if_pos rfl]
        rfl
      · refine ⟨by simp, fun _ => ?_⟩
        rcases hf with hf | hf | hf
        · cases hf
        · exact hf
        · rw [hcol] at hf; cases hf

theorem sem_col_string (hb : h.type = .binary) {name : CStr} (hf : Found soft h name) (w i : Nat) (v : CStr) :
    Sem soft h (read_col_string false name w i v) ((valText h name (some w) i).map fun x => (true, x)) := by
  refine (sem_findStrCol (o := false) hb (.inr hf) (some w) i v).congr ?_
  rw [valTextOpt, if_neg (by simp)]

theorem sem_col_string_opt (hb : h.type = .binary) {name : CStr} (w i : Nat) (v : CStr) :
    Sem soft h (read_col_string true name w i v) (valTextOpt h true name (some w) i v) :=
  sem_findStrCol hb (.inl rfl) (some w) i v

theorem sem_col_trunc (hb : h.type = .binary) {name : CStr} (hf : Found soft h name) (w i : Nat) (v : CStr) :
    Sem soft h (read_col_string_truncate name w i v) ((valText h name none i).map fun x => (true, x.take w)) := by
  unfold read_col_string_truncate
  refine ((sem_findStrCol (o := false) hb (.inr hf) none i v).bind (fun p => Sem.pure _)
    fun _ => Still.of (Inert.pure _)).congr ?_
  rw [valTextOpt, if_neg (by simp)]
  cases valText h name none i <;> rfl

theorem sem_name (u : Undef R) (k : CStr) :
    Sem soft h (readName u k none) ((h.readStr k).toOption.bind fun v => some (v.take FLEN_VALUE)) := by
  unfold readName
  exact (sem_key_str _ _).bind (fun _ => Sem.pure _) fun _ => Still.of (Inert.pure _)

end Verif
