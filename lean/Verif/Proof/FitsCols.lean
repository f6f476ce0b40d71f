import Verif.Proof.FitsBasic
import Verif.Spec.Fits
import Verif.Proof.Loop

/-! Column formats, and the columns which result from writing rows. -/

namespace Verif
open Outcome

variable {R : FP} {α : Type}

/-! ### Formats -/

theorem parseDigits_append (l : CStr) (hl : ∀ c ∈ l, c.isDigit = true) (n : Nat) (c : Char) (rest : CStr)
    (hc : c.isDigit = false) :
    parseDigits n (l ++ c :: rest) = (l.foldl (fun n c => 10 * n + (c.toNat - '0'.toNat)) n, c :: rest) := by
  induction l generalizing n with
  | nil => simp [parseDigits, hc]
  | cons d l ih =>
    rw [List.cons_append, parseDigits, if_pos (hl d (by simp)), ih fun c hc => hl c (by simp [hc])]
    rfl

theorem toDigits_ne_nil (n : Nat) : Nat.toDigits 10 n ≠ [] := by
  have := Nat.length_toDigits_pos (b := 10) (n := n)
  intro h
  rw [h] at this
  simp at this

theorem parseDigits_toDigits (n : Nat) (c : Char) (hc : c.isDigit = false) :
    parseDigits 0 (Nat.toDigits 10 n ++ [c]) = (n, [c]) := by
  rw [parseDigits_append _ (fun d hd => Nat.isDigit_of_mem_toDigits (by omega) (by omega) hd) _ _ _ hc]
  congr 1
  have h := Nat.ofDigitChars_toDigits (b := 10) (n := n) (by omega) (by omega)
  rw [Nat.ofDigitChars] at h
  exact h

theorem fmtInt_digits (n : Nat) : fmtInt (n : Int) = Nat.toDigits 10 n := by
  simp [fmtInt]

/-- The type of a format letter. -/
def letterType (c : Char) : Option ColType :=
  match c with
  | 'I' => some .I
  | 'J' => some .J
  | 'E' => some .E
  | 'D' => some .D
  | 'C' => some .C
  | 'A' => some .A
  | 'L' => some .L
  | _ => none

theorem parseTform_fmtInt (n : Nat) {c : Char} {t : ColType} (ht : letterType c = some t) :
    parseTform (fmtInt (n : Int) ++ [c]) = some (n, t) := by
  have hc : c.isDigit = false := by
    unfold letterType at ht
    split at ht <;> first | rfl | cases ht
  have hne : ¬ [c].length = (Nat.toDigits 10 n ++ [c]).length := by
    have := Nat.length_toDigits_pos (b := 10) (n := n)
    rw [List.length_append]
    omega
  unfold parseTform
  rw [fmtInt_digits, parseDigits_toDigits n c hc]
  simp only [if_neg hne]
  unfold letterType at ht
  split at ht <;> first | (cases ht; rfl) | cases ht

theorem newCol_fmtInt (name unit : CStr) (n : Nat) {c : Char} {t : ColType} (ht : letterType c = some t) :
    newCol (R := R) name (fmtInt (n : Int) ++ [c]) unit
      = some ⟨name, t, n, if unit = [] then none else some unit, none, fun _ _ => zeroCell t⟩ := by
  rw [newCol, parseTform_fmtInt n ht]

/-- Channel counts which `make_tform` can format. -/
theorem fmtInt_length_lt (n : Nat) : (fmtInt (n : Int)).length < 5 ↔ n < 10000 := by
  rw [fmtInt_digits]
  have := Nat.length_toDigits_le_iff (b := 10) (n := n) (k := 4) (by omega) (by omega)
  omega

theorem expandTform_mark {n : Nat} (hn : n < 10000) (c : Char) :
    expandTform n ['?', c] = .ok (fmtInt (n : Int) ++ [c]) := by
  have h := (fmtInt_length_lt n).mpr hn
  have h2 : (fmtInt (n : Int) ++ [c]).length < ['?', c].length + 4 := by
    simp only [List.length_append, List.length_cons, List.length_nil]
    omega
  unfold expandTform
  simp only [h2, decide_true, guardAssert_true, bind_ok, pure_eq, snprintf]
  rw [List.take_of_length_le (by omega)]

/-! ### Columns -/

/-- A column as it is created. -/
abbrev blank (name : CStr) (t : ColType) (n : Nat) (unit tdim : Option CStr) : Col R :=
  ⟨name, t, n, unit, tdim, fun _ _ => zeroCell t⟩

theorem fill_blank (name : CStr) (t : ColType) (n : Nat) (unit tdim : Option CStr)
    (rows : List (List (Cell R))) (h : ∀ l ∈ rows, l.length ≤ (blank (R := R) name t n unit tdim).nelem) :
    (blank name t n unit tdim).fill 0 rows = Spec.col name t n unit tdim rows := by
  unfold Col.fill Spec.col
  congr 1
  funext r e
  by_cases he : e < (blank (R := R) name t n unit tdim).nelem
  · rw [if_pos ⟨by omega, he⟩]; rfl
  · rw [if_neg (by omega)]
    cases hr : rows[r]? with
    | none => rfl
    | some l =>
      have := h l (List.mem_of_getElem? hr)
      simp only [Option.bind_some]
      rw [List.getElem?_eq_none (by omega)]
      rfl

/-! ### Fields of records and the columns they are written to -/

/-- A column and the array written to it for a record. -/
structure Fld (R : FP) (α : Type) where
  name : CStr
  type : ColType
  rep : Nat
  unit : Option CStr
  tdim : Option CStr
  f : α → List (Cell R)

namespace Fld

/-- The column before anything is written. -/
def blank (F : Fld R α) : Col R := ⟨F.name, F.type, F.rep, F.unit, F.tdim, fun _ _ => zeroCell F.type⟩

/-- The column after all records have been written. -/
def done (recs : List α) (F : Fld R α) : Col R :=
  Spec.col F.name F.type F.rep F.unit F.tdim (recs.map fun r => (F.f r).map fun x => (store F.blank x).1)

/-- The arrays fill the rows and can be stored. -/
def Ok (recs : List α) (F : Fld R α) : Prop :=
  ∀ r ∈ recs, (F.f r).length = F.blank.nelem ∧ ∀ x ∈ F.f r, (store F.blank x).2 = .ok

/-- A column of strings. -/
def str (name : CStr) (w : Nat) (f : α → CStr) : Fld R α := ⟨name, .A, w, none, none, fun r => [.str (f r)]⟩
/-- A column of integers. -/
def ints (name : CStr) (t : ColType) (n : Nat) (f : α → List Int) : Fld R α :=
  ⟨name, t, n, none, none, fun r => (f r).map .int⟩
/-- A column of double precision numbers. -/
def dbls (name : CStr) (n : Nat) (unit : Option CStr) (f : α → List R.Dbl) : Fld R α :=
  ⟨name, .D, n, unit, none, fun r => (f r).map .dbl⟩
/-- A column of single precision numbers. -/
def flts (name : CStr) (n : Nat) (unit : Option CStr) (f : α → List R.Flt) : Fld R α :=
  ⟨name, .E, n, unit, none, fun r => (f r).map .flt⟩
/-- A column of complex numbers. -/
def cpxs (name : CStr) (n : Nat) (f : α → List (R.Flt × R.Flt)) : Fld R α :=
  ⟨name, .C, n, none, none, fun r => (f r).map .cpx⟩
/-- A column of truth values. -/
def logs (name : CStr) (n : Nat) (tdim : Option CStr) (f : α → List Bool) : Fld R α :=
  ⟨name, .L, n, none, tdim, fun r => (f r).map .log⟩

/-- Integers a column type can hold. (For `J` columns the C type `int` is as wide.) -/
def IntFits (t : ColType) (x : Int) : Prop :=
  t = .J ∨ (t = .I ∧ Spec.Int16 x)

theorem store_int {t : ColType} {x : Int} (h : IntFits t x) (c : Col R) (hc : c.type = t) :
    store c (.int x) = (.int x, .ok) := by
  rcases h with rfl | ⟨rfl, h1, h2⟩
  · simp [store, hc]
  · simp only [store, hc]
    rw [if_neg (by omega), if_neg (by omega)]

theorem done_str (name : CStr) (w : Nat) (f : α → CStr) (recs : List α) :
    (str (R := R) name w f).done recs = Spec.strCol name w recs f := rfl

theorem done_gen {β : Type} (F : Fld R α) (mk : β → Cell R) (f : α → List β) (recs : List α)
    (hf : F.f = fun r => (f r).map mk)
    (hst : ∀ r ∈ recs, ∀ x ∈ f r, (store F.blank (mk x)).1 = mk x) :
    F.done recs = Spec.col F.name F.type F.rep F.unit F.tdim (recs.map fun r => (f r).map mk) := by
  unfold done
  congr 1
  apply List.map_congr_left
  intro r hr
  rw [hf, List.map_map]
  apply List.map_congr_left
  intro x hx
  exact hst r hr x hx

theorem done_dbls (name : CStr) (n : Nat) (unit : Option CStr) (f : α → List R.Dbl) (recs : List α) :
    (dbls name n unit f).done recs = Spec.dblsCol name n unit recs f :=
  done_gen _ .dbl f recs rfl fun _ _ _ _ => rfl

theorem done_flts (name : CStr) (n : Nat) (unit : Option CStr) (f : α → List R.Flt) (recs : List α) :
    (flts name n unit f).done recs = Spec.fltsCol name n unit recs f :=
  done_gen _ .flt f recs rfl fun _ _ _ _ => rfl

theorem done_cpxs (name : CStr) (n : Nat) (f : α → List (R.Flt × R.Flt)) (recs : List α) :
    (cpxs name n f).done recs = Spec.cpxsCol name n recs f :=
  done_gen _ .cpx f recs rfl fun _ _ _ _ => rfl

theorem done_logs (name : CStr) (n : Nat) (tdim : Option CStr) (f : α → List Bool) (recs : List α) :
    (logs (R := R) name n tdim f).done recs = Spec.logsCol name n tdim recs f :=
  done_gen _ .log f recs rfl fun _ _ _ _ => rfl

theorem done_ints (name : CStr) (t : ColType) (n : Nat) (f : α → List Int) (recs : List α)
    (h : ∀ r ∈ recs, ∀ x ∈ f r, IntFits t x) :
    (ints (R := R) name t n f).done recs = Spec.intsCol name t n recs f :=
  done_gen _ .int f recs rfl fun r hr x hx => by rw [store_int (h r hr x hx) _ rfl]

theorem ok_str (name : CStr) (w : Nat) (f : α → CStr) (recs : List α) : (str (R := R) name w f).Ok recs :=
  fun r _ => ⟨rfl, fun x hx => by
    simp only [str, List.mem_singleton] at hx
    subst hx; rfl⟩

theorem ok_gen {β : Type} (F : Fld R α) (mk : β → Cell R) (f : α → List β) (recs : List α)
    (hf : F.f = fun r => (f r).map mk) (ht : F.type ≠ .A) (hlen : ∀ r ∈ recs, (f r).length = F.rep)
    (hst : ∀ r ∈ recs, ∀ x ∈ f r, (store F.blank (mk x)).2 = .ok) : F.Ok recs := by
  intro r hr
  rw [hf]
  refine ⟨by simp [hlen r hr, Col.nelem, blank, ht], fun x hx => ?_⟩
  rw [List.mem_map] at hx
  obtain ⟨y, hy, rfl⟩ := hx
  exact hst r hr y hy

theorem ok_dbls (name : CStr) (n : Nat) (unit : Option CStr) (f : α → List R.Dbl) (recs : List α)
    (h : ∀ r ∈ recs, (f r).length = n) : (dbls name n unit f).Ok recs :=
  ok_gen _ .dbl f recs rfl nofun h fun _ _ _ _ => rfl

theorem ok_flts (name : CStr) (n : Nat) (unit : Option CStr) (f : α → List R.Flt) (recs : List α)
    (h : ∀ r ∈ recs, (f r).length = n) : (flts name n unit f).Ok recs :=
  ok_gen _ .flt f recs rfl nofun h fun _ _ _ _ => rfl

theorem ok_cpxs (name : CStr) (n : Nat) (f : α → List (R.Flt × R.Flt)) (recs : List α)
    (h : ∀ r ∈ recs, (f r).length = n) : (cpxs name n f).Ok recs :=
  ok_gen _ .cpx f recs rfl nofun h fun _ _ _ _ => rfl

theorem ok_logs (name : CStr) (n : Nat) (tdim : Option CStr) (f : α → List Bool) (recs : List α)
    (h : ∀ r ∈ recs, (f r).length = n) : (logs (R := R) name n tdim f).Ok recs :=
  ok_gen _ .log f recs rfl nofun h fun _ _ _ _ => rfl

theorem ok_ints (name : CStr) (t : ColType) (n : Nat) (f : α → List Int) (recs : List α) (ht : t ≠ .A)
    (h : ∀ r ∈ recs, (f r).length = n) (hfit : ∀ r ∈ recs, ∀ x ∈ f r, IntFits t x) :
    (ints (R := R) name t n f).Ok recs :=
  ok_gen _ .int f recs rfl ht h fun r hr x hx => by rw [store_int (hfit r hr x hx) _ rfl]

end Fld

/-- The columns of a table being written: those which stay as they are, and those
being filled. -/
abbrev Item (R : FP) (α : Type) := Col R ⊕ Fld R α

/-- Columns before. -/
def itemCols (xs : List (Item R α)) : List (Col R) := xs.map (Sum.elim id Fld.blank)

/-- Columns after. -/
def itemDone (recs : List α) (xs : List (Item R α)) : List (Col R) := xs.map (Sum.elim id (Fld.done recs))

/-- What is written in each row; the columns are numbered from `i + 1`. -/
def planOf (i : Nat) : List (Item R α) → Plan R α
  | [] => []
  | .inl _ :: xs => planOf (i + 1) xs
  | .inr F :: xs => (i + 1, F.blank.nelem, F.f) :: planOf (i + 1) xs

theorem planOf_gt (xs : List (Item R α)) (i : Nat) : ∀ e ∈ planOf i xs, i < e.1 := by
  induction xs generalizing i with
  | nil => simp [planOf]
  | cons x xs ih =>
    intro e he
    cases x with
    | inl c => exact Nat.lt_of_succ_lt (ih (i + 1) e he)
    | inr F =>
      simp only [planOf, List.mem_cons] at he
      rcases he with rfl | he
      · exact Nat.lt_succ_self i
      · exact Nat.lt_of_succ_lt (ih (i + 1) e he)

theorem planOf_nodup (xs : List (Item R α)) (i : Nat) : ((planOf i xs).map (·.1)).Nodup := by
  induction xs generalizing i with
  | nil => simp [planOf]
  | cons x xs ih =>
    cases x with
    | inl c => exact ih (i + 1)
    | inr F =>
      simp only [planOf, List.map_cons, List.nodup_cons]
      refine ⟨?_, ih (i + 1)⟩
      intro h
      rw [List.mem_map] at h
      obtain ⟨e, he, h1⟩ := h
      have := planOf_gt xs (i + 1) e he
      omega

theorem planOf_find (xs : List (Item R α)) (i j : Nat) (hj : i ≤ j) :
    ((planOf i xs).find? fun e => e.1 == j + 1) =
      match xs[j - i]? with
      | some (.inr F) => some (j + 1, F.blank.nelem, F.f)
      | _ => none := by
  induction xs generalizing i with
  | nil => simp [planOf]
  | cons x xs ih =>
    by_cases h : i = j
    · subst h
      have hnone : ((planOf (i + 1) xs).find? fun e => e.1 == i + 1) = none := by
        rw [List.find?_eq_none]
        intro e he h
        have := planOf_gt xs (i + 1) e he
        have := beq_iff_eq.mp h
        omega
      cases x with
      | inl c => simp [planOf, hnone]
      | inr F => simp [planOf]
    · have h2 := ih (i + 1) (by omega)
      rw [show j - i = (j - (i + 1)) + 1 by omega, List.getElem?_cons_succ, ← h2]
      cases x with
      | inl c => rfl
      | inr F =>
        rw [planOf, List.find?_cons_of_neg]
        simpa using h

theorem applyPlan_planOf (xs : List (Item R α)) (recs : List α)
    (hok : ∀ F, Sum.inr F ∈ xs → F.Ok recs) :
    applyPlan (planOf 0 xs) 0 recs 0 (itemCols xs) = itemDone recs xs := by
  apply List.ext_getElem?
  intro j
  rw [applyPlan_getElem?, itemCols, itemDone, List.getElem?_map, List.getElem?_map, Option.map_map]
  rw [show 0 + j + 1 = j + 1 by omega, planOf_find xs 0 j (by omega), Nat.sub_zero]
  cases hx : xs[j]? with
  | none => rfl
  | some x =>
    cases x with
    | inl c => rfl
    | inr F =>
      have hF := hok F (List.mem_of_getElem? hx)
      simp only [Option.map_some, Function.comp_apply, Sum.elim_inr, Option.some.injEq]
      have : (recs.map fun r => storeRow F.blank F.blank.nelem (F.f r))
          = recs.map fun r => (F.f r).map fun x => (store F.blank x).1 := by
        apply List.map_congr_left
        intro r hr
        rw [storeRow, List.take_of_length_le (by rw [(hF r hr).1]; exact Nat.le_refl _)]
      rw [this, Fld.blank, fill_blank]
      · rfl
      · intro l hl
        rw [List.mem_map] at hl
        obtain ⟨r, hr, rfl⟩ := hl
        rw [List.length_map, (hF r hr).1]
        exact Nat.le_refl _

theorem planOf_entry (xs : List (Item R α)) (recs : List α) (hok : ∀ F, Sum.inr F ∈ xs → F.Ok recs) :
    ∀ e ∈ planOf 0 xs, EntryOk (itemCols xs) recs e := by
  have key : ∀ (pre suf : List (Item R α)), pre ++ suf = xs →
      ∀ e ∈ planOf pre.length suf, EntryOk (itemCols xs) recs e := by
    intro pre suf
    induction suf generalizing pre with
    | nil => simp [planOf]
    | cons x suf ih =>
      intro h e he
      have ih' := ih (pre ++ [x]) (by rw [← h]; simp)
      rw [List.length_append, List.length_singleton] at ih'
      cases x with
      | inl c => exact ih' e he
      | inr F =>
        simp only [planOf, List.mem_cons] at he
        rcases he with rfl | he
        · have hF := hok F (by rw [← h]; simp)
          refine ⟨by simp, F.blank, ?_, Nat.le_refl _, fun r hr => ⟨by rw [(hF r hr).1]; exact Nat.le_refl _, ?_⟩⟩
          · rw [itemCols, List.getElem?_map, ← h]
            simp
          · intro x hx
            exact (hF r hr).2 x (List.mem_of_mem_take hx)
        · exact ih' e he
  exact key [] xs rfl

/-- Writing all the records of a table. -/
theorem write_items (xs : List (Item R α)) (recs : List α) (hok : ∀ F, Sum.inr F ∈ xs → F.Ok recs)
    (hany : (planOf 0 xs).any (fun e => e.2.1 ≠ 0) = true) (pre : List (Hdu R)) (ty : HduType)
    (keys : Spec.Keys R) (n : Nat) (write : Nat → α → FitsM R Unit)
    (hw : ∀ r ∈ recs, ∀ i, write i r = Plan.write i r (planOf 0 xs)) :
    forEach 1 recs write (endState pre ⟨ty, keys, itemCols xs, n⟩)
      = .ok ((), endState pre ⟨ty, keys, itemDone recs xs, max n recs.length⟩) := by
  rw [forEach_congr 1 hw, plan_write_rows _ _ 1 (by decide) _ _ (planOf_nodup xs 0) hany (by simp)
    (planOf_entry xs recs hok), show 1 - 1 = 0 from rfl, applyPlan_planOf xs recs hok, Nat.zero_add]

end Verif
