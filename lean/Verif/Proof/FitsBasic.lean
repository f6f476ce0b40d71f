import Verif.Model.Write
import Verif.Model.Read
import Verif.Spec.Fits

/-! Lemmas about the FITS model: sequencing, and writing rows to the last HDU. -/

namespace Verif
open Outcome

variable {R : FP} {α β : Type}

instance : LawfulMonad (FitsM R) := LawfulMonad.mk'
  (id_map := fun x => by
    funext s
    change FitsM.bind x (fun a s => .ok (id a, s)) s = x s
    unfold FitsM.bind
    rcases x s with ⟨a, s'⟩ | _ | _ <;> rfl)
  (pure_bind := fun _ _ => rfl)
  (bind_assoc := fun x f g => by
    funext s
    change FitsM.bind (FitsM.bind x f) g s = FitsM.bind x (fun a => FitsM.bind (f a) g) s
    unfold FitsM.bind
    rcases x s with ⟨a, s'⟩ | _ | _ <;> rfl)

namespace FitsM

theorem run_bind (x : FitsM R α) (f : α → FitsM R β) (s : FState R) :
    (x >>= f) s = (match x s with
      | .ok (a, s') => f a s'
      | .abort => .abort
      | .ub => .ub) := rfl

theorem bind_ok {x : FitsM R α} {s s' : FState R} {a : α} (h : x s = .ok (a, s'))
    (f : α → FitsM R β) : (x >>= f) s = f a s' := by
  rw [run_bind, h]

@[simp] theorem run_pure (a : α) (s : FState R) : (pure a : FitsM R α) s = .ok (a, s) := rfl

@[simp] theorem run_lift_ok (a : α) (s : FState R) : (FitsM.lift (.ok a) : FitsM R α) s = .ok (a, s) := rfl
@[simp] theorem run_lift_abort (s : FState R) : (FitsM.lift .abort : FitsM R α) s = .abort := rfl
@[simp] theorem run_lift_ub (s : FState R) : (FitsM.lift .ub : FitsM R α) s = .ub := rfl

end FitsM

@[simp] theorem run_getStatus (s : FState R) : getStatus s = .ok (s.status, s) := rfl
@[simp] theorem run_setStatus (st : Status) (s : FState R) :
    setStatus st s = .ok ((), { s with status := st }) := rfl

theorem guardStatus_ok {s : FState R} (h : s.status = .ok) (out : α) (body : FitsM R α) :
    guardStatus out body s = body s := by
  simp [guardStatus, h]

theorem guardStatus_err {s : FState R} (h : s.status ≠ .ok) (out : α) (body : FitsM R α) :
    guardStatus out body s = .ok (out, s) := by
  simp [guardStatus, h]

theorem forEach_congr {l : List α} {f g : Nat → α → FitsM R Unit} (first : Nat)
    (h : ∀ x ∈ l, ∀ i, f i x = g i x) : forEach first l f = forEach first l g := by
  induction l generalizing first with
  | nil => rfl
  | cons x xs ih =>
    simp only [forEach]
    rw [h x (by simp) first, ih (first + 1) fun y hy => h y (by simp [hy])]

/-! ### The state while a table is being written -/

/-- A file whose last HDU, `h`, is current. -/
def endState (pre : List (Hdu R)) (h : Hdu R) : FState R := ⟨pre ++ [h], pre.length, .ok⟩

@[simp] theorem endState_status (pre : List (Hdu R)) (h : Hdu R) : (endState pre h).status = .ok := rfl

theorem cfHdu_end (junk : α) (f : Hdu R → Hdu R × Status × α) (pre : List (Hdu R)) (h : Hdu R) :
    cfHdu junk f (endState pre h) = .ok ((f h).2.2, ⟨pre ++ [(f h).1], pre.length, (f h).2.1⟩) := by
  simp [cfHdu, endState]

@[simp] theorem write_key_str (name v : CStr) (pre : List (Hdu R)) (h : Hdu R) :
    fits_write_key name (.str v) (endState pre h)
      = .ok ((), endState pre { h with keys := h.keys ++ [(name, .str (keyStr v))] }) := by
  rw [fits_write_key, cfHdu_end]; rfl

@[simp] theorem write_key_int (name : CStr) (v : Int) (pre : List (Hdu R)) (h : Hdu R) :
    fits_write_key name (.int v) (endState pre h)
      = .ok ((), endState pre { h with keys := h.keys ++ [(name, .int v)] }) := by
  rw [fits_write_key, cfHdu_end]; rfl

theorem write_key_dbl {v v' : R.Dbl} (hv : R.keyD v = some v') (name : CStr) (pre : List (Hdu R))
    (h : Hdu R) :
    fits_write_key name (.dbl v) (endState pre h)
      = .ok ((), endState pre { h with keys := h.keys ++ [(name, .dbl v')] }) := by
  rw [fits_write_key, cfHdu_end]; simp [Hdu.addKey, storeKey, hv, endState]

@[simp] theorem writeOptKey_end (name v : CStr) (pre : List (Hdu R)) (h : Hdu R) :
    writeOptKey name v (endState pre h)
      = .ok ((), endState pre { h with keys := h.keys ++ Spec.optKey name v }) := by
  cases v <;> simp [writeOptKey, Spec.optKey]

@[simp] theorem writeOptOrder_end (name : CStr) (v : Int) (pre : List (Hdu R)) (h : Hdu R) :
    writeOptOrder name v (endState pre h)
      = .ok ((), endState pre { h with keys := h.keys ++ Spec.optOrder name v }) := by
  unfold writeOptOrder Spec.optOrder
  split <;> simp

@[simp] theorem writeColUnit_end (n : Nat) (v : CStr) (pre : List (Hdu R)) (h : Hdu R) :
    writeColUnit n v (endState pre h)
      = .ok ((), endState pre { h with
          cols := h.cols.modify (n - 1) fun c => { c with unit := c.unit.or (some (keyStr v)) } }) := by
  rw [writeColUnit, cfHdu_end]; rfl

@[simp] theorem writeColDim_end (n : Nat) (v : CStr) (pre : List (Hdu R)) (h : Hdu R) :
    writeColDim n v (endState pre h)
      = .ok ((), endState pre { h with
          cols := h.cols.modify (n - 1) fun c => { c with tdim := c.tdim.or (some (keyStr v)) } }) := by
  rw [writeColDim, cfHdu_end]; rfl

theorem insert_cols_end {n : Nat} {fields : List (CStr × CStr)} {cols : List (Col R)}
    (hf : (fields.mapM fun f => newCol (R := R) f.1 f.2 []) = some cols)
    (pre : List (Hdu R)) (h : Hdu R) (hn : n ≠ 0) (hl : n ≤ h.cols.length + 1) :
    fits_insert_cols n fields (endState pre h)
      = .ok ((), endState pre { h with cols := h.cols.take (n - 1) ++ cols ++ h.cols.drop (n - 1) }) := by
  rw [fits_insert_cols, cfHdu_end]
  have : ¬ (h.cols.length + 1 < n ∨ n = 0) := by omega
  simp [this, hf, endState]

/-- The HDUs in the file before a new table is appended. -/
def primed (hdus : List (Hdu R)) : List (Hdu R) :=
  match hdus with
  | [] => [⟨.image, [], [], 0⟩]
  | _ => hdus

theorem create_tbl_end {fields : List (CStr × CStr × CStr)} {cols : List (Col R)}
    (hf : (fields.mapM fun f => newCol (R := R) f.1 f.2.1 f.2.2) = some cols)
    (s : FState R) (hs : s.status = .ok) (extname : CStr) :
    fits_create_tbl fields extname s
      = .ok ((), endState (primed s.hdus) ⟨.binary, [("EXTNAME", .str extname)], cols, 0⟩) := by
  obtain ⟨hdus, cur, st⟩ := s
  simp only at hs
  subst hs
  cases hdus <;> simp [fits_create_tbl, hf, endState, primed]

/-! ### Writing rows -/

/-- What is written in each row: column number, number of elements, and the array for
a record. -/
abbrev Plan (R : FP) (α : Type) := List (Nat × Nat × (α → List (Cell R)))

/-- Write one row. -/
def Plan.write (irow : Nat) (r : α) : Plan R α → FitsM R Unit
  | [] => pure ()
  | e :: p => do
    fits_write_col e.1 irow e.2.1 (e.2.2 r)
    Plan.write irow r p

/-- Elements as they are stored in a column of a type and repeat count. -/
def storeRow (c : Col R) (n : Nat) (xs : List (Cell R)) : List (Cell R) :=
  (xs.take n).map fun x => (store c x).1

/-- A column with the contents of whole rows replaced, from row `first` (counted from
0) on. -/
def Col.fill (c : Col R) (first : Nat) (rows : List (List (Cell R))) : Col R :=
  { c with data := fun r e =>
      if first ≤ r ∧ e < c.nelem then ((rows[r - first]?).bind (·[e]?)).getD (c.data r e)
      else c.data r e }

theorem Col.put_eq_fill (c : Col R) (row : Nat) (xs : List (Cell R)) (h : xs.length ≤ c.nelem) :
    c.put row xs = c.fill row [xs] := by
  unfold Col.put Col.fill
  congr 1
  funext r e
  by_cases hc : row ≤ r ∧ e < c.nelem
  · rw [if_pos hc, if_pos hc]
    by_cases hr : r = row
    · subst hr; simp
    · have h1 : 1 ≤ r - row := by omega
      have h2 : c.nelem ≤ (r - row) * c.nelem + e := by
        calc c.nelem = 1 * c.nelem := by omega
          _ ≤ (r - row) * c.nelem := Nat.mul_le_mul_right _ h1
          _ ≤ _ := by omega
      rw [List.getElem?_eq_none (by omega), List.getElem?_eq_none (l := [xs]) (by simp; omega)]
      rfl
  · rw [if_neg hc, if_neg hc]

theorem Col.fill_nil (c : Col R) (first : Nat) : c.fill first [] = c := by
  unfold Col.fill
  obtain ⟨a, b, d, e, f, g⟩ := c
  simp

theorem Col.fill_cons (c : Col R) (first : Nat) (x : List (Cell R)) (xs : List (List (Cell R))) :
    (c.fill first [x]).fill (first + 1) xs = c.fill first (x :: xs) := by
  unfold Col.fill
  congr 1
  funext r e
  change (if first + 1 ≤ r ∧ e < c.nelem then
      ((xs[r - (first + 1)]?).bind (·[e]?)).getD
        (if first ≤ r ∧ e < c.nelem then (([x][r - first]?).bind (·[e]?)).getD (c.data r e) else c.data r e)
      else (if first ≤ r ∧ e < c.nelem then (([x][r - first]?).bind (·[e]?)).getD (c.data r e) else c.data r e))
    = _
  by_cases he : e < c.nelem
  · by_cases h1 : first + 1 ≤ r
    · rw [if_pos ⟨h1, he⟩, if_pos ⟨by omega, he⟩, if_pos ⟨by omega, he⟩]
      obtain ⟨k, hk⟩ : ∃ k, r - first = k + 1 := ⟨r - first - 1, by omega⟩
      rw [show r - (first + 1) = k by omega, hk]
      simp
    · rw [if_neg (by omega)]
      by_cases h2 : first ≤ r
      · rw [if_pos ⟨h2, he⟩, if_pos ⟨h2, he⟩, show r - first = 0 by omega]; simp
      · rw [if_neg (by omega), if_neg (by omega)]
  · simp [he]

/-- Columns number `i + 1` on after writing the rows of `recs` from row `first` on. -/
def applyPlan (p : Plan R α) (first : Nat) (recs : List α) : Nat → List (Col R) → List (Col R)
  | _, [] => []
  | i, c :: cs =>
    (match p.find? fun e => e.1 == i + 1 with
      | some e => c.fill first (recs.map fun r => storeRow c e.2.1 (e.2.2 r))
      | none => c) :: applyPlan p first recs (i + 1) cs

theorem applyPlan_nil_recs (p : Plan R α) (first i : Nat) (cols : List (Col R)) :
    applyPlan p first [] i cols = cols := by
  induction cols generalizing i with
  | nil => rfl
  | cons c cs ih =>
    simp only [applyPlan, List.map_nil, Col.fill_nil, ih]
    split <;> rfl

theorem applyPlan_nil (first : Nat) (recs : List α) (i : Nat) (cols : List (Col R)) :
    applyPlan [] first recs i cols = cols := by
  induction cols generalizing i with
  | nil => rfl
  | cons c cs ih => simp [applyPlan, ih]

theorem storeRow_fill (c : Col R) (first : Nat) (rows : List (List (Cell R))) (n : Nat)
    (xs : List (Cell R)) : storeRow (c.fill first rows) n xs = storeRow c n xs := by
  unfold storeRow
  apply List.map_congr_left
  intro x _
  cases x <;> rfl

theorem applyPlan_cons_rec (p : Plan R α) (first i : Nat) (r : α) (recs : List α) (cols : List (Col R)) :
    applyPlan p (first + 1) recs i (applyPlan p first [r] i cols) = applyPlan p first (r :: recs) i cols := by
  induction cols generalizing i with
  | nil => rfl
  | cons c cs ih =>
    simp only [applyPlan, ih]
    congr 1
    cases hf : p.find? fun e => e.1 == i + 1 with
    | none => rfl
    | some e =>
      simp only [List.map_cons, List.map_nil, storeRow_fill]
      exact c.fill_cons _ _ _

theorem applyPlan_length (p : Plan R α) (first i : Nat) (recs : List α) (cols : List (Col R)) :
    (applyPlan p first recs i cols).length = cols.length := by
  induction cols generalizing i with
  | nil => rfl
  | cons c cs ih => simp [applyPlan, ih]

theorem applyPlan_getElem? (p : Plan R α) (first i j : Nat) (recs : List α) (cols : List (Col R)) :
    (applyPlan p first recs i cols)[j]? = (cols[j]?).map fun c =>
      match p.find? fun e => e.1 == i + j + 1 with
      | some e => c.fill first (recs.map fun r => storeRow c e.2.1 (e.2.2 r))
      | none => c := by
  induction cols generalizing i j with
  | nil => simp [applyPlan]
  | cons c cs ih =>
    cases j with
    | zero => simp [applyPlan]
    | succ j =>
      simp only [applyPlan, List.getElem?_cons_succ, ih]
      rw [show i + 1 + j + 1 = i + (j + 1) + 1 by omega]

/-- Writing one entry then the rest of a plan is writing the plan. -/
theorem applyPlan_cons (k n : Nat) (f : α → List (Cell R)) (p : Plan R α) (first : Nat) (r : α)
    (cols : List (Col R)) (c : Col R) (hk : k ≠ 0) (hnot : k ∉ p.map (·.1)) (hc : cols[k - 1]? = some c) :
    applyPlan p first [r] 0 (cols.set (k - 1) (c.fill first [storeRow c n (f r)]))
      = applyPlan ((k, n, f) :: p) first [r] 0 cols := by
  apply List.ext_getElem?
  intro j
  rw [applyPlan_getElem?, applyPlan_getElem?]
  have hlt : k - 1 < cols.length := by
    rw [List.getElem?_eq_some_iff] at hc; exact hc.1
  by_cases hj : j = k - 1
  · subst hj
    have hfind : p.find? (fun e => e.1 == 0 + (k - 1) + 1) = none := by
      rw [List.find?_eq_none]
      intro e he h
      apply hnot
      have : e.1 = k := by
        have := beq_iff_eq.mp h
        omega
      rw [← this]
      exact List.mem_map_of_mem he
    have : ((k, n, f).1 == 0 + (k - 1) + 1) = true := by
      simp only [beq_iff_eq]; omega
    rw [List.getElem?_set_self hlt, hfind, List.find?_cons_of_pos (p := fun e : Nat × Nat × (α → List (Cell R)) => e.1 == 0 + (k-1) + 1) this, hc]
    rfl
  · rw [List.getElem?_set_ne (by omega)]
    have : ¬ ((k, n, f).1 == 0 + j + 1) = true := by
      simp only [beq_iff_eq]; omega
    rw [List.find?_cons_of_neg (p := fun e : Nat × Nat × (α → List (Cell R)) => e.1 == 0 + j + 1) this]

/-- An entry of a plan can be written for these records without error. -/
def EntryOk (cols : List (Col R)) (recs : List α) (e : Nat × Nat × (α → List (Cell R))) : Prop :=
  e.1 ≠ 0 ∧ ∃ c, cols[e.1 - 1]? = some c ∧ e.2.1 ≤ c.nelem ∧
    ∀ r ∈ recs, e.2.1 ≤ (e.2.2 r).length ∧ ∀ x ∈ (e.2.2 r).take e.2.1, (store c x).2 = .ok

theorem firstError_ok {l : List Status} (h : ∀ st ∈ l, st = .ok) : firstError l = .ok := by
  unfold firstError
  have : l.find? (· ≠ .ok) = none := by
    rw [List.find?_eq_none]
    intro x hx
    simp [h x hx]
  rw [this]; rfl

/-- One call of `fits_write_col`. -/
theorem write_col_end {cols : List (Col R)} {r : α} {k n : Nat} {f : α → List (Cell R)}
    (he : EntryOk cols [r] (k, n, f)) (irow : Nat) (hrow : 1 ≤ irow) (pre : List (Hdu R)) (h : Hdu R)
    (hcols : h.cols = cols) :
    ∃ c, cols[k - 1]? = some c ∧
      fits_write_col k irow n (f r) (endState pre h) = .ok ((), endState pre { h with
        cols := cols.set (k - 1) (c.fill (irow - 1) [storeRow c n (f r)])
        nrows := if n = 0 then h.nrows else max h.nrows irow }) := by
  obtain ⟨hk, c, hc, hn, hr⟩ := he
  obtain ⟨hlen, hst⟩ := hr r (by simp)
  simp only at hc hn hlen hst
  refine ⟨c, hc, ?_⟩
  have h1 : ¬ (f r).length < n := by omega
  unfold fits_write_col
  simp only [endState_status, if_true, if_neg h1]
  rw [cfHdu_end]
  unfold Hdu.writeCol
  rw [hcols, hc]
  have hkl : k - 1 < cols.length := by
    rw [List.getElem?_eq_some_iff] at hc; exact hc.1
  by_cases hn0 : n = 0
  · subst hn0
    simp only [List.take_zero, if_true]
    have : cols.set (k - 1) (c.fill (irow - 1) [storeRow c 0 (f r)]) = cols := by
      have hf : c.fill (irow - 1) [storeRow c 0 (f r)] = c := by
        unfold Col.fill storeRow
        obtain ⟨a, b, d, e, f', g⟩ := c
        simp only [List.take_zero, List.map_nil, Col.mk.injEq, true_and]
        funext r e
        split
        · rcases h : (([[]] : List (List (Cell R)))[r - (irow - 1)]?) with _ | l
          · rfl
          · have := List.mem_of_getElem? h
            simp only [List.mem_singleton] at this
            subst this; rfl
        · rfl
      rw [hf]
      rw [List.getElem?_eq_some_iff] at hc
      obtain ⟨_, rfl⟩ := hc
      exact List.set_getElem_self _
    rw [this]
    subst hcols
    rfl
  · have hne : (f r).take n ≠ [] := by
      intro h0
      have : ((f r).take n).length = n := by rw [List.length_take]; omega
      rw [h0] at this
      exact hn0 this.symm
    have hlt : ((f r).take n).length = n := by rw [List.length_take]; omega
    have hnz : ¬ c.nelem = 0 := by omega
    simp only [if_neg hne, if_neg hnz, if_neg hn0]
    rw [firstError_ok (by
      intro st hst'
      rw [List.mem_map] at hst'
      obtain ⟨x, hx, rfl⟩ := hst'
      exact hst x hx)]
    rw [Col.put_eq_fill _ _ _ (by rw [List.length_map, hlt]; exact hn)]
    have hdiv : (((f r).take n).length - 1) / c.nelem = 0 := by
      rw [hlt]; exact Nat.div_eq_of_lt (by omega)
    rw [hdiv, show irow - 1 + 0 + 1 = irow by omega]
    rfl


theorem EntryOk.set {cols : List (Col R)} {recs : List α} {e : Nat × Nat × (α → List (Cell R))}
    (he : EntryOk cols recs e) {j first : Nat} {c : Col R} {rows : List (List (Cell R))}
    (hc : cols[j]? = some c) : EntryOk (cols.set j (c.fill first rows)) recs e := by
  obtain ⟨hk, d, hd, hn, hr⟩ := he
  by_cases hj : j = e.1 - 1
  · subst hj
    rw [hc] at hd
    cases hd
    refine ⟨hk, c.fill first rows, ?_, hn, ?_⟩
    · rw [List.getElem?_set_self (List.getElem?_eq_some_iff.mp hc).1]
    · intro r hr'
      refine ⟨(hr r hr').1, fun x hx => ?_⟩
      have := (hr r hr').2 x hx
      cases x <;> exact this
  · exact ⟨hk, d, by rw [List.getElem?_set_ne hj]; exact hd, hn, hr⟩

theorem EntryOk.apply {cols : List (Col R)} {recs : List α} {e : Nat × Nat × (α → List (Cell R))}
    (he : EntryOk cols recs e) (p : Plan R α) (first : Nat) (recs' : List α) :
    EntryOk (applyPlan p first recs' 0 cols) recs e := by
  obtain ⟨hk, d, hd, hn, hr⟩ := he
  refine ⟨hk, ?_⟩
  rw [applyPlan_getElem?, hd]
  cases p.find? fun e' => e'.1 == 0 + (e.1 - 1) + 1 with
  | none => exact ⟨d, rfl, hn, hr⟩
  | some e' =>
    refine ⟨_, rfl, hn, fun r hr' => ⟨(hr r hr').1, fun x hx => ?_⟩⟩
    have := (hr r hr').2 x hx
    cases x <;> exact this

theorem EntryOk.mono {cols : List (Col R)} {recs recs' : List α} {e : Nat × Nat × (α → List (Cell R))}
    (he : EntryOk cols recs e) (h : ∀ r ∈ recs', r ∈ recs) : EntryOk cols recs' e := by
  obtain ⟨hk, d, hd, hn, hr⟩ := he
  exact ⟨hk, d, hd, hn, fun r hr' => hr r (h r hr')⟩

/-- Number of rows after writing row `irow`. -/
def planRows (p : Plan R α) (irow nrows : Nat) : Nat :=
  if p.any (fun e => e.2.1 ≠ 0) then max nrows irow else nrows

/-- Writing one row. -/
theorem plan_write_row (p : Plan R α) (r : α) (irow : Nat) (hrow : 1 ≤ irow) (pre : List (Hdu R)) (h : Hdu R)
    (hnd : (p.map (·.1)).Nodup) (hok : ∀ e ∈ p, EntryOk h.cols [r] e) :
    Plan.write irow r p (endState pre h) = .ok ((), endState pre { h with
      cols := applyPlan p (irow - 1) [r] 0 h.cols
      nrows := planRows p irow h.nrows }) := by
  induction p generalizing h with
  | nil => simp [Plan.write, applyPlan_nil, planRows]
  | cons e p ih =>
    obtain ⟨k, n, f⟩ := e
    have he := hok (k, n, f) (by simp)
    obtain ⟨c, hc, hw⟩ := write_col_end he irow hrow pre h rfl
    rw [Plan.write, FitsM.bind_ok hw, ih]
    · congr 2
      congr 1
      simp only [Hdu.mk.injEq, true_and]
      refine ⟨?_, ?_⟩
      · rw [List.map_cons, List.nodup_cons] at hnd
        exact applyPlan_cons k n f p (irow - 1) r h.cols c he.1 hnd.1 hc
      · simp only [planRows, List.any_cons]
        by_cases hn : n = 0
        · simp only [hn, ↓reduceIte, ne_eq, not_true_eq_false, decide_false, Bool.false_or]
        · simp only [hn, if_false, decide_true, ne_eq, not_false_eq_true, Bool.true_or, if_true]
          split <;> omega
    · rw [List.map_cons, List.nodup_cons] at hnd
      exact hnd.2
    · intro e' he'
      exact (hok e' (by simp [he'])).set hc

/-- Writing all rows. -/
theorem plan_write_rows (p : Plan R α) (recs : List α) (first : Nat) (hfirst : 1 ≤ first)
    (pre : List (Hdu R)) (h : Hdu R) (hnd : (p.map (·.1)).Nodup)
    (hany : p.any (fun e => e.2.1 ≠ 0) = true) (hrows : first - 1 ≤ h.nrows)
    (hok : ∀ e ∈ p, EntryOk h.cols recs e) :
    forEach first recs (fun i r => Plan.write i r p) (endState pre h) = .ok ((), endState pre { h with
      cols := applyPlan p (first - 1) recs 0 h.cols
      nrows := max h.nrows (first - 1 + recs.length) }) := by
  induction recs generalizing first h with
  | nil =>
    simp only [forEach, applyPlan_nil_recs, FitsM.run_pure, List.length_nil, Nat.add_zero,
      Nat.max_eq_left hrows]
  | cons r recs ih =>
    have h1 := plan_write_row p r first hfirst pre h hnd
      (fun e he => (hok e he).mono (by simp))
    simp only [forEach]
    rw [FitsM.bind_ok h1, ih (first + 1) (by omega)]
    · congr 2
      congr 1
      simp only [Hdu.mk.injEq, true_and]
      refine ⟨?_, ?_⟩
      · have := applyPlan_cons_rec p (first - 1) 0 r recs h.cols
        rw [show first - 1 + 1 = first by omega] at this
        rw [show first + 1 - 1 = first by omega]
        exact this
      · simp only [planRows, hany, if_true, List.length_cons]
        omega
    · simp only [planRows, hany, if_true]
      omega
    · intro e he
      exact ((hok e he).apply p _ _).mono (by simp +contextual)

end Verif
