import Verif.Proof.FitsTame

/-! When reading does not abort, and when it fails. -/

namespace Verif
open Outcome

variable {R : FP} {α β ι : Type}

/-- With an error pending the code does nothing. -/
structure Inert (m : FitsM R α) : Prop where
  run : ∀ s, s.status ≠ .ok → ∃ a, m s = .ok (a, s)

theorem Inert.pure (a : α) : Inert (pure a : FitsM R α) := ⟨fun _ _ => ⟨a, rfl⟩⟩

theorem Inert.bind {m : FitsM R α} {f : α → FitsM R β} (hm : Inert m) (hf : ∀ a, Inert (f a)) :
    Inert (m >>= f) := by
  constructor
  intro s hs
  obtain ⟨a, ha⟩ := hm.run s hs
  obtain ⟨b, hb⟩ := (hf a).run s hs
  exact ⟨b, by rw [FitsM.bind_ok ha, hb]⟩

theorem Inert.guard (out : α) (body : FitsM R α) : Inert (guardStatus out body) :=
  ⟨fun _ hs => ⟨out, guardStatus_err hs _ _⟩⟩

theorem Inert.cfRead (junk : α) (f : Hdu R → Except Status α) : Inert (cfRead junk f) :=
  ⟨fun s hs => ⟨junk, by unfold Verif.cfRead; rw [if_neg hs]⟩⟩

theorem Inert.ite {c : Prop} [Decidable c] {m n : FitsM R α} (hm : Inert m) (hn : Inert n) :
    Inert (if c then m else n) := by split <;> assumption

theorem Inert.getStatus : Inert (getStatus (R := R)) := ⟨fun s _ => ⟨s.status, rfl⟩⟩

theorem Inert.forRows {body : Nat → FitsM R α} (h : ∀ i, Inert (body i)) (first n : Nat) :
    Inert (forRows first n body) := by
  induction n generalizing first with
  | zero => exact Inert.pure _
  | succ n ih =>
    rw [Verif.forRows]
    exact (h _).bind fun _ => (ih _).bind fun _ => Inert.pure _

theorem Inert.forRecs {body : Nat → α → FitsM R β} (h : ∀ i x, Inert (body i x)) (first : Nat) (l : List α) :
    Inert (forRecs first l body) := by
  induction l generalizing first with
  | nil => exact Inert.pure _
  | cons x l ih =>
    rw [Verif.forRecs]
    exact (h _ _).bind fun _ => (ih _).bind fun _ => Inert.pure _

theorem inert_key_str (n d : CStr) : Inert (fits_read_key_str (R := R) n d) := Inert.cfRead _ _
theorem inert_key_int (n : CStr) (d : Int) : Inert (fits_read_key_int (R := R) n d) := Inert.cfRead _ _
theorem inert_key_dbl (n : CStr) (d : R.Dbl) : Inert (fits_read_key_dbl n d) := Inert.cfRead _ _
theorem inert_colUnit (n : Nat) (d : CStr) : Inert (readColUnit (R := R) n d) := Inert.cfRead _ _
theorem inert_colnum (n : CStr) (d : Nat) : Inert (fits_get_colnum (R := R) n d) := Inert.cfRead _ _
theorem inert_coltype (n : Nat) (d : ColType × Nat) : Inert (fits_get_coltype (R := R) n d) := Inert.cfRead _ _
theorem inert_num_rows (d : Nat) : Inert (fits_get_num_rows (R := R) d) := Inert.cfRead _ _
theorem inert_read_col (conv : Cell R → Option α) (c r n : Nat) (a : List α) :
    Inert (fits_read_col conv c r n a) := Inert.cfRead _ _
theorem inert_keyOpt (m : FitsM R α) (d x : α) : Inert (readKeyOpt m d x) := Inert.guard _ _
theorem inert_opt_str (n d : CStr) : Inert (read_key_opt_string (R := R) n d) := Inert.guard _ _
theorem inert_opt_int (n : CStr) (d : Int) : Inert (read_key_opt_int (R := R) n d) := Inert.guard _ _
theorem inert_opt_dbl (n : CStr) (d : R.Dbl) : Inert (read_key_opt_double n d) := Inert.guard _ _
theorem inert_col_string (o : Bool) (c : CStr) (m i : Nat) (v : CStr) :
    Inert (read_col_string (R := R) o c m i v) := Inert.guard _ _
theorem inert_col_trunc (c : CStr) (m i : Nat) (v : CStr) :
    Inert (read_col_string_truncate (R := R) c m i v) := by
  unfold read_col_string_truncate
  exact (Inert.guard _ _).bind fun _ => Inert.pure _
theorem inert_arr (conv : Cell R → Option α) (j : α) (c : CStr) (i n : Nat) : Inert (readArr conv j c i n) := by
  unfold readArr; exact (inert_colnum _ _).bind fun _ => inert_read_col _ _ _ _ _
theorem inert_one (conv : Cell R → Option α) (j : α) (c : CStr) (i : Nat) : Inert (readOne conv j c i) := by
  unfold readOne; exact (inert_arr _ _ _ _ _).bind fun _ => Inert.pure _
theorem inert_name (u : Undef R) (k : CStr) (n : Option CStr) : Inert (readName u k n) := by
  unfold readName
  cases n
  · exact (inert_key_str _ _).bind fun _ => Inert.pure _
  · exact Inert.pure _
theorem inert_corrname (r : Int) (o : CStr) : Inert (readCorrname (R := R) r o) := by
  unfold readCorrname
  exact Inert.ite ((inert_opt_str _ _).bind fun _ => Inert.pure _) (Inert.pure _)
theorem inert_corrindx (u : Undef R) (c : Bool) (n : CStr) (i : Nat) : Inert (readCorrindx u c n i) := by
  unfold readCorrindx
  exact Inert.ite (inert_one _ _ _ _) (Inert.pure _)

/-- Take the code apart. -/
macro "inert" : tactic => `(tactic| repeat (first
  | with_reducible apply Inert.pure | with_reducible apply Inert.guard
  | with_reducible apply inert_opt_str | with_reducible apply inert_opt_int
  | with_reducible apply inert_opt_dbl | with_reducible apply inert_keyOpt
  | with_reducible apply inert_col_string | with_reducible apply inert_col_trunc
  | with_reducible apply inert_arr | with_reducible apply inert_one | with_reducible apply inert_name
  | with_reducible apply inert_corrname | with_reducible apply inert_corrindx
  | with_reducible apply inert_key_str | with_reducible apply inert_key_int
  | with_reducible apply inert_key_dbl | with_reducible apply inert_colUnit
  | with_reducible apply inert_colnum | with_reducible apply inert_coltype
  | with_reducible apply inert_num_rows | with_reducible apply inert_read_col
  | with_reducible apply Inert.getStatus
  | with_reducible apply Inert.bind | with_reducible apply Inert.ite
  | with_reducible apply Inert.forRows | with_reducible apply Inert.forRecs
  | intro _ | split))

/-! ### No abort -/

/-- The code never aborts. -/
structure NoAbort (m : FitsM R α) : Prop where
  run : ∀ s, m s ≠ .abort

theorem NoAbort.bind {m : FitsM R α} {f : α → FitsM R β} (hm : NoAbort m) (hf : ∀ a, NoAbort (f a)) :
    NoAbort (m >>= f) := by
  constructor
  intro s h
  change FitsM.bind m f s = _ at h
  unfold FitsM.bind at h
  cases hr : m s with
  | ok p => rw [hr] at h; exact (hf p.1).run _ h
  | abort => exact hm.run s hr
  | ub => rw [hr] at h; cases h

theorem NoAbort.pure (a : α) : NoAbort (pure a : FitsM R α) := ⟨fun s h => by cases h⟩
theorem NoAbort.getStatus : NoAbort (getStatus (R := R)) := ⟨fun s h => by cases h⟩
theorem NoAbort.setStatus (st : Status) : NoAbort (setStatus (R := R) st) := ⟨fun s h => by cases h⟩
theorem NoAbort.guard {body : FitsM R α} (out : α) (h : NoAbort body) : NoAbort (guardStatus out body) := by
  constructor
  intro s
  by_cases hs : s.status = .ok
  · rw [guardStatus_ok hs]; exact h.run s
  · rw [guardStatus_err hs]; simp
theorem NoAbort.cfRead (junk : α) (f : Hdu R → Except Status α) : NoAbort (cfRead junk f) := by
  constructor
  intro s
  unfold Verif.cfRead
  split
  · split
    · split <;> simp
    · simp
  · simp
theorem NoAbort.ite {c : Prop} [Decidable c] {m n : FitsM R α} (hm : NoAbort m) (hn : NoAbort n) :
    NoAbort (if c then m else n) := by split <;> assumption
theorem NoAbort.forRows {body : Nat → FitsM R α} (h : ∀ i, NoAbort (body i)) (first n : Nat) :
    NoAbort (forRows first n body) := by
  induction n generalizing first with
  | zero => exact NoAbort.pure _
  | succ n ih =>
    rw [Verif.forRows]
    exact (h _).bind fun _ => (ih _).bind fun _ => NoAbort.pure _
theorem NoAbort.forRecs {body : Nat → α → FitsM R β} (h : ∀ i x, NoAbort (body i x)) (first : Nat) (l : List α) :
    NoAbort (forRecs first l body) := by
  induction l generalizing first with
  | nil => exact NoAbort.pure _
  | cons x l ih =>
    rw [Verif.forRecs]
    exact (h _ _).bind fun _ => (ih _).bind fun _ => NoAbort.pure _

theorem noAbort_key_str (n d : CStr) : NoAbort (fits_read_key_str (R := R) n d) := NoAbort.cfRead _ _
theorem noAbort_key_int (n : CStr) (d : Int) : NoAbort (fits_read_key_int (R := R) n d) := NoAbort.cfRead _ _
theorem noAbort_key_dbl (n : CStr) (d : R.Dbl) : NoAbort (fits_read_key_dbl n d) := NoAbort.cfRead _ _
theorem noAbort_colUnit (n : Nat) (d : CStr) : NoAbort (readColUnit (R := R) n d) := NoAbort.cfRead _ _
theorem noAbort_colnum (n : CStr) (d : Nat) : NoAbort (fits_get_colnum (R := R) n d) := NoAbort.cfRead _ _
theorem noAbort_coltype (n : Nat) (d : ColType × Nat) : NoAbort (fits_get_coltype (R := R) n d) := NoAbort.cfRead _ _
theorem noAbort_num_rows (d : Nat) : NoAbort (fits_get_num_rows (R := R) d) := NoAbort.cfRead _ _
theorem noAbort_read_col (conv : Cell R → Option α) (c r n : Nat) (a : List α) :
    NoAbort (fits_read_col conv c r n a) := NoAbort.cfRead _ _

@[inherit_doc NoAbort]
macro "noabort0" : tactic => `(tactic| repeat (first
  | with_reducible apply NoAbort.pure | with_reducible apply NoAbort.guard
  | with_reducible apply noAbort_key_str | with_reducible apply noAbort_key_int
  | with_reducible apply noAbort_key_dbl | with_reducible apply noAbort_colUnit
  | with_reducible apply noAbort_colnum | with_reducible apply noAbort_coltype
  | with_reducible apply noAbort_num_rows | with_reducible apply noAbort_read_col
  | with_reducible apply NoAbort.getStatus | with_reducible apply NoAbort.setStatus
  | with_reducible apply NoAbort.bind | with_reducible apply NoAbort.ite
  | with_reducible apply NoAbort.forRows | with_reducible apply NoAbort.forRecs
  | intro _ | split))

theorem noAbort_keyOpt {read : FitsM R α} (h : NoAbort read) (d m : α) : NoAbort (readKeyOpt read d m) := by
  unfold readKeyOpt
  refine NoAbort.guard _ (h.bind fun _ => ?_)
  noabort0
theorem noAbort_opt_str (n d : CStr) : NoAbort (read_key_opt_string (R := R) n d) := noAbort_keyOpt (noAbort_key_str _ _) _ _
theorem noAbort_opt_int (n : CStr) (d : Int) : NoAbort (read_key_opt_int (R := R) n d) := noAbort_keyOpt (noAbort_key_int _ _) _ _
theorem noAbort_opt_dbl (n : CStr) (d : R.Dbl) : NoAbort (read_key_opt_double (R := R) n d) := noAbort_keyOpt (noAbort_key_dbl _ _) _ _
theorem noAbort_findStrCol (o : Bool) (c : CStr) (m : Option Nat) (i : Nat) (v : CStr) :
    NoAbort (findStrCol (R := R) o c m i v) := by
  unfold findStrCol readStrCol; noabort0
theorem noAbort_col_string (o : Bool) (c : CStr) (m i : Nat) (v : CStr) :
    NoAbort (read_col_string (R := R) o c m i v) := noAbort_findStrCol _ _ _ _ _
theorem noAbort_col_trunc (c : CStr) (m i : Nat) (v : CStr) :
    NoAbort (read_col_string_truncate (R := R) c m i v) := by
  unfold read_col_string_truncate
  exact (noAbort_findStrCol _ _ _ _ _).bind fun _ => NoAbort.pure _
theorem noAbort_arr (conv : Cell R → Option α) (j : α) (c : CStr) (i n : Nat) : NoAbort (readArr conv j c i n) := by
  unfold readArr; noabort0
theorem noAbort_one (conv : Cell R → Option α) (j : α) (c : CStr) (i : Nat) : NoAbort (readOne conv j c i) := by
  unfold readOne; exact (noAbort_arr _ _ _ _ _).bind fun _ => NoAbort.pure _
theorem noAbort_name (u : Undef R) (k : CStr) (n : Option CStr) : NoAbort (readName u k n) := by
  unfold readName
  cases n <;> noabort0
theorem noAbort_alloc {n : Nat} (h : n ≠ 0) : NoAbort (FitsM.lift (R := R) (chkmallocN n)) := by
  constructor
  intro s
  simp [FitsM.lift, chkmallocN, h]

@[inherit_doc NoAbort]
macro "noabort" : tactic => `(tactic| repeat (first
  | with_reducible apply noAbort_opt_str | with_reducible apply noAbort_opt_int
  | with_reducible apply noAbort_opt_dbl | with_reducible apply noAbort_col_string
  | with_reducible apply noAbort_col_trunc | with_reducible apply noAbort_arr
  | with_reducible apply noAbort_one | with_reducible apply noAbort_name
  | with_reducible apply NoAbort.pure | with_reducible apply NoAbort.guard
  | with_reducible apply noAbort_key_str | with_reducible apply noAbort_key_int
  | with_reducible apply noAbort_key_dbl | with_reducible apply noAbort_colUnit
  | with_reducible apply noAbort_colnum | with_reducible apply noAbort_coltype
  | with_reducible apply noAbort_num_rows | with_reducible apply noAbort_read_col
  | with_reducible apply NoAbort.getStatus | with_reducible apply NoAbort.setStatus
  | with_reducible apply NoAbort.bind | with_reducible apply NoAbort.ite
  | with_reducible apply NoAbort.forRows | with_reducible apply NoAbort.forRecs
  | intro _ | split))

/-! ### Reading one table -/

/-- Started on the given HDU without error pending, the code does not abort, and ends
with an error or with a value of property `Q`. -/
structure Runs (h : Hdu R) (m : FitsM R α) (Q : α → Prop) : Prop where
  run : ∀ s, At s h → m s ≠ .abort ∧ ∀ a s', m s = .ok (a, s') → s'.status = .ok → Q a

theorem Runs.of {h : Hdu R} {m : FitsM R α} (hm : NoAbort m) : Runs h m fun _ => True :=
  ⟨fun s _ => ⟨hm.run s, fun _ _ _ _ => trivial⟩⟩

/-- What has been found is used if there was no error. -/
theorem Runs.bind {h : Hdu R} {m : FitsM R α} {f : α → FitsM R β} {P : α → Prop} {Q : β → Prop}
    (hm : Runs h m P) (ht : Tame m) (hi : ∀ a, Inert (f a)) (hf : ∀ a, P a → Runs h (f a) Q) :
    Runs h (m >>= f) Q := by
  constructor
  intro s hs
  rcases ht.run s with h1 | ⟨a, s', h1, h2, h3, -⟩
  · exact absurd h1 (hm.run s hs).1
  · rw [FitsM.bind_ok h1]
    by_cases hst : s'.status = .ok
    · exact (hf a ((hm.run s hs).2 a s' h1 hst)).run s' ⟨hst, by rw [h2, h3]; exact hs.cur⟩
    · obtain ⟨b, hb⟩ := (hi a).run s' hst
      rw [hb]
      refine ⟨by simp, fun b' s'' hb' hst' => ?_⟩
      obtain ⟨rfl, rfl⟩ := Prod.mk.inj (Outcome.ok.inj hb')
      exact absurd hst' hst

theorem Runs.guard {h : Hdu R} {body : FitsM R α} {Q : α → Prop} (out : α) (hb : Runs h body Q) :
    Runs h (guardStatus out body) Q := by
  constructor
  intro s hs
  rw [guardStatus_ok hs.ok]
  exact hb.run s hs

theorem Runs.cfRead {h : Hdu R} {junk : α} {f : Hdu R → Except Status α} {Q : α → Prop}
    (hf : ∀ a, f h = .ok a → Q a) (he : ∀ h, f h ≠ .error .ok) : Runs h (cfRead junk f) Q := by
  refine ⟨fun s hs => ⟨(NoAbort.cfRead junk f).run s, fun a s' h1 hst => ?_⟩⟩
  cases hr : f h with
  | ok b =>
    have := cfRead_ok hs hr junk
    rw [this] at h1
    obtain ⟨rfl, rfl⟩ := Prod.mk.inj (Outcome.ok.inj h1)
    exact hf _ hr
  | error st =>
    have := cfRead_error hs hr junk
    rw [this] at h1
    obtain ⟨rfl, rfl⟩ := Prod.mk.inj (Outcome.ok.inj h1)
    have : st = .ok := hst
    subst this
    exact absurd hr (he h)

variable {h : Hdu R}

/-- An HDU which is not an empty table. -/
structure NonEmpty (h : Hdu R) : Prop where
  binary : h.type = .binary
  rows : h.nrows ≠ 0
  cols : ∀ c ∈ h.cols, c.rep ≠ 0

theorem runs_num_rows (hf : NonEmpty h) (d : Nat) : Runs h (fits_get_num_rows d) (· ≠ 0) := by
  refine Runs.cfRead (fun a ha => ?_) (fun h => ?_)
  · rw [if_neg (by rw [hf.binary]; decide)] at ha
    injection ha with ha
    rw [← ha]; exact hf.rows
  · split <;> simp [NOT_TABLE]

theorem runs_coltype (hf : NonEmpty h) (n : Nat) (d : ColType × Nat) :
    Runs h (fits_get_coltype n d) (·.2 ≠ 0) := by
  refine Runs.cfRead (fun a ha => ?_) (fun h => ?_)
  · cases hc : h.cols[n - 1]? with
    | none => rw [hc] at ha; cases ha
    | some c =>
      rw [hc] at ha
      injection ha with ha
      rw [← ha]; exact hf.cols c (List.mem_of_getElem? hc)
  · split <;> simp [BAD_COL_NUM]

theorem runs_alloc {n : Nat} (hn : n ≠ 0) {f : Unit → FitsM R β} (hf : NoAbort (f ())) :
    Runs h (FitsM.lift (chkmallocN n) >>= f) fun _ => True := by
  apply Runs.of
  exact (noAbort_alloc hn).bind fun _ => hf

theorem runs_allocRecords {n w : Nat} (hn : n ≠ 0) (hw : w ≠ 0) {f : Unit → FitsM R β} (hf : NoAbort (f ())) :
    Runs h (FitsM.lift (allocRecords n w) >>= f) fun _ => True := by
  apply Runs.of
  refine NoAbort.bind ⟨fun s => ?_⟩ fun _ => hf
  simp [FitsM.lift, allocRecords, chkmallocN, hn, hw]

/-- A step before memory is allocated. -/
macro "rstep" n:term ", " t:term : tactic =>
  `(tactic| refine Runs.bind (Runs.of $n) $t (fun _ => by inert) (fun _ _ => ?_))

theorem runs_array_chdu (hf : NonEmpty h) (u : Undef R) (old : OiArray R) (n : Option CStr) :
    Runs h (read_oi_array_chdu u old n) fun _ => True := by
  unfold read_oi_array_chdu
  refine Runs.guard _ ?_
  rstep (noAbort_key_int _ _), (tame_key_int _ _)
  refine Runs.guard _ ?_
  rstep (noAbort_name _ _ _), (tame_name _ _ _)
  rstep (noAbort_key_str _ _), (tame_key_str _ _)
  rstep (noAbort_key_dbl _ _), (tame_key_dbl _ _)
  rstep (noAbort_key_dbl _ _), (tame_key_dbl _ _)
  rstep (noAbort_key_dbl _ _), (tame_key_dbl _ _)
  refine Runs.bind (runs_num_rows hf 0) (tame_num_rows _) (fun _ => by inert) (fun n hn => ?_)
  refine Runs.guard _ (runs_alloc hn ?_)
  unfold readElement
  noabort

theorem runs_wavelength_chdu (hf : NonEmpty h) (u : Undef R) (old : OiWavelength R) (n : Option CStr) :
    Runs h (read_oi_wavelength_chdu u old n) fun _ => True := by
  unfold read_oi_wavelength_chdu
  refine Runs.guard _ ?_
  rstep (noAbort_key_int _ _), (tame_key_int _ _)
  refine Runs.guard _ ?_
  rstep (noAbort_name _ _ _), (tame_name _ _ _)
  refine Runs.bind (runs_num_rows hf 0) (tame_num_rows _) (fun _ => by inert) (fun n hn => ?_)
  refine Runs.guard _ (runs_alloc hn ?_)
  noabort

theorem runs_corr_chdu (hf : NonEmpty h) (u : Undef R) (old : OiCorr R) (n : Option CStr) :
    Runs h (read_oi_corr_chdu u old n) fun _ => True := by
  unfold read_oi_corr_chdu
  refine Runs.guard _ ?_
  rstep (noAbort_key_int _ _), (tame_key_int _ _)
  refine Runs.guard _ ?_
  rstep (noAbort_name _ _ _), (tame_name _ _ _)
  rstep (noAbort_key_int _ _), (tame_key_int _ _)
  refine Runs.bind (runs_num_rows hf 0) (tame_num_rows _) (fun _ => by inert) (fun n hn => ?_)
  refine Runs.guard _ (runs_alloc hn ?_)
  noabort

theorem runs_inspol_chdu (hf : NonEmpty h) (u : Undef R) (old : OiInspol R) :
    Runs h (read_oi_inspol_chdu u old) fun _ => True := by
  unfold read_oi_inspol_chdu
  refine Runs.guard _ ?_
  rstep (noAbort_key_int _ _), (tame_key_int _ _)
  refine Runs.guard _ ?_
  rstep (noAbort_key_str _ _), (tame_key_str _ _)
  rstep (noAbort_key_int _ _), (tame_key_int _ _)
  rstep (noAbort_key_str _ _), (tame_key_str _ _)
  rstep (noAbort_key_str _ _), (tame_key_str _ _)
  rstep (noAbort_key_str _ _), (tame_key_str _ _)
  refine Runs.bind (runs_num_rows hf 0) (tame_num_rows _) (fun _ => by inert) (fun n hn => ?_)
  rstep (noAbort_colnum _ _), (tame_colnum _ _)
  refine Runs.bind (runs_coltype hf _ _) (tame_coltype _ _) (fun _ => by inert) (fun w hw => ?_)
  refine Runs.guard _ (runs_allocRecords hn hw ?_)
  unfold readInspolRecord readJones
  noabort

theorem tame_corrname (r : Int) (o : CStr) : Tame (readCorrname (R := R) r o) := by
  unfold readCorrname; tame!

theorem noAbort_corrname (r : Int) (o : CStr) : NoAbort (readCorrname (R := R) r o) := by
  unfold readCorrname; noabort

theorem noAbort_vis_complex (u : Undef R) {v : OiVis R} (hw : v.nwave ≠ 0) (c : Bool) :
    NoAbort (read_oi_vis_complex u v c) := by
  unfold read_oi_vis_complex readVisComplexRow readVisComplexCorr
  refine NoAbort.guard _ ((noAbort_colnum _ _).bind fun _ => NoAbort.getStatus.bind fun _ => NoAbort.ite ?_ ?_)
  · noabort
  · refine (noAbort_colUnit _ _).bind fun _ => ((NoAbort.forRecs (fun _ _ => ?_) _ _).bind fun _ => NoAbort.pure _)
    refine (noAbort_alloc hw).bind fun _ => ?_
    noabort

theorem noAbort_refmapRow (u : Undef R) {n : Nat} (hn : n ≠ 0) (c i : Nat) (r : OiVisRecord R) :
    NoAbort (readRefmapRow u n c i r) := by
  unfold readRefmapRow
  refine (noAbort_alloc (Nat.mul_ne_zero hn hn)).bind fun _ => ?_
  noabort

/-- The number of channels is not changed by reading the reference map. -/
theorem readRefmap_nwave (u : Undef R) (v : OiVis R) (s : FState R) {v' : OiVis R} {s' : FState R}
    (h : readRefmap u v s = .ok (v', s')) : v'.nwave = v.nwave := by
  unfold readRefmap at h
  rcases (tame_colnum ("VISREFMAP" : CStr) 0).run s with h1 | ⟨c, s1, h1, -⟩
  · exact absurd h1 ((noAbort_colnum _ _).run s)
  · rw [FitsM.bind_ok h1, FitsM.bind_ok (run_getStatus s1)] at h
    split at h
    · rw [FitsM.bind_ok (run_setStatus .ok s1)] at h
      obtain ⟨rfl, rfl⟩ := Prod.mk.inj (Outcome.ok.inj h)
      rfl
    · change FitsM.bind _ _ s1 = _ at h
      unfold FitsM.bind at h
      split at h
      · obtain ⟨rfl, rfl⟩ := Prod.mk.inj (Outcome.ok.inj h)
        rfl
      · cases h
      · cases h

theorem noAbort_vis_opt (u : Undef R) {v : OiVis R} (hw : v.nwave ≠ 0) : NoAbort (read_oi_vis_opt u v) := by
  unfold read_oi_vis_opt
  refine NoAbort.guard _ (NoAbort.ite (NoAbort.pure _) ?_)
  refine (noAbort_opt_str _ _).bind fun _ => (noAbort_opt_str _ _).bind fun _ =>
    (noAbort_opt_str _ _).bind fun _ => (noAbort_opt_int _ _).bind fun _ =>
    (noAbort_opt_int _ _).bind fun _ => ?_
  refine NoAbort.bind ?_ fun rec_ => ?_
  · unfold readVisCorr readVisCorrRow; noabort
  · constructor
    intro s h
    change FitsM.bind _ _ s = _ at h
    unfold FitsM.bind at h
    split at h
    · rename_i v' s' h1
      have := readRefmap_nwave u _ s h1
      exact (noAbort_vis_complex u (this ▸ hw) _).run s' h
    · rename_i h1
      refine NoAbort.run (m := readRefmap u _) ?_ s h1
      unfold readRefmap
      refine (noAbort_colnum _ _).bind fun _ => NoAbort.getStatus.bind fun _ => NoAbort.ite ?_ ?_
      · noabort
      · refine (NoAbort.forRecs (fun _ _ => noAbort_refmapRow u hw _ _ _) _ _).bind fun _ => NoAbort.pure _
    · cases h

/-- A function which looks for the next table of a given name and reads it, without
aborting if the table is not empty. -/
structure ReadsFull (name : CStr) (old : α) (read : FitsM R α) : Prop where
  shape : ∃ body : FitsM R α, (∀ h, NonEmpty h → Runs h body fun _ => True) ∧
    read = guardStatus old (next_named_hdu name >>= fun _ => guardStatus old body)

theorem readsFull_array (u : Undef R) (old : OiArray R) :
    ReadsFull "OI_ARRAY" old (read_next_oi_array u old) := ⟨_, fun _ hf => runs_array_chdu hf u old none, rfl⟩

theorem readsFull_wavelength (u : Undef R) (old : OiWavelength R) :
    ReadsFull "OI_WAVELENGTH" old (read_next_oi_wavelength u old) := ⟨_, fun _ hf => runs_wavelength_chdu hf u old none, rfl⟩

theorem readsFull_corr (u : Undef R) (old : OiCorr R) :
    ReadsFull "OI_CORR" old (read_next_oi_corr u old) := ⟨_, fun _ hf => runs_corr_chdu hf u old none, rfl⟩

theorem readsFull_inspol (u : Undef R) (old : OiInspol R) :
    ReadsFull "OI_INSPOL" old (read_next_oi_inspol u old) := ⟨_, fun _ hf => runs_inspol_chdu hf u old, rfl⟩

theorem readsFull_vis (u : Undef R) (old : OiVis R) :
    ReadsFull "OI_VIS" old (read_next_oi_vis u old) := by
  refine ⟨_, fun h hf => ?_, rfl⟩
  rstep (noAbort_key_int _ _), (tame_key_int _ _)
  refine Runs.guard _ ?_
  rstep (noAbort_key_str _ _), (tame_key_str _ _)
  rstep (noAbort_opt_str _ _), (tame_opt_str _ _)
  rstep (noAbort_key_str _ _), (tame_key_str _ _)
  refine Runs.bind (runs_num_rows hf 0) (tame_num_rows _) (fun _ => by inert) (fun n hn => ?_)
  rstep (noAbort_colnum _ _), (tame_colnum _ _)
  refine Runs.bind (runs_coltype hf _ _) (tame_coltype _ _) (fun _ => by inert) (fun w hw => ?_)
  refine Runs.guard _ (runs_allocRecords hn hw ?_)
  refine (noAbort_keyOpt (noAbort_colUnit _ _) _ _).bind fun _ => ?_
  refine NoAbort.bind ?_ fun _ => noAbort_vis_opt u hw
  unfold readVisRecord
  noabort

theorem readsFull_vis2 (u : Undef R) (old : OiVis2 R) :
    ReadsFull "OI_VIS2" old (read_next_oi_vis2 u old) := by
  refine ⟨_, fun h hf => ?_, rfl⟩
  rstep (noAbort_key_int _ _), (tame_key_int _ _)
  refine Runs.guard _ ?_
  rstep (noAbort_key_str _ _), (tame_key_str _ _)
  rstep (noAbort_opt_str _ _), (tame_opt_str _ _)
  rstep (noAbort_key_str _ _), (tame_key_str _ _)
  rstep (noAbort_corrname _ _), (tame_corrname _ _)
  refine Runs.bind (runs_num_rows hf 0) (tame_num_rows _) (fun _ => by inert) (fun n hn => ?_)
  rstep (noAbort_colnum _ _), (tame_colnum _ _)
  refine Runs.bind (runs_coltype hf _ _) (tame_coltype _ _) (fun _ => by inert) (fun w hw => ?_)
  refine Runs.guard _ (runs_allocRecords hn hw ?_)
  unfold readVis2Record readCorrindx
  noabort

theorem readsFull_t3 (u : Undef R) (old : OiT3 R) :
    ReadsFull "OI_T3" old (read_next_oi_t3 u old) := by
  refine ⟨_, fun h hf => ?_, rfl⟩
  rstep (noAbort_key_int _ _), (tame_key_int _ _)
  refine Runs.guard _ ?_
  rstep (noAbort_key_str _ _), (tame_key_str _ _)
  rstep (noAbort_opt_str _ _), (tame_opt_str _ _)
  rstep (noAbort_key_str _ _), (tame_key_str _ _)
  rstep (noAbort_corrname _ _), (tame_corrname _ _)
  refine Runs.bind (runs_num_rows hf 0) (tame_num_rows _) (fun _ => by inert) (fun n hn => ?_)
  rstep (noAbort_colnum _ _), (tame_colnum _ _)
  refine Runs.bind (runs_coltype hf _ _) (tame_coltype _ _) (fun _ => by inert) (fun w hw => ?_)
  refine Runs.guard _ (runs_allocRecords hn hw ?_)
  unfold readT3Record readCorrindx
  noabort

theorem readsFull_flux (u : Undef R) (old : OiFlux R) :
    ReadsFull "OI_FLUX" old (read_next_oi_flux u old) := by
  refine ⟨_, fun h hf => ?_, rfl⟩
  rstep (noAbort_key_int _ _), (tame_key_int _ _)
  refine Runs.guard _ ?_
  rstep (noAbort_key_str _ _), (tame_key_str _ _)
  rstep (noAbort_opt_str _ _), (tame_opt_str _ _)
  rstep (noAbort_key_str _ _), (tame_key_str _ _)
  rstep (noAbort_opt_str _ _), (tame_opt_str _ _)
  rstep (noAbort_opt_dbl _ _), (tame_opt_dbl _ _)
  rstep (noAbort_opt_str _ _), (tame_opt_str _ _)
  rstep (noAbort_key_str _ _), (tame_key_str _ _)
  refine Runs.bind (runs_num_rows hf 0) (tame_num_rows _) (fun _ => by inert) (fun n hn => ?_)
  rstep (noAbort_colnum _ _), (tame_colnum _ _)
  refine Runs.bind (runs_coltype hf _ _) (tame_coltype _ _) (fun _ => by inert) (fun w hw => ?_)
  refine Runs.guard _ (runs_allocRecords hn hw ?_)
  unfold readFluxRecord readFluxSta readCorrindx
  noabort

theorem nextLoop_binary {name : CStr} (l : List (Hdu R)) (i j : Nat) (hl : nextLoop name l i = (j, .ok)) :
    ∃ h k, l[k]? = some h ∧ j = i + k + 1 ∧ h.type = .binary := by
  induction l generalizing i with
  | nil => rw [nextLoop] at hl; cases hl
  | cons h l ih =>
    have hrec (hl : nextLoop name l (i + 1) = (j, .ok)) :
        ∃ h' k, (h :: l)[k]? = some h' ∧ j = i + k + 1 ∧ h'.type = .binary := by
      obtain ⟨h', k, h1, h2, h3⟩ := ih _ hl
      exact ⟨h', k + 1, by simpa using h1, by omega, h3⟩
    rw [nextLoop] at hl
    by_cases ht : h.type = .binary
    · rw [if_pos ht] at hl
      split at hl
      · exact hrec hl
      · rename_i st _ he
        injection hl with _ hl
        subst hl
        unfold Hdu.readStr at he
        split at he <;> cases he
      · split at hl
        · injection hl with hl _
          exact ⟨h, 0, rfl, by omega, ht⟩
        · exact hrec hl
    · rw [if_neg ht] at hl
      exact hrec hl

theorem full_of {hdus : List (Hdu R)} (hn : Spec.NoEmptyTables hdus) {i : Nat} {h : Hdu R}
    (hi : hdus[i]? = some h) (hb : h.type = .binary) : NonEmpty h :=
  ⟨hb, (hn h (List.mem_of_getElem? hi) hb).1, (hn h (List.mem_of_getElem? hi) hb).2⟩

theorem ReadsFull.noAbort {name : CStr} {old : α} {read : FitsM R α} (h : ReadsFull name old read)
    {s : FState R} (hn : Spec.NoEmptyTables s.hdus) : read s ≠ .abort := by
  obtain ⟨body, hb, rfl⟩ := h.shape
  by_cases hok : s.status = .ok
  · rw [guardStatus_ok hok]
    have hm : next_named_hdu name s = .ok ((), { s with
        cur := (nextLoop name (s.hdus.drop (s.cur + 1)) s.cur).1
        status := (nextLoop name (s.hdus.drop (s.cur + 1)) s.cur).2 }) :=
      guardStatus_ok hok _ _
    rw [FitsM.bind_ok hm]
    cases hl : nextLoop name (s.hdus.drop (s.cur + 1)) s.cur with
    | mk j st =>
      by_cases hst : st = .ok
      · subst hst
        obtain ⟨h', k, h1, h2, h3⟩ := nextLoop_binary _ _ _ hl
        rw [List.getElem?_drop] at h1
        refine (((hb h' (full_of hn h1 h3)).guard old).run _ ⟨rfl, ?_⟩).1
        rw [← h1]; congr 1; change j = _; omega
      · rw [guardStatus_err hst]; simp
  · rw [guardStatus_err hok]; simp

theorem readAll_noAbort {name : CStr} {old : α} {read : FitsM R α} (h : ReadsNext name old read)
    (hfull : ReadsFull name old read) (skip : Bool) (fuel : Nat) (s : FState R) (hok : s.status = .ok)
    (hn : Spec.NoEmptyTables s.hdus) : readAll skip read fuel s ≠ .abort := by
  induction fuel generalizing s with
  | zero => simp [readAll, FitsM.lift]
  | succ fuel ih =>
    rw [readAll]
    rcases h.call hok with h1 | ⟨a, s', h1, h2, -⟩
    · exact absurd h1 (hfull.noAbort hn)
    · rw [FitsM.bind_ok h1, FitsM.bind_ok (run_getStatus s')]
      split
      · rename_i hst
        intro hc
        change FitsM.bind _ _ s' = _ at hc
        unfold FitsM.bind at hc
        split at hc
        · cases hc
        · exact ih s' hst (h2 ▸ hn) (by assumption)
        · cases hc
      · split
        · simp [FitsM.bind_ok (run_setStatus .ok s')]
        · split
          · rw [FitsM.bind_ok (run_setStatus .ok s')]
            exact ih _ rfl (h2 ▸ hn)
          · simp

theorem readTables_total {name : CStr} {old : α} {read : FitsM R α} (h : ReadsNext name old read)
    (hfull : ReadsFull name old read) (skip : Bool) (s : FState R) (hok : s.status = .ok)
    (hne : s.hdus ≠ []) (hn : Spec.NoEmptyTables s.hdus) : readTables skip read s ≠ .abort := by
  have hpos : 0 < s.hdus.length := List.length_pos_iff.mpr hne
  have hm : fits_movabs_hdu 1 s = .ok (s.hdus[0].type, { s with cur := 0 }) := by
    simp [fits_movabs_hdu, hpos, hok]
  rw [readTables, FitsM.bind_ok hm]
  rw [FitsM.bind_ok (show fits_get_num_hdus { s with cur := 0 } = .ok (s.hdus.length, { s with cur := 0 }) by
    simp [fits_get_num_hdus, hok])]
  exact readAll_noAbort h hfull skip _ { s with cur := 0 } hok hn

/-! ### The header and the targets -/

/-- A run which ends, perhaps by aborting, and does not change the file. -/
def Ends (m : FitsM R α) (s : FState R) : Prop :=
  m s = .abort ∨ ∃ a s', m s = .ok (a, s') ∧ s'.hdus = s.hdus

theorem Ends.of_tame {m : FitsM R α} (h : Tame m) (s : FState R) : Ends m s := by
  rcases h.run s with h | ⟨a, s', h1, h2, -⟩
  · exact .inl h
  · exact .inr ⟨a, s', h1, h2⟩

theorem header_ends (old : OiHeader) (s : FState R) :
    ∃ a s', read_oi_header old s = .ok (a, s') ∧ s'.hdus = s.hdus := by
  unfold read_oi_header
  by_cases hok : s.status = .ok
  · rw [guardStatus_ok hok]
    obtain ⟨ty, s1, h1, h2⟩ : ∃ ty s1, fits_movabs_hdu 1 s = .ok (ty, s1) ∧ s1.hdus = s.hdus := by
      unfold fits_movabs_hdu
      rw [if_pos hok]
      split
      · exact ⟨_, _, rfl, rfl⟩
      · exact ⟨_, _, rfl, rfl⟩
    rw [FitsM.bind_ok h1]
    have key (m : FitsM R OiHeader) (ht : Tame m) (hn : NoAbort m) :
        ∃ a s', m s1 = .ok (a, s') ∧ s'.hdus = s.hdus := by
      rcases ht.run s1 with h3 | ⟨a, s', h3, h4, -⟩
      · exact absurd h3 (hn.run s1)
      · exact ⟨a, s', h3, h4.trans h2⟩
    apply key
    · tame!
    · noabort
  · rw [guardStatus_err hok]; exact ⟨_, s, rfl, rfl⟩

theorem forRows_length {body : Nat → FitsM R α} (first n : Nat) {s s' : FState R} {l : List α}
    (h : forRows first n body s = .ok (l, s')) : l.length = n := by
  induction n generalizing first s l s' with
  | zero => obtain ⟨rfl, rfl⟩ := Prod.mk.inj (Outcome.ok.inj h); rfl
  | succ n ih =>
    rw [forRows] at h
    change FitsM.bind _ _ s = _ at h
    unfold FitsM.bind at h
    split at h
    · rename_i x s1 _
      change FitsM.bind _ _ s1 = _ at h
      unfold FitsM.bind at h
      split at h
      · rename_i xs s2 h2
        obtain ⟨rfl, rfl⟩ := Prod.mk.inj (Outcome.ok.inj h)
        simp [ih _ h2]
      · cases h
      · cases h
    · cases h
    · cases h

theorem tame_readTarget (u : Undef R) (i : Nat) : Tame (readTarget u i) := by
  unfold readTarget; tame!

theorem noAbort_readTarget (u : Undef R) (i : Nat) : NoAbort (readTarget u i) := by
  unfold readTarget; noabort

theorem tame_categories (r : Int) {l : List (Target R)} (h : l ≠ []) : Tame (readCategories r l) := by
  unfold readCategories readCategory
  cases l with
  | nil => exact absurd rfl h
  | cons t l => tame!

theorem noAbort_categories (r : Int) (l : List (Target R)) : NoAbort (readCategories r l) := by
  unfold readCategories readCategory
  cases l with
  | nil => exact NoAbort.ite ⟨fun s => by simp [FitsM.lift]⟩ (NoAbort.pure _)
  | cons t l => noabort

/-- Reading the rows of the target table. -/
theorem targetRows_ends (u : Undef R) (r : Int) (n : Nat) (s : FState R) :
    Ends (do FitsM.lift (chkmallocN n)
             let targ ← forRows 1 n (readTarget u)
             readCategories r targ) s ∧
    (n ≠ 0 → (do FitsM.lift (chkmallocN n)
                 let targ ← forRows 1 n (readTarget u)
                 readCategories r targ : FitsM R (OiTarget R)) s ≠ .abort) := by
  by_cases hn : n = 0
  · subst hn
    exact ⟨.inl rfl, fun h => absurd rfl h⟩
  · have ha : FitsM.lift (chkmallocN n) s = .ok ((), s) := by simp [FitsM.lift, chkmallocN, hn]
    refine ⟨?_, fun _ => ?_⟩
    · unfold Ends
      rw [FitsM.bind_ok ha]
      rcases (Tame.forRows (tame_readTarget u) 1 n).run s with h1 | ⟨l, s1, h1, h2, -⟩
      · left; change FitsM.bind _ _ s = _; simp [FitsM.bind, h1]
      · rw [FitsM.bind_ok h1]
        have hl : l ≠ [] := by
          have := forRows_length 1 n h1
          intro h'; rw [h'] at this; exact hn this.symm
        rcases Ends.of_tame (tame_categories r hl) s1 with h3 | ⟨a, s2, h3, h4⟩
        · exact .inl h3
        · exact .inr ⟨a, s2, h3, h4.trans h2⟩
    · rw [FitsM.bind_ok ha]
      exact ((NoAbort.forRows (noAbort_readTarget u) 1 n).bind fun l => noAbort_categories r l).run s

theorem movnam_cases (name : CStr) {s : FState R} (hok : s.status = .ok) :
    ∃ s', fits_movnam_hdu name s = .ok ((), s') ∧ s'.hdus = s.hdus ∧
      (s'.status = .ok → ∃ h, At s' h ∧ h.type = .binary) := by
  have hl : ∀ (l : List (Hdu R)) (i j : Nat), movnamLoop name l i = some j →
      ∃ h k, l[k]? = some h ∧ j = i + k ∧ h.type = .binary := by
    intro l
    induction l with
    | nil => intro i j h; cases h
    | cons h l ih =>
      intro i j hl
      have hrec (hl : movnamLoop name l (i + 1) = some j) :
          ∃ h' k, (h :: l)[k]? = some h' ∧ j = i + k ∧ h'.type = .binary := by
        obtain ⟨h', k, h1, h2, h3⟩ := ih _ _ hl
        exact ⟨h', k + 1, by simpa using h1, by omega, h3⟩
      rw [movnamLoop] at hl
      by_cases ht : h.type = .binary
      · rw [if_pos ht] at hl
        split at hl
        · split at hl
          · injection hl with hl
            exact ⟨h, 0, rfl, by omega, ht⟩
          · exact hrec hl
        · exact hrec hl
      · rw [if_neg ht] at hl
        exact hrec hl
  cases hm : movnamLoop name s.hdus 0 with
  | none =>
    refine ⟨{ s with status := .BAD_HDU_NUM }, (guardStatus_ok hok _ _).trans ?_, rfl, fun h => by cases h⟩
    simp only [hm]
  | some i =>
    refine ⟨{ s with cur := i }, (guardStatus_ok hok _ _).trans (by simp only [hm]), rfl, fun _ => ?_⟩
    obtain ⟨h, k, h1, h2, h3⟩ := hl _ _ _ hm
    exact ⟨h, ⟨hok, by rw [h2]; simpa using h1⟩, h3⟩

theorem target_ends (u : Undef R) (old : OiTarget R) (s : FState R) :
    Ends (read_oi_target u old) s ∧
    (Spec.NoEmptyTables s.hdus → read_oi_target u old s ≠ .abort) := by
  unfold read_oi_target
  by_cases hok : s.status = .ok
  · obtain ⟨s1, h1, h2, h3⟩ := movnam_cases ("OI_TARGET" : CStr) hok
    unfold Ends
    rw [guardStatus_ok hok, FitsM.bind_ok h1]
    rcases (tame_key_int ("OI_REVN" : CStr) old.revision).run s1 with h4 | ⟨r, s2, h4, h5, h6, -⟩
    · exact absurd h4 ((noAbort_key_int _ _).run s1)
    rw [FitsM.bind_ok h4]
    by_cases hs2 : s2.status = .ok
    · rw [guardStatus_ok hs2]
      have hs1 : s1.status = .ok := by
        by_cases hc : s1.status = .ok
        · exact hc
        exfalso
        obtain ⟨a, ha⟩ := (inert_key_int ("OI_REVN" : CStr) old.revision).run s1 hc
        rw [h4] at ha
        obtain ⟨rfl, rfl⟩ := Prod.mk.inj (Outcome.ok.inj ha)
        exact hc hs2
      obtain ⟨hd, hat, hb⟩ := h3 hs1
      have hat2 : At s2 hd := ⟨hs2, by rw [h5, h6]; exact hat.cur⟩
      rcases (tame_num_rows (R := R) 0).run s2 with h7 | ⟨n, s3, h7, h8, h9, -⟩
      · exact absurd h7 ((noAbort_num_rows _).run s2)
      rw [FitsM.bind_ok h7]
      by_cases hs3 : s3.status = .ok
      · rw [guardStatus_ok hs3]
        obtain ⟨g1, g2⟩ := targetRows_ends u r n s3
        refine ⟨?_, fun hne => g2 ?_⟩
        · rcases g1 with g1 | ⟨a, s', g1, g3⟩
          · exact .inl g1
          · exact .inr ⟨a, s', g1, by rw [g3, h8, h5, h2]⟩
        · have hfull : NonEmpty hd := full_of (hdus := s.hdus) hne (i := s1.cur) (by rw [← h2]; exact hat.cur) hb
          exact ((runs_num_rows hfull 0).run s2 hat2).2 n s3 h7 hs3
      · rw [guardStatus_err hs3]
        exact ⟨.inr ⟨_, s3, rfl, by rw [h8, h5, h2]⟩, fun _ => by simp⟩
    · rw [guardStatus_err hs2]
      exact ⟨.inr ⟨_, s2, rfl, by rw [h5, h2]⟩, fun _ => by simp⟩
  · unfold Ends
    rw [guardStatus_err hok]; exact ⟨.inr ⟨_, s, rfl, rfl⟩, fun _ => by simp⟩

/-! ### Whole files -/

theorem readAll_collects {skip : Bool} {read : FitsM R α} (fuel : Nat) {s s' : FState R} {l : List α}
    (h : readAll skip read fuel s = .ok (l, s')) (hok : s'.status = .ok) : Spec.Collects skip read s l := by
  induction fuel generalizing s l with
  | zero => simp [readAll, FitsM.lift] at h
  | succ fuel ih =>
    rw [readAll] at h
    change FitsM.bind _ _ s = _ at h
    unfold FitsM.bind at h
    split at h
    rotate_left
    · cases h
    · cases h
    rename_i a s1 h1
    change (getStatus >>= _) s1 = _ at h
    rw [FitsM.bind_ok (run_getStatus s1)] at h
    split at h
    · rename_i hst
      change FitsM.bind _ _ s1 = _ at h
      unfold FitsM.bind at h
      split at h
      rotate_left
      · cases h
      · cases h
      rename_i xs s2 h2
      obtain ⟨rfl, rfl⟩ := Prod.mk.inj (Outcome.ok.inj h)
      exact .next h1 hst (ih h2)
    · rename_i hst
      split at h
      · rename_i he
        rw [FitsM.bind_ok (run_setStatus .ok s1)] at h
        obtain ⟨rfl, rfl⟩ := Prod.mk.inj (Outcome.ok.inj h)
        exact .done h1 he
      · rename_i he
        split at h
        · rename_i hs
          rw [FitsM.bind_ok (run_setStatus .ok s1)] at h
          exact .skip hs h1 hst he (ih h)
        · obtain ⟨rfl, rfl⟩ := Prod.mk.inj (Outcome.ok.inj h)
          exact absurd hok hst

theorem readTables_collects {skip : Bool} {read : FitsM R α} {s s' : FState R} {l : List α}
    (hs : s.status = .ok) (hne : s.hdus ≠ [])
    (h : readTables skip read s = .ok (l, s')) (hok : s'.status = .ok) :
    Spec.Collects skip read ⟨s.hdus, 0, .ok⟩ l := by
  have hpos : 0 < s.hdus.length := List.length_pos_iff.mpr hne
  have hm : fits_movabs_hdu 1 s = .ok (s.hdus[0].type, ⟨s.hdus, 0, .ok⟩) := by
    simp [fits_movabs_hdu, hpos, hs]
  rw [readTables, FitsM.bind_ok hm] at h
  rw [FitsM.bind_ok (show fits_get_num_hdus ⟨s.hdus, 0, .ok⟩ = .ok (s.hdus.length, ⟨s.hdus, 0, .ok⟩) by
    simp [fits_get_num_hdus])] at h
  exact readAll_collects _ h hok

/-- Where a loop of `readBody` leads. -/
theorem loop_step {name : CStr} {old : α} {read : FitsM R α} (h : ReadsNext name old read)
    (hfull : ReadsFull name old read) (skip : Bool) {s : FState R} (hok : s.status = .ok)
    (hne : s.hdus ≠ []) :
    (readTables skip read s = .abort ∧ ¬ Spec.NoEmptyTables s.hdus) ∨
    ∃ l s', readTables skip read s = .ok (l, s') ∧ s'.hdus = s.hdus ∧ (skip = true → s'.status = .ok) ∧
      (s'.status = .ok → Spec.Collects skip read ⟨s.hdus, 0, .ok⟩ l) := by
  rcases readTables_ends h skip s hok hne with h1 | ⟨l, s', h1, h2, h3⟩
  · exact .inl ⟨h1, fun hn => readTables_total h hfull skip s hok hne hn h1⟩
  · exact .inr ⟨l, s', h1, h2, h3, readTables_collects hok hne h1⟩

/-- The part of a dataset which `finishHeader` leaves alone. -/
theorem finishHeader_ok {oi : OiFits R} (hc : oi.CountsAgree) :
    ∃ hd, finishHeader oi = .ok { oi with header := hd } := by
  unfold finishHeader
  split
  · have h1 : ∃ t, headerTelescop oi = .ok t := by
      unfold headerTelescop
      by_cases h0 : oi.numArray = 0
      · exact ⟨_, by rw [if_pos h0]; rfl⟩
      · rw [if_neg h0]
        by_cases h1 : oi.numArray = 1
        · rw [if_pos h1]
          have : oi.arrayList.length = 1 := by have := hc.array; omega
          obtain ⟨a, ha⟩ := List.length_eq_one_iff.mp this
          exact ⟨_, by rw [ha]; rfl⟩
        · exact ⟨_, by rw [if_neg h1]; rfl⟩
    have h2 : ∃ t, headerInstrume oi = .ok t := by
      unfold headerInstrume
      by_cases h1 : oi.numWavelength = 1
      · rw [if_pos h1]
        have : oi.wavelengthList.length = 1 := by have := hc.wavelength; omega
        obtain ⟨a, ha⟩ := List.length_eq_one_iff.mp this
        exact ⟨_, by rw [ha]; rfl⟩
      · exact ⟨_, by rw [if_neg h1]; rfl⟩
    obtain ⟨t, ht⟩ := h1
    obtain ⟨i, hi⟩ := h2
    exact ⟨_, by unfold set_oi_header; rw [ht, hi]; rfl⟩
  · exact ⟨oi.header, rfl⟩

theorem assemble_counts (header : OiHeader) (targets : OiTarget R) (arrayList : List (OiArray R))
    (wavelengthList : List (OiWavelength R)) (corrList : List (OiCorr R))
    (inspolList : List (OiInspol R)) (visList : List (OiVis R)) (vis2List : List (OiVis2 R))
    (t3List : List (OiT3 R)) (fluxList : List (OiFlux R)) :
    (assemble header targets arrayList wavelengthList corrList inspolList visList vis2List t3List fluxList).CountsAgree := by
  rw [← (assemble_spec header targets arrayList wavelengthList corrList inspolList visList vis2List t3List fluxList).1]
  exact ⟨rfl, rfl, rfl, rfl, rfl, rfl, rfl, rfl⟩

/-- How reading a file can end. -/
inductive BodyEnd (u : Undef R) (hdus : List (Hdu R)) : Outcome (Option (OiFits R) × FState R) → Prop where
  | abort : ¬ Spec.NoEmptyTables hdus → BodyEnd u hdus .abort
  | error {s : FState R} : s.status ≠ .ok → BodyEnd u hdus (.ok (none, s))
  | ok {s : FState R} (header hd : OiHeader) (targets : OiTarget R) (arrayList : List (OiArray R))
    (wavelengthList : List (OiWavelength R)) (corrList : List (OiCorr R))
    (inspolList : List (OiInspol R)) (visList : List (OiVis R)) (vis2List : List (OiVis2 R))
    (t3List : List (OiT3 R)) (fluxList : List (OiFlux R)) : s.status = .ok →
    (∃ s', s'.status = .ok ∧ read_oi_header u.header ⟨hdus, 0, .ok⟩ = .ok (header, s')) →
    (∃ s0 s1, s0.hdus = hdus ∧ s1.status = .ok ∧ read_oi_target u u.target s0 = .ok (targets, s1)) →
    Spec.Collects false (read_next_oi_array u u.array) ⟨hdus, 0, .ok⟩ arrayList →
    Spec.Collects false (read_next_oi_wavelength u u.wave) ⟨hdus, 0, .ok⟩ wavelengthList →
    Spec.Collects true (read_next_oi_corr u u.corr) ⟨hdus, 0, .ok⟩ corrList →
    Spec.Collects true (read_next_oi_inspol u u.inspol) ⟨hdus, 0, .ok⟩ inspolList →
    Spec.Collects true (read_next_oi_vis u u.vis) ⟨hdus, 0, .ok⟩ visList →
    Spec.Collects true (read_next_oi_vis2 u u.vis2) ⟨hdus, 0, .ok⟩ vis2List →
    Spec.Collects true (read_next_oi_t3 u u.t3) ⟨hdus, 0, .ok⟩ t3List →
    Spec.Collects true (read_next_oi_flux u u.flux) ⟨hdus, 0, .ok⟩ fluxList →
    finishHeader (assemble header targets arrayList wavelengthList corrList inspolList
      visList vis2List t3List fluxList) = .ok { assemble header targets arrayList wavelengthList corrList
        inspolList visList vis2List t3List fluxList with header := hd } →
    BodyEnd u hdus (.ok (some { assemble header targets arrayList wavelengthList corrList inspolList
      visList vis2List t3List fluxList with header := hd }, s))

theorem readBody_ends (u : Undef R) {hdus : List (Hdu R)} (hne : hdus ≠ []) :
    BodyEnd u hdus (readBody u ⟨hdus, 0, .ok⟩) := by
  unfold readBody
  obtain ⟨header, s0, e0, k0⟩ := header_ends u.header (⟨hdus, 0, .ok⟩ : FState R)
  rw [FitsM.bind_ok e0]
  replace k0 : s0.hdus = hdus := k0
  obtain ⟨g1, g2⟩ := target_ends u u.target s0
  rcases g1 with g1 | ⟨targets, s1, g1, k1⟩
  · change BodyEnd u hdus (FitsM.bind _ _ s0)
    rw [FitsM.bind, g1]
    exact .abort fun h => g2 (by rw [k0]; exact h) g1
  rw [FitsM.bind_ok g1]
  replace k1 := k1.trans k0
  rcases Decidable.em (s1.status = .ok) with t1 | t1
  rotate_left
  · rw [guardStatus_err t1]; exact .error t1
  have t0 : s0.status = .ok := by
    refine Decidable.byContradiction fun t0 => absurd t1 ?_
    rw [read_oi_target, guardStatus_err t0] at g1
    rw [← (Prod.mk.inj (Outcome.ok.inj g1)).2]; exact t0
  rw [guardStatus_ok t1]
  rcases loop_step (readsNext_array u u.array) (readsFull_array u u.array) false t1 (by rw [k1]; exact hne)
    with ⟨e2, c2⟩ | ⟨arrayList, s2, e2, k2, -, o2⟩
  · change BodyEnd u hdus (FitsM.bind _ _ s1)
    rw [FitsM.bind, e2]
    rw [k1] at c2
    exact .abort c2
  rw [FitsM.bind_ok e2]
  replace k2 := k2.trans k1
  rcases Decidable.em (s2.status = .ok) with t2 | t2
  rotate_left
  · rw [guardStatus_err t2]; exact .error t2
  rw [guardStatus_ok t2]
  rcases loop_step (readsNext_wavelength u u.wave) (readsFull_wavelength u u.wave) false t2 (by rw [k2]; exact hne)
    with ⟨e3, c3⟩ | ⟨wavelengthList, s3, e3, k3, -, o3⟩
  · change BodyEnd u hdus (FitsM.bind _ _ s2)
    rw [FitsM.bind, e3]
    rw [k2] at c3
    exact .abort c3
  rw [FitsM.bind_ok e3]
  replace k3 := k3.trans k2
  rcases Decidable.em (s3.status = .ok) with t3 | t3
  rotate_left
  · rw [guardStatus_err t3]; exact .error t3
  rw [guardStatus_ok t3]
  rcases loop_step (readsNext_corr u u.corr) (readsFull_corr u u.corr) true t3 (by rw [k3]; exact hne)
    with ⟨e4, c4⟩ | ⟨corrList, s4, e4, k4, t4, o4⟩
  · change BodyEnd u hdus (FitsM.bind _ _ s3)
    rw [FitsM.bind, e4]
    rw [k3] at c4
    exact .abort c4
  rw [FitsM.bind_ok e4]
  replace k4 := k4.trans k3
  replace t4 := t4 rfl
  rcases loop_step (readsNext_inspol u u.inspol) (readsFull_inspol u u.inspol) true t4 (by rw [k4]; exact hne)
    with ⟨e5, c5⟩ | ⟨inspolList, s5, e5, k5, t5, o5⟩
  · change BodyEnd u hdus (FitsM.bind _ _ s4)
    rw [FitsM.bind, e5]
    rw [k4] at c5
    exact .abort c5
  rw [FitsM.bind_ok e5]
  replace k5 := k5.trans k4
  replace t5 := t5 rfl
  rcases loop_step (readsNext_vis u u.vis) (readsFull_vis u u.vis) true t5 (by rw [k5]; exact hne)
    with ⟨e6, c6⟩ | ⟨visList, s6, e6, k6, t6, o6⟩
  · change BodyEnd u hdus (FitsM.bind _ _ s5)
    rw [FitsM.bind, e6]
    rw [k5] at c6
    exact .abort c6
  rw [FitsM.bind_ok e6]
  replace k6 := k6.trans k5
  replace t6 := t6 rfl
  rcases loop_step (readsNext_vis2 u u.vis2) (readsFull_vis2 u u.vis2) true t6 (by rw [k6]; exact hne)
    with ⟨e7, c7⟩ | ⟨vis2List, s7, e7, k7, t7, o7⟩
  · change BodyEnd u hdus (FitsM.bind _ _ s6)
    rw [FitsM.bind, e7]
    rw [k6] at c7
    exact .abort c7
  rw [FitsM.bind_ok e7]
  replace k7 := k7.trans k6
  replace t7 := t7 rfl
  rcases loop_step (readsNext_t3 u u.t3) (readsFull_t3 u u.t3) true t7 (by rw [k7]; exact hne)
    with ⟨e8, c8⟩ | ⟨t3List, s8, e8, k8, t8, o8⟩
  · change BodyEnd u hdus (FitsM.bind _ _ s7)
    rw [FitsM.bind, e8]
    rw [k7] at c8
    exact .abort c8
  rw [FitsM.bind_ok e8]
  replace k8 := k8.trans k7
  replace t8 := t8 rfl
  rcases loop_step (readsNext_flux u u.flux) (readsFull_flux u u.flux) true t8 (by rw [k8]; exact hne)
    with ⟨e9, c9⟩ | ⟨fluxList, s9, e9, k9, t9, o9⟩
  · change BodyEnd u hdus (FitsM.bind _ _ s8)
    rw [FitsM.bind, e9]
    rw [k8] at c9
    exact .abort c9
  rw [FitsM.bind_ok e9]
  replace k9 := k9.trans k8
  replace t9 := t9 rfl
  obtain ⟨hd, hhd⟩ := finishHeader_ok (assemble_counts header targets arrayList wavelengthList corrList
    inspolList visList vis2List t3List fluxList)
  rw [FitsM.bind_ok (show FitsM.lift (finishHeader _) s9 = _ by rw [hhd]; rfl)]
  exact .ok header hd targets arrayList wavelengthList corrList inspolList visList vis2List t3List fluxList t9
    ⟨_, t0, e0⟩ ⟨s0, s1, k0, t1, g1⟩ (k1 ▸ o2 t2) (k2 ▸ o3 t3) (k3 ▸ o4 t4) (k4 ▸ o5 t5) (k5 ▸ o6 t6) (k6 ▸ o7 t7) (k7 ▸ o8 t8) (k8 ▸ o9 t9) hhd

end Verif
