import Verif.Proof.FitsReadFile
import Verif.Spec.Read

/-! What the reading functions do on an arbitrary file: they leave the file alone, stay
on the HDU they read, and behave in a defined way. -/

namespace Verif
open Outcome

variable {R : FP} {α β ι : Type}

/-- The code ends (perhaps by aborting) with the same HDU current, and does not set the
status END_OF_FILE. -/
structure Tame (m : FitsM R α) : Prop where
  run : ∀ s, m s = .abort ∨ ∃ a s', m s = .ok (a, s') ∧ s'.hdus = s.hdus ∧ s'.cur = s.cur ∧
    (s'.status = .END_OF_FILE → s.status = .END_OF_FILE)

theorem Tame.bind {m : FitsM R α} {f : α → FitsM R β} (hm : Tame m) (hf : ∀ a, Tame (f a)) :
    Tame (m >>= f) := by
  constructor
  intro s
  rcases hm.run s with h | ⟨a, s', h, h1, h2, h3⟩
  · left; change FitsM.bind m f s = _; simp [FitsM.bind, h]
  · have hb : (m >>= f) s = f a s' := FitsM.bind_ok h _
    rcases (hf a).run s' with h' | ⟨b, s'', h', g1, g2, g3⟩
    · left; rw [hb, h']
    · right
      exact ⟨b, s'', by rw [hb, h'], g1.trans h1, g2.trans h2, fun h => h3 (g3 h)⟩

theorem Tame.pure (a : α) : Tame (pure a : FitsM R α) :=
  ⟨fun s => .inr ⟨a, s, rfl, rfl, rfl, id⟩⟩

theorem Tame.getStatus : Tame (getStatus (R := R)) :=
  ⟨fun s => .inr ⟨_, s, rfl, rfl, rfl, id⟩⟩

theorem Tame.setStatus {st : Status} (h : st ≠ .END_OF_FILE) : Tame (setStatus (R := R) st) :=
  ⟨fun _ => .inr ⟨(), _, rfl, rfl, rfl, fun h' => absurd h' h⟩⟩

theorem Tame.guard {body : FitsM R α} (out : α) (h : Tame body) : Tame (guardStatus out body) := by
  constructor
  intro s
  by_cases hs : s.status = .ok
  · rw [guardStatus_ok hs]; exact h.run s
  · rw [guardStatus_err hs]; exact .inr ⟨_, s, rfl, rfl, rfl, id⟩

theorem Tame.ite {c : Prop} [Decidable c] {m n : FitsM R α} (hm : Tame m) (hn : Tame n) :
    Tame (if c then m else n) := by
  split <;> assumption

theorem Tame.cfRead {junk : α} {f : Hdu R → Except Status α}
    (hf : ∀ h, f h ≠ .error .END_OF_FILE) : Tame (cfRead junk f) := by
  constructor
  intro s
  right
  unfold Verif.cfRead
  by_cases hs : s.status = .ok
  · rw [if_pos hs]
    cases hh : s.hdus[s.cur]? with
    | none => exact ⟨_, _, rfl, rfl, rfl, fun h => by cases h⟩
    | some h =>
      cases hr : f h with
      | ok a => exact ⟨a, s, by simp only [hr], rfl, rfl, id⟩
      | error st =>
        refine ⟨junk, { s with status := st }, by simp only [hr], rfl, rfl, fun h' => ?_⟩
        have : st = .END_OF_FILE := h'
        subst this
        exact absurd hr (hf h)
  · rw [if_neg hs]; exact ⟨_, s, rfl, rfl, rfl, id⟩

theorem Tame.lift {x : Outcome α} (h : x ≠ .ub) : Tame (FitsM.lift (R := R) x) := by
  constructor
  intro s
  cases x with
  | ok a => exact .inr ⟨a, s, rfl, rfl, rfl, id⟩
  | abort => exact .inl rfl
  | ub => exact absurd rfl h

theorem Tame.forRows {body : Nat → FitsM R α} (h : ∀ i, Tame (body i)) (first n : Nat) :
    Tame (forRows first n body) := by
  induction n generalizing first with
  | zero => exact Tame.pure _
  | succ n ih =>
    rw [Verif.forRows]
    exact (h _).bind fun _ => (ih _).bind fun _ => Tame.pure _

theorem Tame.forRecs {body : Nat → α → FitsM R β} (h : ∀ i x, Tame (body i x)) (first : Nat) (l : List α) :
    Tame (forRecs first l body) := by
  induction l generalizing first with
  | nil => exact Tame.pure _
  | cons x l ih =>
    rw [Verif.forRecs]
    exact (h _ _).bind fun _ => (ih _).bind fun _ => Tame.pure _

/-! ### Keywords and columns -/

theorem tame_key_str (name dst : CStr) : Tame (fits_read_key_str (R := R) name dst) := by
  refine Tame.cfRead fun h => ?_
  unfold Hdu.readStr; split <;> simp [BAD_KEY_TYPE]

theorem tame_key_int (name : CStr) (dst : Int) : Tame (fits_read_key_int (R := R) name dst) := by
  refine Tame.cfRead fun h => ?_
  unfold Hdu.readInt; split <;> simp [BAD_KEY_TYPE]

theorem tame_key_dbl (name : CStr) (dst : R.Dbl) : Tame (fits_read_key_dbl (R := R) name dst) := by
  refine Tame.cfRead fun h => ?_
  unfold Hdu.readDbl; split <;> simp [BAD_KEY_TYPE]

theorem tame_colUnit (n : Nat) (dst : CStr) : Tame (readColUnit (R := R) n dst) := by
  refine Tame.cfRead fun h => ?_
  split
  · split <;> simp
  · simp

theorem tame_colnum (name : CStr) (n : Nat) : Tame (fits_get_colnum (R := R) name n) := by
  refine Tame.cfRead fun h => ?_
  unfold Hdu.colnum
  split
  · split <;> simp
  · simp [NOT_TABLE]

theorem tame_coltype (n : Nat) (j : ColType × Nat) : Tame (fits_get_coltype (R := R) n j) := by
  refine Tame.cfRead fun h => ?_
  split <;> simp [BAD_COL_NUM]

theorem tame_num_rows (j : Nat) : Tame (fits_get_num_rows (R := R) j) := by
  refine Tame.cfRead fun h => ?_
  split <;> simp [NOT_TABLE]

theorem tame_read_col (conv : Cell R → Option α) (c r n : Nat) (a : List α) :
    Tame (fits_read_col conv c r n a) := by
  refine Tame.cfRead fun h => ?_
  unfold Hdu.readCol
  split
  · simp [BAD_COL_NUM]
  · split
    · simp [BAD_ELEM_NUM]
    · split
      · simp [BAD_ROW_NUM]
      · split <;> simp [BAD_DATATYPE]

/-- Take the code apart. -/
macro "tame" : tactic => `(tactic| repeat (first
  | with_reducible apply Tame.pure | with_reducible apply Tame.guard | with_reducible apply Tame.bind | with_reducible apply Tame.ite
  | with_reducible apply Tame.getStatus | with_reducible apply tame_key_str | with_reducible apply tame_key_int | with_reducible apply tame_key_dbl
  | with_reducible apply tame_colUnit | with_reducible apply tame_colnum | with_reducible apply tame_coltype | with_reducible apply tame_num_rows
  | with_reducible apply tame_read_col | with_reducible apply Tame.forRows | with_reducible apply Tame.forRecs
  | exact Tame.setStatus (by decide) | intro _ | split))

theorem tame_keyOpt {read : FitsM R α} (h : Tame read) (d m : α) : Tame (readKeyOpt read d m) := by
  unfold readKeyOpt
  refine Tame.guard _ (h.bind fun _ => ?_)
  tame

theorem tame_opt_str (n d : CStr) : Tame (read_key_opt_string (R := R) n d) := tame_keyOpt (tame_key_str _ _) _ _
theorem tame_opt_int (n : CStr) (d : Int) : Tame (read_key_opt_int (R := R) n d) := tame_keyOpt (tame_key_int _ _) _ _
theorem tame_opt_dbl (n : CStr) (d : R.Dbl) : Tame (read_key_opt_double (R := R) n d) := tame_keyOpt (tame_key_dbl _ _) _ _

theorem tame_strCol (c : Nat) (m : Option Nat) (i : Nat) (v : CStr) : Tame (readStrCol (R := R) c m i v) := by
  unfold readStrCol; tame

theorem tame_findStrCol (o : Bool) (c : CStr) (m : Option Nat) (i : Nat) (v : CStr) :
    Tame (findStrCol (R := R) o c m i v) := by
  unfold findStrCol
  tame
  apply tame_strCol

theorem tame_col_string (o : Bool) (c : CStr) (m i : Nat) (v : CStr) :
    Tame (read_col_string (R := R) o c m i v) := tame_findStrCol _ _ _ _ _

theorem tame_col_trunc (c : CStr) (m i : Nat) (v : CStr) :
    Tame (read_col_string_truncate (R := R) c m i v) := by
  unfold read_col_string_truncate
  exact (tame_findStrCol _ _ _ _ _).bind fun _ => Tame.pure _

theorem tame_arr (conv : Cell R → Option α) (j : α) (c : CStr) (i n : Nat) : Tame (readArr conv j c i n) := by
  unfold readArr; tame

theorem tame_one (conv : Cell R → Option α) (j : α) (c : CStr) (i : Nat) : Tame (readOne conv j c i) := by
  unfold readOne; exact (tame_arr _ _ _ _ _).bind fun _ => Tame.pure _

theorem tame_name (u : Undef R) (k : CStr) (n : Option CStr) : Tame (readName u k n) := by
  unfold readName
  cases n <;> tame

theorem chkmallocN_ne_ub (n : Nat) : chkmallocN n ≠ .ub := by unfold chkmallocN; split <;> simp

theorem tame_alloc (n : Nat) : Tame (FitsM.lift (R := R) (chkmallocN n)) := Tame.lift (chkmallocN_ne_ub n)

theorem tame_allocRecords (n w : Nat) : Tame (FitsM.lift (R := R) (allocRecords n w)) := by
  apply Tame.lift
  unfold allocRecords chkmallocN
  by_cases h : n = 0 <;> by_cases h' : w = 0 <;> simp [h, h']

@[inherit_doc Tame]
macro "tame!" : tactic => `(tactic| repeat (first
  | with_reducible apply tame_opt_str | with_reducible apply tame_opt_int | with_reducible apply tame_opt_dbl | with_reducible apply tame_col_string
  | with_reducible apply tame_col_trunc | with_reducible apply tame_arr | with_reducible apply tame_one | with_reducible apply tame_name
  | with_reducible apply tame_alloc | with_reducible apply tame_allocRecords
  | with_reducible apply Tame.pure | with_reducible apply Tame.guard | with_reducible apply Tame.bind | with_reducible apply Tame.ite
  | with_reducible apply Tame.getStatus | with_reducible apply tame_key_str | with_reducible apply tame_key_int | with_reducible apply tame_key_dbl
  | with_reducible apply tame_colUnit | with_reducible apply tame_colnum | with_reducible apply tame_coltype | with_reducible apply tame_num_rows
  | with_reducible apply tame_read_col | with_reducible apply Tame.forRows | with_reducible apply Tame.forRecs
  | exact Tame.setStatus (by decide) | intro _ | split))

/-! ### Tables -/

theorem tame_array_chdu (u : Undef R) (old : OiArray R) (n : Option CStr) : Tame (read_oi_array_chdu u old n) := by
  unfold read_oi_array_chdu readElement; tame!

theorem tame_wavelength_chdu (u : Undef R) (old : OiWavelength R) (n : Option CStr) :
    Tame (read_oi_wavelength_chdu u old n) := by
  unfold read_oi_wavelength_chdu; tame!

theorem tame_corr_chdu (u : Undef R) (old : OiCorr R) (n : Option CStr) : Tame (read_oi_corr_chdu u old n) := by
  unfold read_oi_corr_chdu; tame!

theorem tame_inspol_chdu (u : Undef R) (old : OiInspol R) : Tame (read_oi_inspol_chdu u old) := by
  unfold read_oi_inspol_chdu readInspolRecord readJones; tame!

theorem tame_vis_complex (u : Undef R) (v : OiVis R) (c : Bool) : Tame (read_oi_vis_complex u v c) := by
  unfold read_oi_vis_complex readVisComplexRow readVisComplexCorr; tame!

theorem tame_vis_opt (u : Undef R) (v : OiVis R) : Tame (read_oi_vis_opt u v) := by
  unfold read_oi_vis_opt readVisCorr readVisCorrRow readRefmap readRefmapRow; tame!
  all_goals apply tame_vis_complex

/-! ### Reading the next table -/

/-- A function which looks for the next table of a given name and reads it. -/
structure ReadsNext (name : CStr) (old : α) (read : FitsM R α) : Prop where
  shape : ∃ body : FitsM R α, Tame body ∧
    read = guardStatus old (next_named_hdu name >>= fun _ => guardStatus old body)

theorem readsNext_array (u : Undef R) (old : OiArray R) :
    ReadsNext "OI_ARRAY" old (read_next_oi_array u old) := ⟨_, tame_array_chdu u old none, rfl⟩

theorem readsNext_wavelength (u : Undef R) (old : OiWavelength R) :
    ReadsNext "OI_WAVELENGTH" old (read_next_oi_wavelength u old) := ⟨_, tame_wavelength_chdu u old none, rfl⟩

theorem readsNext_corr (u : Undef R) (old : OiCorr R) :
    ReadsNext "OI_CORR" old (read_next_oi_corr u old) := ⟨_, tame_corr_chdu u old none, rfl⟩

theorem readsNext_inspol (u : Undef R) (old : OiInspol R) :
    ReadsNext "OI_INSPOL" old (read_next_oi_inspol u old) := ⟨_, tame_inspol_chdu u old, rfl⟩

theorem readsNext_vis (u : Undef R) (old : OiVis R) :
    ReadsNext "OI_VIS" old (read_next_oi_vis u old) := by
  refine ⟨_, ?_, rfl⟩
  unfold readVisRecord
  tame!
  · exact tame_keyOpt (tame_colUnit _ _) _ _
  · tame!
    exact tame_vis_opt u _

theorem readsNext_vis2 (u : Undef R) (old : OiVis2 R) :
    ReadsNext "OI_VIS2" old (read_next_oi_vis2 u old) := by
  refine ⟨_, ?_, rfl⟩
  unfold readVis2Record readCorrname readCorrindx
  tame!

theorem readsNext_t3 (u : Undef R) (old : OiT3 R) :
    ReadsNext "OI_T3" old (read_next_oi_t3 u old) := by
  refine ⟨_, ?_, rfl⟩
  unfold readT3Record readCorrname readCorrindx
  tame!

theorem readsNext_flux (u : Undef R) (old : OiFlux R) :
    ReadsNext "OI_FLUX" old (read_next_oi_flux u old) := by
  refine ⟨_, ?_, rfl⟩
  unfold readFluxRecord readFluxSta readCorrindx
  tame!


theorem isNamed_eq_isTable {name : CStr} {h : Hdu R} (hs : Spec.StringName h) :
    h.isNamed name = Spec.isTable name h := by
  unfold Hdu.isNamed Spec.isTable Hdu.readStr
  cases ht : h.type with
  | image => rfl
  | ascii => rfl
  | binary =>
    cases hk : h.keys.lookup ("EXTNAME" : CStr) with
    | none => rfl
    | some v =>
      obtain ⟨s, rfl⟩ := hs v hk
      rfl

theorem nameOk_of_string {h : Hdu R} (hs : Spec.StringName h) : h.NameOk := by
  intro st he
  unfold Hdu.readStr at he
  cases hk : h.keys.lookup ("EXTNAME" : CStr) with
  | none => rw [hk] at he; cases he; rfl
  | some v =>
    obtain ⟨s, rfl⟩ := hs v hk
    rw [hk] at he; cases he

/-- The loop of `next_named_hdu` moves forward or ends the search. -/
theorem nextLoop_bound {name : CStr} (l : List (Hdu R)) (i : Nat) :
    nextLoop name l i = (i + l.length, .END_OF_FILE) ∨
    ∃ j st, nextLoop name l i = (j, st) ∧ st ≠ .END_OF_FILE ∧ i < j ∧ j ≤ i + l.length := by
  induction l generalizing i with
  | nil => left; rfl
  | cons h l ih =>
    have hrec : nextLoop name l (i + 1) = (i + (h :: l).length, .END_OF_FILE) ∨
        ∃ j st, nextLoop name l (i + 1) = (j, st) ∧ st ≠ .END_OF_FILE ∧ i < j ∧ j ≤ i + (h :: l).length := by
      rcases ih (i + 1) with h1 | ⟨j, st, h1, h2, h3, h4⟩
      · left; rw [h1]; simp; omega
      · right; exact ⟨j, st, h1, h2, by omega, by simp; omega⟩
    have hend (st : Status) (h2 : st ≠ .END_OF_FILE) : ((i + 1, st) : Nat × Status) = (i + (h :: l).length, .END_OF_FILE) ∨
        ∃ j st', ((i + 1, st) : Nat × Status) = (j, st') ∧ st' ≠ .END_OF_FILE ∧ i < j ∧ j ≤ i + (h :: l).length :=
      .inr ⟨i + 1, st, rfl, h2, by omega, by simp⟩
    rw [nextLoop]
    split
    · cases hr : h.readStr ("EXTNAME" : CStr) with
      | error st =>
        have hst : st ≠ .END_OF_FILE := by
          intro h'
          unfold Hdu.readStr at hr
          split at hr <;> first | (cases hr; done) | (injection hr with hr; rw [h'] at hr; cases hr)
        cases st <;> first | exact hrec | exact hend _ hst
      | ok e =>
        simp only
        split
        · exact hend _ (by decide)
        · exact hrec
    · exact hrec

/-- One call on an arbitrary file. -/
theorem ReadsNext.call {name : CStr} {old : α} {read : FitsM R α} (h : ReadsNext name old read)
    {s : FState R} (hok : s.status = .ok) :
    read s = .abort ∨ ∃ a s', read s = .ok (a, s') ∧ s'.hdus = s.hdus ∧
      ((s'.status = .END_OF_FILE ∧ a = old ∧
          nextLoop name (s.hdus.drop (s.cur + 1)) s.cur = (s'.cur, .END_OF_FILE)) ∨
        (s'.status ≠ .END_OF_FILE ∧ s.cur < s'.cur ∧ s'.cur < s.hdus.length ∧
          ∃ st, nextLoop name (s.hdus.drop (s.cur + 1)) s.cur = (s'.cur, st) ∧ st ≠ .END_OF_FILE)) := by
  obtain ⟨body, hb, rfl⟩ := h.shape
  rw [guardStatus_ok hok]
  have hn : next_named_hdu name s = .ok ((), { s with
      cur := (nextLoop name (s.hdus.drop (s.cur + 1)) s.cur).1
      status := (nextLoop name (s.hdus.drop (s.cur + 1)) s.cur).2 }) :=
    guardStatus_ok hok _ _
  rw [FitsM.bind_ok hn]
  generalize hs' : ({ s with
      cur := (nextLoop name (s.hdus.drop (s.cur + 1)) s.cur).1
      status := (nextLoop name (s.hdus.drop (s.cur + 1)) s.cur).2 } : FState R) = s'
  rcases nextLoop_bound (name := name) (s.hdus.drop (s.cur + 1)) s.cur with h1 | ⟨j, st, h1, h2, h3, h4⟩
  · right
    have hst : s'.status = .END_OF_FILE := by rw [← hs', h1]
    refine ⟨old, s', guardStatus_err (by rw [hst]; decide) _ _, by rw [← hs'], .inl ⟨hst, rfl, ?_⟩⟩
    rw [h1, ← hs']; simp [h1]
  · have hst : s'.status = st := by rw [← hs', h1]
    have hcur : s'.cur = j := by rw [← hs', h1]
    have hlt : j < s.hdus.length := by simp at h4; omega
    rcases (hb.guard old).run s' with h5 | ⟨a, s'', h5, h6, h7, h8⟩
    · exact .inl h5
    · right
      refine ⟨a, s'', h5, by rw [h6, ← hs'], .inr ⟨fun h9 => h2 (hst ▸ h8 h9), by omega, by omega, st, ?_, h2⟩⟩
      rw [h1, h7, hcur]

/-- The reading loops always end. -/
theorem readAll_ends {name : CStr} {old : α} {read : FitsM R α} (h : ReadsNext name old read)
    (skip : Bool) (fuel : Nat) (s : FState R) (hok : s.status = .ok) (hc : s.cur < s.hdus.length)
    (hf : s.hdus.length < s.cur + 1 + fuel) :
    readAll skip read fuel s = .abort ∨ ∃ l s', readAll skip read fuel s = .ok (l, s') ∧ s'.hdus = s.hdus ∧
      (skip = true → s'.status = .ok) := by
  induction fuel generalizing s with
  | zero => omega
  | succ fuel ih =>
    rw [readAll]
    rcases h.call hok with h1 | ⟨a, s', h1, h2, h3⟩
    · left; change FitsM.bind _ _ s = _; simp [FitsM.bind, h1]
    · rw [FitsM.bind_ok h1, FitsM.bind_ok (run_getStatus s')]
      rcases h3 with ⟨h3, -, -⟩ | ⟨h3, h4, h5, -⟩
      · right
        rw [if_neg (by rw [h3]; decide), if_pos h3]
        exact ⟨[], { s' with status := .ok }, rfl, h2, fun _ => rfl⟩
      · by_cases hst : s'.status = .ok
        · rw [if_pos hst]
          rcases ih s' hst (by rw [h2]; omega) (by rw [h2]; omega) with h6 | ⟨l, s'', h6, h7, h8⟩
          · left; change FitsM.bind _ _ s' = _; simp [FitsM.bind, h6]
          · right
            exact ⟨a :: l, s'', by rw [FitsM.bind_ok h6]; rfl, h7.trans h2, h8⟩
        · rw [if_neg hst, if_neg h3]
          cases skip with
          | false => right; exact ⟨[], s', rfl, h2, by simp⟩
          | true =>
            rw [if_pos rfl]
            have hset : setStatus (R := R) .ok s' = .ok ((), { s' with status := .ok }) := rfl
            rw [FitsM.bind_ok hset]
            rcases ih { s' with status := .ok } rfl (by simp [h2]; omega) (by simp [h2]; omega) with h6 | ⟨l, s'', h6, h7, h8⟩
            · exact .inl h6
            · exact .inr ⟨l, s'', h6, h7.trans h2, h8⟩

theorem readTables_ends {name : CStr} {old : α} {read : FitsM R α} (h : ReadsNext name old read)
    (skip : Bool) (s : FState R) (hok : s.status = .ok) (hne : s.hdus ≠ []) :
    readTables skip read s = .abort ∨ ∃ l s', readTables skip read s = .ok (l, s') ∧ s'.hdus = s.hdus ∧
      (skip = true → s'.status = .ok) := by
  have hpos : 0 < s.hdus.length := List.length_pos_iff.mpr hne
  have hm : fits_movabs_hdu 1 s = .ok (s.hdus[0].type, { s with cur := 0 }) := by
    simp [fits_movabs_hdu, hpos, hok]
  rw [readTables, FitsM.bind_ok hm]
  rw [FitsM.bind_ok (show fits_get_num_hdus { s with cur := 0 } = .ok (s.hdus.length, { s with cur := 0 }) by
    simp [fits_get_num_hdus, hok])]
  exact readAll_ends h skip _ { s with cur := 0 } hok hpos (by simp; omega)

/-- Where the next table is. -/
theorem nextLoop_filter {name : CStr} : ∀ (hdus : List (Hdu R)), (∀ h ∈ hdus, Spec.StringName h) →
    ∀ n c, c + 1 + n = hdus.length →
    (∀ j, nextLoop name (hdus.drop (c + 1)) c = (j, .END_OF_FILE) →
      (List.range' (c + 1) n).filter (fun i => (hdus[i]?).any (Spec.isTable name)) = []) ∧
    (∀ j st, nextLoop name (hdus.drop (c + 1)) c = (j, st) → st ≠ .END_OF_FILE →
      (List.range' (c + 1) n).filter (fun i => (hdus[i]?).any (Spec.isTable name))
        = j :: (List.range' (j + 1) (hdus.length - (j + 1))).filter (fun i => (hdus[i]?).any (Spec.isTable name))) := by
  intro hdus hn n
  induction n with
  | zero =>
    intro c hc
    refine ⟨fun _ _ => by simp, fun j st h hst => ?_⟩
    rw [List.drop_eq_nil_of_le (by omega), nextLoop] at h
    injection h with _ h
    exact absurd h.symm hst
  | succ n ih =>
    intro c hc
    have hlt : c + 1 < hdus.length := by omega
    have hd : hdus.drop (c + 1) = hdus[c + 1] :: hdus.drop (c + 1 + 1) := List.drop_eq_getElem_cons hlt
    have hs := hn hdus[c + 1] (List.getElem_mem _)
    obtain ⟨ih1, ih2⟩ := ih (c + 1) (by omega)
    rw [hd, nextLoop_cons (nameOk_of_string hs), isNamed_eq_isTable hs, List.range'_succ, List.filter_cons]
    have hg : (hdus[c + 1]?).any (Spec.isTable name) = Spec.isTable name hdus[c + 1] := by
      rw [List.getElem?_eq_getElem hlt]; rfl
    rw [hg]
    by_cases ht : Spec.isTable name hdus[c + 1] = true
    · rw [if_pos ht, if_pos ht]
      refine ⟨fun j h => ?_, fun j st h hst => ?_⟩
      · injection h with _ h; cases h
      · injection h with h _
        subst h
        congr 3
        omega
    · rw [if_neg ht, if_neg ht]
      exact ⟨ih1, ih2⟩

/-- The HDUs visited. -/
theorem ReadsNext.visits {name : CStr} {old : α} {read : FitsM R α} (h : ReadsNext name old read)
    {s : FState R} {l : List Nat} (hv : Spec.Visits read s l) (hok : s.status = .ok)
    (hn : ∀ h ∈ s.hdus, Spec.StringName h) (hc : s.cur < s.hdus.length) :
    l = (List.range' (s.cur + 1) (s.hdus.length - (s.cur + 1))).filter
      fun i => (s.hdus[i]?).any (Spec.isTable name) := by
  have key := @nextLoop_filter R name
  induction hv with
  | @done s s' a hr hst =>
    rcases h.call hok with h1 | ⟨a', s'', h1, h2, h3⟩
    · rw [hr] at h1; cases h1
    · rw [hr] at h1
      obtain ⟨rfl, rfl⟩ := Prod.mk.inj (Outcome.ok.inj h1)
      rcases h3 with ⟨-, -, h5⟩ | ⟨h3, -⟩
      · exact ((key s.hdus hn _ s.cur (by omega)).1 _ h5).symm
      · exact absurd hst h3
  | @next s s' a l hr hst hl ih =>
    rcases h.call hok with h1 | ⟨a', s'', h1, h2, h3⟩
    · rw [hr] at h1; cases h1
    · rw [hr] at h1
      obtain ⟨rfl, rfl⟩ := Prod.mk.inj (Outcome.ok.inj h1)
      rcases h3 with ⟨h3, -⟩ | ⟨-, h4, h5, st, h6, h7⟩
      · exact absurd h3 hst
      · rw [(key s.hdus hn _ s.cur (by omega)).2 _ _ h6 h7]
        have := ih rfl (by simpa [h2] using hn) (by simpa [h2] using h5)
        rw [this]
        simp [h2]

end Verif
