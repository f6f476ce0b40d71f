import Verif.Proof.FitsReadFile
import Verif.Proof.FitsTotal
import Verif.Proof.FitsWF
import Verif.Proof.FitsLists
import Verif.Props.WriteFile

/-! Properties of reading files, whoever wrote them: C17, C47, C51, C53, C54, C61, C63,
C64 and C66. The vocabulary is in `Spec/Read.lean`. -/

namespace Verif
open Outcome Spec

variable {R : FP} {α : Type}

/-! ### C51: a pending error -/

/-- The function does nothing when called with an error status: it returns the previous
contents of its output argument (`old`) and leaves file, position and status alone. -/
def Spec.Inactive (old : α) (f : FitsM R α) : Prop := ∀ s, s.status ≠ .ok → f s = .ok (old, s)

theorem inactive_guard (old : α) (body : FitsM R α) : Inactive old (guardStatus old body) :=
  fun _ h => guardStatus_err h _ _

/-- C51 for the functions which read. -/
theorem C51_read (u : Undef R) (name : CStr) :
    (∀ old, Inactive old (read_oi_header (R := R) old)) ∧
    (∀ old, Inactive old (read_oi_target u old)) ∧
    (∀ old, Inactive old (read_oi_array u name old)) ∧
    (∀ old, Inactive old (read_oi_wavelength u name old)) ∧
    (∀ old, Inactive old (read_oi_corr u name old)) ∧
    (∀ old, Inactive old (read_next_oi_array u old)) ∧
    (∀ old, Inactive old (read_next_oi_wavelength u old)) ∧
    (∀ old, Inactive old (read_next_oi_corr u old)) ∧
    (∀ old, Inactive old (read_next_oi_inspol u old)) ∧
    (∀ old, Inactive old (read_next_oi_vis u old)) ∧
    (∀ old, Inactive old (read_next_oi_vis2 u old)) ∧
    (∀ old, Inactive old (read_next_oi_t3 u old)) ∧
    (∀ old, Inactive old (read_next_oi_flux u old)) ∧
    (∀ file st, st ≠ .ok → read_oi_fits u file st = .ok (none, st)) := by
  refine ⟨?_, ?_, ?_, ?_, ?_, ?_, ?_, ?_, ?_, ?_, ?_, ?_, ?_, fun file st h => if_pos h⟩ <;>
    exact fun old => inactive_guard old _

/-- C51 for the functions which write. -/
theorem C51_write (today : CStr) (v : Int) :
    (∀ t, Inactive () (write_oi_header (R := R) today t)) ∧
    (∀ t : OiTarget R, Inactive () (write_oi_target t)) ∧
    (∀ t : OiArray R, Inactive () (write_oi_array t v)) ∧
    (∀ t : OiWavelength R, Inactive () (write_oi_wavelength t v)) ∧
    (∀ t : OiCorr R, Inactive () (write_oi_corr t v)) ∧
    (∀ t : OiInspol R, Inactive () (write_oi_inspol t v)) ∧
    (∀ t : OiVis R, Inactive () (write_oi_vis t v)) ∧
    (∀ t : OiVis2 R, Inactive () (write_oi_vis2 t v)) ∧
    (∀ t : OiT3 R, Inactive () (write_oi_t3 t v)) ∧
    (∀ t : OiFlux R, Inactive () (write_oi_flux t v)) ∧
    (∀ (b : Bool) (oi : OiFits R) st, st ≠ .ok → write_oi_fits today b oi st = .ok (none, st)) := by
  refine ⟨?_, ?_, ?_, ?_, ?_, ?_, ?_, ?_, ?_, ?_, fun b oi st h => if_pos h⟩ <;>
    exact fun old => inactive_guard () _

example : read_next_oi_vis (R := FP.ratFP) ⟨0, none, none, "x", true, 'x'⟩ Ex.vis
    ⟨fileOf "2016-01-01" Ex.oi, 3, .NUM_OVERFLOW⟩ = .ok (Ex.vis, ⟨fileOf "2016-01-01" Ex.oi, 3, .NUM_OVERFLOW⟩) :=
  (C51_read _ "").2.2.2.2.2.2.2.2.2.1 _ _ (by decide)

/-! ### C54: sequential reading -/

/-- Sequential reading from any position visits something. -/
theorem visits_exist {name : CStr} {old : α} {read : FitsM R α} (h : ReadsNext name old read)
    (hf : ReadsFull name old read) {hdus : List (Hdu R)} (hne : NoEmptyTables hdus) :
    ∀ (n c : Nat), c < hdus.length → hdus.length - c ≤ n → ∃ l, Visits read ⟨hdus, c, .ok⟩ l := by
  intro n
  induction n with
  | zero => intro c hc hn; omega
  | succ n ih =>
    intro c hc hn
    rcases h.call (s := ⟨hdus, c, .ok⟩) rfl with h1 | ⟨a, s', h1, h2, h3⟩
    · exact absurd h1 (hf.noAbort hne)
    · rcases h3 with ⟨h3, -, -⟩ | ⟨h3, h4, h5, -⟩
      · exact ⟨[], .done h1 h3⟩
      · obtain ⟨l, hl⟩ := ih s'.cur h5 (by simp only at h4; omega)
        refine ⟨s'.cur :: l, .next h1 h3 ?_⟩
        have e : ({ s' with status := .ok } : FState R) = ⟨hdus, s'.cur, .ok⟩ := by rw [h2]
        rw [e]; exact hl

theorem visits_positions {name : CStr} {old : α} {read : FitsM R α} (h : ReadsNext name old read)
    (hf : ReadsFull name old read) {hdus : List (Hdu R)} (h0 : hdus ≠ []) (hn : ∀ h ∈ hdus, StringName h)
    (hne : NoEmptyTables hdus) : Visits read ⟨hdus, 0, .ok⟩ (positions name hdus) := by
  have hpos : 0 < hdus.length := List.length_pos_iff.mpr h0
  obtain ⟨l, hl⟩ := visits_exist h hf hne _ 0 hpos (Nat.le_refl _)
  have e := h.visits hl rfl hn hpos
  have e2 : positions name hdus = l := by
    rw [e, positions]
    have hr : List.range hdus.length = 0 :: List.range' 1 (hdus.length - 1) := by
      rw [List.range_eq_range', show hdus.length = hdus.length - 1 + 1 by omega, List.range'_succ]; simp
    rw [hr, List.filter_cons_of_neg (by simp)]
    simp only [Nat.zero_add]
    apply List.filter_congr
    intro i hi
    have : 0 < i := by have := (List.mem_range'_1.mp hi).1; omega
    simp [this]
  rw [e2]; exact hl

/-- C54. The hypotheses say that the file has a primary HDU, that EXTNAME keywords are
strings, and that no table is empty. -/
theorem C54_sequential {hdus : List (Hdu R)} (h0 : hdus ≠ []) (hn : ∀ h ∈ hdus, StringName h)
    (hne : NoEmptyTables hdus) (u : Undef R) :
    (∀ old, Visits (read_next_oi_array u old) ⟨hdus, 0, .ok⟩ (positions "OI_ARRAY" hdus)) ∧
    (∀ old, Visits (read_next_oi_wavelength u old) ⟨hdus, 0, .ok⟩ (positions "OI_WAVELENGTH" hdus)) ∧
    (∀ old, Visits (read_next_oi_corr u old) ⟨hdus, 0, .ok⟩ (positions "OI_CORR" hdus)) ∧
    (∀ old, Visits (read_next_oi_inspol u old) ⟨hdus, 0, .ok⟩ (positions "OI_INSPOL" hdus)) ∧
    (∀ old, Visits (read_next_oi_vis u old) ⟨hdus, 0, .ok⟩ (positions "OI_VIS" hdus)) ∧
    (∀ old, Visits (read_next_oi_vis2 u old) ⟨hdus, 0, .ok⟩ (positions "OI_VIS2" hdus)) ∧
    (∀ old, Visits (read_next_oi_t3 u old) ⟨hdus, 0, .ok⟩ (positions "OI_T3" hdus)) ∧
    (∀ old, Visits (read_next_oi_flux u old) ⟨hdus, 0, .ok⟩ (positions "OI_FLUX" hdus)) :=
  ⟨fun old => visits_positions (readsNext_array u old) (readsFull_array u old) h0 hn hne,
   fun old => visits_positions (readsNext_wavelength u old) (readsFull_wavelength u old) h0 hn hne,
   fun old => visits_positions (readsNext_corr u old) (readsFull_corr u old) h0 hn hne,
   fun old => visits_positions (readsNext_inspol u old) (readsFull_inspol u old) h0 hn hne,
   fun old => visits_positions (readsNext_vis u old) (readsFull_vis u old) h0 hn hne,
   fun old => visits_positions (readsNext_vis2 u old) (readsFull_vis2 u old) h0 hn hne,
   fun old => visits_positions (readsNext_t3 u old) (readsFull_t3 u old) h0 hn hne,
   fun old => visits_positions (readsNext_flux u old) (readsFull_flux u old) h0 hn hne⟩

/-- An image, a table of another kind, two OI_VIS2 tables around an OI_VIS table which
cannot be read. -/
def Ex.mixed : List (Hdu FP.ratFP) :=
  [⟨.image, [], [], 0⟩, ⟨.image, [("EXTNAME", .str "OI_VIS2")], [], 0⟩, hduVis2 Ex.vis2 1,
   ⟨.binary, [("EXTNAME", .str "OI_VIS")], [], 1⟩, ⟨.binary, [], [], 7⟩, hduVis2 Ex.vis2 2]

theorem Ex.mixed_names : ∀ h ∈ Ex.mixed, StringName h := by
  intro h hh v hv
  simp only [Ex.mixed, List.mem_cons, List.not_mem_nil, or_false] at hh
  rcases hh with rfl | rfl | rfl | rfl | rfl | rfl
  · cases hv
  · cases hv; exact ⟨_, rfl⟩
  · cases hv; exact ⟨_, rfl⟩
  · cases hv; exact ⟨_, rfl⟩
  · cases hv
  · cases hv; exact ⟨_, rfl⟩

theorem Ex.mixed_full : NoEmptyTables Ex.mixed := by
  intro h hh hb
  simp only [Ex.mixed, List.mem_cons, List.not_mem_nil, or_false] at hh
  rcases hh with rfl | rfl | rfl | rfl | rfl | rfl
  · cases hb
  · cases hb
  · exact ⟨by decide, by decide +kernel⟩
  · exact ⟨by decide, by decide⟩
  · exact ⟨by decide, by decide⟩
  · exact ⟨by decide, by decide +kernel⟩

example (u : Undef FP.ratFP) : Visits (read_next_oi_vis2 u Ex.vis2) ⟨Ex.mixed, 0, .ok⟩ [2, 5] :=
  (C54_sequential (by decide) Ex.mixed_names Ex.mixed_full u).2.2.2.2.2.1 _


/-! ### C53: reading by name -/

/-- C53 for tables before which there are only binary tables: reading by name is reading
the first table of that type and name, at position `i`. What comes after it, and where
the file was positioned, make no difference. -/
theorem C53_found_partial {hdus : List (Hdu R)}
    (hs : ∀ h ∈ hdus, StringName h) (u : Undef R) (name : CStr) (c i : Nat) (hb : TablesBefore hdus i) :
    ((∀ h ∈ hdus, StringKey "ARRNAME" h) → FirstAt (isTableOf "OI_ARRAY" "ARRNAME" name) hdus i →
      ∀ old, read_oi_array u name old ⟨hdus, c, .ok⟩ = read_next_oi_array u old ⟨hdus, i - 1, .ok⟩) ∧
    ((∀ h ∈ hdus, StringKey "INSNAME" h) → FirstAt (isTableOf "OI_WAVELENGTH" "INSNAME" name) hdus i →
      ∀ old, read_oi_wavelength u name old ⟨hdus, c, .ok⟩ = read_next_oi_wavelength u old ⟨hdus, i - 1, .ok⟩) ∧
    ((∀ h ∈ hdus, StringKey "CORRNAME" h) → FirstAt (isTableOf "OI_CORR" "CORRNAME" name) hdus i →
      ∀ old, read_oi_corr u name old ⟨hdus, c, .ok⟩ = read_next_oi_corr u old ⟨hdus, i - 1, .ok⟩) :=
  ⟨fun hk hi old => read_by_name (chdu := read_oi_array_chdu u old) (fun hat hl => array_chdu_name hat hl u old) hs hk c hi hb,
   fun hk hi old => read_by_name (chdu := read_oi_wavelength_chdu u old) (fun hat hl => wavelength_chdu_name hat hl u old) hs hk c hi hb,
   fun hk hi old => read_by_name (chdu := read_oi_corr_chdu u old) (fun hat hl => corr_chdu_name hat hl u old) hs hk c hi hb⟩

/-- What a function returns through which a table is read by name, and the table itself. -/
def FoundByName {α : Type} (name keyword value : CStr) (byName next : FitsM R α) (hdus : List (Hdu R)) : Prop :=
  ∀ c a s', byName ⟨hdus, c, .ok⟩ = .ok (a, s') → s'.status = .ok →
    ∃ i, FirstAt (isTableOf name keyword value) hdus i ∧ TablesBefore hdus i ∧
      next ⟨hdus, i - 1, .ok⟩ = .ok (a, s')

/-- C53, the converse: whatever is read by name without an error is the first table of
that type and name, and only binary tables come before it. -/
theorem C53_only {hdus : List (Hdu R)} (hs : ∀ h ∈ hdus, StringName h) (hf : ForeignPlain hdus)
    (u : Undef R) (name : CStr) :
    ((∀ h ∈ hdus, StringKey "ARRNAME" h) → ∀ old,
      FoundByName "OI_ARRAY" "ARRNAME" name (read_oi_array u name old) (read_next_oi_array u old) hdus) ∧
    ((∀ h ∈ hdus, StringKey "INSNAME" h) → ∀ old,
      FoundByName "OI_WAVELENGTH" "INSNAME" name (read_oi_wavelength u name old) (read_next_oi_wavelength u old) hdus) ∧
    ((∀ h ∈ hdus, StringKey "CORRNAME" h) → ∀ old,
      FoundByName "OI_CORR" "CORRNAME" name (read_oi_corr u name old) (read_next_oi_corr u old) hdus) :=
  ⟨fun hk old c _ _ hr hok => read_by_name_only (chdu := read_oi_array_chdu u old)
      (fun hat hl => array_chdu_name hat hl u old) (fun hat hn => array_no_revn hat hn u old _)
      (fun _ h => guardStatus_err h _ _) hs hk hf c hr hok,
   fun hk old c _ _ hr hok => read_by_name_only (chdu := read_oi_wavelength_chdu u old)
      (fun hat hl => wavelength_chdu_name hat hl u old) (fun hat hn => wavelength_no_revn hat hn u old _)
      (fun _ h => guardStatus_err h _ _) hs hk hf c hr hok,
   fun hk old c _ _ hr hok => read_by_name_only (chdu := read_oi_corr_chdu u old)
      (fun hat hl => corr_chdu_name hat hl u old) (fun hat hn => corr_no_revn hat hn u old _)
      (fun _ h => guardStatus_err h _ _) hs hk hf c hr hok⟩

/-- Where C53 fails: if extension `k` is the first which is not a binary table, and the
table wanted is not before it, then reading by name fails with KEY_NO_EXIST and returns
nothing, whatever tables come after it. -/
theorem C53_blocked {hdus : List (Hdu R)} (hs : ∀ h ∈ hdus, StringName h) (hf : ForeignPlain hdus)
    (u : Undef R) (name : CStr) (c k : Nat) (hk : FirstAt notTable hdus k) :
    ((∀ h ∈ hdus, StringKey "ARRNAME" h) → (∀ h ∈ (hdus.take k).drop 1, isTableOf "OI_ARRAY" "ARRNAME" name h = false) →
      ∀ old, read_oi_array u name old ⟨hdus, c, .ok⟩ = .ok (old, ⟨hdus, k, .KEY_NO_EXIST⟩)) ∧
    ((∀ h ∈ hdus, StringKey "INSNAME" h) → (∀ h ∈ (hdus.take k).drop 1, isTableOf "OI_WAVELENGTH" "INSNAME" name h = false) →
      ∀ old, read_oi_wavelength u name old ⟨hdus, c, .ok⟩ = .ok (old, ⟨hdus, k, .KEY_NO_EXIST⟩)) ∧
    ((∀ h ∈ hdus, StringKey "CORRNAME" h) → (∀ h ∈ (hdus.take k).drop 1, isTableOf "OI_CORR" "CORRNAME" name h = false) →
      ∀ old, read_oi_corr u name old ⟨hdus, c, .ok⟩ = .ok (old, ⟨hdus, k, .KEY_NO_EXIST⟩)) := by
  obtain ⟨h0, x, hx, hnb, hmin⟩ := firstAt_notTable hk
  have hrev := hf x (List.mem_of_getElem? hx) hnb
  exact
   ⟨fun hkey hno old => read_blocked (chdu := read_oi_array_chdu u old (some name))
      (fun hat hn => array_no_revn hat hn u old _) hs hkey c h0 hx hnb hrev
      (fun j y hj hlt hy => ⟨hmin j y hj hlt hy, hno y (mem_take_drop hj hlt hy)⟩),
    fun hkey hno old => read_blocked (chdu := read_oi_wavelength_chdu u old (some name))
      (fun hat hn => wavelength_no_revn hat hn u old _) hs hkey c h0 hx hnb hrev
      (fun j y hj hlt hy => ⟨hmin j y hj hlt hy, hno y (mem_take_drop hj hlt hy)⟩),
    fun hkey hno old => read_blocked (chdu := read_oi_corr_chdu u old (some name))
      (fun hat hn => corr_no_revn hat hn u old _) hs hkey c h0 hx hnb hrev
      (fun j y hj hlt hy => ⟨hmin j y hj hlt hy, hno y (mem_take_drop hj hlt hy)⟩)⟩

/-- C53 for files all of whose extensions are binary tables: reading by name fails, and
returns nothing, if there is no such table. -/
theorem C53_absent_partial {hdus : List (Hdu R)} (hb : ∀ h ∈ hdus.drop 1, h.type = .binary)
    (hs : ∀ h ∈ hdus, StringName h) (u : Undef R) (name : CStr) (c : Nat) :
    ((∀ h ∈ hdus, StringKey "ARRNAME" h) → (∀ h ∈ hdus.drop 1, isTableOf "OI_ARRAY" "ARRNAME" name h = false) →
      ∀ old, ∃ s', read_oi_array u name old ⟨hdus, c, .ok⟩ = .ok (old, s') ∧ s'.hdus = hdus ∧
        s'.status = .BAD_HDU_NUM) ∧
    ((∀ h ∈ hdus, StringKey "INSNAME" h) → (∀ h ∈ hdus.drop 1, isTableOf "OI_WAVELENGTH" "INSNAME" name h = false) →
      ∀ old, ∃ s', read_oi_wavelength u name old ⟨hdus, c, .ok⟩ = .ok (old, s') ∧ s'.hdus = hdus ∧
        s'.status = .BAD_HDU_NUM) ∧
    ((∀ h ∈ hdus, StringKey "CORRNAME" h) → (∀ h ∈ hdus.drop 1, isTableOf "OI_CORR" "CORRNAME" name h = false) →
      ∀ old, ∃ s', read_oi_corr u name old ⟨hdus, c, .ok⟩ = .ok (old, s') ∧ s'.hdus = hdus ∧
        s'.status = .BAD_HDU_NUM) :=
  ⟨fun hk hno old => read_no_name (chdu := read_oi_array_chdu u old (some name)) (fun _ h => guardStatus_err h _ _) hb hs hk c hno,
   fun hk hno old => read_no_name (chdu := read_oi_wavelength_chdu u old (some name)) (fun _ h => guardStatus_err h _ _) hb hs hk c hno,
   fun hk hno old => read_no_name (chdu := read_oi_corr_chdu u old (some name)) (fun _ h => guardStatus_err h _ _) hb hs hk c hno⟩

/-- A file with an image extension before two OI_ARRAY tables. -/
def Ex.imageFirst : List (Hdu FP.ratFP) :=
  [⟨.image, [], [], 0⟩, ⟨.image, [], [], 0⟩, hduArray { Ex.array with arrname := "OTHER" } 1, hduArray Ex.array 2]

/-- C53 is false of files with image extensions: the search stops at the image, and the
table is not read. -/
theorem C53_counterexample (u : Undef FP.ratFP) :
    FirstAt (isTableOf "OI_ARRAY" "ARRNAME" Ex.array.arrname) Ex.imageFirst 3 ∧
    (∃ a s', read_next_oi_array u Ex.array ⟨Ex.imageFirst, 2, .ok⟩ = .ok (a, s') ∧ s'.status = .ok) ∧
    ∃ s', read_oi_array u Ex.array.arrname Ex.array ⟨Ex.imageFirst, 0, .ok⟩ = .ok (Ex.array, s') ∧
      s'.status = .KEY_NO_EXIST := by
  refine ⟨⟨by decide, by decide +kernel, ?_⟩, ?_, ?_⟩
  · intro j h1 h2
    have : j = 1 ∨ j = 2 := by omega
    rcases this with rfl | rfl <;> decide +kernel
  · exact ⟨_, _, read_next_oi_array_eq (s' := ⟨Ex.imageFirst, 3, .ok⟩) rfl rfl ⟨rfl, rfl⟩ Ex.array_wf.rows u Ex.array, rfl⟩
  · exact ⟨_, rfl, rfl⟩

theorem stringKey_of {keyword : CStr} {h : Hdu R}
    (hk : (match h.keys.lookup keyword with | some (.str _) => true | none => true | _ => false) = true) :
    StringKey keyword h := by
  intro v hv
  rw [hv] at hk
  cases v with
  | str s => exact ⟨s, rfl⟩
  | int n => cases hk
  | dbl x => cases hk

example (u : Undef FP.ratFP) (old : OiArray FP.ratFP) :
    read_oi_array u Ex.array.arrname old ⟨fileOf "2016-01-01" Ex.oi, 0, .ok⟩
      = read_next_oi_array u old ⟨fileOf "2016-01-01" Ex.oi, 1, .ok⟩ :=
  (C53_found_partial (fileOf_stringName _ _) u _ 0 2 (tablesBefore_of (by decide +kernel))).1
    (fun h hh => stringKey_of (by revert h; decide +kernel))
    ⟨by decide, by decide +kernel, fun j h1 h2 => by
      have : j = 1 := by omega
      subst this; decide +kernel⟩ old

theorem foreignPlain_of {hdus : List (Hdu R)}
    (h : ∀ h ∈ hdus, (h.type == .binary || (h.keys.lookup ("OI_REVN" : CStr)).isNone) = true) : ForeignPlain hdus := by
  intro x hx hnb
  have := h x hx
  rw [Bool.or_eq_true] at this
  rcases this with h1 | h1
  · exact absurd (eq_of_beq h1) hnb
  · exact Option.isNone_iff_eq_none.mp h1

theorem Ex.imageFirst_names : ∀ h ∈ Ex.imageFirst, StringName h :=
  fun h hh => stringKey_of (by revert h; decide +kernel)

theorem Ex.imageFirst_plain : ForeignPlain Ex.imageFirst := foreignPlain_of (by decide +kernel)

/-- The image in front of the tables makes reading by name fail, for every name. -/
example (u : Undef FP.ratFP) (name : CStr) (old : OiArray FP.ratFP) :
    read_oi_array u name old ⟨Ex.imageFirst, 0, .ok⟩ = .ok (old, ⟨Ex.imageFirst, 1, .KEY_NO_EXIST⟩) :=
  (C53_blocked Ex.imageFirst_names Ex.imageFirst_plain u name 0 1
    ⟨by decide, by decide +kernel, fun j h1 h2 => by omega⟩).1
    (fun h hh => stringKey_of (by revert h; decide +kernel)) (by simp [Ex.imageFirst]) old

/-! ### Reading a whole file -/

/-- What is known of a dataset which has been read. -/
structure Gathered (u : Undef R) (hdus : List (Hdu R)) (oi : OiFits R) : Prop where
  header : ∃ header, (∃ s', s'.status = .ok ∧ read_oi_header u.header ⟨hdus, 0, .ok⟩ = .ok (header, s')) ∧
    finishHeader { oi with header := header } = .ok oi
  targets : ∃ s0 s1, s0.hdus = hdus ∧ s1.status = .ok ∧ read_oi_target u u.target s0 = .ok (oi.targets, s1)
  array : Collects false (read_next_oi_array u u.array) ⟨hdus, 0, .ok⟩ oi.arrayList
  wavelength : Collects false (read_next_oi_wavelength u u.wave) ⟨hdus, 0, .ok⟩ oi.wavelengthList
  corr : Collects true (read_next_oi_corr u u.corr) ⟨hdus, 0, .ok⟩ oi.corrList
  inspol : Collects true (read_next_oi_inspol u u.inspol) ⟨hdus, 0, .ok⟩ oi.inspolList
  vis : Collects true (read_next_oi_vis u u.vis) ⟨hdus, 0, .ok⟩ oi.visList
  vis2 : Collects true (read_next_oi_vis2 u u.vis2) ⟨hdus, 0, .ok⟩ oi.vis2List
  t3 : Collects true (read_next_oi_t3 u u.t3) ⟨hdus, 0, .ok⟩ oi.t3List
  flux : Collects true (read_next_oi_flux u u.flux) ⟨hdus, 0, .ok⟩ oi.fluxList
  counts : oi.CountsAgree
  hashed : Hashed oi (((allRefs oi.visList oi.vis2List oi.t3List oi.fluxList).map (·.arrname)).filter (· ≠ []))
    ((allRefs oi.visList oi.vis2List oi.t3List oi.fluxList).map (·.insname))
    (((allRefs oi.visList oi.vis2List oi.t3List oi.fluxList).map (·.corrname)).filter (· ≠ []))

/-- How `read_oi_fits` ends. -/
theorem read_ends (u : Undef R) {hdus : List (Hdu R)} (h0 : hdus ≠ []) :
    (read_oi_fits u (some hdus) .ok = .abort ∧ ¬ NoEmptyTables hdus) ∨
    (∃ st, st ≠ .ok ∧ read_oi_fits u (some hdus) .ok = .ok (none, st)) ∨
    ∃ oi, read_oi_fits u (some hdus) .ok = .ok (some oi, .ok) ∧ Gathered u hdus oi := by
  have hb := readBody_ends u h0
  have e : read_oi_fits u (some hdus) .ok = (do
      let (oi, s) ← readBody u ⟨hdus, 0, .ok⟩
      return (oi, s.status)) := by rw [read_oi_fits, if_neg (by decide)]
  generalize readBody u ⟨hdus, 0, .ok⟩ = r at hb e
  cases hb with
  | abort hne => exact .inl ⟨e, hne⟩
  | error hst => exact .inr (.inl ⟨_, hst, e⟩)
  | ok header hd targets arrayList wavelengthList corrList inspolList visList vis2List t3List fluxList
      hst hh ht ha hw hc hi hv hv2 ht3 hf hfin =>
    rename_i s
    refine .inr (.inr ⟨_, e.trans (by rw [← hst]; rfl), ?_⟩)
    have hc' := assemble_counts header targets arrayList wavelengthList corrList inspolList visList vis2List t3List fluxList
    have hs := assemble_spec header targets arrayList wavelengthList corrList inspolList visList vis2List t3List fluxList
    obtain ⟨hs1, hs2⟩ := hs
    unfold SameLists at hs1
    generalize assemble header targets arrayList wavelengthList corrList inspolList visList vis2List t3List fluxList
      = x at *
    have e1 : x.targets = targets := by rw [← hs1]; rfl
    have e2 : x.arrayList = arrayList := by rw [← hs1]; rfl
    have e3 : x.wavelengthList = wavelengthList := by rw [← hs1]; rfl
    have e4 : x.corrList = corrList := by rw [← hs1]; rfl
    have e5 : x.inspolList = inspolList := by rw [← hs1]; rfl
    have e6 : x.visList = visList := by rw [← hs1]; rfl
    have e7 : x.vis2List = vis2List := by rw [← hs1]; rfl
    have e8 : x.t3List = t3List := by rw [← hs1]; rfl
    have e9 : x.fluxList = fluxList := by rw [← hs1]; rfl
    have e10 : x.header = header := by rw [← hs1]; rfl
    subst e1 e2 e3 e4 e5 e6 e7 e8 e9
    refine ⟨⟨header, hh, ?_⟩, ht, ha, hw, hc, hi, hv, hv2, ht3, hf, ?_, ?_⟩
    · rw [← e10]; exact hfin
    · exact ⟨hc'.1, hc'.2, hc'.3, hc'.4, hc'.5, hc'.6, hc'.7, hc'.8⟩
    · exact ⟨hs2.1, hs2.2, hs2.3⟩

theorem read_gathered {u : Undef R} {hdus : List (Hdu R)} (h0 : hdus ≠ []) {oi : OiFits R} {st : Status}
    (h : read_oi_fits u (some hdus) .ok = .ok (some oi, st)) : st = .ok ∧ Gathered u hdus oi := by
  rcases read_ends u h0 with ⟨h1, -⟩ | ⟨st', -, h1⟩ | ⟨oi', h1, h2⟩
  · rw [h] at h1; cases h1
  · rw [h] at h1; cases h1
  · rw [h] at h1
    obtain ⟨h3, rfl⟩ := Prod.mk.inj (Outcome.ok.inj h1)
    cases h3
    exact ⟨rfl, h2⟩

/-- C63. Reading a file with a primary HDU ends with a dataset and no error, or with an
error and no dataset, or is aborted because a table is empty: there is no undefined
behaviour, and no endless loop. -/
theorem C63_ends (u : Undef R) {hdus : List (Hdu R)} (h0 : hdus ≠ []) :
    (∃ oi, read_oi_fits u (some hdus) .ok = .ok (some oi, .ok)) ∨
    (∃ st, st ≠ .ok ∧ read_oi_fits u (some hdus) .ok = .ok (none, st)) ∨
    (read_oi_fits u (some hdus) .ok = .abort ∧ ¬ NoEmptyTables hdus) := by
  rcases read_ends u h0 with h | h | ⟨oi, h, -⟩
  · exact .inr (.inr h)
  · exact .inr (.inl h)
  · exact .inl ⟨oi, h⟩

/-- C63: a file which cannot be opened is an error. -/
theorem C63_unopened (u : Undef R) : ∃ st, st ≠ .ok ∧ read_oi_fits u none .ok = .ok (none, st) :=
  ⟨.other 104, by decide, rfl⟩

/-- C63: a file with an OI_TARGET table without rows makes the program abort. -/
theorem C63_empty_table (u : Undef R) :
    read_oi_fits u (some [⟨.image, [], [], 0⟩,
      ⟨.binary, [("EXTNAME", .str "OI_TARGET"), ("OI_REVN", .int 2)], [], 0⟩]) .ok = .abort := rfl

example (u : Undef FP.ratFP) : ∃ st, st ≠ .ok ∧ read_oi_fits u (some Ex.mixed) .ok = .ok (none, st) :=
  ⟨.BAD_HDU_NUM, by decide, rfl⟩

/-- C47 for datasets which have been initialised or read. -/
theorem C47_init : (init_oi_fits R).CountsAgree := ⟨rfl, rfl, rfl, rfl, rfl, rfl, rfl, rfl⟩

@[inherit_doc C47_init]
theorem C47_read {u : Undef R} {hdus : List (Hdu R)} (h0 : hdus ≠ []) {oi : OiFits R} {st : Status}
    (h : read_oi_fits u (some hdus) .ok = .ok (some oi, st)) : oi.CountsAgree := (read_gathered h0 h).2.counts

/-- C64: the arrays of each table read are as long as the table says. -/
theorem C64_wf {u : Undef R} {hdus : List (Hdu R)} (h0 : hdus ≠ []) {oi : OiFits R} {st : Status}
    (h : read_oi_fits u (some hdus) .ok = .ok (some oi, st)) : oi.WF := by
  have hg := (read_gathered h0 h).2
  exact ⟨hg.counts, collects_wf (finally_next_array u _) hg.array, collects_wf (finally_next_wavelength u _) hg.wavelength,
    collects_wf (finally_next_corr u _) hg.corr, collects_wf (finally_next_inspol u _) hg.inspol,
    collects_wf (finally_next_vis u _) hg.vis, collects_wf (finally_next_vis2 u _) hg.vis2,
    collects_wf (finally_next_t3 u _) hg.t3, collects_wf (finally_next_flux u _) hg.flux⟩

/-! ### C66: which tables are read -/

/-- C66. The lists are the tables at the positions of their type which can be read. All
OI_ARRAY and OI_WAVELENGTH tables can be. -/
theorem C66_tables {u : Undef R} {hdus : List (Hdu R)} (h0 : hdus ≠ []) (hn : ∀ h ∈ hdus, StringName h)
    {oi : OiFits R} {st : Status} (h : read_oi_fits u (some hdus) .ok = .ok (some oi, st)) :
    (positions "OI_ARRAY" hdus).map (readable (read_next_oi_array u u.array) hdus) = oi.arrayList.map some ∧
    (positions "OI_WAVELENGTH" hdus).map (readable (read_next_oi_wavelength u u.wave) hdus)
      = oi.wavelengthList.map some ∧
    oi.corrList = (positions "OI_CORR" hdus).filterMap (readable (read_next_oi_corr u u.corr) hdus) ∧
    oi.inspolList = (positions "OI_INSPOL" hdus).filterMap (readable (read_next_oi_inspol u u.inspol) hdus) ∧
    oi.visList = (positions "OI_VIS" hdus).filterMap (readable (read_next_oi_vis u u.vis) hdus) ∧
    oi.vis2List = (positions "OI_VIS2" hdus).filterMap (readable (read_next_oi_vis2 u u.vis2) hdus) ∧
    oi.t3List = (positions "OI_T3" hdus).filterMap (readable (read_next_oi_t3 u u.t3) hdus) ∧
    oi.fluxList = (positions "OI_FLUX" hdus).filterMap (readable (read_next_oi_flux u u.flux) hdus) := by
  have hg := (read_gathered h0 h).2
  exact ⟨collects_all (readsNext_array u _) h0 hn hg.array, collects_all (readsNext_wavelength u _) h0 hn hg.wavelength,
    collects_skip (readsNext_corr u _) h0 hn hg.corr, collects_skip (readsNext_inspol u _) h0 hn hg.inspol,
    collects_skip (readsNext_vis u _) h0 hn hg.vis, collects_skip (readsNext_vis2 u _) h0 hn hg.vis2,
    collects_skip (readsNext_t3 u _) h0 hn hg.t3, collects_skip (readsNext_flux u _) h0 hn hg.flux⟩

/-- C66: the targets are those which `read_oi_target` returns without an error. The header is
the one of the file if that says it is in version 2 of the format, and otherwise filled
in as by `set_oi_header`. -/
theorem C66_header {u : Undef R} {hdus : List (Hdu R)} (h0 : hdus ≠ [])
    {oi : OiFits R} {st : Status} (h : read_oi_fits u (some hdus) .ok = .ok (some oi, st)) :
    (∃ s0 s1, s0.hdus = hdus ∧ s1.status = .ok ∧ read_oi_target u u.target s0 = .ok (oi.targets, s1)) ∧
    ∃ header s', s'.status = .ok ∧ read_oi_header u.header ⟨hdus, 0, .ok⟩ = .ok (header, s') ∧
      if header.content = "OIFITS2" then oi.header = header
      else set_oi_header { oi with header := header } = .ok oi := by
  have hg := (read_gathered h0 h).2
  obtain ⟨header, ⟨s', hst, h1⟩, h2⟩ := hg.header
  refine ⟨hg.targets, header, s', hst, h1, ?_⟩
  unfold finishHeader is_oi_fits_two at h2
  by_cases hc : header.content = ("OIFITS2" : CStr)
  · rw [if_pos hc]
    simp only [hc] at h2
    have := Outcome.ok.inj h2
    rw [← this]
  · rw [if_neg hc]
    rw [if_pos (by simpa using hc)] at h2
    exact h2

/-! ### C17: references -/

/-- C17 for the ARRNAME, INSNAME and CORRNAME of OI_VIS, OI_VIS2 and OI_T3 tables and for the
ARRNAME and INSNAME of OI_FLUX tables; the CORRNAME of OI_FLUX tables and the ARRNAME of
OI_INSPOL tables are not resolved (`C17_flux_counterexample`, `C17_inspol_counterexample`). -/
theorem C17_partial {u : Undef R} {hdus : List (Hdu R)} (h0 : hdus ≠ []) {oi : OiFits R} {st : Status}
    (h : read_oi_fits u (some hdus) .ok = .ok (some oi, st)) (n : CStr) :
    (n ≠ [] → ((∃ t ∈ oi.visList, t.arrname = n) ∨ (∃ t ∈ oi.vis2List, t.arrname = n) ∨
        (∃ t ∈ oi.t3List, t.arrname = n) ∨ ∃ t ∈ oi.fluxList, t.arrname = n) →
      oi_fits_lookup_array oi n = oi.arrayList.find? fun a => a.arrname == n) ∧
    (((∃ t ∈ oi.visList, t.insname = n) ∨ (∃ t ∈ oi.vis2List, t.insname = n) ∨
        (∃ t ∈ oi.t3List, t.insname = n) ∨ ∃ t ∈ oi.fluxList, t.insname = n) →
      oi_fits_lookup_wavelength oi n = oi.wavelengthList.find? fun w => w.insname == n) ∧
    (n ≠ [] → ((∃ t ∈ oi.visList, t.corrname = n) ∨ (∃ t ∈ oi.vis2List, t.corrname = n) ∨
        (∃ t ∈ oi.t3List, t.corrname = n)) →
      oi_fits_lookup_corr oi n = oi.corrList.find? fun c => c.corrname == n) := by
  have hh := (read_gathered h0 h).2.hashed
  refine ⟨fun hn ht => ?_, fun ht => ?_, fun hn ht => ?_⟩
  · unfold oi_fits_lookup_array
    rw [hh.array n, if_pos]; rfl
    rw [List.mem_filter]
    refine ⟨?_, by simpa using hn⟩
    simp only [allRefs, List.map_append, List.map_map, List.mem_append, List.mem_map, Function.comp]
    simpa [or_assoc] using ht
  · unfold oi_fits_lookup_wavelength
    rw [hh.wavelength n, if_pos]; rfl
    simp only [allRefs, List.map_append, List.map_map, List.mem_append, List.mem_map, Function.comp]
    simpa [or_assoc] using ht
  · unfold oi_fits_lookup_corr
    rw [hh.corr n, if_pos]; rfl
    rw [List.mem_filter]
    refine ⟨?_, by simpa using hn⟩
    simp only [allRefs, List.map_append, List.map_map, List.mem_append, List.mem_map, Function.comp]
    rcases ht with ht | ht | ht <;> simp [ht]

/-- Names to which no other data table refers are not found. -/
theorem read_unresolved {u : Undef R} {hdus : List (Hdu R)} (h0 : hdus ≠ []) {oi : OiFits R} {st : Status}
    (h : read_oi_fits u (some hdus) .ok = .ok (some oi, st)) :
    (oi.visList = [] → oi.vis2List = [] → oi.t3List = [] → ∀ n, oi_fits_lookup_corr oi n = none) ∧
    (oi.visList = [] → oi.vis2List = [] → oi.t3List = [] → oi.fluxList = [] →
      ∀ n, oi_fits_lookup_array oi n = none) := by
  have hh := (read_gathered h0 h).2.hashed
  refine ⟨fun h1 h2 h3 n => ?_, fun h1 h2 h3 h4 n => ?_⟩
  · unfold oi_fits_lookup_corr
    rw [hh.corr n, if_neg]
    rw [h1, h2, h3]
    simp [allRefs]
  · unfold oi_fits_lookup_array
    rw [hh.array n, if_neg]
    rw [h1, h2, h3, h4]
    simp [allRefs]

/-- A dataset whose only data table is an OI_FLUX table referring to the correlation
matrix. -/
def Ex.fluxOnly : OiFits FP.ratFP :=
  { Ex.oic with visList := [], vis2List := [], t3List := [], numVis := 0, numVis2 := 0, numT3 := 0 }

theorem Ex.fluxOnly_storable : Ex.fluxOnly.Storable :=
  { Ex.oic_storable with
    vis := fun _ ht => absurd ht List.not_mem_nil
    vis2 := fun _ ht => absurd ht List.not_mem_nil
    t3 := fun _ ht => absurd ht List.not_mem_nil }

/-- C17 is false of OI_FLUX tables: an OI_CORR table to which only an OI_FLUX table refers is
not found. -/
theorem C17_flux_counterexample (u : Undef FP.ratFP) : ∃ hdus oi,
    read_oi_fits u (some hdus) .ok = .ok (some oi, .ok) ∧
    (∃ t ∈ oi.fluxList, t.corrname = "CORR1") ∧ (∃ c ∈ oi.corrList, c.corrname = "CORR1") ∧
    oi_fits_lookup_corr oi "CORR1" = none := by
  obtain ⟨hdus, h1, h2⟩ := C50_partial "2016-01-01" Ex.fluxOnly_storable
  obtain ⟨oi, h3, -, -, -, -, e5, -, e7, e8, e9, e10, -⟩ := h2 u
  have h0 : hdus ≠ [] := by
    rw [write_oi_fits_eq _ _ Ex.fluxOnly_storable] at h1
    cases h1
    exact List.cons_ne_nil _ _
  refine ⟨hdus, oi, h3, ?_, ?_, (read_unresolved h0 h3).1 e7 e8 e9 _⟩
  · rw [e10]; exact ⟨_, List.mem_cons_self, rfl⟩
  · rw [e5]; exact ⟨_, List.mem_cons_self, rfl⟩

/-- A dataset without data tables but with an OI_INSPOL table. -/
def Ex.inspolOnly : OiFits FP.ratFP :=
  { Ex.oi with visList := [], vis2List := [], t3List := [], fluxList := []
               numVis := 0, numVis2 := 0, numT3 := 0, numFlux := 0 }

theorem Ex.inspolOnly_storable : Ex.inspolOnly.Storable :=
  { Ex.oi_storable with
    vis := fun _ ht => absurd ht List.not_mem_nil
    vis2 := fun _ ht => absurd ht List.not_mem_nil
    t3 := fun _ ht => absurd ht List.not_mem_nil
    flux := fun _ ht => absurd ht List.not_mem_nil }

/-- C17 is false of OI_INSPOL tables: an OI_ARRAY table to which only an OI_INSPOL table
refers is not found. -/
theorem C17_inspol_counterexample (u : Undef FP.ratFP) : ∃ hdus oi n,
    read_oi_fits u (some hdus) .ok = .ok (some oi, .ok) ∧ n ≠ [] ∧
    (∃ t ∈ oi.inspolList, t.arrname = n) ∧ (∃ c ∈ oi.arrayList, c.arrname = n) ∧
    oi_fits_lookup_array oi n = none := by
  obtain ⟨hdus, h1, h2⟩ := C50_partial "2016-01-01" Ex.inspolOnly_storable
  obtain ⟨oi, h3, -, -, e3, -, -, e6, e7, e8, e9, e10, -⟩ := h2 u
  have h0 : hdus ≠ [] := by
    rw [write_oi_fits_eq _ _ Ex.inspolOnly_storable] at h1
    cases h1
    exact List.cons_ne_nil _ _
  refine ⟨hdus, oi, Ex.array.arrname, h3, by decide, ?_, ?_, (read_unresolved h0 h3).2 e7 e8 e9 e10 _⟩
  · rw [e6]; exact ⟨_, List.mem_cons_self, rfl⟩
  · rw [e3]; exact ⟨_, List.mem_cons_self, by decide +kernel⟩

example (u : Undef FP.ratFP) : ∃ hdus oi, read_oi_fits u (some hdus) .ok = .ok (some oi, .ok) ∧ oi.WF ∧
    oi_fits_lookup_corr oi "CORR1" = some Ex.corr ∧
    (positions "OI_VIS2" hdus).filterMap (readable (read_next_oi_vis2 u u.vis2) hdus)
      = [Ex.vis2.asRead u.int, Ex.vis2.asRead u.int] := by
  obtain ⟨hdus, h1, h2⟩ := C50_partial "2016-01-01" Ex.oic_storable
  obtain ⟨oi, h3, -, -, -, -, e5, -, e7, e8, e9, e10, -⟩ := h2 u
  rw [write_oi_fits_eq _ _ Ex.oic_storable] at h1
  cases h1
  have h0 : fileOf "2016-01-01" Ex.oic ≠ [] := List.cons_ne_nil _ _
  refine ⟨_, oi, h3, C64_wf h0 h3, ?_, ?_⟩
  · rw [(C17_partial h0 h3 "CORR1").2.2 (by decide) (.inr (.inr ?_)), e5]
    · decide +kernel
    · rw [e9]; exact ⟨_, List.mem_cons_self, rfl⟩
  · rw [← (C66_tables h0 (fileOf_stringName _ _) h3).2.2.2.2.2.1, e8]; rfl

/-! ### C61: mandatory columns and keywords -/

theorem complete_of {name : CStr} {h : Hdu R} {cols keys cols' keys' : List CStr}
    (hc : mandatoryColumns.lookup name = some cols') (hk : mandatoryKeywords.lookup name = some keys')
    (h1 : ∀ c ∈ cols', c ∈ cols) (h2 : ∀ c ∈ keys', c ∈ keys)
    (hcol : ∀ c ∈ cols, hasColumn c h = true) (hkey : ∀ k ∈ keys, hasKeyword k h = true) : Complete name h := by
  constructor
  · intro l hl c hcl
    rw [hc] at hl; cases hl
    exact hcol c (h1 c hcl)
  · intro l hl c hcl
    rw [hk] at hl; cases hl
    exact hkey c (h2 c hcl)

/-- The call reads a complete table of the given type, if it succeeds; that is the HDU
which is then current. -/
def Spec.OnlyComplete (name : CStr) (read : FitsM R α) (hdus : List (Hdu R)) : Prop :=
  ∀ c a s', read ⟨hdus, c, .ok⟩ = .ok (a, s') → s'.status = .ok →
    ∃ h, hdus[s'.cur]? = some h ∧ isTable name h = true ∧ Complete name h

/-- C61 for all tables except OI_FLUX (see `C61_flux_counterexample`). -/
theorem C61_partial {hdus : List (Hdu R)} (hn : ∀ h ∈ hdus, StringName h) (u : Undef R) :
    (∀ old, OnlyComplete "OI_ARRAY" (read_next_oi_array u old) hdus) ∧
    (∀ old, OnlyComplete "OI_WAVELENGTH" (read_next_oi_wavelength u old) hdus) ∧
    (∀ old, OnlyComplete "OI_CORR" (read_next_oi_corr u old) hdus) ∧
    (∀ old, OnlyComplete "OI_INSPOL" (read_next_oi_inspol u old) hdus) ∧
    (∀ old, OnlyComplete "OI_VIS" (read_next_oi_vis u old) hdus) ∧
    (∀ old, OnlyComplete "OI_VIS2" (read_next_oi_vis2 u old) hdus) ∧
    (∀ old, OnlyComplete "OI_T3" (read_next_oi_t3 u old) hdus) := by
  refine ⟨?_, ?_, ?_, ?_, ?_, ?_, ?_⟩ <;> intro old c a s' h1 h2
  · obtain ⟨h, h3, -, h4, h5, h6⟩ := (readsStrict_array u old).has (s := ⟨hdus, c, .ok⟩) rfl hn h1 h2
    exact ⟨h, h3, h4, complete_of rfl rfl (by decide) (by decide) h5 h6⟩
  · obtain ⟨h, h3, -, h4, h5, h6⟩ := (readsStrict_wavelength u old).has (s := ⟨hdus, c, .ok⟩) rfl hn h1 h2
    exact ⟨h, h3, h4, complete_of rfl rfl (by decide) (by decide) h5 h6⟩
  · obtain ⟨h, h3, -, h4, h5, h6⟩ := (readsStrict_corr u old).has (s := ⟨hdus, c, .ok⟩) rfl hn h1 h2
    exact ⟨h, h3, h4, complete_of rfl rfl (by decide) (by decide) h5 h6⟩
  · obtain ⟨h, h3, -, h4, h5, h6⟩ := (readsStrict_inspol u old).has (s := ⟨hdus, c, .ok⟩) rfl hn h1 h2
    exact ⟨h, h3, h4, complete_of rfl rfl (by decide) (by decide) h5 h6⟩
  · obtain ⟨h, h3, -, h4, h5, h6⟩ := (readsStrict_vis u old).has (s := ⟨hdus, c, .ok⟩) rfl hn h1 h2
    exact ⟨h, h3, h4, complete_of rfl rfl (by decide) (by decide) h5 h6⟩
  · obtain ⟨h, h3, -, h4, h5, h6⟩ := (readsStrict_vis2 u old).has (s := ⟨hdus, c, .ok⟩) rfl hn h1 h2
    exact ⟨h, h3, h4, complete_of rfl rfl (by decide) (by decide) h5 h6⟩
  · obtain ⟨h, h3, -, h4, h5, h6⟩ := (readsStrict_t3 u old).has (s := ⟨hdus, c, .ok⟩) rfl hn h1 h2
    exact ⟨h, h3, h4, complete_of rfl rfl (by decide) (by decide) h5 h6⟩

/-- C61 for OI_TARGET: the table read is complete. -/
theorem C61_target {hdus : List (Hdu R)} (hn : ∀ h ∈ hdus, StringName h) (u : Undef R) (old : OiTarget R) (c : Nat)
    {a : OiTarget R} {s' : FState R} (h : read_oi_target u old ⟨hdus, c, .ok⟩ = .ok (a, s')) (hok : s'.status = .ok) :
    ∃ h ∈ hdus, isTable "OI_TARGET" h = true ∧ Complete "OI_TARGET" h := by
  obtain ⟨h, h1, h2, h3, h4⟩ := target_has u old (s := ⟨hdus, c, .ok⟩) rfl hn h hok
  exact ⟨h, h1, h2, complete_of rfl rfl (fun _ h => h) (fun _ h => h) h3 h4⟩

/-- C61 for OI_FLUX: keywords, and the column with the data. -/
theorem C61_flux_partial {hdus : List (Hdu R)} (hn : ∀ h ∈ hdus, StringName h) (u : Undef R) (old : OiFlux R) (c : Nat)
    {a : OiFlux R} {s' : FState R} (h : read_next_oi_flux u old ⟨hdus, c, .ok⟩ = .ok (a, s')) (hok : s'.status = .ok) :
    ∃ h, hdus[s'.cur]? = some h ∧ isTable "OI_FLUX" h = true ∧ hasColumn "FLUXDATA" h = true ∧
      ∀ k ∈ (["OI_REVN", "DATE-OBS", "INSNAME", "CALSTAT"] : List CStr), hasKeyword k h = true := by
  obtain ⟨h, h3, -, h4, h5, h6⟩ := (readsStrict_flux u old).has (s := ⟨hdus, c, .ok⟩) rfl hn h hok
  exact ⟨h, h3, h4, h5 _ List.mem_cons_self, h6⟩

/-- An OI_FLUX table which lacks the columns MJD and FLAG (and STA_INDEX). -/
def Ex.fluxHdu : Hdu FP.ratFP :=
  let h := hduFlux { Ex.flux with corrname := [] } 1
  { h with cols := h.cols.filter fun c => c.name != ("MJD" : CStr) && c.name != ("FLAG" : CStr) &&
      c.name != ("STA_INDEX" : CStr) }

/-- C61 is false of OI_FLUX tables: one without MJD and FLAG columns is read without an
error, if it has no STA_INDEX column either. Their values are then undefined. -/
theorem C61_flux_counterexample (u : Undef FP.ratFP) :
    hasColumn "MJD" Ex.fluxHdu = false ∧ hasColumn "FLAG" Ex.fluxHdu = false ∧
    ∃ a s', read_next_oi_flux u u.flux ⟨[⟨.image, [], [], 0⟩, Ex.fluxHdu], 0, .ok⟩ = .ok (a, s') ∧
      s'.status = .ok ∧ a.record.map (·.mjd) = List.replicate a.record.length u.dbl := by
  refine ⟨by decide +kernel, by decide +kernel, _, _, rfl, rfl, rfl⟩

end Verif
