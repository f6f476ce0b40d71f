import Verif.Proof.ReadFault
import Verif.Props.Held

/-!
# C112: errors while a file is read
-/

set_option Elab.async false

namespace Verif
open Outcome Spec

variable {R : FP} {u : Undef R} {F : FileFaults} {hdus : List (Hdu R)} {oi oi0 : OiFits R} {st st0 : Status}

/-- If no call fails, this is `read_oi_fits`. -/
theorem C112_faultless (u : Undef R) (hdus : List (Hdu R)) :
    read_oi_fits_failing u FileFaults.none hdus = read_oi_fits u (some hdus) .ok := by
  have e1 : read_oi_fits_failing u FileFaults.none hdus =
      (readBodyFailing u FileFaults.none ⟨hdus, 0, .ok⟩ >>= fun x => .ok (x.1, if x.2.status = .ok then .ok else x.2.status)) := rfl
  have e2 : read_oi_fits u (some hdus) .ok = (readBody u ⟨hdus, 0, .ok⟩ >>= fun x => .ok (x.1, x.2.status)) := rfl
  rw [e1, e2, readBodyFailing_none]
  congr 1
  funext x
  split
  · rename_i h; rw [h]
  · rfl

theorem failing_split (h : read_oi_fits_failing u F hdus = .ok (some oi, st)) :
    F.opening = none ∧ ∃ s, readBodyFailing u F ⟨hdus, 0, .ok⟩ = .ok (some oi, s) ∧
      st = if s.status = .ok then F.closing.getD .ok else s.status := by
  unfold read_oi_fits_failing at h
  split at h
  · cases h
  · rename_i ho
    rw [Outcome.bind_eq_ok] at h
    obtain ⟨⟨o, s⟩, h1, h2⟩ := h
    simp only [pure, Outcome.ok.injEq, Prod.mk.injEq] at h2
    obtain ⟨rfl, h2⟩ := h2
    exact ⟨ho, s, h1, h2.symm⟩

/-- C112 for the targets, the arrays, the wavelengths and (in version 2 of the format) the header: if reading ends
with a dataset and without error, they are as without errors. Of the other tables some may be missing
(`C112_skipped_counterexample`), but those which are there are as without errors, and in the same order. Excluded
are errors with the code which stands for the end of the file (`C112_eof_counterexample`). -/
theorem C112_partial (h0 : hdus ≠ []) (hn : ∀ h ∈ hdus, StringName h) (hF : FileFaults.Errors F)
    (ha : TableFaults.NotEof F.array) (hw : TableFaults.NotEof F.wavelength)
    (h : read_oi_fits_failing u F hdus = .ok (some oi, .ok)) (hr : read_oi_fits u (some hdus) .ok = .ok (some oi0, st0)) :
    oi.targets = oi0.targets ∧ oi.arrayList = oi0.arrayList ∧ oi.wavelengthList = oi0.wavelengthList ∧
    oi.corrList.Sublist oi0.corrList ∧ oi.inspolList.Sublist oi0.inspolList ∧ oi.visList.Sublist oi0.visList ∧
    oi.vis2List.Sublist oi0.vis2List ∧ oi.t3List.Sublist oi0.t3List ∧ oi.fluxList.Sublist oi0.fluxList ∧
    (oi0.header.content = "OIFITS2" → oi.header = oi0.header) := by
  obtain ⟨-, s, hb, -⟩ := failing_split h
  obtain ⟨-, p⟩ := body_partly h0 hn hF ha hw hb
  rw [← C112_faultless] at hr
  obtain ⟨-, s0, hb0, -⟩ := failing_split hr
  have ht : TableFaults.Errors TableFaults.none := ⟨by rintro ⟨⟩, by rintro f ⟨⟩⟩
  have ht' : TableFaults.NotEof TableFaults.none := ⟨by rintro ⟨⟩, by rintro f ⟨⟩⟩
  have hF0 : FileFaults.Errors FileFaults.none :=
    ⟨by rintro ⟨⟩, by rintro ⟨⟩, by rintro ⟨⟩, ht, ht, ht, ht, ht, ht, ht, ht, by rintro ⟨⟩⟩
  obtain ⟨-, p0⟩ := body_partly h0 hn hF0 ht' ht' hb0
  rw [C112_faultless] at hr
  obtain ⟨r1, r2, r3, r4, r5, r6, r7, r8⟩ := C66_tables h0 hn hr
  obtain ⟨hd, s1, s2, -, -, e1, e2, e3⟩ := p.head
  obtain ⟨hd0, s10, s20, -, -, e10, e20, e30⟩ := p0.head
  rw [e1] at e10
  obtain ⟨rfl, rfl⟩ := Prod.mk.inj (Outcome.ok.inj e10)
  rw [e2] at e20
  obtain ⟨e4, -⟩ := Prod.mk.inj (Outcome.ok.inj e20)
  have inj : ∀ {α : Type} {l l' : List α}, l.map some = l'.map some → l = l' := fun h =>
    List.map_injective_iff.mpr (Option.some_injective _) h
  refine ⟨e4, ?_, ?_, ?_, ?_, ?_, ?_, ?_, ?_, fun hc => ?_⟩
  · exact inj ((collects_all (readsNext_array u _) h0 hn p.array.1).symm.trans r1)
  · exact inj ((collects_all (readsNext_wavelength u _) h0 hn p.wavelength.1).symm.trans r2)
  · rw [r3]; exact p.corr
  · rw [r4]; exact p.inspol
  · rw [r5]; exact p.vis
  · rw [r6]; exact p.vis2
  · rw [r7]; exact p.t3
  · rw [r8]; exact p.flux
  · unfold finishHeader is_oi_fits_two at e3 e30
    by_cases h2 : hd.content = ("OIFITS2" : CStr)
    · simp only [h2] at e3 e30
      have a1 := congrArg OiFits.header (Outcome.ok.inj e3)
      have a2 := congrArg OiFits.header (Outcome.ok.inj e30)
      exact a1.symm.trans a2
    · exfalso
      rw [if_pos (by simpa using h2)] at e30
      unfold set_oi_header at e30
      rw [Outcome.bind_eq_ok] at e30
      obtain ⟨t, -, e30⟩ := e30
      rw [Outcome.bind_eq_ok] at e30
      obtain ⟨i, -, e30⟩ := e30
      have := congrArg (fun x => x.header.content) (Outcome.ok.inj e30)
      rw [hc] at this
      exact h2 this

/-- C112: if reading ends with a dataset and without error, no call failed when the file was opened, its header, targets,
arrays and wavelengths were read, and the file was closed. -/
theorem C112_reported (h0 : hdus ≠ []) (hn : ∀ h ∈ hdus, StringName h) (hF : FileFaults.Errors F)
    (ha : TableFaults.NotEof F.array) (hw : TableFaults.NotEof F.wavelength)
    (h : read_oi_fits_failing u F hdus = .ok (some oi, .ok)) :
    F.opening = none ∧ F.header = none ∧ F.target = none ∧ F.closing = none ∧
    F.array.move = none ∧ (∀ f ∈ F.array.reads.take (oi.arrayList.length + 1), f = none) ∧
    F.wavelength.move = none ∧ (∀ f ∈ F.wavelength.reads.take (oi.wavelengthList.length + 1), f = none) := by
  obtain ⟨ho, s, hb, hst⟩ := failing_split h
  obtain ⟨hs, p⟩ := body_partly h0 hn hF ha hw hb
  obtain ⟨hd, s1, s2, f1, f2, -⟩ := p.head
  refine ⟨ho, f1, f2, ?_, p.array.2.1, p.array.2.2, p.wavelength.2.1, p.wavelength.2.2⟩
  rw [if_pos hs] at hst
  cases hc : F.closing with
  | none => rfl
  | some e =>
    rw [hc] at hst
    exact absurd (by rw [hc]; exact congrArg some hst.symm) hF.closing

theorem ends_skip {α β : Type} {name : CStr} {old : α} {read : FitsM R α} (h : ReadsNext name old read)
    (hn : ∀ h ∈ hdus, StringName h) {c : Nat} (hc : c < hdus.length) {T : TableFaults}
    (hT : TableFaults.Errors T) {f : List α → FitsM R β} {P : Outcome (β × FState R) → Prop} (ha : P .abort)
    (hf : ∀ l c', c' < hdus.length → P (f l ⟨hdus, c', .ok⟩)) : P ((readTablesFailing true read T >>= f) ⟨hdus, c, .ok⟩) := by
  rcases readTablesFailing_skip h hn hc hT with h3 | ⟨l', c', h3, h4, -⟩
  · rw [Verif.bind_abort h3]; exact ha
  · rw [FitsM.bind_ok h3]; exact hf l' c' h4

/-- C112: if only finitely many calls fail, reading ends: with a dataset, with an error code (but not with neither),
or because a table is empty. -/
theorem C112_ends (u : Undef R) (h0 : hdus ≠ []) (hn : ∀ h ∈ hdus, StringName h) (hF : FileFaults.Errors F)
    (hw : TableFaults.NotEof F.wavelength) :
    read_oi_fits_failing u F hdus = .abort ∨ (∃ oi st, read_oi_fits_failing u F hdus = .ok (some oi, st)) ∨
    ∃ st, st ≠ .ok ∧ read_oi_fits_failing u F hdus = .ok (none, st) := by
  let P : Outcome (Option (OiFits R) × FState R) → Prop := fun r =>
    r = .abort ∨ (∃ oi s, r = .ok (some oi, s)) ∨ ∃ s, s.status ≠ .ok ∧ r = .ok (none, s)
  have ha : P .abort := .inl rfl
  have hpos : 0 < hdus.length := List.length_pos_iff.mpr h0
  have key : P (readBodyFailing u F ⟨hdus, 0, .ok⟩) := by
    have guard : ∀ {m : FitsM R (Option (OiFits R))} {s : FState R}, (s.status = .ok → P (m s)) →
        P (guardStatus none m s) := by
      intro m s hm
      by_cases hs : s.status = .ok
      · rw [guardStatus_ok hs]; exact hm hs
      · rw [guardStatus_err hs]; exact .inr (.inr ⟨s, hs, rfl⟩)
    have call : ∀ {α : Type} {e : Option Status} {m : FitsM R α} {s : FState R}, Ends m s → Ends (callFailing e m) s := by
      intro α e m s hm
      rcases hm with h1 | ⟨a, s', h1, h2⟩
      · left; unfold callFailing; rw [h1]; cases e <;> rfl
      · right
        unfold callFailing
        rw [h1]
        cases e with
        | none => exact ⟨a, s', rfl, h2⟩
        | some st => exact ⟨a, _, rfl, rfl⟩
    have bindE : ∀ {α : Type} {m : FitsM R α} {f : α → FitsM R (Option (OiFits R))} {s : FState R}, Ends m s →
        (∀ a s', s'.hdus = s.hdus → P (f a s')) → P ((m >>= f) s) := by
      intro α m f s hm hf
      rcases hm with h1 | ⟨a, s', h1, h2⟩
      · rw [Verif.bind_abort h1]; exact ha
      · rw [FitsM.bind_ok h1]; exact hf a s' h2
    unfold readBodyFailing
    refine bindE (call (.inr (header_ends u.header _))) fun hd s1 k1 => ?_
    refine bindE (m := guardStatus u.target _) ?_ fun tg s2 k2 => ?_
    · by_cases hs : s1.status = .ok
      · unfold Ends
        rw [guardStatus_ok hs]
        exact call (target_ends u u.target s1).1
      · exact .inr ⟨_, s1, guardStatus_err hs _ _, rfl⟩
    refine guard fun t2 => ?_
    have k2 : s2.hdus = hdus := k2.trans k1
    obtain ⟨hd2, c2, st2⟩ := s2
    dsimp only at k2 t2
    subst k2 t2
    rcases readTablesFailing_all_ends (readsNext_array u u.array) h0 hn c2 hF.array with h3 | ⟨la, c3, st3, h3, -, -⟩
    · rw [Verif.bind_abort h3]; exact ha
    rw [FitsM.bind_ok h3]
    refine guard fun t3 => ?_
    dsimp only at t3
    subst t3
    rcases readTablesFailing_all_ends (readsNext_wavelength u u.wave) h0 hn c3 hF.wavelength with h4 | ⟨lw, c4, st4, h4, -, -⟩
    · rw [Verif.bind_abort h4]; exact ha
    rw [FitsM.bind_ok h4]
    refine guard fun t4 => ?_
    dsimp only at t4
    subst t4
    obtain ⟨-, ⟨c, hs, hc⟩, -⟩ := readTablesFailing_all (readsNext_wavelength u u.wave) h0 hF.wavelength hw h4 rfl
    rw [hs]
    refine ends_skip (readsNext_corr u _) hn hc hF.corr ha fun lc c5 hc5 => ?_
    refine ends_skip (readsNext_inspol u _) hn hc5 hF.inspol ha fun li c6 hc6 => ?_
    refine ends_skip (readsNext_vis u _) hn hc6 hF.vis ha fun lv c7 hc7 => ?_
    refine ends_skip (readsNext_vis2 u _) hn hc7 hF.vis2 ha fun lv2 c8 hc8 => ?_
    refine ends_skip (readsNext_t3 u _) hn hc8 hF.t3 ha fun lt c9 hc9 => ?_
    refine ends_skip (readsNext_flux u _) hn hc9 hF.flux ha fun lf c10 hc10 => ?_
    obtain ⟨oi, hfin⟩ := finishHeader_ok (assemble_counts hd tg la lw lc li lv lv2 lt lf)
    have hl : ∃ x, FitsM.lift (finishHeader (assemble hd tg la lw lc li lv lv2 lt lf)) (⟨hd2, c10, .ok⟩ : FState R) =
        .ok (x, ⟨hd2, c10, .ok⟩) := by
      unfold FitsM.lift; rw [hfin]; exact ⟨_, rfl⟩
    obtain ⟨x, hl⟩ := hl
    rw [FitsM.bind_ok hl]
    exact .inr (.inl ⟨_, _, rfl⟩)
  have e : ∀ ho : F.opening = none, read_oi_fits_failing u F hdus = (readBodyFailing u F ⟨hdus, 0, .ok⟩ >>= fun x =>
      .ok (x.1, if x.2.status = .ok then F.closing.getD .ok else x.2.status)) := by
    intro ho
    unfold read_oi_fits_failing
    rw [ho]
    rfl
  cases ho : F.opening with
  | some e =>
    refine .inr (.inr ⟨e, fun he => hF.opening (by rw [ho, he]), ?_⟩)
    unfold read_oi_fits_failing
    rw [ho]
  | none =>
    rw [e ho]
    rcases key with k | ⟨oi, s, k⟩ | ⟨s, hs, k⟩
    · rw [k]; exact .inl rfl
    · rw [k]; exact .inr (.inl ⟨_, _, rfl⟩)
    · rw [k]
      refine .inr (.inr ⟨_, ?_, rfl⟩)
      dsimp only
      rw [if_neg hs]
      exact hs

/-- As long as calls fail in a loop which skips bad tables, without getting past the HDU they start from, the loop goes
on: no number of iterations is enough. So `C112_ends` needs that only finitely many calls fail. -/
theorem C112_endless {α : Type} {name : CStr} {old : α} {read : FitsM R α} (h : ReadsNext name old read)
    (hn : ∀ h ∈ hdus, StringName h) {c : Nat} (hc : c < hdus.length) (ha : read ⟨hdus, c, .ok⟩ ≠ .abort) {e : Status}
    (h1 : e ≠ .ok) (h2 : e ≠ .END_OF_FILE) (n : Nat) :
    readAllFailing true read (List.replicate n (some ⟨e, 0⟩)) n ⟨hdus, c, .ok⟩ = .ub := by
  induction n with
  | zero => rfl
  | succ n ih =>
    rcases h.one hn hc with h3 | ⟨a, s', h3, h4, -⟩
    · exact absurd h3 ha
    · have h5 : readFailing read (some ⟨e, 0⟩) ⟨hdus, c, .ok⟩ = .ok (a, ⟨hdus, c, e⟩) := by
        unfold readFailing
        rw [h3]
        simp [h4]
      rw [List.replicate_succ, readAllFailing]
      change FitsM.bind _ _ _ = _
      unfold FitsM.bind
      simp only [List.head?_cons, Option.join_some, List.tail_cons, h5]
      simp only [bind, FitsM.bind, getStatus, h1, h2, if_false, if_true, setStatus]
      exact ih

/-! ### Examples -/

/-- The only call which fails is the one which reads the first OI_VIS2 table. -/
def Ex.vis2Fault : FileFaults := { FileFaults.none with vis2 := ⟨none, [some ⟨.other 108, 9⟩]⟩ }

/-- The call which reads the first OI_ARRAY table ends with the code for the end of the file. -/
def Ex.eofFault : FileFaults := { FileFaults.none with array := ⟨none, [some ⟨.END_OF_FILE, 0⟩]⟩ }

/-- The call which reads the second OI_WAVELENGTH table fails. -/
def Ex.waveFault : FileFaults := { FileFaults.none with wavelength := ⟨none, [none, some ⟨.other 108, 0⟩]⟩ }

/-- The lengths of the lists of the dataset which was read, and the error code. -/
def Ex.readLengths (r : Outcome (Option (OiFits FP.ratFP) × Status)) : Option (List Nat × Status) :=
  match r with
  | .ok (some oi, st) => some ([oi.arrayList.length, oi.wavelengthList.length, oi.visList.length, oi.vis2List.length,
      oi.t3List.length], st)
  | _ => none

/-- An error while an OI_VIS2 table is read: the dataset lacks that table, and the error code is that of success. -/
theorem C112_skipped_counterexample : ∃ (F : FileFaults) (hdus : List (Hdu FP.ratFP)), FileFaults.Errors F ∧
    Ex.readLengths (read_oi_fits Ex.undef (some hdus) .ok) = some ([1, 1, 1, 1, 1], .ok) ∧
    Ex.readLengths (read_oi_fits_failing Ex.undef F hdus) = some ([1, 1, 1, 0, 1], .ok) := by
  refine ⟨Ex.vis2Fault, Ex.oneFile, ?_, by decide +kernel, by decide +kernel⟩
  have ht : TableFaults.Errors TableFaults.none := ⟨by rintro ⟨⟩, by rintro f ⟨⟩⟩
  refine ⟨by rintro ⟨⟩, by rintro ⟨⟩, by rintro ⟨⟩, ht, ht, ht, ht, ht, ?_, ht, ht, by rintro ⟨⟩⟩
  refine ⟨by rintro ⟨⟩, fun f hf => ?_⟩
  obtain rfl : f = ⟨.other 108, 9⟩ := by simpa [Ex.vis2Fault] using hf
  decide

/-- An error with the code which stands for the end of the file (107, which CFITSIO also gives when the file is shorter
than its headers say) while an OI_ARRAY table is read: the dataset lacks that table, and the error code is that of
success. -/
theorem C112_eof_counterexample : ∃ (F : FileFaults) (hdus : List (Hdu FP.ratFP)), FileFaults.Errors F ∧
    Ex.readLengths (read_oi_fits Ex.undef (some hdus) .ok) = some ([1, 1, 1, 1, 1], .ok) ∧
    Ex.readLengths (read_oi_fits_failing Ex.undef F hdus) = some ([0, 1, 1, 1, 1], .ok) := by
  refine ⟨Ex.eofFault, Ex.oneFile, ?_, by decide +kernel, by decide +kernel⟩
  have ht : TableFaults.Errors TableFaults.none := ⟨by rintro ⟨⟩, by rintro f ⟨⟩⟩
  refine ⟨by rintro ⟨⟩, by rintro ⟨⟩, by rintro ⟨⟩, ?_, ht, ht, ht, ht, ht, ht, ht, by rintro ⟨⟩⟩
  refine ⟨by rintro ⟨⟩, fun f hf => ?_⟩
  obtain rfl : f = ⟨.END_OF_FILE, 0⟩ := by simpa [Ex.eofFault] using hf
  decide

/-- Calls which fail meet the hypotheses of `C112_partial`, `C112_reported` and `C112_ends`: reading gives a dataset. -/
example : Ex.oneFile ≠ [] ∧ (∀ h ∈ Ex.oneFile, StringName h) ∧ TableFaults.NotEof Ex.vis2Fault.array ∧
    TableFaults.NotEof Ex.vis2Fault.wavelength ∧
    ∃ oi, read_oi_fits_failing Ex.undef Ex.vis2Fault Ex.oneFile = .ok (some oi, .ok) ∧ oi.vis2List = [] := by
  have ht : TableFaults.NotEof TableFaults.none := ⟨by rintro ⟨⟩, by rintro f ⟨⟩⟩
  refine ⟨by decide, Ex.oneFile_names, ht, ht, ?_⟩
  have h : Ex.readLengths (read_oi_fits_failing Ex.undef Ex.vis2Fault Ex.oneFile) = some ([1, 1, 1, 0, 1], .ok) := by
    decide +kernel
  unfold Ex.readLengths at h
  split at h
  · rename_i oi st h1
    simp only [Option.some.injEq, Prod.mk.injEq, List.cons.injEq] at h
    obtain ⟨⟨-, -, -, h2, -⟩, rfl⟩ := h
    exact ⟨oi, h1, List.length_eq_zero_iff.mp h2⟩
  · cases h

/-- An error after the last OI_WAVELENGTH table: there is no dataset, and an error code. -/
example : (match read_oi_fits_failing Ex.undef Ex.waveFault Ex.oneFile with
    | .ok (none, st) => decide (st = .other 108)
    | _ => false) = true := by decide +kernel

/-- The hypotheses of `C112_endless` hold while the OI_VIS2 tables are read. -/
example : ReadsNext "OI_VIS2" Ex.undef.vis2 (read_next_oi_vis2 Ex.undef Ex.undef.vis2) ∧ 0 < Ex.oneFile.length ∧
    (match read_next_oi_vis2 Ex.undef Ex.undef.vis2 ⟨Ex.oneFile, 0, .ok⟩ with
    | .abort => false
    | _ => true) = true := by
  refine ⟨readsNext_vis2 _ _, by decide, by decide +kernel⟩

end Verif
