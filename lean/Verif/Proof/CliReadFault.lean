import Verif.Props.ReadFault
import Verif.Spec.CliReadFault
import Verif.Proof.Fault

/-! Lemmas about the programs when reading fails. -/

set_option Elab.async false

namespace Verif
open Outcome Spec

variable {R : FP} {α : Type}

/-! ### Loops without errors -/

theorem readAll_more {skip : Bool} {read : FitsM R α} (n : Nat) :
    ∀ (m : Nat) {s : FState R}, n ≤ m → readAll skip read n s ≠ .ub → readAll skip read m s = readAll skip read n s := by
  induction n with
  | zero => intro m s _ h; exact absurd rfl h
  | succ n ih =>
    intro m s hm h
    obtain ⟨m, rfl⟩ : ∃ m', m = m' + 1 := ⟨m - 1, by omega⟩
    rw [readAll, readAll]
    rw [readAll] at h
    cases e : read s with
    | ub => rw [Verif.bind_ub e, Verif.bind_ub e]
    | abort => rw [Verif.bind_abort e, Verif.bind_abort e]
    | ok p =>
      obtain ⟨a, s'⟩ := p
      rw [FitsM.bind_ok e] at h
      rw [FitsM.bind_ok e, FitsM.bind_ok e]
      have hg : getStatus s' = .ok (s'.status, s') := rfl
      rw [FitsM.bind_ok hg] at h
      rw [FitsM.bind_ok hg, FitsM.bind_ok hg]
      by_cases h1 : s'.status = .ok
      · simp only [h1, if_true] at h ⊢
        have hne : readAll skip read n s' ≠ .ub := fun e => h (Verif.bind_ub e)
        have hx := ih m (by omega) hne
        cases e' : readAll skip read n s' with
        | ub => exact absurd e' hne
        | abort => rw [Verif.bind_abort e', Verif.bind_abort (hx.trans e')]
        | ok q => rw [FitsM.bind_ok e', FitsM.bind_ok (hx.trans e')]
      · by_cases h2 : s'.status = .END_OF_FILE
        · rw [if_neg h1, if_neg h1, if_pos h2, if_pos h2]
        · cases skip with
          | false => simp only [h1, if_false, h2, Bool.false_eq_true]
          | true =>
            simp only [h1, if_false, h2, if_true] at h ⊢
            have hs : setStatus .ok s' = .ok ((), { s' with status := .ok }) := rfl
            rw [FitsM.bind_ok hs] at h
            rw [FitsM.bind_ok hs, FitsM.bind_ok hs]
            exact ih m (by omega) h

/-- Errors after the last call make no difference. -/
theorem readAllFailing_unused {read : FitsM R α} (fuel : Nat) : ∀ (faults : List (Option ReadFault)) {s s' : FState R}
    {l : List α}, readAllFailing false read faults fuel s = .ok (l, s') → (∀ f ∈ faults.take (l.length + 1), f = none) →
    readAll false read fuel s = .ok (l, s') := by
  induction fuel with
  | zero => intro faults s s' l h; cases h
  | succ fuel ih =>
    intro faults s s' l h hf
    have hj : faults.head?.join = none := by
      cases faults with
      | nil => rfl
      | cons f fs =>
        have := hf f (by simp)
        subst this
        rfl
    rw [readAllFailing, hj, readFailing_none] at h
    rw [readAll]
    obtain ⟨a, s1, e, h⟩ := bind_ok_split h
    rw [FitsM.bind_ok e]
    have hg : getStatus s1 = .ok (s1.status, s1) := rfl
    rw [FitsM.bind_ok hg] at h ⊢
    by_cases h1 : s1.status = .ok
    · simp only [h1, if_true] at h ⊢
      obtain ⟨xs, s2, e2, h⟩ := bind_ok_split h
      obtain ⟨rfl, rfl⟩ := Prod.mk.inj (Outcome.ok.inj h)
      rw [FitsM.bind_ok (ih faults.tail e2 fun f hm => hf f ?_)]
      · rfl
      · cases faults with
        | nil => simp at hm
        | cons g gs =>
          rw [List.length_cons, List.take_succ_cons]
          exact List.mem_cons_of_mem _ hm
    · simp only [h1, if_false] at h ⊢
      exact h

theorem readTablesFailing_same {name : CStr} {old : α} {read : FitsM R α} (h : ReadsNext name old read)
    {hdus : List (Hdu R)} (hn : ∀ h ∈ hdus, StringName h) {c : Nat} (h0 : hdus ≠ []) {F : TableFaults}
    (hF : TableFaults.Errors F) (hE : TableFaults.NotEof F) {l : List α} {s' : FState R}
    (hr : readTablesFailing false read F ⟨hdus, c, .ok⟩ = .ok (l, s')) (hst : s'.status = .ok) :
    readTables false read ⟨hdus, c, .ok⟩ = .ok (l, s') := by
  obtain ⟨-, -, hm, hf⟩ := readTablesFailing_all h h0 hF hE hr hst
  obtain ⟨t, ht⟩ := move_first c h0 F.move
  rw [readTablesFailing, FitsM.bind_ok ht, hm] at hr
  dsimp only at hr
  rw [FitsM.bind_ok (show fits_get_num_hdus (⟨hdus, 0, .ok⟩ : FState R) = .ok (hdus.length, ⟨hdus, 0, .ok⟩) from rfl)] at hr
  have hr := readAllFailing_unused _ _ hr hf
  have hT : TableFaults.Errors TableFaults.none := ⟨by rintro ⟨⟩, by rintro f ⟨⟩⟩
  have e0 : readTables false read ⟨hdus, c, .ok⟩ = readAll false read (hdus.length + 1) ⟨hdus, 0, .ok⟩ := by
    obtain ⟨t', ht'⟩ := move_first c h0 none
    rw [callFailing_none] at ht'
    rw [readTables, FitsM.bind_ok ht']
    rfl
  have hub : readTables false read ⟨hdus, c, .ok⟩ ≠ .ub := by
    rcases readTablesFailing_all_ends h h0 hn c hT with e | ⟨l', c', st, e, -⟩ <;>
    · rw [readTablesFailing_none] at e
      rw [e]
      simp
  rw [e0] at hub ⊢
  rw [← readAll_more (hdus.length + 1) (hdus.length + 1 + 0 + F.reads.length) (by omega) hub]
  exact hr

/-! ### Whole files -/

theorem read_complete {u : Undef R} {F : FileFaults} {hdus : List (Hdu R)} (h0 : hdus ≠ [])
    (hn : ∀ h ∈ hdus, StringName h) (hF : FileFaults.Early F) {oi : OiFits R}
    (h : read_oi_fits_failing u F hdus = .ok (some oi, .ok)) : read_oi_fits u (some hdus) .ok = .ok (some oi, .ok) := by
  obtain ⟨-, s, h, -⟩ := failing_split h
  obtain ⟨hs, p⟩ := body_partly h0 hn hF.plain.errors hF.plain.array hF.plain.wavelength h
  obtain ⟨-, -, -, f1, f2, -⟩ := p.head
  have e2 : read_oi_fits u (some hdus) .ok = (readBody u ⟨hdus, 0, .ok⟩ >>= fun x => .ok (x.1, x.2.status)) := rfl
  suffices hb : readBody u ⟨hdus, 0, .ok⟩ = .ok (some oi, s) by rw [e2, hb, ← hs]; rfl
  rw [← readBodyFailing_none]
  unfold readBodyFailing at h ⊢
  simp only [hF.corr, hF.inspol, hF.vis, hF.vis2, hF.t3, hF.flux, f1, f2] at h
  simp only [FileFaults.none]
  obtain ⟨hd, s1, e1, h⟩ := bind_ok_split h
  rw [FitsM.bind_ok e1]
  obtain ⟨tg, s2, e2, h⟩ := bind_ok_split h
  rw [FitsM.bind_ok e2]
  obtain ⟨t2, h⟩ := guardStatus_some h
  rw [guardStatus_ok t2]
  have k1 : s1.hdus = hdus := by
    obtain ⟨a, s', h1, h2⟩ := header_ends u.header (⟨hdus, 0, .ok⟩ : FState R)
    rw [callFailing_none, h1] at e1
    obtain ⟨-, rfl⟩ := Prod.mk.inj (Outcome.ok.inj e1)
    exact h2
  have k2 : s2.hdus = hdus := by
    by_cases t1 : s1.status = .ok
    · rw [guardStatus_ok t1, callFailing_none] at e2
      rcases (target_ends u u.target s1).1 with h1 | ⟨a, s', h1, h2⟩
      · rw [e2] at h1; cases h1
      · rw [e2] at h1
        obtain ⟨-, rfl⟩ := Prod.mk.inj (Outcome.ok.inj h1)
        exact h2.trans k1
    · rw [guardStatus_err t1] at e2
      obtain ⟨-, rfl⟩ := Prod.mk.inj (Outcome.ok.inj e2)
      exact k1
  obtain ⟨hd2, c2, st2⟩ := s2
  dsimp only at k2 t2
  subst k2 t2
  obtain ⟨la, s3, e3, h⟩ := bind_ok_split h
  obtain ⟨t3, h⟩ := guardStatus_some h
  obtain ⟨-, ⟨c3, rfl, -⟩, -⟩ := readTablesFailing_all (readsNext_array u _) h0 hF.plain.errors.array hF.plain.array e3 t3
  have e3 := readTablesFailing_same (readsNext_array u _) hn h0 hF.plain.errors.array hF.plain.array e3 t3
  rw [← readTablesFailing_none] at e3
  rw [FitsM.bind_ok e3, guardStatus_ok t3]
  obtain ⟨lw, s4, e4, h⟩ := bind_ok_split h
  obtain ⟨t4, h⟩ := guardStatus_some h
  have e4 := readTablesFailing_same (readsNext_wavelength u _) hn h0 hF.plain.errors.wavelength hF.plain.wavelength e4 t4
  rw [← readTablesFailing_none] at e4
  rw [FitsM.bind_ok e4, guardStatus_ok t4]
  exact h

/-- If a call which is noticed fails, reading does not succeed. -/
theorem read_noticed {u : Undef R} {F : FileFaults} {hdus : List (Hdu R)} (h0 : hdus ≠ [])
    (hn : ∀ h ∈ hdus, StringName h) (hF : FileFaults.Plain F) (hN : FileFaults.Noticed F hdus) (oi : OiFits R) :
    read_oi_fits_failing u F hdus ≠ .ok (some oi, .ok) := by
  intro h
  obtain ⟨r1, r2, r3, r4, r5, r6, r7, r8⟩ := C112_reported h0 hn hF.errors hF.array hF.wavelength h
  obtain ⟨-, s, hb, -⟩ := failing_split h
  obtain ⟨hs, p⟩ := body_partly h0 hn hF.errors hF.array hF.wavelength hb
  have la := congrArg List.length (collects_all (readsNext_array u _) h0 hn p.array.1)
  have lw := congrArg List.length (collects_all (readsNext_wavelength u _) h0 hn p.wavelength.1)
  rw [List.length_map, List.length_map] at la lw
  have key : ∀ {l : List (Option ReadFault)} {n k : Nat} {f : ReadFault}, k ≤ n → l[k]? = some (some f) →
      (∀ f ∈ l.take (n + 1), f = none) → False := by
    intro l n k f hk hl hall
    have hm : some f ∈ l.take (n + 1) := by
      rw [List.mem_iff_getElem?]
      exact ⟨k, by rw [List.getElem?_take_of_lt (by omega)]; exact hl⟩
    cases hall _ hm
  rcases hN with hN | hN | hN | hN | hN | ⟨k, f, hk, hN⟩ | hN | ⟨k, f, hk, hN⟩
  · exact hN r1
  · exact hN r2
  · exact hN r3
  · exact hN r4
  · exact hN r5
  · exact key (by omega) hN r6
  · exact hN r7
  · exact key (by omega) hN r8

/-! ### Programs -/

/-- With the files `fs`, the second program does the same as the first, or it stops with an error before it
changes a file. -/
def SameOrStops (fs : Files R) (m m' : Prog R α) : Prop := ∀ w, w.files = fs →
  m' w = m w ∨ ∃ e, m' w = .error e ∧ (e.exit = .code 1 ∨ e.exit = .abort) ∧ e.files = fs

/-- With the files `fs`, the program stops with an error before it changes a file. -/
def Stops (fs : Files R) (m : Prog R α) : Prop := ∀ w, w.files = fs →
  ∃ e, m w = .error e ∧ (e.exit = .code 1 ∨ e.exit = .abort) ∧ e.files = fs

theorem sos_refl (fs : Files R) (m : Prog R α) : SameOrStops fs m m := fun _ _ => .inl rfl

theorem sos_run {fs : Files R} {m m' : Prog R Unit} (h : SameOrStops fs m m') :
    m'.run fs = m.run fs ∨ (((m'.run fs).exit = .code 1 ∨ (m'.run fs).exit = .abort) ∧ (m'.run fs).files = fs) := by
  unfold Prog.run
  rcases h ⟨[], fs, none⟩ rfl with e | ⟨x, e, h1, h2⟩
  · rw [e]; exact .inl rfl
  · rw [e]; exact .inr ⟨h1, h2⟩

theorem stops_run {fs : Files R} {m : Prog R Unit} (h : Stops fs m) :
    ((m.run fs).exit = .code 1 ∨ (m.run fs).exit = .abort) ∧ (m.run fs).files = fs := by
  obtain ⟨e, h1, h2, h3⟩ := h ⟨[], fs, none⟩ rfl
  unfold Prog.run
  rw [h1]
  exact ⟨h2, h3⟩

theorem stops_bind {β : Type} {fs : Files R} {x : Prog R α} (h : Stops fs x) (f : α → Prog R β) : Stops fs (x >>= f) := by
  intro w hw
  obtain ⟨e, h1, h2⟩ := h w hw
  exact ⟨e, by rw [Prog.bind_eq, h1], h2⟩

/-- Reading does not change files. -/
theorem sos_bind {β : Type} {fs : Files R} {x x' : Prog R α} {f f' : α → Prog R β} (h : SameOrStops fs x x')
    (hx : ∀ w a w', x w = .ok (a, w') → w'.files = w.files) (hf : ∀ a, SameOrStops fs (f a) (f' a)) :
    SameOrStops fs (x >>= f) (x' >>= f') := by
  intro w hw
  rw [Prog.bind_eq, Prog.bind_eq]
  rcases h w hw with e | ⟨e, h1, h2⟩
  · rw [e]
    cases hxw : x w with
    | error e => exact .inl rfl
    | ok p => exact hf p.1 p.2 ((hx w _ _ hxw).trans hw)
  · rw [h1]
    exact .inr ⟨e, rfl, h2⟩

/-- What is done after reading stops if there is no dataset or an error. -/
def Checks (fs : Files R) (k : Option (OiFits R) × Status → Prog R α) : Prop :=
  ∀ r, r.1 = none ∨ r.2 ≠ .ok → Stops fs (k r)

theorem stops_exit (fs : Files R) : Stops fs (exitWith 1 : Prog R α) := fun w hw => ⟨_, rfl, .inl rfl, hw⟩

theorem call_ok_inv {m : Outcome α} {w w' : World R} {a : α} (h : call m w = .ok (a, w')) : w' = w ∧ m = .ok a := by
  unfold call at h
  cases m with
  | ok b => cases h; exact ⟨rfl, rfl⟩
  | abort => cases h
  | ub => cases h

theorem readFile_files {u : Undef R} {name : CStr} {w w' : World R} {a : Option (OiFits R) × Status}
    (h : readFile u name w = .ok (a, w')) : w'.files = w.files := by
  rw [(call_ok_inv h).1]

/-- Reading with failing calls, and then going on only if there is a dataset and no error. -/
theorem sos_read {fs : Files R} (hs : Sound fs) {F : FileFaults} (hF : FileFaults.Early F) (u : Undef R) (name : CStr)
    {k : Option (OiFits R) × Status → Prog R α} (hk : Checks fs k) :
    SameOrStops fs (readFile u name >>= k) (readFileFailing F u name >>= k) := by
  intro w hw
  rw [Prog.bind_eq, Prog.bind_eq]
  unfold readFileFailing readFile
  cases hf : w.files name with
  | none => exact .inl rfl
  | some d =>
    cases d with
    | other => exact .inl rfl
    | fits hdus =>
      obtain ⟨h0, hn⟩ := hs name hdus (by rw [← hw]; exact hf)
      dsimp only
      rcases C112_ends u h0 hn hF.plain.errors hF.plain.wavelength with e | ⟨oi, st, e⟩ | ⟨st, hst, e⟩
      · rw [e]
        exact .inr ⟨_, rfl, .inr rfl, hw⟩
      · by_cases hst : st = .ok
        · subst hst
          rw [e, read_complete h0 hn hF e]
          exact .inl rfl
        · rw [e]
          exact .inr (hk (some oi, st) (.inr hst) w hw)
      · rw [e]
        exact .inr (hk (none, st) (.inl rfl) w hw)

theorem stops_read {fs : Files R} {F : FileFaults} (hF : FileFaults.Plain F) {u : Undef R} {name : CStr}
    {hdus : List (Hdu R)} (h0 : hdus ≠ []) (hn : ∀ h ∈ hdus, StringName h) (hf : fs name = some (.fits hdus))
    (hN : FileFaults.Noticed F hdus) {k : Option (OiFits R) × Status → Prog R α} (hk : Checks fs k) :
    Stops fs (readFileFailing F u name >>= k) := by
  intro w hw
  rw [Prog.bind_eq]
  unfold readFileFailing
  rw [hw, hf]
  dsimp only
  rcases C112_ends u h0 hn hF.errors hF.wavelength with e | ⟨oi, st, e⟩ | ⟨st, hst, e⟩
  · rw [e]
    exact ⟨_, rfl, .inr rfl, hw⟩
  · by_cases hst : st = .ok
    · subst hst
      exact absurd e (read_noticed h0 hn hF hN oi)
    · rw [e]
      exact hk (some oi, st) (.inr hst) w hw
  · rw [e]
    exact hk (none, st) (.inl rfl) w hw

/-- The usual test after reading. -/
theorem checks_usual {fs : Files R} (rest : OiFits R → Prog R α) :
    Checks fs fun r => (match r with
      | (oi, status) => match oi with
        | none => exitWith EXIT_FAILURE
        | some oi => if status ≠ .ok then exitWith EXIT_FAILURE else rest oi) := by
  rintro ⟨o, st⟩ h
  cases o with
  | none => exact stops_exit fs
  | some oi =>
    have hs : st ≠ .ok := by
      rcases h with h | h
      · cases h
      · exact h
    show Stops fs (if st ≠ .ok then exitWith EXIT_FAILURE else rest oi)
    rw [if_pos hs]
    exact stops_exit fs

theorem inputs_files {u : Undef R} (files : List CStr) : ∀ {w w' : World R} {l : List (OiFits R)},
    readInputs u files w = .ok (l, w') → w'.files = w.files := by
  induction files with
  | nil => intro w w' l h; cases h; rfl
  | cons f files ih =>
    intro w w' l h
    rw [readInputs, Prog.bind_eq] at h
    cases e : readFile u f w with
    | error x => rw [e] at h; cases h
    | ok p =>
      obtain ⟨⟨o, st⟩, w1⟩ := p
      rw [e] at h
      have hw := readFile_files e
      cases o with
      | none => cases h
      | some oi =>
        dsimp only at h
        by_cases hs : st ≠ .ok
        · rw [if_pos hs] at h; cases h
        · rw [if_neg hs, Prog.bind_eq] at h
          cases e2 : readInputs u files w1 with
          | error x => rw [e2] at h; cases h
          | ok q =>
            rw [e2] at h
            cases h
            exact (ih e2).trans hw

theorem sos_inputs {fs : Files R} (hs : Sound fs) {F : Nat → FileFaults} (hF : ∀ k, FileFaults.Early (F k)) (u : Undef R)
    (files : List CStr) : ∀ k, SameOrStops fs (readInputs u files)
      (readInputsReading (fun k => readFileFailing (F k) u) k files) := by
  induction files with
  | nil => intro k; exact sos_refl fs _
  | cons f files ih =>
    intro k w hw
    have h1 := sos_read hs (hF k) u f (checks_usual (fs := fs) fun oi => do
      let more ← readInputsReading (fun k => readFileFailing (F k) u) (k + 1) files
      return oi :: more) w hw
    have h2 : SameOrStops fs (readInputs u (f :: files)) (readFile u f >>= fun r => (match r with
      | (oi, status) => match oi with
        | none => exitWith EXIT_FAILURE
        | some oi => if status ≠ .ok then exitWith EXIT_FAILURE else (do
          let more ← readInputsReading (fun k => readFileFailing (F k) u) (k + 1) files
          return oi :: more))) := by
      rw [readInputs]
      refine sos_bind (sos_refl fs _) (fun w a w' h => readFile_files h) fun r => ?_
      obtain ⟨o, st⟩ := r
      cases o with
      | none => exact sos_refl fs _
      | some oi =>
        dsimp only
        split
        · exact sos_refl fs _
        · exact sos_bind (ih (k + 1)) (fun w a w' h => inputs_files files h) fun l => sos_refl fs _
    rcases h1 with h1 | h1
    · rcases h2 w hw with h3 | h3
      · exact .inl (h1.trans h3)
      · obtain ⟨e, h4, h5⟩ := h3
        exact .inr ⟨e, h1.trans h4, h5⟩
    · exact .inr h1

theorem stops_inputs {fs : Files R} {F : Nat → FileFaults} {u : Undef R} (hs : Sound fs)
    (files : List CStr) : ∀ k, (∀ j, j < files.length → FileFaults.Plain (F (k + j))) →
      (∃ j name hdus, files[j]? = some name ∧ fs name = some (.fits hdus) ∧ FileFaults.Noticed (F (k + j)) hdus) →
      Stops fs (readInputsReading (fun k => readFileFailing (F k) u) k files) := by
  induction files with
  | nil => rintro k - ⟨j, name, hdus, h, -⟩; simp at h
  | cons f files ih =>
    intro k hF hj
    obtain ⟨j, name, hdus, h1, h2, h3⟩ := hj
    cases j with
    | zero =>
      rw [List.getElem?_cons_zero, Option.some.injEq] at h1
      subst h1
      obtain ⟨h0, hn⟩ := hs _ _ h2
      exact stops_read (hF 0 (by simp)) h0 hn h2 h3 (checks_usual (fs := fs) fun oi => do
        let more ← readInputsReading (fun k => readFileFailing (F k) u) (k + 1) files
        return oi :: more)
    | succ j =>
      have hrest := ih (k + 1) (fun i hi => by
        have := hF (i + 1) (by simp; omega)
        rwa [show k + (i + 1) = k + 1 + i from by omega] at this)
        ⟨j, name, hdus, by simpa using h1, h2, by rwa [show k + 1 + j = k + (j + 1) from by omega]⟩
      intro w hw
      rw [readInputsReading, Prog.bind_eq]
      have hP : FileFaults.Plain (F k) := hF 0 (by simp)
      have fin : ∀ r : Option (OiFits R) × Status, ∃ e, (match r with
          | (oi, status) => match oi with
            | none => exitWith EXIT_FAILURE
            | some oi => if status ≠ .ok then exitWith EXIT_FAILURE else (do
              let more ← readInputsReading (fun k => readFileFailing (F k) u) (k + 1) files
              return oi :: more) : Prog R (List (OiFits R))) w = .error e ∧ (e.exit = .code 1 ∨ e.exit = .abort) ∧ e.files = fs := by
        rintro ⟨o, st⟩
        cases o with
        | none => exact stops_exit fs w hw
        | some oi =>
          dsimp only
          split
          · exact stops_exit fs w hw
          · exact stops_bind hrest _ w hw
      unfold readFileFailing
      cases hf : w.files f with
      | none => exact fin (none, .other 104)
      | some d =>
        cases d with
        | other => exact fin (none, .other 104)
        | fits hd =>
          obtain ⟨h0, hn⟩ := hs f hd (by rw [← hw]; exact hf)
          dsimp only
          rcases C112_ends u h0 hn hP.errors hP.wavelength with e | ⟨oi, st, e⟩ | ⟨st, -, e⟩
          · rw [e]
            exact ⟨_, rfl, .inr rfl, hw⟩
          · rw [e]; exact fin (some oi, st)
          · rw [e]; exact fin (none, st)

end Verif
