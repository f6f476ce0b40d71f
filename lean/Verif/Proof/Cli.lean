import Verif.Proof.CliCheck
import Verif.Props.ReadFile
import Verif.Props.WriteFile
import Verif.Spec.Merge

/-! Proofs about the command-line programs: which files they change, and how they end. -/

namespace Verif
open Outcome Spec
variable {R : FP} {α β : Type}

/-! ### Which files are changed -/

/-- Whatever the program does, the files before and after are related by `T`. -/
def Obeys (T : Files R → Files R → Prop) (m : Prog R α) : Prop := ∀ w,
  (∀ e, m w = .error e → T w.files e.files) ∧ (∀ a w', m w = .ok (a, w') → T w.files w'.files)

structure Preorder' (T : Files R → Files R → Prop) : Prop where
  refl : ∀ f, T f f
  trans : ∀ f g h, T f g → T g h → T f h

variable {T : Files R → Files R → Prop}

theorem obeys_bind (hT : Preorder' T) {m : Prog R α} {f : α → Prog R β} (h1 : Obeys T m) (h2 : ∀ a, Obeys T (f a)) :
    Obeys T (m >>= f) := by
  intro w
  rw [Prog.bind_eq]
  cases hm : m w with
  | error e =>
    refine ⟨fun e' he => ?_, fun a w' h => by cases h⟩
    cases he; exact (h1 w).1 _ hm
  | ok p =>
    obtain ⟨a, w'⟩ := p
    have t1 := (h1 w).2 _ _ hm
    exact ⟨fun e he => hT.trans _ _ _ t1 ((h2 a w').1 _ he), fun b w'' hb => hT.trans _ _ _ t1 ((h2 a w').2 _ _ hb)⟩

theorem obeys_pure (hT : Preorder' T) (a : α) : Obeys T (pure a) := fun w =>
  ⟨fun e h => (by cases h), fun b w' h => by cases h; exact hT.refl _⟩

theorem obeys_say (hT : Preorder' T) (s : CStr) : Obeys T (say s) := fun w =>
  ⟨fun e h => (by cases h), fun b w' h => by cases h; exact hT.refl _⟩

theorem obeys_exit (hT : Preorder' T) (n : Int) : Obeys T (exitWith n : Prog R α) := fun w =>
  ⟨fun e h => (by cases h; exact hT.refl _), fun b w' h => by cases h⟩

theorem obeys_call (hT : Preorder' T) (m : Outcome α) : Obeys T (call m) := fun w => by
  cases m
  · exact ⟨fun e h => (by cases h), fun b w' h => by cases h; exact hT.refl _⟩
  · exact ⟨fun e h => (by cases h; exact hT.refl _), fun b w' h => by cases h⟩
  · exact ⟨fun e h => (by cases h; exact hT.refl _), fun b w' h => by cases h⟩

theorem obeys_sayText (hT : Preorder' T) (m : TextM CStr) : Obeys T (sayText m) := fun w => by
  unfold sayText
  cases m w.buffer with
  | ok p => exact ⟨fun e h => (by cases h), fun b w' h => by cases h; exact hT.refl _⟩
  | abort => exact ⟨fun e h => (by cases h; exact hT.refl _), fun b w' h => by cases h⟩
  | ub => exact ⟨fun e h => (by cases h; exact hT.refl _), fun b w' h => by cases h⟩

theorem obeys_readFile (hT : Preorder' T) (u : Undef R) (name : CStr) : Obeys T (readFile u name) := fun w =>
  obeys_call hT _ w

theorem run_obeys {m : Prog R Unit} (h : Obeys T m) (fs : Files R) : T fs (m.run fs).files := by
  unfold Prog.run
  have := h ⟨[], fs, none⟩
  cases hm : m ⟨[], fs, none⟩ with
  | error e => exact this.1 e hm
  | ok p => exact this.2 p.1 p.2 hm

/-- No file is changed. -/
def Untouched (f g : Files R) : Prop := g = f

theorem untouched_pre : Preorder' (R := R) Untouched := ⟨fun _ => rfl, fun _ _ _ h1 h2 => h2.trans h1⟩

/-- Files which exist stay as they are. -/
def KeepsExisting (f g : Files R) : Prop := ∀ n d, f n = some d → g n = some d

theorem keepsExisting_pre : Preorder' (R := R) KeepsExisting :=
  ⟨fun _ _ _ h => h, fun _ _ _ h1 h2 n d h => h2 n d (h1 n d h)⟩

/-- Files of other names stay as they are. -/
def KeepsOthers (name : CStr) (f g : Files R) : Prop := ∀ n, n ≠ name → g n = f n

theorem keepsOthers_pre (name : CStr) : Preorder' (R := R) (KeepsOthers name) :=
  ⟨fun _ _ _ => rfl, fun _ _ _ h1 h2 n h => (h2 n h).trans (h1 n h)⟩

theorem keepsOthers_set (name : CStr) (f : Files R) (d : Option (FileData R)) : KeepsOthers name f (f.set name d) := by
  intro n h
  unfold Files.set
  rw [if_neg h]

/-- `writeFile`, if the name does not begin with `!`. -/
theorem writeFile_eq {name : CStr} (hn : name.head? ≠ some '!') (today : CStr) (oi : OiFits R) (w : World R) :
    writeFile today name oi w = match write_oi_fits today (w.files name).isSome oi .ok with
      | .ok (some hdus, st) => .ok (st, { w with files := w.files.set name (some (.fits hdus)) })
      | .ok (none, st) => .ok (st, w)
      | .abort => .error ⟨.abort, w.out, w.files.set name (some .other)⟩
      | .ub => .error ⟨.ub, w.out, w.files.set name (some .other)⟩ := by
  unfold writeFile
  cases name with
  | nil => rfl
  | cons c cs =>
    have hc : c ≠ '!' := fun e => hn (by rw [e]; rfl)
    split
    · rename_i h1
      split at h1
      · rename_i h2
        exact absurd (List.cons.inj h2).1 hc
      · rename_i x h2 h3
        cases h1; rfl

theorem obeys_writeFile_keepsExisting {name : CStr} (hn : name.head? ≠ some '!') (today : CStr) (oi : OiFits R) :
    Obeys KeepsExisting (writeFile today name oi) := by
  intro w
  rw [writeFile_eq hn]
  cases hx : w.files name with
  | some d =>
    exact ⟨fun e h => (by cases h), fun b w' h => by cases h; exact keepsExisting_pre.refl _⟩
  | none =>
    have set_ok : ∀ x, KeepsExisting w.files (w.files.set name x) := by
      intro x n d h
      unfold Files.set
      by_cases e : n = name
      · rw [e, hx] at h; cases h
      · rw [if_neg e]; exact h
    simp only [Option.isSome_none]
    cases write_oi_fits today false oi .ok with
    | ok p =>
      obtain ⟨o, st⟩ := p
      cases o with
      | none => exact ⟨fun e h => (by cases h), fun b w' h => by cases h; exact keepsExisting_pre.refl _⟩
      | some hdus => exact ⟨fun e h => (by cases h), fun b w' h => by cases h; exact set_ok _⟩
    | abort => exact ⟨fun e h => (by cases h; exact set_ok _), fun b w' h => by cases h⟩
    | ub => exact ⟨fun e h => (by cases h; exact set_ok _), fun b w' h => by cases h⟩

theorem obeys_writeFile_keepsOthers {name : CStr} (hn : name.head? ≠ some '!') (today : CStr) (oi : OiFits R) :
    Obeys (KeepsOthers name) (writeFile today name oi) := by
  intro w
  rw [writeFile_eq hn]
  have set_ok := fun x => keepsOthers_set (R := R) name w.files x
  cases write_oi_fits today (w.files name).isSome oi .ok with
  | ok p =>
    obtain ⟨o, st⟩ := p
    cases o with
    | none => exact ⟨fun e h => (by cases h), fun b w' h => by cases h; exact (keepsOthers_pre _).refl _⟩
    | some hdus => exact ⟨fun e h => (by cases h), fun b w' h => by cases h; exact set_ok _⟩
  | abort => exact ⟨fun e h => (by cases h; exact set_ok _), fun b w' h => by cases h⟩
  | ub => exact ⟨fun e h => (by cases h; exact set_ok _), fun b w' h => by cases h⟩

theorem obeys_ite {c : Prop} [Decidable c] {a b : Prog R α} (h1 : c → Obeys T a) (h2 : ¬ c → Obeys T b) :
    Obeys T (if c then a else b) := by
  by_cases h : c
  · rw [if_pos h]; exact h1 h
  · rw [if_neg h]; exact h2 h

theorem obeys_runChecks (hT : Preorder' T) (oi : OiFits R) (l : List (OiFits R → Outcome CheckResult)) (x : Level) :
    Obeys T (runChecks oi l x) := by
  induction l generalizing x with
  | nil => exact obeys_pure hT _
  | cons c l ih =>
    unfold runChecks
    refine obeys_bind hT (obeys_call hT _) fun r => obeys_ite (fun _ => ?_) (fun _ => ih _)
    exact obeys_bind hT (obeys_call hT _) fun _ => obeys_bind hT (obeys_say hT _) fun _ => ih _

theorem obeys_oifits_check (hT : Preorder' T) (u : Undef R) (argv : List CStr) : Obeys T (oifits_check u argv) := by
  unfold oifits_check
  split
  · refine obeys_bind hT (obeys_readFile hT _ _) fun p => ?_
    obtain ⟨oi, st⟩ := p
    cases oi with
    | none => exact obeys_exit hT _
    | some oi =>
      refine obeys_ite (fun _ => obeys_exit hT _) fun _ => ?_
      refine obeys_bind hT (obeys_sayText hT _) fun _ => obeys_bind hT (obeys_runChecks hT _ _ _) fun l => ?_
      refine obeys_ite (fun _ => ?_) fun _ => ?_
      · exact obeys_bind hT (obeys_say hT _) fun _ => obeys_exit hT _
      · exact obeys_exit hT _
  · exact obeys_bind hT (obeys_say hT _) fun _ => obeys_exit hT _

theorem obeys_oifits_filter (hT : Preorder' T) (u : Undef R) (today : CStr) (removable : CStr → Bool)
    (line : CommandLine R)
    (hw : ∀ opts clobber prog infile outfile, line = .args opts clobber [prog, infile, outfile] → ∀ oi,
      Obeys T (writeFile today (strlcpy outfile FLEN_FILENAME) oi))
    (hd : ∀ opts prog infile outfile, line = .args opts true [prog, infile, outfile] → ∀ f : Files R,
      T f (f.set (strlcpy outfile FLEN_FILENAME) none)) :
    Obeys T (oifits_filter u today removable line) := by
  unfold oifits_filter
  split
  · exact obeys_bind hT (obeys_say hT _) fun _ => obeys_exit hT _
  · rename_i opts clobber prog infile outfile
    refine obeys_bind hT (obeys_readFile hT _ _) fun p => ?_
    obtain ⟨oi, st⟩ := p
    cases oi with
    | none => exact obeys_exit hT _
    | some oi =>
      refine obeys_ite (fun _ => obeys_exit hT _) fun _ => ?_
      refine obeys_bind hT (obeys_say hT _) fun _ => obeys_bind hT (obeys_sayText hT _) fun _ => ?_
      refine obeys_bind hT (obeys_say hT _) fun _ => obeys_bind hT (obeys_sayText hT _) fun _ => ?_
      refine obeys_bind hT (obeys_call hT _) fun out => ?_
      refine obeys_bind hT (obeys_say hT _) fun _ => obeys_bind hT (obeys_sayText hT _) fun _ => ?_
      refine obeys_bind hT (fun w => ⟨fun e h => (by cases h), fun b w' h => by cases h; exact hT.refl _⟩) fun there => ?_
      have rest : ∀ x : Unit, Obeys T (do
          let status ← writeFile today (strlcpy outfile FLEN_FILENAME) out
          if status ≠ .ok then exitWith EXIT_FAILURE
          exitWith EXIT_SUCCESS : Prog R Unit) := fun _ =>
        obeys_bind hT (hw _ _ _ _ _ rfl _) fun _ => obeys_ite
          (fun _ => obeys_bind hT (obeys_exit hT _) fun _ => obeys_exit hT _) (fun _ => obeys_exit hT _)
      refine obeys_ite (fun _ => ?_) (fun _ => ?_)
      · refine obeys_ite (fun _ => ?_) (fun hc => ?_)
        · exact obeys_bind hT (obeys_say hT _) fun _ => obeys_bind hT (obeys_exit hT _) rest
        · refine obeys_ite (fun _ => ?_) (fun _ => ?_)
          · exact obeys_bind hT (obeys_say hT _) fun _ => obeys_bind hT (obeys_exit hT _) rest
          · refine obeys_bind hT ?_ rest
            cases clobber with
            | false => exact absurd rfl hc
            | true =>
              exact fun w => ⟨fun e h => (by cases h), fun b w' h => by cases h; exact hd _ _ _ _ rfl _⟩
      · exact rest ()
  · exact obeys_bind hT (obeys_say hT _) fun _ => obeys_exit hT _

/-! ### How programs end -/

theorem prog_inv {m : Prog R α} {f : α → Prog R β} {w : World R} {e : Final R} (h : (m >>= f) w = .error e) :
    m w = .error e ∨ ∃ a w', m w = .ok (a, w') ∧ f a w' = .error e := by
  rw [Prog.bind_eq] at h
  cases hm : m w with
  | error e' => rw [hm] at h; cases h; exact .inl rfl
  | ok p => rw [hm] at h; exact .inr ⟨p.1, p.2, rfl, h⟩

/-- The program ends in one of the ways `Q`. -/
def EndsIn (m : Prog R α) (w : World R) (Q : Final R → Prop) : Prop := ∀ e, m w = .error e → Q e

theorem read_empty (u : Undef R) : ∃ st, read_oi_fits u (some []) .ok = .ok (none, st) := ⟨_, rfl⟩

theorem Spec.Holds.wf {u : Undef R} {files : Files R} {name : CStr} {oi : OiFits R} (h : Holds u files name oi) : oi.WF := by
  obtain ⟨hdus, _, hr⟩ := h
  refine C64_wf (hdus := hdus) ?_ hr
  rintro rfl
  obtain ⟨st, e⟩ := read_empty u
  rw [e] at hr
  cases hr

theorem readFile_holds {u : Undef R} {w : World R} {name : CStr} {oi : OiFits R} (h : Holds u w.files name oi) :
    readFile u name w = .ok ((some oi, .ok), w) := by
  obtain ⟨hdus, h1, h2⟩ := h
  unfold readFile
  simp only [h1, h2]
  rfl

theorem readFile_unreadable {u : Undef R} {w : World R} {name : CStr} (h : Unreadable u w.files name) :
    ∃ oi st, readFile u name w = .ok ((oi, st), w) ∧ (oi = none ∨ st ≠ .ok) := by
  rcases h with h | ⟨hdus, oi, st, h1, h2, h3⟩
  · obtain ⟨st, hs, e⟩ := C63_unopened u
    refine ⟨none, st, ?_, .inl rfl⟩
    unfold readFile
    cases hf : w.files name with
    | none => simp only [e]; rfl
    | some d =>
      cases d with
      | other => simp only [e]; rfl
      | fits hd => exact absurd hf (h hd)
  · refine ⟨oi, st, ?_, h3⟩
    unfold readFile
    simp only [h1, h2]
    rfl

theorem readFile_inv {u : Undef R} {w w' : World R} {name : CStr} {oi : OiFits R}
    (h : readFile u name w = .ok ((some oi, .ok), w')) : w' = w ∧ Holds u w.files name oi := by
  unfold readFile at h
  cases hf : w.files name with
  | none =>
    simp only [hf] at h
    obtain ⟨st, hs, e⟩ := C63_unopened u
    rw [e] at h
    cases h
  | some d =>
    cases d with
    | other =>
      simp only [hf] at h
      obtain ⟨st, hs, e⟩ := C63_unopened u
      rw [e] at h
      cases h
    | fits hdus =>
      simp only [hf] at h
      cases hr : read_oi_fits u (some hdus) .ok with
      | ok p =>
        rw [hr] at h
        cases h
        exact ⟨rfl, hdus, hf, hr⟩
      | abort => rw [hr] at h; cases h
      | ub => rw [hr] at h; cases h

theorem readFile_exit {u : Undef R} {w : World R} {name : CStr} {e : Final R} (h : readFile u name w = .error e) :
    ∀ n, e.exit ≠ .code n := by
  unfold readFile at h
  generalize read_oi_fits u _ .ok = r at h
  cases r <;> cases h <;> intro n hn <;> cases hn

theorem call_exit {m : Outcome α} {w : World R} {e : Final R} (h : call m w = .error e) : ∀ n, e.exit ≠ .code n := by
  cases m <;> cases h <;> intro n hn <;> cases hn

theorem call_inv {m : Outcome α} {w w' : World R} {a : α} (h : call m w = .ok (a, w')) : m = .ok a ∧ w' = w := by
  cases m <;> cases h
  exact ⟨rfl, rfl⟩

theorem sayText_exit {m : TextM CStr} {w : World R} {e : Final R} (h : sayText m w = .error e) :
    ∀ n, e.exit ≠ .code n := by
  unfold sayText at h
  generalize m w.buffer = r at h
  cases r <;> cases h <;> intro n hn <;> cases hn

theorem sayText_inv {m : TextM CStr} {w w' : World R} {a : Unit} (h : sayText m w = .ok (a, w')) :
    w'.files = w.files := by
  unfold sayText at h
  generalize m w.buffer = r at h
  cases r <;> cases h
  rfl

theorem strlcpy_short {s : CStr} {n : Nat} (h : s.length < n) : strlcpy s n = s := by
  unfold strlcpy
  exact List.take_of_length_le (by omega)

theorem writeFile_new {name : CStr} (hn : name.head? ≠ some '!') {today : CStr} {oi : OiFits R} {w : World R}
    {hdus : List (Hdu R)} (hx : w.files name = none) (hw : write_oi_fits today false oi .ok = .ok (some hdus, .ok)) :
    writeFile today name oi w = .ok (.ok, { w with files := w.files.set name (some (.fits hdus)) }) := by
  rw [writeFile_eq hn, hx]
  simp only [Option.isSome_none, hw]

theorem writeFile_exit {name today : CStr} {oi : OiFits R} {w : World R} {e : Final R}
    (h : writeFile today name oi w = .error e) : ∀ n, e.exit ≠ .code n := by
  unfold writeFile at h
  simp only at h
  split at h <;> first | (cases h; done) | (cases h; intro n hn; cases hn)

theorem write_none (today : CStr) (oi : OiFits R) (st : Status) : write_oi_fits today false oi .ok ≠ .ok (none, st) := by
  intro h
  unfold write_oi_fits at h
  rw [if_neg (fun h => h rfl), if_neg (fun h => Bool.noConfusion h)] at h
  obtain ⟨p, h1, h2⟩ := bind_eq_ok.mp h
  cases h2

/-- A file is written successfully only if there was none. -/
theorem writeFile_inv {name : CStr} (hn : name.head? ≠ some '!') {today : CStr} {oi : OiFits R} {w w' : World R}
    (h : writeFile today name oi w = .ok (.ok, w')) :
    w.files name = none ∧ ∃ hdus, write_oi_fits today false oi .ok = .ok (some hdus, .ok) ∧
      w' = { w with files := w.files.set name (some (.fits hdus)) } := by
  rw [writeFile_eq hn] at h
  cases hx : w.files name with
  | some d =>
    rw [hx] at h
    cases h
  | none =>
    rw [hx] at h
    simp only [Option.isSome_none] at h
    cases hr : write_oi_fits today false oi .ok with
    | ok p =>
      rw [hr] at h
      obtain ⟨o, st⟩ := p
      cases o with
      | none =>
        exact absurd hr (write_none today oi st)
      | some hdus =>
        cases h
        exact ⟨rfl, hdus, rfl, rfl⟩
    | abort => rw [hr] at h; cases h
    | ub => rw [hr] at h; cases h

theorem set_same (f : Files R) (name : CStr) (d : Option (FileData R)) : f.set name d name = d := by
  unfold Files.set
  rw [if_pos rfl]

theorem set_set (f : Files R) (name : CStr) (d d' : Option (FileData R)) : (f.set name d).set name d' = f.set name d' := by
  funext n
  unfold Files.set
  by_cases h : n = name
  · rw [if_pos h, if_pos h]
  · rw [if_neg h, if_neg h, if_neg h]

theorem ends_bind {m : Prog R α} {f : α → Prog R β} {w : World R} {Q : Final R → Prop} (h1 : EndsIn m w Q)
    (h2 : ∀ a w', m w = .ok (a, w') → EndsIn (f a) w' Q) : EndsIn (m >>= f) w Q := by
  intro e he
  rcases prog_inv he with h | ⟨a, w', h3, h4⟩
  · exact h1 e h
  · exact h2 a w' h3 e h4

theorem ends_ite {c : Prop} [Decidable c] {a b : Prog R α} {w : World R} {Q : Final R → Prop} (h1 : c → EndsIn a w Q)
    (h2 : ¬ c → EndsIn b w Q) : EndsIn (if c then a else b) w Q := by
  by_cases h : c
  · rw [if_pos h]; exact h1 h
  · rw [if_neg h]; exact h2 h

/-- What holds if the program ends with status 0. -/
def OnSuccess (P : Files R → Prop) (e : Final R) : Prop := e.exit = .code 0 → P e.files

variable {P : Files R → Prop}

/-- The program ends by calling `exit`, or is stopped. -/
def NoReturn (m : Prog R α) : Prop := ∀ w p, m w ≠ .ok p

theorem noReturn_exit (n : Int) : NoReturn (exitWith n : Prog R α) := fun w p h => by cases h

theorem noReturn_bind {m : Prog R α} {f : α → Prog R β} (h : ∀ a, NoReturn (f a)) : NoReturn (m >>= f) := by
  intro w p hp
  rw [Prog.bind_eq] at hp
  cases hm : m w with
  | error e => rw [hm] at hp; cases hp
  | ok q => rw [hm] at hp; exact h _ _ _ hp

theorem noReturn_ite {c : Prop} [Decidable c] {a b : Prog R α} (h1 : NoReturn a) (h2 : NoReturn b) :
    NoReturn (if c then a else b) := by
  by_cases h : c
  · rw [if_pos h]; exact h1
  · rw [if_neg h]; exact h2

theorem noReturn_write {name today : CStr} {oi : OiFits R} : NoReturn (do
    let status ← writeFile today name oi
    if status ≠ .ok then exitWith EXIT_FAILURE
    exitWith EXIT_SUCCESS : Prog R Unit) :=
  noReturn_bind fun _ => noReturn_ite (noReturn_bind fun _ => noReturn_exit _) (noReturn_exit _)

theorem noReturn_oifits_filter (u : Undef R) (today : CStr) (removable : CStr → Bool) (line : CommandLine R) :
    NoReturn (oifits_filter u today removable line) := by
  unfold oifits_filter
  split
  · exact noReturn_bind fun _ => noReturn_exit _
  · refine noReturn_bind fun p => ?_
    obtain ⟨oi, st⟩ := p
    cases oi with
    | none => exact noReturn_exit _
    | some oi =>
      refine noReturn_ite (noReturn_exit _) ?_
      refine noReturn_bind fun _ => noReturn_bind fun _ => noReturn_bind fun _ => noReturn_bind fun _ => ?_
      refine noReturn_bind fun _ => noReturn_bind fun _ => noReturn_bind fun _ => noReturn_bind fun _ => ?_
      refine noReturn_ite (noReturn_ite ?_ (noReturn_ite ?_ ?_)) noReturn_write
      · exact noReturn_bind fun _ => noReturn_bind fun _ => noReturn_write
      · exact noReturn_bind fun _ => noReturn_bind fun _ => noReturn_write
      · exact noReturn_bind fun _ => noReturn_write
  · exact noReturn_bind fun _ => noReturn_exit _

/-- If `main` does not return, what `OnSuccess` says holds after the run. -/
theorem on_success {m : Prog R Unit} {fs : Files R} (h : EndsIn m ⟨[], fs, none⟩ (OnSuccess P))
    (hr : NoReturn m) (he : (m.run fs).exit = .code 0) : P (m.run fs).files := by
  unfold Prog.run at he ⊢
  cases hm : m ⟨[], fs, none⟩ with
  | error e =>
    rw [hm] at he
    exact h e hm he
  | ok p => exact absurd hm (hr _ p)

theorem ends_failure {n : Int} (hn : n ≠ 0) {w : World R} : EndsIn (exitWith n : Prog R α) w (OnSuccess P) := by
  intro e he hc
  cases he
  exact absurd (Exit.code.inj hc) hn

theorem ends_success {w : World R} (h : P w.files) : EndsIn (exitWith EXIT_SUCCESS : Prog R α) w (OnSuccess P) := by
  intro e he _
  cases he
  exact h

theorem ends_say {s : CStr} {f : Unit → Prog R β} {w : World R}
    (h : ∀ out, EndsIn (f ()) ⟨out, w.files, w.buffer⟩ (OnSuccess P)) : EndsIn (say s >>= f) w (OnSuccess P) := by
  refine ends_bind (fun e he => by cases he) fun a w' h' => ?_
  cases h'
  exact h _

theorem ends_sayText {m : TextM CStr} {f : Unit → Prog R β} {w : World R}
    (h : ∀ out b, EndsIn (f ()) ⟨out, w.files, b⟩ (OnSuccess P)) : EndsIn (sayText m >>= f) w (OnSuccess P) := by
  refine ends_bind (fun e he hc => absurd hc (sayText_exit he 0)) fun a w' h' => ?_
  have := sayText_inv h'
  obtain ⟨out, fs, b⟩ := w'
  cases this
  exact h _ _

theorem ends_call {m : Outcome α} {f : α → Prog R β} {w : World R}
    (h : ∀ a, m = .ok a → EndsIn (f a) w (OnSuccess P)) : EndsIn (call m >>= f) w (OnSuccess P) := by
  refine ends_bind (fun e he hc => absurd hc (call_exit he 0)) fun a w' h' => ?_
  obtain ⟨h1, rfl⟩ := call_inv h'
  exact h a h1

theorem ends_readFile {u : Undef R} {name : CStr} {f : Option (OiFits R) × Status → Prog R β} {w : World R}
    (h : ∀ oi st, (oi = none ∨ st ≠ .ok ∨ ∃ x, oi = some x ∧ Holds u w.files name x) → EndsIn (f (oi, st)) w (OnSuccess P)) :
    EndsIn (readFile u name >>= f) w (OnSuccess P) := by
  refine ends_bind (fun e he hc => absurd hc (readFile_exit he 0)) fun a w' h' => ?_
  obtain ⟨oi, st⟩ := a
  have hw : w' = w := (call_inv h').2
  subst hw
  refine h oi st ?_
  cases oi with
  | none => exact .inl rfl
  | some x =>
    by_cases hs : st = .ok
    · subst hs
      exact .inr (.inr ⟨x, rfl, (readFile_inv h').2⟩)
    · exact .inr (.inl hs)

/-- The last steps of the programs which write a file. -/
theorem ends_write {name : CStr} (hn : name.head? ≠ some '!') {today : CStr} {oi : OiFits R} {w : World R}
    (h : w.files name = none → ∀ hdus,
      write_oi_fits today false oi .ok = .ok (some hdus, .ok) → P (w.files.set name (some (.fits hdus)))) :
    EndsIn (do
      let status ← writeFile today name oi
      if status ≠ .ok then exitWith EXIT_FAILURE
      exitWith EXIT_SUCCESS : Prog R Unit) w (OnSuccess P) := by
  refine ends_bind (fun e he hc => absurd hc (writeFile_exit he 0)) fun st w' h' => ?_
  refine ends_ite (fun _ => ends_bind (ends_failure (by decide)) fun a w'' h'' => by cases h'') fun hs => ?_
  have hs : st = .ok := Decidable.byContradiction hs
  subst hs
  obtain ⟨h1, hdus, h2, rfl⟩ := writeFile_inv hn h'
  exact ends_success (h h1 hdus h2)

/-! ### oifits-merge and oifits-upgrade -/

theorem obeys_readInputs (hT : Preorder' T) (u : Undef R) (l : List CStr) : Obeys T (readInputs u l) := by
  induction l with
  | nil => exact obeys_pure hT _
  | cons name l ih =>
    unfold readInputs
    refine obeys_bind hT (obeys_readFile hT _ _) fun p => ?_
    obtain ⟨oi, st⟩ := p
    cases oi with
    | none => exact obeys_exit hT _
    | some oi => exact obeys_ite (fun _ => obeys_exit hT _) fun _ => obeys_bind hT ih fun _ => obeys_pure hT _

theorem obeys_last (hT : Preorder' T) {name today : CStr} {oi : OiFits R} (h : Obeys T (writeFile today name oi)) :
    Obeys T (do
      let status ← writeFile today name oi
      if status ≠ .ok then exitWith EXIT_FAILURE
      exitWith EXIT_SUCCESS : Prog R Unit) :=
  obeys_bind hT h fun _ => obeys_ite
    (fun _ => obeys_bind hT (obeys_exit hT _) fun _ => obeys_exit hT _) (fun _ => obeys_exit hT _)

theorem obeys_oifits_merge (hT : Preorder' T) (u : Undef R) (today : CStr) (argv : List CStr)
    (hw : ∀ name, argv[1]? = some name → ∀ oi, Obeys T (writeFile today name oi)) :
    Obeys T (oifits_merge u today argv) := by
  unfold oifits_merge
  split
  · refine obeys_bind hT (obeys_readInputs hT _ _) fun l => obeys_bind hT (obeys_call hT _) fun o => ?_
    refine obeys_bind hT (obeys_say hT _) fun _ => obeys_bind hT (obeys_sayText hT _) fun _ => ?_
    exact obeys_last hT (hw _ rfl _)
  · exact obeys_bind hT (obeys_say hT _) fun _ => obeys_exit hT _

theorem obeys_oifits_upgrade (hT : Preorder' T) (u : Undef R) (today : CStr) (argv : List CStr)
    (hw : ∀ name, argv[2]? = some name → ∀ oi, Obeys T (writeFile today name oi)) :
    Obeys T (oifits_upgrade u today argv) := by
  unfold oifits_upgrade
  split
  · refine obeys_bind hT (obeys_readFile hT _ _) fun p => ?_
    obtain ⟨oi, st⟩ := p
    cases oi with
    | none => exact obeys_exit hT _
    | some oi =>
      refine obeys_ite (fun _ => obeys_exit hT _) fun _ => obeys_ite (fun _ => ?_) fun _ => obeys_ite (fun _ => ?_) fun _ => ?_
      · exact obeys_bind hT (obeys_say hT _) fun _ => obeys_exit hT _
      · exact obeys_bind hT (obeys_say hT _) fun _ => obeys_exit hT _
      · refine obeys_bind hT (obeys_say hT _) fun _ => obeys_bind hT (obeys_sayText hT _) fun _ => ?_
        exact obeys_last hT (hw _ rfl _)
  · exact obeys_bind hT (obeys_say hT _) fun _ => obeys_exit hT _

theorem noReturn_oifits_merge (u : Undef R) (today : CStr) (argv : List CStr) : NoReturn (oifits_merge u today argv) := by
  unfold oifits_merge
  split
  · exact noReturn_bind fun _ => noReturn_bind fun _ => noReturn_bind fun _ => noReturn_bind fun _ => noReturn_write
  · exact noReturn_bind fun _ => noReturn_exit _

theorem noReturn_oifits_upgrade (u : Undef R) (today : CStr) (argv : List CStr) : NoReturn (oifits_upgrade u today argv) := by
  unfold oifits_upgrade
  split
  · refine noReturn_bind fun p => ?_
    obtain ⟨oi, st⟩ := p
    cases oi with
    | none => exact noReturn_exit _
    | some oi =>
      refine noReturn_ite (noReturn_exit _) (noReturn_ite ?_ (noReturn_ite ?_ ?_))
      · exact noReturn_bind fun _ => noReturn_exit _
      · exact noReturn_bind fun _ => noReturn_exit _
      · exact noReturn_bind fun _ => noReturn_bind fun _ => noReturn_write
  · exact noReturn_bind fun _ => noReturn_exit _

/-- All input files are read. -/
theorem readInputs_holds {u : Undef R} {w : World R} {names : List CStr} {ois : List (OiFits R)}
    (h : Pairwise₂ (Holds u w.files) names ois) : readInputs u names w = .ok (ois, w) := by
  induction names generalizing ois with
  | nil =>
    cases ois with
    | nil => rfl
    | cons o l => exact absurd h.1 (by simp)
  | cons name names ih =>
    cases ois with
    | nil => exact absurd h.1 (by simp)
    | cons o l =>
      unfold readInputs
      refine prog_ok (a := (some o, .ok)) (w' := w) (readFile_holds (h.2 0 _ _ rfl rfl)) ?_
      refine prog_else (fun h => h rfl) ?_
      refine prog_ok (ih ⟨by simpa using h.1, fun i x y hx hy => h.2 (i + 1) x y hx hy⟩) rfl

theorem readInputs_inv {u : Undef R} {names : List CStr} {w w' : World R} {ois : List (OiFits R)}
    (h : readInputs u names w = .ok (ois, w')) : w' = w ∧ Pairwise₂ (Holds u w.files) names ois := by
  induction names generalizing w ois with
  | nil =>
    cases h
    exact ⟨rfl, rfl, fun i x y hx _ => by simp at hx⟩
  | cons name names ih =>
    unfold readInputs at h
    rw [Prog.bind_eq] at h
    cases hm : readFile u name w with
    | error e => rw [hm] at h; cases h
    | ok p =>
      rw [hm] at h
      obtain ⟨⟨oi, st⟩, w1⟩ := p
      cases oi with
      | none => cases h
      | some oi =>
        by_cases hs : st = .ok
        · subst hs
          obtain ⟨rfl, hh⟩ := readFile_inv hm
          change (readInputs u names >>= fun more => pure (oi :: more)) w1 = _ at h
          rw [Prog.bind_eq] at h
          cases hm2 : readInputs u names w1 with
          | error e => rw [hm2] at h; cases h
          | ok p =>
            obtain ⟨l, w2⟩ := p
            rw [hm2] at h
            cases h
            obtain ⟨rfl, h1, h2⟩ := ih hm2
            refine ⟨rfl, by simp [h1], fun i x y hx hy => ?_⟩
            cases i with
            | zero => cases hx; cases hy; exact hh
            | succ i => exact h2 i x y hx hy
        · have : (if st ≠ .ok then (exitWith EXIT_FAILURE : Prog R (List (OiFits R))) else do
              let more ← readInputs u names
              pure (oi :: more)) w1 = .ok (ois, w') := h
          rw [if_pos hs] at this
          cases this

/-- The program does not end successfully while reading files. -/
theorem readInputs_exit {u : Undef R} {names : List CStr} {w : World R} {e : Final R}
    (h : readInputs u names w = .error e) : e.exit ≠ .code 0 := by
  induction names generalizing w with
  | nil => cases h
  | cons name names ih =>
    unfold readInputs at h
    rcases prog_inv h with h | ⟨⟨oi, st⟩, w1, _, h⟩
    · exact readFile_exit h 0
    · cases oi with
      | none => cases h; exact fun h => by cases h
      | some oi =>
        by_cases hs : st = .ok
        · subst hs
          change (readInputs u names >>= fun more => pure (oi :: more)) w1 = _ at h
          rcases prog_inv h with h | ⟨l, w2, _, h⟩
          · exact ih h
          · cases h
        · have : (if st ≠ .ok then (exitWith EXIT_FAILURE : Prog R (List (OiFits R))) else do
              let more ← readInputs u names
              pure (oi :: more)) w1 = .error e := h
          rw [if_pos hs] at this
          cases this
          exact fun h => by cases h

theorem readInputs_unreadable {u : Undef R} {w : World R} {before after : List CStr} {name : CStr}
    (hb : ∀ n ∈ before, ∃ oi, Holds u w.files n oi) (h : Unreadable u w.files name) :
    readInputs u (before ++ name :: after) w = .error ⟨.code 1, w.out, w.files⟩ := by
  induction before with
  | nil =>
    obtain ⟨oi, st, h1, h2⟩ := readFile_unreadable h
    rw [List.nil_append]
    unfold readInputs
    refine prog_ok h1 ?_
    cases oi with
    | none => rfl
    | some oi => exact prog_then (h2.resolve_left (by simp)) rfl
  | cons n before ih =>
    obtain ⟨oi, ho⟩ := hb n List.mem_cons_self
    rw [List.cons_append]
    unfold readInputs
    refine prog_ok (readFile_holds ho) ?_
    refine prog_else (fun h => h rfl) ?_
    exact prog_error (ih fun n hn => hb n (List.mem_cons_of_mem _ hn))

/-! ### Options -/

/-- If only the option `opt` changes what `get` returns, then it decides about it. -/
theorem setBy_of {γ : Type} (opts : List (FilterOpt R)) (opt : α → FilterOpt R) (get : ParseVars R → γ) (g : α → γ)
    (conv : γ → β) (h1 : ∀ v x, get (storeOption v (opt x)) = g x)
    (h2 : ∀ v o, (∀ x, o ≠ opt x) → get (storeOption v o) = get v) {value : β}
    (hv : value = conv (get (opts.foldl storeOption filter_pre_parse))) {of : α → β} (hof : ∀ x, of x = conv (g x))
    {default : β} (hd : default = conv (get filter_pre_parse)) : SetBy opt opts value of default := by
  have skip : ∀ (l : List (FilterOpt R)) (v : ParseVars R), (∀ x, opt x ∉ l) → get (l.foldl storeOption v) = get v := by
    intro l
    induction l with
    | nil => intro v _; rfl
    | cons o l ih =>
      intro v hl
      rw [List.foldl_cons, ih _ fun x hx => hl x (List.mem_cons_of_mem _ hx)]
      exact h2 v o fun x e => hl x (e ▸ List.mem_cons_self)
  constructor
  · rintro x ⟨before, after, e, ha⟩
    rw [hv, e, List.foldl_append, List.foldl_cons, skip after _ ha, h1, hof]
  · intro hn
    rw [hv, skip opts _ hn, hd]

theorem post_arrname (v : ParseVars R) : (filter_post_parse v).arrname =
    match v.arrname with | none => v.parsedFilter.arrname | some s => strlcpy s FLEN_VALUE := by
  obtain ⟨f, a, b, c, _, _, _, _⟩ := v
  cases a <;> cases b <;> cases c <;> rfl

theorem post_insname (v : ParseVars R) : (filter_post_parse v).insname =
    match v.insname with | none => v.parsedFilter.insname | some s => strlcpy s FLEN_VALUE := by
  obtain ⟨f, a, b, c, _, _, _, _⟩ := v
  cases a <;> cases b <;> cases c <;> rfl

theorem post_corrname (v : ParseVars R) : (filter_post_parse v).corrname =
    match v.corrname with | none => v.parsedFilter.corrname | some s => strlcpy s FLEN_VALUE := by
  obtain ⟨f, a, b, c, _, _, _, _⟩ := v
  cases a <;> cases b <;> cases c <;> rfl

/-- The criteria which `filter_post_parse` does not touch. -/
theorem post_rest (v : ParseVars R) :
    (filter_post_parse v).target_id = v.parsedFilter.target_id ∧
    (filter_post_parse v).mjd_range = v.parsedFilter.mjd_range ∧
    (filter_post_parse v).bas_range = v.parsedFilter.bas_range ∧
    (filter_post_parse v).uvrad_range = v.parsedFilter.uvrad_range ∧
    (filter_post_parse v).accept_vis = v.parsedFilter.accept_vis ∧
    (filter_post_parse v).accept_vis2 = v.parsedFilter.accept_vis2 ∧
    (filter_post_parse v).accept_t3amp = v.parsedFilter.accept_t3amp ∧
    (filter_post_parse v).accept_t3phi = v.parsedFilter.accept_t3phi ∧
    (filter_post_parse v).accept_flux = v.parsedFilter.accept_flux ∧
    (filter_post_parse v).accept_flagged = v.parsedFilter.accept_flagged := by
  obtain ⟨f, a, b, c, _, _, _, _⟩ := v
  cases a <;> cases b <;> cases c <;> exact ⟨rfl, rfl, rfl, rfl, rfl, rfl, rfl, rfl, rfl, rfl⟩

/-- No option changes the names in `parsedFilter`. -/
theorem fold_names (opts : List (FilterOpt R)) (v : ParseVars R) :
    (opts.foldl storeOption v).parsedFilter.arrname = v.parsedFilter.arrname ∧
    (opts.foldl storeOption v).parsedFilter.insname = v.parsedFilter.insname ∧
    (opts.foldl storeOption v).parsedFilter.corrname = v.parsedFilter.corrname := by
  induction opts generalizing v with
  | nil => exact ⟨rfl, rfl, rfl⟩
  | cons o l ih =>
    rw [List.foldl_cons, (ih _).1, (ih _).2.1, (ih _).2.2]
    cases o <;> exact ⟨rfl, rfl, rfl⟩

/-- The name criterion which an option (or none) gives. -/
def nameOr : Option CStr → CStr
  | none => "*"
  | some s => s.take 70

theorem user_arrname (opts : List (FilterOpt R)) :
    (userFilter opts).arrname = nameOr (opts.foldl storeOption filter_pre_parse).arrname := by
  refine (post_arrname _).trans ?_
  rw [(fold_names opts _).1]
  cases (opts.foldl storeOption filter_pre_parse).arrname <;> rfl

theorem user_insname (opts : List (FilterOpt R)) :
    (userFilter opts).insname = nameOr (opts.foldl storeOption filter_pre_parse).insname := by
  refine (post_insname _).trans ?_
  rw [(fold_names opts _).2.1]
  cases (opts.foldl storeOption filter_pre_parse).insname <;> rfl

theorem user_corrname (opts : List (FilterOpt R)) :
    (userFilter opts).corrname = nameOr (opts.foldl storeOption filter_pre_parse).corrname := by
  refine (post_corrname _).trans ?_
  rw [(fold_names opts _).2.2]
  cases (opts.foldl storeOption filter_pre_parse).corrname <;> rfl

/-- Closes the goal that another option leaves a variable alone. -/
macro "other_option" : tactic =>
  `(tactic| (intro v o h; cases o <;> first | rfl | exact absurd rfl (h _)))

/-- The value which the options give to the variable `get`, converted by `conv`. -/
macro "from_option" get:term:max g:term:max conv:term:max hv:term:max : tactic =>
  `(tactic| exact setBy_of _ _ $get $g $conv (fun _ _ => rfl) (by other_option) $hv (fun _ => rfl) rfl)

end Verif
