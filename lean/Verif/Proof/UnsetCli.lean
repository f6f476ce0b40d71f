import Verif.Proof.UnsetWrite
import Verif.Proof.UnsetCheck
import Verif.Proof.Cli

/-! The programs do not depend on the members which are not set. -/

namespace Verif
open Spec Outcome

variable {R : FP} {α β : Type}

theorem prog_same {m m' : Prog R α} {f f' : α → Prog R β} {w : World R} (h : m w = m' w)
    (hf : ∀ a w', m w = .ok (a, w') → f a w' = f' a w') : (m >>= f) w = (m' >>= f') w := by
  rw [Prog.bind_eq, Prog.bind_eq, ← h]
  cases hm : m w with
  | error e => rfl
  | ok p => exact hf p.1 p.2 hm

theorem reads_alike (u u' : Undef R) {fs : Files R} {name : CStr} (hf : FilledAt fs name) {w : World R} (hw : w.files = fs) :
    (∃ a b, readFile u name w = .ok ((some a, .ok), w) ∧ readFile u' name w = .ok ((some b, .ok), w) ∧ a.blank = b.blank) ∨
    ∃ st st', readFile u name w = .ok ((none, st), w) ∧ readFile u' name w = .ok ((none, st'), w) := by
  subst hw
  have none_case : (∀ hdus, w.files name ≠ some (.fits hdus)) →
      ∃ st st', readFile u name w = .ok ((none, st), w) ∧ readFile u' name w = .ok ((none, st'), w) := by
    intro hn
    obtain ⟨st, -, e⟩ := C63_unopened u
    obtain ⟨st', -, e'⟩ := C63_unopened u'
    refine ⟨st, st', ?_, ?_⟩ <;> unfold readFile <;> cases h : w.files name with
    | none => simp only [e, e']; rfl
    | some d =>
      cases d with
      | fits hdus => exact absurd h (hn hdus)
      | other => simp only [e, e']; rfl
  by_cases hx : ∃ hdus, w.files name = some (.fits hdus)
  · obtain ⟨hdus, hx⟩ := hx
    have hfl := hf hdus hx
    have run : ∀ v : Undef R, readFile v name w = call (read_oi_fits v (some hdus) .ok) w := by
      intro v; unfold readFile; simp only [hx]
    rw [run, run]
    rcases C63_ends u hfl.primary with ⟨a, h1⟩ | ⟨st, -, h1⟩ | ⟨-, h1⟩
    · obtain ⟨b, h2⟩ := read_again u u' hfl h1
      rw [h1, h2]
      exact .inl ⟨a, b, rfl, rfl, read_alike hfl h1 h2⟩
    · rcases C63_ends u' hfl.primary with ⟨b, h2⟩ | ⟨st', -, h2⟩ | ⟨-, h2⟩
      · obtain ⟨a, h3⟩ := read_again u' u hfl h2
        rw [h1] at h3
        cases h3
      · rw [h1, h2]
        exact .inr ⟨st, st', rfl, rfl⟩
      · exact absurd hfl.tables h2
    · exact absurd hfl.tables h1
  · exact .inr (none_case fun hdus h => hx ⟨hdus, h⟩)

theorem readFile_two (u u' : Undef R) {fs : Files R} {name : CStr} (hf : FilledAt fs name) {w : World R} (hw : w.files = fs)
    {f f' : Option (OiFits R) × Status → Prog R β}
    (hok : ∀ a b, OiFits.blank a = OiFits.blank b → f (some a, .ok) w = f' (some b, .ok) w)
    (hno : ∀ st st', f (none, st) w = f' (none, st') w) : (readFile u name >>= f) w = (readFile u' name >>= f') w := by
  rw [Prog.bind_eq, Prog.bind_eq]
  rcases reads_alike u u' hf hw with ⟨a, b, h1, h2, h3⟩ | ⟨st, st', h1, h2⟩
  · rw [h1, h2]
    exact hok a b h3
  · rw [h1, h2]
    exact hno st st'

theorem call_two {m m' : Outcome (OiFits R)} (h : bl m = bl m') {f f' : OiFits R → Prog R β} {w : World R}
    (hf : ∀ a b, OiFits.blank a = OiFits.blank b → f a w = f' b w) : (call m >>= f) w = (call m' >>= f') w := by
  rw [Prog.bind_eq, Prog.bind_eq]
  cases m <;> cases m' <;> first | rfl | cases h | skip
  rename_i a b
  exact hf a b (Outcome.ok.inj h)

theorem summary_alike {a b : OiFits R} (h : a.blank = b.blank) : format_oi_fits_summary a = format_oi_fits_summary b := by
  rw [← summary_blank, h, summary_blank]

theorem writeFile_alike {a b : OiFits R} (h : a.blank = b.blank) (today name : CStr) :
    writeFile today name a = writeFile today name b := by
  unfold writeFile
  simp only [write_alike h]

theorem runChecks_alike {a b : OiFits R} (h : a.blank = b.blank) : runChecks a checkList .none = runChecks b checkList .none := by
  rw [← runChecks_blank a _ (checkList_blank a), h, runChecks_blank b _ (checkList_blank b)]

theorem check_any (u u' : Undef R) {fs : Files R} {file : CStr} (prog : CStr) (hf : FilledAt fs (strlcpy file FLEN_FILENAME)) :
    (oifits_check u [prog, file]).run fs = (oifits_check u' [prog, file]).run fs := by
  have key : oifits_check u [prog, file] ⟨[], fs, none⟩ = oifits_check u' [prog, file] ⟨[], fs, none⟩ := by
    unfold oifits_check
    refine readFile_two u u' hf rfl (fun a b h => ?_) fun st st' => rfl
    simp only [summary_alike h, runChecks_alike h]
  unfold Prog.run
  rw [key]

theorem filter_any (u u' : Undef R) (today : CStr) (removable : CStr → Bool) (opts : List (FilterOpt R)) (clobber : Bool)
    {fs : Files R} {infile : CStr} (prog outfile : CStr) (hf : FilledAt fs (strlcpy infile FLEN_FILENAME)) :
    (oifits_filter u today removable (.args opts clobber [prog, infile, outfile])).run fs
      = (oifits_filter u' today removable (.args opts clobber [prog, infile, outfile])).run fs := by
  have key : oifits_filter u today removable (.args opts clobber [prog, infile, outfile]) ⟨[], fs, none⟩
      = oifits_filter u' today removable (.args opts clobber [prog, infile, outfile]) ⟨[], fs, none⟩ := by
    unfold oifits_filter
    refine readFile_two u u' hf rfl (fun a b h => ?_) fun st st' => rfl
    simp only [ne_eq, not_true_eq_false, if_false]
    refine prog_same rfl fun _ w _ => ?_
    rw [summary_alike h]
    refine prog_same rfl fun _ w _ => ?_
    refine prog_same rfl fun _ w _ => ?_
    refine prog_same rfl fun _ w _ => ?_
    refine call_two (filter_alike h _) fun x y hxy => ?_
    rw [summary_alike hxy, writeFile_alike hxy]
  unfold Prog.run
  rw [key]

theorem inputs_two (u u' : Undef R) {fs : Files R} : ∀ {l : List CStr} (_ : ∀ n ∈ l, FilledAt fs n) {w : World R} (_ : w.files = fs),
    (∃ as bs, readInputs u l w = .ok (as, w) ∧ readInputs u' l w = .ok (bs, w) ∧ as.map OiFits.blank = bs.map OiFits.blank) ∨
    ∃ e, readInputs u l w = .error e ∧ readInputs u' l w = .error e
  | [], _, w, _ => .inl ⟨[], [], rfl, rfl, rfl⟩
  | n :: l, hf, w, hw => by
    unfold readInputs
    rw [Prog.bind_eq, Prog.bind_eq]
    rcases reads_alike u u' (hf n List.mem_cons_self) hw with ⟨a, b, h1, h2, h3⟩ | ⟨st, st', h1, h2⟩
    · rw [h1, h2]
      simp only [ne_eq, not_true_eq_false, if_false]
      rw [Prog.bind_eq, Prog.bind_eq]
      rcases inputs_two u u' (fun n hn => hf n (List.mem_cons_of_mem _ hn)) hw with ⟨as, bs, k1, k2, k3⟩ | ⟨e, k1, k2⟩
      · rw [k1, k2]
        refine .inl ⟨a :: as, b :: bs, rfl, rfl, ?_⟩
        rw [List.map_cons, List.map_cons, h3, k3]
      · rw [k1, k2]
        exact .inr ⟨e, rfl, rfl⟩
    · rw [h1, h2]
      exact .inr ⟨_, rfl, rfl⟩

theorem merge_any (u u' : Undef R) (today : CStr) {fs : Files R} {in1 in2 : CStr} {more : List CStr} (prog outfile : CStr)
    (hf : ∀ n ∈ in1 :: in2 :: more, FilledAt fs n) :
    (oifits_merge u today (prog :: outfile :: in1 :: in2 :: more)).run fs
      = (oifits_merge u' today (prog :: outfile :: in1 :: in2 :: more)).run fs := by
  have key : oifits_merge u today (prog :: outfile :: in1 :: in2 :: more) ⟨[], fs, none⟩
      = oifits_merge u' today (prog :: outfile :: in1 :: in2 :: more) ⟨[], fs, none⟩ := by
    unfold oifits_merge
    simp only
    rw [Prog.bind_eq, Prog.bind_eq]
    rcases inputs_two u u' hf (w := ⟨[], fs, none⟩) rfl with ⟨as, bs, k1, k2, k3⟩ | ⟨e, k1, k2⟩
    · rw [k1, k2]
      refine call_two (merge_alike k3) fun x y hxy => ?_
      rw [summary_alike hxy, writeFile_alike hxy]
    · rw [k1, k2]
  unfold Prog.run
  rw [key]

theorem upgrade_any (u u' : Undef R) (today : CStr) {fs : Files R} {infile : CStr} (prog : CStr) (rest : List CStr)
    (hf : FilledAt fs infile) :
    (oifits_upgrade u today (prog :: infile :: rest)).run fs = (oifits_upgrade u' today (prog :: infile :: rest)).run fs := by
  have key : oifits_upgrade u today (prog :: infile :: rest) ⟨[], fs, none⟩
      = oifits_upgrade u' today (prog :: infile :: rest) ⟨[], fs, none⟩ := by
    match rest with
    | [] => rfl
    | [_] => rfl
    | [_, _] => rfl
    | outfile :: origin :: observer :: more =>
      unfold oifits_upgrade
      refine readFile_two u u' hf rfl (fun a b h => ?_) fun st st' => rfl
      have h1 : is_oi_fits_two a = is_oi_fits_two b :=
        (congrArg is_oi_fits_two h : is_oi_fits_two a.blank = is_oi_fits_two b.blank)
      have h2 : a.numArray = b.numArray :=
        (congrArg OiFits.numArray h : a.blank.numArray = b.blank.numArray)
      have h3 : a.header = b.header := (congrArg OiFits.header h : a.blank.header = b.blank.header)
      have h4 : ∀ hd, ({ a with header := hd } : OiFits R).blank = ({ b with header := hd } : OiFits R).blank :=
        fun hd => congrArg (fun x : OiFits R => ({ x with header := hd } : OiFits R)) h
      simp only [ne_eq, not_true_eq_false, if_false, h1, h3]
      by_cases c1 : is_oi_fits_two b = true
      · rw [if_pos c1, if_pos c1]
      · rw [if_neg c1, if_neg c1]
        by_cases c2 : b.numArray = 0
        · rw [if_pos c2, if_pos (h2.trans c2)]
        · rw [if_neg c2, if_neg fun e => c2 (h2.symm.trans e), summary_alike (h4 _), writeFile_alike (h4 _)]
  unfold Prog.run
  rw [key]

end Verif
