import Verif.Proof.Text
import Verif.Props.Check

/-! Proofs about oifits-check. -/

namespace Verif
open Outcome Spec
variable {R : FP} {α β : Type}

/-! ### Programs -/

theorem Prog.bind_eq (m : Prog R α) (f : α → Prog R β) (w : World R) :
    (m >>= f) w = match m w with
      | .error e => .error e
      | .ok (a, w) => f a w := rfl

theorem prog_ok {m : Prog R α} {f : α → Prog R β} {w w' : World R} {a : α} {r : Except (Final R) (β × World R)}
    (h : m w = .ok (a, w')) (hr : f a w' = r) : (m >>= f) w = r := by
  rw [Prog.bind_eq, h]; exact hr

theorem prog_error {m : Prog R α} {f : α → Prog R β} {w : World R} {e : Final R} (h : m w = .error e) :
    (m >>= f) w = .error e := by
  rw [Prog.bind_eq, h]

theorem prog_then {c : Prop} [Decidable c] {a b : Prog R α} {w : World R} {r : Except (Final R) (α × World R)} (h : c)
    (hr : a w = r) : (if c then a else b) w = r := by
  rw [if_pos h]; exact hr

theorem prog_else {c : Prop} [Decidable c] {a b : Prog R α} {w : World R} {r : Except (Final R) (α × World R)} (h : ¬ c)
    (hr : b w = r) : (if c then a else b) w = r := by
  rw [if_neg h]; exact hr

theorem sayText_ok {m : TextM CStr} {w : World R} {s : CStr} {b : Option CStr} (h : m w.buffer = .ok (s, b)) :
    sayText m w = .ok ((), { w with out := w.out ++ s, buffer := b }) := by
  unfold sayText; rw [h]

theorem sayText_start {m : TextM CStr} {files : Files R} {s : CStr} {b b' : Option CStr} (h : m b = .ok (s, b')) :
    sayText m ⟨[], files, b⟩ = .ok ((), ⟨s, files, b'⟩) := sayText_ok (w := ⟨[], files, b⟩) h

theorem call_ok (a : α) (w : World R) : call (.ok a) w = .ok (a, w) := rfl

/-! ### The checks -/

theorem levels_real (oi : OiFits R) : ∀ bs ∈ breachLists oi, ∀ b ∈ bs, b.level = .warning ∨ b.level = .notOifits := by
  unfold breachLists
  simp only [List.mem_cons, List.not_mem_nil, or_false, forall_eq_or_imp, forall_eq]
  refine ⟨?_, ?_, ?_, ?_, ?_, ?_, ?_, ?_, ?_, ?_, ?_, ?_, ?_, ?_⟩
  · unfold missingTables revisionBreaches badRevisions
    all_breaches <;> first | exact .inr rfl | exact .inl rfl
  · unfold headerBreaches missingKey
    all_breaches <;> first | exact .inr rfl | exact .inl rfl
  · unfold keywordBreaches
    all_breaches <;> first | exact .inr rfl | exact .inl rfl
  · unfold visrefmapBreaches
    all_breaches <;> first | exact .inr rfl | exact .inl rfl
  · intro b hb
    obtain ⟨t, _, rfl⟩ := List.mem_map.mp hb
    exact .inl rfl
  · unfold targetBreaches
    all_breaches <;> first | exact .inr rfl | exact .inl rfl
  · unfold arrnameBreaches namelessTables
    all_breaches <;> first | exact .inr rfl | exact .inl rfl
  · unfold elementBreaches dataElementBreaches unknownElements
    all_breaches <;> first
      | exact .inr rfl
      | (intro x hx; rw [List.mem_singleton.mp hx]; exact .inr rfl)
  · unfold corrBreaches
    all_breaches <;> first | exact .inr rfl | exact .inl rfl
  · unfold flaggingBreaches badChannels
    all_breaches <;> first | exact .inr rfl | exact .inl rfl
  · unfold t3ampBreaches badChannels
    all_breaches <;> first | exact .inr rfl | exact .inl rfl
  · unfold waveorderBreaches
    all_breaches <;> first | exact .inr rfl | exact .inl rfl
  · unfold timeBreaches nonZeroTimes
    all_breaches <;> first | exact .inr rfl | exact .inl rfl
  · unfold fluxBreaches
    all_breaches <;> first | exact .inr rfl | exact .inl rfl

/-- The check finds the breaches `bs`, and aborts iff they are of different kinds. -/
def Finds (check : OiFits R → Outcome CheckResult) (oi : OiFits R) (bs : List Breach) : Prop :=
  (SameDescription bs → ∃ r, check oi = .ok r ∧ Reports r bs) ∧ (¬ SameDescription bs → check oi = .abort)

theorem finds_of_ok {check : OiFits R → Outcome CheckResult} {oi : OiFits R} {bs : List Breach}
    (h : ∃ r, check oi = .ok r ∧ Reports r bs) (hs : SameDescription bs) : Finds check oi bs :=
  ⟨fun _ => h, fun hn => absurd hs hn⟩

theorem finds_replay {check : OiFits R → Outcome CheckResult} {oi : OiFits R} {bs : List Breach}
    (h : check oi = replay bs init_check_result) : Finds check oi bs := by
  constructor
  · intro hs; rw [h]; exact replay_init_ok hs
  · intro hs; rw [h]; exact replay_init_abort hs

/-- Two lists of equal length, in step. -/
inductive InStep (P : α → β → Prop) : List α → List β → Prop
  | nil : InStep P [] []
  | cons {a b l m} : P a b → InStep P l m → InStep P (a :: l) (b :: m)

theorem checks_find {oi : OiFits R} (hw : oi.WF) :
    InStep (fun check bs => Finds check oi bs) checkList (breachLists oi) := by
  unfold checkList breachLists
  refine .cons ?_ (.cons ?_ (.cons ?_ (.cons ?_ (.cons ?_ (.cons ?_ (.cons ?_ (.cons ?_ (.cons ?_ (.cons ?_ (.cons ?_
    (.cons ?_ (.cons ?_ (.cons ?_ .nil)))))))))))))
  · exact finds_replay (check_tables_eq oi hw.counts)
  · refine finds_of_ok ((C11_check_header oi).imp fun _ h => ⟨h.1, h.2.1⟩)
      (sameDescription_of ("Invalid/missing primary header keyword value" : CStr) ?_)
    unfold headerBreaches missingKey
    all_breaches <;> rfl
  · refine finds_of_ok ((C11_check_keywords oi).imp fun _ h => ⟨h.1, h.2.1⟩)
      (sameDescription_of ("Invalid keyword value" : CStr) ?_)
    unfold keywordBreaches
    all_breaches <;> rfl
  · refine finds_of_ok ((C13_check_visrefmap oi).imp fun _ h => ⟨h.1, h.2.1⟩)
      (sameDescription_of ("VISREFMAP present (missing) for absolute (differential) vis" : CStr) ?_)
    unfold visrefmapBreaches
    all_breaches <;> rfl
  · refine finds_of_ok ((C05_check_unique_targets oi).imp fun _ h => ⟨h.1, h.2.1⟩)
      (sameDescription_of ("Duplicate value in TARGET column of OI_TARGET" : CStr) ?_)
    intro b hb
    obtain ⟨t, _, rfl⟩ := List.mem_map.mp hb
    rfl
  · refine finds_of_ok ((C06_check_targets_present oi).imp fun _ h => ⟨h.1, h.2.1⟩)
      (sameDescription_of ("Reference to missing target record" : CStr) ?_)
    unfold targetBreaches
    all_breaches <;> rfl
  · refine finds_of_ok ((C08_check_arrname_partial oi).imp fun _ h => ⟨h.1, h.2.1⟩)
      (sameDescription_of ("ARRNAME missing" : CStr) ?_)
    unfold arrnameBreaches namelessTables
    all_breaches <;> rfl
  · exact finds_replay (check_elements_present_eq oi)
  · refine finds_of_ok ((C09_check_corr_present oi).imp fun _ h => ⟨h.1, h.2.1⟩)
      (sameDescription_of ("Reference to missing OI_CORR table" : CStr) ?_)
    unfold corrBreaches
    all_breaches <;> rfl
  · refine finds_of_ok ((C12_check_flagging oi hw).imp fun _ h => ⟨h.1, h.2.1⟩)
      (sameDescription_of ("Data table contains negative error bar" : CStr) ?_)
    unfold flaggingBreaches badChannels
    all_breaches <;> rfl
  · refine finds_of_ok ((C13_check_t3amp oi hw).imp fun _ h => ⟨h.1, h.2.1⟩)
      (sameDescription_of ("OI_T3 table may contain unnormalised triple product amplitude" : CStr) ?_)
    unfold t3ampBreaches badChannels
    all_breaches <;> rfl
  · refine finds_of_ok ((C13_check_waveorder oi hw).imp fun _ h => ⟨h.1, h.2.1⟩)
      (sameDescription_of ("OI_WAVELENGTH has wavelengths not in ascending order" : CStr) ?_)
    unfold waveorderBreaches
    all_breaches <;> rfl
  · refine finds_of_ok ((C13_check_time oi).imp fun _ h => ⟨h.1, h.2.1⟩)
      (sameDescription_of ("Non-zero TIME values in OIFITS v2 data table" : CStr) ?_)
    unfold timeBreaches nonZeroTimes
    all_breaches <;> rfl
  · refine finds_of_ok ((C13_check_flux oi fun t ht => (hw.flux t ht).rows).imp fun _ h => ⟨h.1, h.2.1⟩)
      (sameDescription_of ("ARRNAME/STA_INDEX/FOVTYPE present (missing) in (un)calibrated fluxes" : CStr) ?_)
    unfold fluxBreaches
    all_breaches <;> rfl

theorem level_desc {r : CheckResult} {bs : List Breach} (h : Reports r bs) (hne : bs ≠ [])
    (hl : ∀ b ∈ bs, b.level = .warning ∨ b.level = .notOifits) : oi_breach_level_desc r.level = severity bs := by
  have hnone : r.level ≠ .none := by
    intro e
    exact hne ((reports_none_iff h fun b hb => by rcases hl b hb with e | e <;> rw [e] <;> decide).mp e)
  have n1 : bs.any (fun b => b.level = .notFits) = false := by
    rw [List.any_eq_false]
    intro b hb
    rcases hl b hb with e | e <;> simp [e]
  unfold severity
  rw [if_neg (by rw [n1]; decide)]
  rcases h.attained with e | ⟨b, hb, e⟩
  · exact absurd e hnone
  · rcases hl b hb with e' | e'
    · have : bs.any (fun b => b.level = .notOifits) = false := by
        rw [List.any_eq_false]
        intro c hc
        have := h.atLeast c hc
        rw [← e, e'] at this
        intro hcl
        rw [decide_eq_true_eq] at hcl
        rw [hcl] at this
        exact absurd this (by decide)
      rw [if_neg (by rw [this]; decide), ← e, e']; rfl
    · have : bs.any (fun b => b.level = .notOifits) = true := by
        rw [List.any_eq_true]
        exact ⟨b, hb, by simp [e']⟩
      rw [if_pos this, ← e, e']; rfl

theorem print_result {r : CheckResult} {bs : List Breach} (h : Reports r bs) (hne : bs ≠ [])
    (hl : ∀ b ∈ bs, b.level = .warning ∨ b.level = .notOifits) : print_check_result r = .ok (reportText bs) := by
  unfold print_check_result
  rw [C04_format r bs h fun b hb => by rcases hl b hb with e | e <;> rw [e] <;> decide]
  cases bs with
  | nil => exact absurd rfl hne
  | cons b bs =>
    rw [bind_ok, level_desc h hne hl]
    simp only [deref_some, reportText]
    congr 1
    have l1 : ∀ x : CStr, ("*** " : CStr) ++ x ++ (":\n" : CStr) = line ["*** ", x, ":"] := by
      intro x
      simp only [line, List.flatten_cons, List.flatten_nil, List.append_assoc, List.append_nil]; rfl
    have l2 : ∀ x y : CStr, x ++ (", " : CStr) ++ y ++ (" occurrences:-\n" : CStr) = line [x, ", ", y, " occurrences:-"] := by
      intro x y
      simp only [line, List.flatten_cons, List.flatten_nil, List.append_assoc, List.append_nil]; rfl
    have l3 : ∀ x : CStr, ("    " : CStr) ++ x ++ ("\n" : CStr) = line ["    ", x] := by
      intro x
      simp only [line, List.flatten_cons, List.flatten_nil, List.append_assoc, List.append_nil]; rfl
    rw [l1]
    have e1 : ∀ z : CStr, line ["*** ", severity (b :: bs), ":"] ++ b.description ++ (", " : CStr) ++ dec (b :: bs).length ++
        (" occurrences:-\n" : CStr) ++ z = line ["*** ", severity (b :: bs), ":"] ++
        line [b.description, ", ", dec (bs.length + 1), " occurrences:-"] ++ z := by
      intro z
      rw [← l2]
      simp only [List.append_assoc, List.length_cons]
    rw [e1, List.flatMap_append, ← List.append_assoc]
    congr 1
    · congr 1
      rw [List.flatMap_map]
      exact flatMap_congr_mem fun x _ => l3 x.location
    · rw [List.length_cons]
      by_cases h10 : 10 ≤ bs.length + 1
      · rw [if_pos h10, if_pos h10]; rfl
      · rw [if_neg h10, if_neg h10]; rfl

theorem level_max (a b : Level) : (if b.toNat > a.toNat then b else a) = .none ↔ a = .none ∧ b = .none := by
  cases a <;> cases b <;> decide

/-- The loop over the checks, without an abort. -/
theorem runChecks_ok {oi : OiFits R} {checks : List (OiFits R → Outcome CheckResult)} {lists : List (List Breach)}
    (h : InStep (fun check bs => Finds check oi bs) checks lists)
    (hl : ∀ bs ∈ lists, ∀ b ∈ bs, b.level = .warning ∨ b.level = .notOifits)
    (hs : ∀ bs ∈ lists, SameDescription bs) (worst : Level) (w : World R) :
    ∃ worst', runChecks oi checks worst w = .ok (worst', { w with out := w.out ++ lists.flatMap reportText }) ∧
      (worst' = .none ↔ worst = .none ∧ ∀ bs ∈ lists, bs = []) := by
  induction h generalizing worst w with
  | nil =>
    refine ⟨worst, ?_, by simp⟩
    rw [List.flatMap_nil, List.append_nil]; rfl
  | cons hf hrest ih =>
    rename_i check bs checks lists
    obtain ⟨r, hr, hrep⟩ := hf.1 (hs _ List.mem_cons_self)
    have hl' := hl _ List.mem_cons_self
    have hn := reports_none_iff hrep fun b hb => by rcases hl' b hb with e | e <;> rw [e] <;> decide
    unfold runChecks
    by_cases hb : bs = []
    · obtain ⟨worst', h1, h2⟩ := ih (fun b hb => hl b (List.mem_cons_of_mem _ hb))
        (fun b hb => hs b (List.mem_cons_of_mem _ hb)) worst w
      refine ⟨worst', ?_, ?_⟩
      · refine prog_ok (a := r) (w' := w) (by rw [hr]; rfl) ?_
        rw [if_neg (by rw [hn.mpr hb]; exact fun h => h rfl), h1, hb]
        rfl
      · rw [h2]; simp [hb]
    · obtain ⟨worst', h1, h2⟩ := ih (fun b hb => hl b (List.mem_cons_of_mem _ hb))
        (fun b hb => hs b (List.mem_cons_of_mem _ hb)) (if r.level.toNat > worst.toNat then r.level else worst)
        { w with out := w.out ++ reportText bs }
      have hne : r.level ≠ .none := fun e => hb (hn.mp e)
      refine ⟨worst', ?_, ?_⟩
      · refine prog_ok (a := r) (w' := w) (by rw [hr]; rfl) ?_
        rw [if_pos hne]
        refine prog_ok (a := reportText bs) (w' := w) (by rw [print_result hrep hb hl']; rfl) ?_
        refine prog_ok (a := ()) (w' := { w with out := w.out ++ reportText bs }) rfl ?_
        rw [h1, List.flatMap_cons, List.append_assoc]
      · rw [h2, level_max]
        simp [hb, hne]

/-- The loop over the checks, with an abort. -/
theorem runChecks_abort {oi : OiFits R} {checks : List (OiFits R → Outcome CheckResult)} {lists : List (List Breach)}
    (h : InStep (fun check bs => Finds check oi bs) checks lists)
    (hl : ∀ bs ∈ lists, ∀ b ∈ bs, b.level = .warning ∨ b.level = .notOifits)
    (hs : ∃ bs ∈ lists, ¬ SameDescription bs) (worst : Level) (w : World R) :
    ∃ before bad after, lists = before ++ bad :: after ∧ ¬ SameDescription bad ∧ (∀ bs ∈ before, SameDescription bs) ∧
      runChecks oi checks worst w = .error ⟨.abort, w.out ++ before.flatMap reportText, w.files⟩ := by
  induction h generalizing worst w with
  | nil => simp at hs
  | cons hf hrest ih =>
    rename_i check bs checks lists
    by_cases hsd : SameDescription bs
    · obtain ⟨r, hr, hrep⟩ := hf.1 hsd
      have hl' := hl _ List.mem_cons_self
      have hn := reports_none_iff hrep fun b hb => by rcases hl' b hb with e | e <;> rw [e] <;> decide
      have hs' : ∃ bs ∈ lists, ¬ SameDescription bs := by
        obtain ⟨b, hb, hbs⟩ := hs
        rcases List.mem_cons.mp hb with rfl | hb
        · exact absurd hsd hbs
        · exact ⟨b, hb, hbs⟩
      unfold runChecks
      by_cases hb : bs = []
      · obtain ⟨pre, bad, post, h1, h2, h3, h4⟩ := ih (fun b hb => hl b (List.mem_cons_of_mem _ hb)) hs' worst w
        refine ⟨bs :: pre, bad, post, by rw [h1]; rfl, h2, ?_, ?_⟩
        · intro b hb
          rcases List.mem_cons.mp hb with rfl | hb
          · exact hsd
          · exact h3 b hb
        · refine prog_ok (a := r) (w' := w) (by rw [hr]; rfl) ?_
          rw [if_neg (by rw [hn.mpr hb]; exact fun h => h rfl), h4, hb]
          rfl
      · obtain ⟨pre, bad, post, h1, h2, h3, h4⟩ := ih (fun b hb => hl b (List.mem_cons_of_mem _ hb)) hs'
          (if r.level.toNat > worst.toNat then r.level else worst) { w with out := w.out ++ reportText bs }
        have hne : r.level ≠ .none := fun e => hb (hn.mp e)
        refine ⟨bs :: pre, bad, post, by rw [h1]; rfl, h2, ?_, ?_⟩
        · intro b hb
          rcases List.mem_cons.mp hb with rfl | hb
          · exact hsd
          · exact h3 b hb
        · refine prog_ok (a := r) (w' := w) (by rw [hr]; rfl) ?_
          rw [if_pos hne]
          refine prog_ok (a := reportText bs) (w' := w) (by rw [print_result hrep hb hl']; rfl) ?_
          refine prog_ok (a := ()) (w' := { w with out := w.out ++ reportText bs }) rfl ?_
          rw [h4, List.flatMap_cons, List.append_assoc]
    · refine ⟨[], bs, lists, rfl, hsd, by simp, ?_⟩
      unfold runChecks
      refine prog_error ?_
      rw [hf.2 hsd, List.flatMap_nil, List.append_nil]
      rfl

end Verif
