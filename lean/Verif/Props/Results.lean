import Verif.Proof.Results
import Verif.Props.Cli

/-! C89 and C90: check results and texts, in programs which make any calls in any order
(`Verif/Spec/Results.lean`). -/

set_option Elab.async false

namespace Verif
open Outcome Spec
variable {R : FP}

/-- C89. In a program which keeps to the rules, whatever calls it makes and in whatever order, no
result and no text is used after it has gone, each call returns what it should, and the storage
still held for results at the end is that of those not freed. -/
theorem C89_results {oi : List (OiFits R)} (hw : ∀ d ∈ oi, d.WF) {calls : List (ResultCall R)} (ha : AllAllowed oi calls) :
    ∃ vs s, resultCalls oi 0 .start calls = .ok (vs, s) ∧ vs.length = calls.length ∧
      (∀ before c after, calls = before ++ c :: after → vs[before.length]? = some (answer oi before c)) ∧
      s.chunks.length + resultsFreed calls = checksMade calls := by
  obtain ⟨vs, s, h1, h2, h3, h4⟩ := result_calls_rule hw calls (resultInv_start oi) ha
  exact ⟨vs, s, h1, h3, h4, h2.count⟩

/-- C89. The rules are needed: the first call which breaks one stops the program, or is undefined.
(For reading a result which has been freed, see `C89_freed_counterexample`.) -/
theorem C89_rules {oi : List (OiFits R)} (hw : ∀ d ∈ oi, d.WF) {before after : List (ResultCall R)} {c : ResultCall R}
    (ha : AllAllowed oi before) (hc : ¬ Allowed oi before c) (hr : (∀ v, c ≠ .format v) ∧ ∀ v, c ≠ .look v) :
    resultCalls oi 0 .start (before ++ c :: after) = .ub ∨ resultCalls oi 0 .start (before ++ c :: after) = .abort := by
  obtain ⟨vs, s, h1, h2, h3, h4⟩ := result_calls_rule hw before (resultInv_start oi) ha
  rw [List.nil_append] at h2
  rw [resultCalls_append]
  simp only [List.length_nil] at h1
  rw [h1, Nat.zero_add]
  show ((resultCall oi before.length s c >>= _).bind _ = _) ∨ ((resultCall oi before.length s c >>= _).bind _ = _)
  rcases result_call_bad hw h2 hc hr with e | e
  · left; rw [e]; rfl
  · right; rw [e]; rfl

/-- Whether the program uses something which has gone. -/
def Ex.misuse (r : Outcome (List ResultValue × ResultState)) : Bool :=
  match r with
  | .ub => true
  | _ => false

/-- What the calls of a program return, and for how many results storage is held at the end. -/
def Ex.returned (r : Outcome (List ResultValue × ResultState)) : Option (List ResultValue × Nat) :=
  match r with
  | .ok (vs, s) => some (vs, s.chunks.length)
  | _ => none

/-- C89. A result which has been freed is misused by making its text, if there are breaches; if there
are none, the memory which has gone is not read. -/
theorem C89_freed_counterexample :
    Ex.misuse (resultCalls [Ex.oi] 0 .start [.check 0 .flux 0, .free 0, .format 0]) = true ∧
    Ex.misuse (resultCalls [Ex.oi] 0 .start [.check 0 .tables 0, .free 0, .format 0]) = false := by
  decide +kernel

/-- C89. A text does not outlive the next one: it is made in the same buffer. -/
theorem C89_text_counterexample :
    Ex.misuse (resultCalls [Ex.oi] 0 .start [.check 0 .flux 0, .format 0, .use 1]) = false ∧
    Ex.misuse (resultCalls [Ex.oi] 0 .start [.check 0 .flux 0, .format 0, .summary 0, .use 1]) = true := by
  decide +kernel

/-- A program with two results, one of a check which finds a breach and one of a check which finds
none. The text of the first is still there after that of the second was asked for, since NULL
is returned for that. -/
def Ex.resultProgram : List (ResultCall FP.ratFP) :=
  [.check 0 .flux 0, .check 1 .tables 0, .format 0, .format 1, .use 2, .look 0, .free 0, .summary 0, .use 7,
    .check 0 .time 0, .free 1]

theorem Ex.resultProgram_returns : Ex.returned (resultCalls [Ex.oi] 0 .start Ex.resultProgram) =
    some ([.level 2, .level 0,
      .text (some (reportText (CheckName.breaches .flux Ex.oi))), .text none,
      .text (some (reportText (CheckName.breaches .flux Ex.oi))),
      .members 1 (some "ARRNAME/STA_INDEX/FOVTYPE present (missing) in (un)calibrated fluxes"), .nothing,
      .text (some (summary Ex.oi)), .text (some (summary Ex.oi)), .level 0, .nothing], 1) := by decide +kernel

/-- The rules, one call after the other. -/
def allowedFrom (oi : List (OiFits R)) : List (ResultCall R) → List (ResultCall R) → Prop
  | _, [] => True
  | before, c :: cs => Allowed oi before c ∧ allowedFrom oi (before ++ [c]) cs

theorem allowedFrom_all {oi : List (OiFits R)} {calls : List (ResultCall R)} {done : List (ResultCall R)}
    (h : allowedFrom oi done calls) : ∀ before c after, calls = before ++ c :: after → Allowed oi (done ++ before) c := by
  induction calls generalizing done with
  | nil => intro before c after e; simp at e
  | cons d calls ih =>
    intro before c after e
    cases before with
    | nil =>
      rw [List.nil_append] at e
      cases e
      rw [List.append_nil]
      exact h.1
    | cons b before =>
      rw [List.cons_append] at e
      cases e
      have := ih h.2 before c after rfl
      rwa [List.append_assoc, List.singleton_append] at this

theorem Ex.same : ∀ c ∈ [CheckName.flux, .tables, .time], SameDescription (CheckName.breaches c Ex.oi) := by
  unfold SameDescription
  decide +kernel

theorem Ex.resultProgram_allowed : AllAllowed [Ex.oi] Ex.resultProgram := by
  refine allowedFrom_all (done := []) ?_
  refine ⟨⟨_, rfl, Ex.same _ (by decide)⟩, ⟨_, rfl, Ex.same _ (by decide)⟩, ?_, ?_, ?_, ?_, ?_, ?_, ?_, ⟨_, rfl, Ex.same _ (by decide)⟩, ?_, trivial⟩
  · exact fun h => nomatch h
  · exact fun h => nomatch h
  · show Option.map _ _ = _; decide +kernel
  · exact fun h => nomatch h
  · exact fun h => nomatch h
  · exact Nat.lt_succ_self 0
  · show Option.map _ _ = _; decide +kernel
  · exact fun h => nomatch h

-- The hypotheses of `C89_results` are met by it, and those of `C89_rules` if a result is then freed again.
example : ∃ vs s, resultCalls [Ex.oi] 0 .start Ex.resultProgram = .ok (vs, s) ∧ vs.length = 11 ∧ s.chunks.length = 1 := by
  obtain ⟨vs, s, h1, h2, -, h4⟩ := C89_results (fun d hd => by rw [List.mem_singleton.mp hd]; exact Ex.oi_wf)
    Ex.resultProgram_allowed
  exact ⟨vs, s, h1, h2, Nat.add_right_cancel (m := 2) h4⟩

example : resultCalls [Ex.oi] 0 .start (Ex.resultProgram ++ .free 1 :: []) = .ub ∨
    resultCalls [Ex.oi] 0 .start (Ex.resultProgram ++ .free 1 :: []) = .abort :=
  C89_rules (fun d hd => by rw [List.mem_singleton.mp hd]; exact Ex.oi_wf) Ex.resultProgram_allowed
    (fun h => h rfl) ⟨fun v => nofun, fun v => nofun⟩

/-! ### C90: the Python module oicheck -/

/-- C90. Each step of a Python program yields what it should, whatever the steps before it: a check yields its
level and a result, whose text and members are always those of that check; texts of datasets and
filters are as in `C67_summary` and `C68_filter_text`. No step is undefined. -/
theorem C90_python {oi : List (OiFits R)} (hw : ∀ d ∈ oi, d.WF) {calls : List (PyCheckCall R)} (hs : OneKind oi calls) :
    ∃ vs s, pyCheckCalls oi .start calls = .ok (vs, s) ∧ vs.length = calls.length ∧
      ∀ before c after, calls = before ++ c :: after → vs[before.length]? = some (pyAnswer oi before c) := by
  have I : PyCheckInv oi [] .start := ⟨[], resultInv_start oi, rfl, rfl, (by intro r x h; simp [pyChecks] at h), rfl, rfl⟩
  obtain ⟨vs, s, h1, -, h3, h4⟩ := py_checks_rule hw calls I hs
  exact ⟨vs, s, h1, h3, h4⟩

/-- C90. The storage of a result is never freed, whatever the program does: at the end it is held for
each check ever made. (The object made for a result does not own it.) -/
theorem C90_kept {oi : List (OiFits R)} (hw : ∀ d ∈ oi, d.WF) {calls : List (PyCheckCall R)} (hs : OneKind oi calls) :
    ∃ vs s, pyCheckCalls oi .start calls = .ok (vs, s) ∧ s.lib.chunks.length = (pyChecks oi calls).length := by
  have I : PyCheckInv oi [] .start := ⟨[], resultInv_start oi, rfl, rfl, (by intro r x h; simp [pyChecks] at h), rfl, rfl⟩
  obtain ⟨vs, s, h1, ⟨hist, k1, k2, k3, k4, k5, k6⟩, -, -⟩ := py_checks_rule hw calls I hs
  refine ⟨vs, s, h1, ?_⟩
  have := k1.count
  rw [k6, k5, k3] at this
  exact this

/-- C90. A passed check says so, and only a passed check has level 0. -/
theorem C90_passed (oi : List (OiFits R)) (before : List (PyCheckCall R)) (c : CheckName) (i : Nat) (d : OiFits R)
    (hd : oi[i]? = some d) :
    pyAnswer oi before (.check c i) = some (.level 0) ↔
      pyAnswer oi (before ++ [.check c i]) (.str (pyChecks oi before).length) = some (.text (some "Check passed\n")) := by
  have h1 : pyAnswer oi before (.check c i) = some (.level (worst (CheckName.breaches c d))) := by simp [pyAnswer, hd]
  have h2 : (pyChecks oi (before ++ [.check c i]))[(pyChecks oi before).length]? = some (c, d) := by
    rw [pyChecks_snoc, List.getElem?_append_right (Nat.le_refl _), Nat.sub_self]
    simp [hd]
  have hl := breaches_real c d
  rw [h1]
  simp only [pyAnswer, h2, Option.map_some]
  cases hb : CheckName.breaches c d with
  | nil => simp [worst]
  | cons b bs =>
    constructor
    · intro h
      exfalso
      have h := ResultValue.level.inj (Option.some.inj h)
      rw [hb] at hl
      rcases hl b List.mem_cons_self with e | e <;> unfold worst at h
      · split at h
        · cases h
        · split at h
          · cases h
          · rw [if_pos (List.any_eq_true.mpr ⟨b, List.mem_cons_self, by simp [e]⟩)] at h
            cases h
      · split at h
        · cases h
        · rw [if_pos (List.any_eq_true.mpr ⟨b, List.mem_cons_self, by simp [e]⟩)] at h
          cases h
    · intro h
      exfalso
      have h := Option.some.inj (ResultValue.text.inj (Option.some.inj h))
      have h : reportText (b :: bs) = "Check passed\n" := h
      have h := congrArg List.head? h
      rw [show (reportText (b :: bs)).head? = some '*' from rfl] at h
      exact absurd h (by decide)

/-- A Python program: two checks, their texts in the other order, and a dataset there is not. -/
def Ex.pyProgram : List (PyCheckCall FP.ratFP) :=
  [.check .flux 0, .check .tables 0, .str 1, .strFits 0, .str 0, .members 0, .del 0, .check .time 7, .str 2]

example : OneKind [Ex.oi] Ex.pyProgram := by
  intro x hx
  have : ∀ x ∈ pyChecks [Ex.oi] Ex.pyProgram, x.1 ∈ [CheckName.flux, .tables, .time] ∧ x.2 = Ex.oi := by
    intro x hx
    rw [show pyChecks [Ex.oi] Ex.pyProgram = [(.flux, Ex.oi), (.tables, Ex.oi)] from rfl] at hx
    simp only [List.mem_cons, List.not_mem_nil, or_false] at hx
    rcases hx with rfl | rfl
    · exact ⟨by decide, rfl⟩
    · exact ⟨by decide, rfl⟩
  obtain ⟨h1, h2⟩ := this x hx
  rw [h2]
  exact Ex.same x.1 h1

theorem Ex.pyProgram_yields : (match pyCheckCalls [Ex.oi] .start Ex.pyProgram with
      | .ok (vs, s) => some (vs, s.lib.chunks.length)
      | _ => none) =
    some ([some (.level 2), some (.level 0), some (.text (some "Check passed\n")), some (.text (some (summary Ex.oi))),
      some (.text (some (reportText (CheckName.breaches .flux Ex.oi)))),
      some (.members 1 (some "ARRNAME/STA_INDEX/FOVTYPE present (missing) in (un)calibrated fluxes")), some .nothing,
      none, none], 2) := by decide +kernel

end Verif
