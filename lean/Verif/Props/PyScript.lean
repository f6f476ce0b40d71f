import Verif.Proof.PyScript
import Verif.Props.Cli

/-! Properties of Python scripts: C105. -/

set_option Elab.async false

namespace Verif
open Outcome Spec Py
variable {R : FP} {u : Undef R} {today prog infile outfile file : CStr} {fs : Files R}

/-! ### C105: scripts and programs -/

/-- C105. A script which reads, filters and writes: if it finishes, the output file is new and
holds what the filter makes of the dataset, and no other file is changed. The attributes of the
filter are those assigned last. -/
theorem C105_filter_script (ho : outfile.head? ≠ some '!') {attrs : List (FilterAttr R)}
    (h : Finished (Py.run u today (.start fs) (filterScript infile attrs outfile))) :
    ∃ oi f out hdus, Holds u fs infile oi ∧ setAll (init_oi_filter R) attrs = some f ∧ apply_oi_filter oi f = .ok out ∧
      write_oi_fits today false out .ok = .ok (some hdus, .ok) ∧ fs outfile = none ∧
      (Py.run u today (.start fs) (filterScript infile attrs outfile)).1.files = fs.set outfile (some (.fits hdus)) := by
  rcases hr : Py.run u today (.start fs) (filterScript infile attrs outfile) with ⟨s, vs, e⟩
  rw [hr] at h
  cases e with
  | some e => cases h
  | none =>
    unfold filterScript at hr
    obtain ⟨s1, vs1, vs2, h1, h2, rfl⟩ := run_append_inv hr
    obtain ⟨s2, vs3, vs4, h3, h4, rfl⟩ := run_append_inv h1
    obtain ⟨s3, v, vs5, h5, h6, rfl⟩ := run_cons_inv h3
    obtain ⟨oi, hh, rfl, rfl⟩ := newOiFits_inv h5
    obtain ⟨s4, v, vs6, h7, h8, rfl⟩ := run_cons_inv h6
    cases h7
    cases h8
    obtain ⟨f, h9, rfl⟩ := run_sets_inv (f := init_oi_filter R) rfl h4
    obtain ⟨s5, v, vs7, h10, h11, rfl⟩ := run_cons_inv h2
    obtain ⟨s6, v', vs8, h12, h13, rfl⟩ := run_cons_inv h11
    cases h13
    change inC (call (apply_oi_filter oi f)) _ newData = _ at h10
    cases ha : apply_oi_filter oi f with
    | abort => rw [ha] at h10; cases h10
    | ub => rw [ha] at h10; cases h10
    | ok out =>
      rw [inC_call_ok ha] at h10
      cases h10
      obtain ⟨hx, hdus, hw, rfl, -⟩ := pyWrite_inv ho h12
      exact ⟨oi, f, out, hdus, hh, h9, ha, hw, hx, rfl⟩

/-- The converse. -/
theorem filterScript_ok (ho : outfile.head? ≠ some '!') {attrs : List (FilterAttr R)} {oi out : OiFits R}
    {f : FilterSpec R} {hdus : List (Hdu R)} (h1 : Holds u fs infile oi) (h2 : setAll (init_oi_filter R) attrs = some f)
    (h3 : apply_oi_filter oi f = .ok out) (h4 : write_oi_fits today false out .ok = .ok (some hdus, .ok))
    (h5 : fs outfile = none) :
    Finished (Py.run u today (.start fs) (filterScript infile attrs outfile)) ∧
    (Py.run u today (.start fs) (filterScript infile attrs outfile)).1.files = fs.set outfile (some (.fits hdus)) := by
  let s0 : Session R := ⟨fs, none, [oi], []⟩
  let s1 : Session R := ⟨fs, none, [oi], [init_oi_filter R]⟩
  let s2 : Session R := ⟨fs, none, [oi], [f]⟩
  let s3 : Session R := ⟨fs, none, [oi, out], [f]⟩
  have r1 : step u today (.start fs) (.oifits (some infile)) = (s0, .value (.data 0)) := newOiFits_holds (s := .start fs) h1
  have r2 : step u today s0 .filter = (s1, .value (.filter 0)) := rfl
  obtain ⟨vs, r3⟩ := run_sets (u := u) (today := today) (s := s1) (k := 0) rfl h2
  have r4 : step u today s2 (.apply 0 (.data 0)) = (s3, .value (.data 1)) := inC_call_ok h3 newData
  have r5 : step u today s3 (.write 1 outfile) = ({ s3 with files := fs.set outfile (some (.fits hdus)) }, .value .nothing) :=
    pyWrite_new (s := s3) ho h5 h4
  unfold filterScript
  have a1 : Py.run u today (.start fs) [.oifits (some infile), .filter] = (s1, [.data 0, .filter 0], none) := by
    rw [run_cons_value r1, run_cons_value r2]; rfl
  have a2 := run_append a1 (attrs.map (.set 0))
  rw [r3] at a2
  have a3 := run_append a2 [.apply 0 (.data 0), .write 1 outfile]
  rw [a3]
  have e : ({ s1 with filters := s1.filters.set 0 f } : Session R) = s2 := rfl
  rw [e, run_cons_value r4, run_cons_value r5]
  exact ⟨rfl, rfl⟩

/-- C105. Whatever options oifits-filter is given, other than those about UV radius, there are
assignments to the attributes of a Filter object with which the script leaves what the program
leaves whenever that succeeds: for all files, and whatever else there is. -/
theorem C105_filter_partial {opts : List (FilterOpt R)} (h : ∀ o ∈ opts, Expressible o) :
    ∃ attrs : List (FilterAttr R), ∀ {u : Undef R} {today prog infile outfile : CStr} {fs : Files R} {clobber : Bool}
      {removable : CStr → Bool}, infile.length < FLEN_FILENAME → PlainName outfile → fs outfile = none →
      ((oifits_filter u today removable (.args opts clobber [prog, infile, outfile])).run fs).exit = .code 0 →
      Finished (Py.run u today (.start fs) (filterScript infile attrs outfile)) ∧
      (Py.run u today (.start fs) (filterScript infile attrs outfile)).1.files =
        ((oifits_filter u today removable (.args opts clobber [prog, infile, outfile])).run fs).files := by
  obtain ⟨attrs, ha⟩ := user_attrs h
  refine ⟨attrs, fun {u today prog infile outfile fs clobber removable} hi ho hx hp => ?_⟩
  obtain ⟨oi, out, h1, h2, ⟨hdus, h3, h4⟩, -⟩ := C70_success hi ho hp
  obtain ⟨k1, k2⟩ := filterScript_ok (today := today) ho.plain h1 ha h2 h3 hx
  refine ⟨k1, ?_⟩
  rw [k2]
  funext name
  by_cases hn : name = outfile
  · rw [hn, h4, set_same]
  · rw [C70_others (outfile := outfile) _ (fun _ _ _ _ _ e => by cases e; rfl) ho hn]
    unfold Files.set
    rw [if_neg hn]

example : ∀ o ∈ ([.target_id 2, .wave_min (some 1), .accept_flagged 0] : List (FilterOpt FP.ratFP)), Expressible o := by
  intro o ho
  simp only [List.mem_cons, List.not_mem_nil, or_false] at ho
  rcases ho with rfl | rfl | rfl
  · exact ⟨by decide, by decide⟩
  · trivial
  · trivial

-- what the script leaves, compared with the run of oifits-filter on the same files
example : ∃ attrs, Finished (Py.run Ex.undef ("2016-01-02" : CStr) (.start Ex.files) (filterScript ("in" : CStr) attrs ("out" : CStr))) ∧
    (Py.run Ex.undef ("2016-01-02" : CStr) (.start Ex.files) (filterScript ("in" : CStr) attrs ("out" : CStr))).1.files =
      ((oifits_filter Ex.undef "2016-01-02" (fun _ => true)
        (.args [.target_id 2] false ["oifits-filter", "in", "out"])).run Ex.files).files := by
  obtain ⟨attrs, h⟩ := C105_filter_partial (R := FP.ratFP) (opts := [.target_id 2])
    (fun o ho => by rw [List.mem_singleton] at ho; subst ho; exact ⟨by decide, by decide⟩)
  exact ⟨attrs, h (by decide) ⟨by decide, by decide⟩ rfl (by decide +kernel)⟩

/-- Reading files one after the other. -/
theorem run_opens {names : List CStr} {s : Session R} {ois : List (OiFits R)} (h : Pairwise₂ (Holds u s.files) names ois) :
    ∃ vs, Py.run u today s (names.map fun n => .oifits (some n)) = ({ s with data := s.data ++ ois }, vs, none) := by
  induction names generalizing s ois with
  | nil =>
    cases ois with
    | nil => exact ⟨[], by rw [List.append_nil]; rfl⟩
    | cons o l => exact absurd h.1 (by simp)
  | cons name names ih =>
    cases ois with
    | nil => exact absurd h.1 (by simp)
    | cons o l =>
      have r1 : step u today s (.oifits (some name)) = ({ s with data := s.data ++ [o] }, .value (.data s.data.length)) :=
        newOiFits_holds (h.2 0 _ _ rfl rfl)
      obtain ⟨vs, hr⟩ := ih (s := { s with data := s.data ++ [o] }) (ois := l)
        ⟨by simpa using h.1, fun i x y hx hy => h.2 (i + 1) x y (by simpa using hx) (by simpa using hy)⟩
      refine ⟨.data s.data.length :: vs, ?_⟩
      rw [List.map_cons, run_cons_value r1, hr]
      simp

theorem run_opens_inv {names : List CStr} {s s' : Session R} {vs : List (Value R)}
    (h : Py.run u today s (names.map fun n => .oifits (some n)) = (s', vs, none)) :
    ∃ ois, Pairwise₂ (Holds u s.files) names ois ∧ s' = { s with data := s.data ++ ois } := by
  induction names generalizing s vs with
  | nil => cases h; exact ⟨[], ⟨rfl, fun i x y hx _ => by simp at hx⟩, by rw [List.append_nil]⟩
  | cons name names ih =>
    obtain ⟨s1, v, vs', h1, h2, rfl⟩ := run_cons_inv h
    obtain ⟨oi, hh, rfl, rfl⟩ := newOiFits_inv h1
    obtain ⟨ois, h3, h4⟩ := ih h2
    refine ⟨oi :: ois, ⟨by simpa using h3.1, fun i x y hx hy => ?_⟩, by rw [h4]; simp⟩
    cases i with
    | zero => simp at hx hy; subst hx hy; exact hh
    | succ i => exact h3.2 i x y (by simpa using hx) (by simpa using hy)

theorem objects_range (ois : List (OiFits R)) : objects ois ((List.range ois.length).map .data) = .ok ois := by
  have key : ∀ (before after : List (OiFits R)),
      objects (before ++ after) ((List.range' before.length after.length).map .data) = .ok after := by
    intro before after
    induction after generalizing before with
    | nil => rfl
    | cons o l ih =>
      rw [List.length_cons, List.range'_succ, List.map_cons, objects]
      have h1 : (before ++ o :: l)[before.length]? = some o := by simp
      have h2 := ih (before ++ [o])
      rw [List.append_assoc, List.length_append] at h2
      rw [h1]
      simp only [List.singleton_append, List.length_singleton] at h2
      simp only [h2]
  have := key [] ois
  rw [List.range_eq_range']
  exact this

theorem step_merge (s : Session R) (l : List Obj) : step u today s (.merge l) = mergelist (.seq l) s := rfl

theorem step_write {s : Session R} {i : Nat} {oi : OiFits R} (h : s.data[i]? = some oi) (name : CStr) :
    step u today s (.write i name) = pyWrite today oi name s := by
  rw [step, withData, h]

/-- C105. The script which reads, merges and writes finishes if and only if oifits-merge ends
with status 0, and then leaves the same files. -/
theorem C105_merge {in1 in2 : CStr} {more : List CStr} (ho : outfile.head? ≠ some '!') :
    (Finished (Py.run u today (.start fs) (mergeScript (in1 :: in2 :: more) outfile)) ↔
      ((oifits_merge u today (prog :: outfile :: in1 :: in2 :: more)).run fs).exit = .code 0) ∧
    (Finished (Py.run u today (.start fs) (mergeScript (in1 :: in2 :: more) outfile)) →
      (Py.run u today (.start fs) (mergeScript (in1 :: in2 :: more) outfile)).1.files =
        ((oifits_merge u today (prog :: outfile :: in1 :: in2 :: more)).run fs).files) := by
  generalize hnames : in1 :: in2 :: more = names
  have there : ∀ {ois : List (OiFits R)} {out : OiFits R} {hdus : List (Hdu R)}, Pairwise₂ (Holds u fs) names ois →
      merge_oi_fits_list ois = .ok out → write_oi_fits today false out .ok = .ok (some hdus, .ok) → fs outfile = none →
      Finished (Py.run u today (.start fs) (mergeScript names outfile)) := by
    intro ois out hdus h1 h2 h3 h4
    obtain ⟨vs, r1⟩ := run_opens (today := today) (s := .start fs) h1
    unfold mergeScript
    rw [run_append r1, show ({ Session.start fs with data := (Session.start fs).data ++ ois } : Session R) =
      ⟨fs, none, ois, []⟩ from rfl]
    have hl := h1.1
    have r2 : step u today ⟨fs, none, ois, []⟩ (.merge ((List.range names.length).map .data)) =
        (⟨fs, none, ois ++ [out], []⟩, .value (.data ois.length)) := by
      rw [step_merge]
      unfold mergelist
      simp only
      rw [hl, objects_range]
      simp only
      rw [inC_call_ok h2]
      rfl
    rw [run_cons_value r2]
    have r3 : step u today ⟨fs, none, ois ++ [out], []⟩ (.write names.length outfile) =
        (⟨fs.set outfile (some (.fits hdus)), none, ois ++ [out], []⟩, .value .nothing) := by
      rw [step_write (oi := out) (by rw [hl]; simp)]
      exact pyWrite_new (s := ⟨fs, none, ois ++ [out], []⟩) ho h4 h3
    rw [run_cons_value r3]
    rfl
  have back : Finished (Py.run u today (.start fs) (mergeScript names outfile)) → ∃ ois out hdus,
      Pairwise₂ (Holds u fs) names ois ∧ merge_oi_fits_list ois = .ok out ∧
      write_oi_fits today false out .ok = .ok (some hdus, .ok) ∧ fs outfile = none ∧
      (Py.run u today (.start fs) (mergeScript names outfile)).1.files = fs.set outfile (some (.fits hdus)) := by
    intro h
    rcases hr : Py.run u today (.start fs) (mergeScript names outfile) with ⟨s, vs, e⟩
    rw [hr] at h
    cases e with
    | some e => cases h
    | none =>
      unfold mergeScript at hr
      obtain ⟨s1, vs1, vs2, h1, h2, rfl⟩ := run_append_inv hr
      obtain ⟨ois, h3, rfl⟩ := run_opens_inv h1
      obtain ⟨s2, v, vs3, h4, h5, rfl⟩ := run_cons_inv h2
      obtain ⟨s3, v', vs4, h6, h7, rfl⟩ := run_cons_inv h5
      cases h7
      have hl := h3.1
      rw [step_merge] at h4
      unfold mergelist at h4
      simp only at h4
      rw [show (Session.start fs).data ++ ois = ois from List.nil_append _, hl, objects_range] at h4
      simp only at h4
      cases hm : merge_oi_fits_list ois with
      | abort => rw [hm] at h4; cases h4
      | ub => rw [hm] at h4; cases h4
      | ok out =>
        rw [inC_call_ok hm] at h4
        cases h4
        rw [step_write (oi := out) (by rw [hl]; simp)] at h6
        obtain ⟨hx, hdus, hw, rfl, -⟩ := pyWrite_inv ho h6
        exact ⟨ois, out, hdus, h3, hm, hw, hx, rfl⟩
  subst hnames
  refine ⟨⟨fun h => ?_, fun h => ?_⟩, fun h => ?_⟩
  · obtain ⟨ois, out, hdus, h1, h2, h3, h4, -⟩ := back h
    rw [C71_run (prog := prog) h1 ho h2 h3 h4]
  · obtain ⟨ois, out, h1, h2, h3, hdus, h4, -⟩ := C71_success ho h
    exact there h1 h2 h4 h3
  · obtain ⟨ois, out, hdus, h1, h2, h3, h4, h5⟩ := back h
    rw [C71_run (prog := prog) h1 ho h2 h3 h4, h5]

example : Finished (Py.run Ex.undef ("2016-01-02" : CStr) (.start Ex.files)
    (mergeScript [("in" : CStr), ("in" : CStr)] ("out" : CStr))) :=
  (C105_merge (prog := ("oifits-merge" : CStr)) (by decide)).1.mpr (by decide +kernel)

theorem step_check {s : Session R} {oi : OiFits R} (h : s.data[0]? = some oi) (n : Nat) :
    step u today s (.check n (.data 0)) = pyCheck n oi s := by
  rw [step, withData, h]

theorem pyCheck_ok {s : Session R} {oi : OiFits R} {n : Nat} {check : OiFits R → Outcome CheckResult} {bs : List Breach}
    (hc : checkList[n]? = some check) (hf : Finds check oi bs) (hl : ∀ b ∈ bs, b.level = .warning ∨ b.level = .notOifits)
    (hs : SameDescription bs) : ∃ b v, pyCheck n oi s = ({ s with buffer := b }, .value v) ∧ asShown v = reportText bs ∧
      (Passed v ↔ bs = []) := by
  obtain ⟨r, hr, hrep⟩ := hf.1 hs
  have hn := reports_none_iff hrep fun b hb => by rcases hl b hb with e | e <;> rw [e] <;> decide
  have ht := format_found hrep hl s.buffer
  unfold pyCheck
  rw [hc]
  simp only
  rw [inC_call_ok hr]
  cases bs with
  | nil =>
    have ht' : textOf (R := R) (format_check_result_buf r) ⟨[], s.files, s.buffer⟩ = .ok (none, ⟨[], s.files, s.buffer⟩) := by
      unfold textOf; rw [ht]
    rw [inC_ok ht']
    exact ⟨_, _, rfl, by rw [asShown, if_pos (hn.mpr rfl)]; rfl, ⟨fun _ => rfl, fun _ => ⟨hn.mpr rfl, rfl⟩⟩⟩
  | cons c cs =>
    have ht' : textOf (R := R) (format_check_result_buf r) ⟨[], s.files, s.buffer⟩ =
        .ok (some (reportText (c :: cs)), ⟨[], s.files, some (reportText (c :: cs))⟩) := by
      unfold textOf; rw [ht]
    rw [inC_ok ht']
    have hne : r.level ≠ .none := fun e => List.cons_ne_nil c cs (hn.mp e)
    exact ⟨_, _, rfl, by rw [asShown, if_neg hne]; rfl, ⟨fun h => absurd h.1 hne, fun h => absurd h (List.cons_ne_nil c cs)⟩⟩

theorem pyCheck_abort {s : Session R} {oi : OiFits R} {n : Nat} {check : OiFits R → Outcome CheckResult} {bs : List Breach}
    (hc : checkList[n]? = some check) (hf : Finds check oi bs) (hs : ¬ SameDescription bs) :
    pyCheck n oi s = (s, .crash .abort) := by
  unfold pyCheck
  rw [hc]
  simp only
  unfold inC call
  rw [hf.2 hs]

/-- Making one check after the other. -/
theorem run_pyChecks {oi : OiFits R} {before after : List (OiFits R → Outcome CheckResult)} {lists : List (List Breach)}
    (hb : checkList = before ++ after) (h : InStep (fun check bs => Finds check oi bs) after lists)
    (hl : ∀ bs ∈ lists, ∀ b ∈ bs, b.level = .warning ∨ b.level = .notOifits) {s : Session R} (hd : s.data[0]? = some oi) :
    (Finished (Py.run u today s ((List.range' before.length after.length).map fun n => .check n (.data 0))) ↔
      ∀ bs ∈ lists, SameDescription bs) ∧
    ((∀ bs ∈ lists, SameDescription bs) → ∃ b vs,
      Py.run u today s ((List.range' before.length after.length).map fun n => .check n (.data 0)) =
        ({ s with buffer := b }, vs, none) ∧ vs.flatMap asShown = lists.flatMap reportText ∧
      ((∀ v ∈ vs, Passed v) ↔ ∀ bs ∈ lists, bs = [])) := by
  induction h generalizing before s with
  | nil => exact ⟨⟨fun _ => by simp, fun _ => rfl⟩, fun _ => ⟨s.buffer, [], rfl, rfl, by simp⟩⟩
  | cons hf hrest ih =>
    rename_i check bs checks lists
    have hc : checkList[before.length]? = some check := by rw [hb]; simp
    rw [List.length_cons, List.range'_succ, List.map_cons]
    have ih' := fun s (hd : s.data[0]? = some oi) => ih (before := before ++ [check]) (by rw [hb]; simp)
      (fun bs hb => hl bs (List.mem_cons_of_mem _ hb)) (s := s) hd
    rw [List.length_append, List.length_singleton] at ih'
    by_cases hs : SameDescription bs
    · obtain ⟨b, v, h1, h2, h3⟩ := pyCheck_ok (s := s) hc hf (hl _ List.mem_cons_self) hs
      have r1 : step u today s (.check before.length (.data 0)) = ({ s with buffer := b }, .value v) := by
        rw [step_check hd, h1]
      obtain ⟨i1, i2⟩ := ih' { s with buffer := b } hd
      rw [run_cons_value r1]
      refine ⟨?_, fun ha => ?_⟩
      · refine Iff.trans i1 ?_
        simp [hs]
      · obtain ⟨b', vs, k1, k2, k3⟩ := i2 fun bs hb => ha bs (List.mem_cons_of_mem _ hb)
        refine ⟨b', v :: vs, by rw [k1], by rw [List.flatMap_cons, List.flatMap_cons, h2, k2], ?_⟩
        rw [List.forall_mem_cons, List.forall_mem_cons, h3, k3]
    · have r1 : step u today s (.check before.length (.data 0)) = (s, .crash .abort) := by
        rw [step_check hd, pyCheck_abort hc hf hs]
      rw [Py.run, r1]
      exact ⟨⟨fun h => (by cases h), fun h => absurd (h _ List.mem_cons_self) hs⟩, fun h => absurd (h _ List.mem_cons_self) hs⟩

theorem step_str {s : Session R} {oi : OiFits R} (h : s.data[0]? = some oi) (hw : oi.WF) :
    step u today s (.str 0) = ({ s with buffer := some (summary oi) }, .value (.text (summary oi))) := by
  rw [step, withData, h]
  have : textOf (R := R) (format_oi_fits_summary oi) ⟨[], s.files, s.buffer⟩ =
      .ok (summary oi, ⟨[], s.files, some (summary oi)⟩) := by
    unfold textOf; rw [summary_eq hw]
  exact inC_ok this _

/-- C105. The script which makes all checks finishes if and only if oifits-check ends with status
0. Then the program has printed what the script is shown, in that order, and the last line if
no check found anything. Neither changes a file. -/
theorem C105_check (hn : file.length < FLEN_FILENAME) :
    (Finished (Py.run u today (.start fs) (checkScript file)) ↔ ((oifits_check u [prog, file]).run fs).exit = .code 0) ∧
    (Finished (Py.run u today (.start fs) (checkScript file)) →
      ∃ oi vs, Holds u fs file oi ∧
      (Py.run u today (.start fs) (checkScript file)).2.1 = .data 0 :: .text (summary oi) :: vs ∧ vs.length = 14 ∧
      ((∀ v ∈ vs, Passed v) →
        ((oifits_check u [prog, file]).run fs).out = summary oi ++ ("All checks passed\n" : CStr)) ∧
      ((¬ ∀ v ∈ vs, Passed v) →
        ((oifits_check u [prog, file]).run fs).out = summary oi ++ vs.flatMap asShown)) := by
  by_cases hh : ∃ oi, Holds u fs file oi
  · obtain ⟨oi, hh⟩ := hh
    have r1 : step u today (.start fs) (.oifits (some file)) = (⟨fs, none, [oi], []⟩, .value (.data 0)) :=
      newOiFits_holds (s := .start fs) hh
    have r2 : step u today ⟨fs, none, [oi], []⟩ (.str 0) = (⟨fs, some (summary oi), [oi], []⟩, .value (.text (summary oi))) :=
      step_str (s := ⟨fs, none, [oi], []⟩) rfl hh.wf
    have key := run_pyChecks (u := u) (today := today) (before := []) (after := checkList) rfl (checks_find hh.wf)
      (levels_real oi) (s := ⟨fs, some (summary oi), [oi], []⟩) rfl
    rw [show (checkList (R := R)).length = 14 from rfl, List.length_nil, ← List.range_eq_range'] at key
    obtain ⟨k1, k2⟩ := key
    have hrun : ∀ ds, Py.run u today (.start fs) ([.oifits (some file), .str 0] ++ ds) =
        ((Py.run u today ⟨fs, some (summary oi), [oi], []⟩ ds).1,
          .data 0 :: .text (summary oi) :: (Py.run u today ⟨fs, some (summary oi), [oi], []⟩ ds).2.1,
          (Py.run u today ⟨fs, some (summary oi), [oi], []⟩ ds).2.2) := by
      intro ds
      rw [List.cons_append, List.cons_append, List.nil_append, run_cons_value r1, run_cons_value r2]
    unfold checkScript
    rw [hrun]
    by_cases hs : ∀ bs ∈ breachLists oi, SameDescription bs
    · have hp := C15_report (prog := prog) hh hn hs
      obtain ⟨b, vs, h1, h2, h3⟩ := k2 hs
      rw [hp, h1]
      refine ⟨⟨fun _ => rfl, fun _ => rfl⟩, fun _ => ⟨oi, vs, hh, rfl, ?_, fun hv => ?_, fun hv => ?_⟩⟩
      · have : ∀ (cs : List (Call R)) (s s' : Session R) (vs : List (Value R)),
            Py.run u today s cs = (s', vs, none) → vs.length = cs.length := by
          intro cs
          induction cs with
          | nil => intro s s' vs h; cases h; rfl
          | cons c cs ih =>
            intro s s' vs h
            obtain ⟨s1, v, vs', -, e, rfl⟩ := run_cons_inv h
            simp [ih _ _ _ e]
        rw [this _ _ _ _ h1]
        simp
      · have hv := h3.mp hv
        simp only
        rw [if_pos hv, ← h2]
        rw [show vs.flatMap asShown = [] by
          rw [h2, List.flatMap_eq_nil_iff]
          intro bs hb
          rw [hv bs hb]; rfl, List.append_nil]
      · simp only
        rw [if_neg (fun h => hv (h3.mpr h)), h2, List.append_nil]
    · obtain ⟨before, bad, after, -, -, -, hp⟩ := C15_abort (prog := prog) hh hn (by
        by_contra hc
        exact hs fun bs hb => by_contra fun h => hc ⟨bs, hb, h⟩)
      rw [hp]
      have hnf : ¬ Finished (Py.run u today ⟨fs, some (summary oi), [oi], []⟩
          ((List.range 14).map fun n => .check n (.data 0))) := fun h => hs (k1.mp h)
      exact ⟨⟨fun h => absurd h hnf, fun h => (by cases h)⟩, fun h => absurd h hnf⟩
  · have hnf : ¬ Finished (Py.run u today (.start fs) (checkScript file)) := by
      intro h
      rcases hr : Py.run u today (.start fs) (checkScript file) with ⟨s, vs, e⟩
      rw [hr] at h
      cases e with
      | some e => cases h
      | none =>
        unfold checkScript at hr
        obtain ⟨s1, v, vs', h1, -, -⟩ := run_cons_inv hr
        obtain ⟨oi, h2, -⟩ := newOiFits_inv h1
        exact hh ⟨oi, h2⟩
    refine ⟨⟨fun h => absurd h hnf, fun h => absurd ?_ hh⟩, fun h => absurd h hnf⟩
    have key : EndsIn (oifits_check u [prog, file]) ⟨[], fs, none⟩ (OnSuccess fun _ => ∃ oi, Holds u fs file oi) := by
      unfold oifits_check
      simp only [show strlcpy file FLEN_FILENAME = file from strlcpy_short hn]
      refine ends_readFile fun oi st hr => ?_
      cases oi with
      | none => exact ends_failure (by decide)
      | some oi =>
        refine ends_ite (fun _ => ends_failure (by decide)) fun hst => ?_
        have hst : st = .ok := Decidable.byContradiction hst
        have hh : Holds u fs file oi := by
          rcases hr with h | h | ⟨x, h1, h2⟩
          · cases h
          · exact absurd hst h
          · cases h1; exact h2
        exact fun e _ _ => ⟨oi, hh⟩
    refine on_success key ?_ h
    unfold oifits_check
    refine noReturn_bind fun p => ?_
    obtain ⟨oi, st⟩ := p
    cases oi with
    | none => exact noReturn_exit _
    | some oi =>
      refine noReturn_ite (noReturn_exit _) (noReturn_bind fun _ => noReturn_bind fun w => ?_)
      exact noReturn_ite (noReturn_bind fun _ => noReturn_exit _) (noReturn_exit _)

example : Finished (Py.run Ex.undef ("2016-01-02" : CStr) (.start Ex.files) (checkScript ("in" : CStr))) :=
  (C105_check (prog := ("oifits-check" : CStr)) (by decide)).1.mpr (by decide +kernel)

end Verif
