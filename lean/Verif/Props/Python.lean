import Verif.Proof.Python
import Verif.Props.Memory

/-! C87: memory in Python programs. A program may make any sequence of steps (`PyCall`) on files
and data of any content. The rules it has to keep for its memory to be safe are defined in
`Verif/Spec/Python.lean`. -/

set_option Elab.async false

namespace Verif.Mem

theorem py_history (cs : List PyCall) {h : Heap} (hg : h.Good) (C : Prop)
    (hc : C → ∀ c ∈ cs, c.Clean) (hcare : carefulRun pyStart cs h = true) :
    match pyRun pyStart cs h with
    | .ok (s, h') => PyInv C (h.live : Multiset Nat) s h'
    | .abort => True
    | .ub => False := by
  refine py_run_rule cs pyStart h hc hcare ⟨0, ⟨hg, ?_⟩, ⟨?_, rfl, ?_, ?_⟩, fun _ => rfl⟩
  · simp [pyStart, poolBlocks, structBlocks, allOf]
  · rintro d ⟨⟩
  · rintro d ⟨⟩
  · rintro d ⟨⟩

/-- C87, safety: a Python program which keeps the rules never reads, writes or frees a block
that is not allocated at that moment, whatever steps it makes, in whatever order and on
whatever data. Missing: programs which do not keep the rules, of which it is false (see the
counterexamples below), though Python programs are expected to be safe without such rules. -/
theorem C87_safe_partial (cs : List PyCall) {h : Heap} (hg : h.Good)
    (hcare : carefulRun pyStart cs h = true) : pyRun pyStart cs h ≠ .ub := by
  intro e
  have := py_history cs hg False (fun h => h.elim) hcare
  rw [e] at this
  exact this

/-- C87, what remains: after such a program, the blocks allocated are those which were
allocated at the start, those of the data not freed, and the oi_fits struct of every OiFits
object ever made, each once. -/
theorem C87_remains (cs : List PyCall) {h : Heap} (hg : h.Good) (hc : ∀ c ∈ cs, c.Clean)
    (hcare : carefulRun pyStart cs h = true) {s : PyState} {h' : Heap}
    (hr : pyRun pyStart cs h = .ok (s, h')) :
    (h'.live : Multiset Nat) =
      poolBlocks s.ds + structBlocks s.objs + (h.live : Multiset Nat) ∧ h'.live.Nodup := by
  have := py_history cs hg True (fun _ => hc) hcare
  rw [hr] at this
  obtain ⟨L, hown, -, hL⟩ := this
  rw [hL trivial, zero_add, ← add_assoc] at hown
  exact ⟨hown.2, hown.1.1⟩

/-- The part of `C87_remains` that holds although tables are given up halfway or lists
replaced: nothing which an object still refers to has been freed. -/
theorem C87_remains_partial (cs : List PyCall) {h : Heap} (hg : h.Good)
    (hcare : carefulRun pyStart cs h = true) {s : PyState} {h' : Heap}
    (hr : pyRun pyStart cs h = .ok (s, h')) :
    poolBlocks s.ds + structBlocks s.objs + (h.live : Multiset Nat) ≤ (h'.live : Multiset Nat) ∧
      h'.live.Nodup := by
  have := py_history cs hg False (fun h => h.elim) hcare
  rw [hr] at this
  obtain ⟨L, hown, -, -⟩ := this
  refine ⟨?_, hown.1.1⟩
  rw [hown.2, add_assoc]
  exact add_le_add_right (add_le_add_right (Multiset.le_add_left _ _) _) _

/-! ### The rules are needed

Each of the rules, broken at any point of any program, leads to undefined behaviour. -/

/-- C87, the rule on tables: if a program that has kept the rules so far deletes an object which
came from a constructor, the next use of a table or column taken out of it is undefined. -/
theorem C87_table_rule_needed (cs : List PyCall) {h : Heap} (hg : h.Good) (hc : ∀ c ∈ cs, c.Clean)
    (hcare : carefulRun pyStart cs h = true) {s : PyState} {h' : Heap}
    (hr : pyRun pyStart cs h = .ok (s, h')) {r : Nat} {t : PyRef} (ht : s.refs[r]? = some t)
    {o : PyObj} {d : OiFits} (ho : s.obj t.obj = some (o, d)) (hown : o.own = true) :
    pyRun pyStart (cs ++ [.del t.obj, .attr r]) h = .ub := by
  have hinv := py_history cs hg True (fun _ => hc) hcare
  rw [hr] at hinv
  obtain ⟨L, hheap, hok, hL⟩ := hinv
  obtain ⟨g1, g2, g3⟩ := obj_some ho
  have e0 := hL trivial
  subst e0
  have hself := ((hok.refs t (List.mem_of_getElem? ht)).2 d g2).self
  rw [add_zero] at hself
  have hsplit : poolBlocks s.ds + (structBlocks s.objs + (0 + (h.live : Multiset Nat))) =
      d.blocks + (poolBlocks (s.ds.set t.obj none) +
        (structBlocks s.objs + (0 + (h.live : Multiset Nat)))) := by
    rw [pool_set g2, add_assoc]
  have hnd := own_nodup hheap
  rw [hsplit] at hnd
  have hdead : ¬ Held t.self (poolBlocks (s.ds.set t.obj none) +
      (structBlocks s.objs + (0 + (h.live : Multiset Nat)))) := by
    rintro ⟨i, hi, him⟩
    obtain ⟨j, hj, hjm⟩ := hself
    have : i = j := Option.some.inj (hi.symm.trans hj)
    subst this
    exact Multiset.disjoint_left.mp (Multiset.nodup_add.mp hnd).2.2 hjm him
  rw [py_append, hr]
  refine py_last_two ?_ ?_
  · intro e
    exact py_del_noAbort s t.obj h' e
  · intro s' h'' e
    have hd := py_del_data ho hown e
    have hrefs := hd.1
    have hfree : Own (poolBlocks (s.ds.set t.obj none) +
        (structBlocks s.objs + (0 + (h.live : Multiset Nat)))) h'' := by
      have hfr := (hok.objs o (List.mem_of_getElem? g1) g3)
      have hdo := hok.data d (List.mem_of_getElem? g2)
      have htri := free_oi_fits_rule (M := poolBlocks (s.ds.set t.obj none) +
        (structBlocks s.objs + (0 + (h.live : Multiset Nat)))) d hdo h' (by rw [← hsplit]; exact hheap)
      rw [hd.2] at htri
      exact htri
    simp only [pyCall, hrefs, ht]
    rw [bind_def, touch_dead hfree hdead]
    rfl

/-- C87, the rule on indices: an index of a record not less than their number is undefined
behaviour, in any state. -/
theorem C87_index_rule_needed (s : PyState) (h : Heap) {r j : Nat} {t : PyRef}
    (ht : s.refs[r]? = some t) (hj : t.recs.length ≤ j) : pyCall s (.record r j) h = .ub := by
  simp only [pyCall, ht]
  exact NoAbort.bad (noAbort_touch _) (fun _ => bad_recAt hj) h

/-- C87, the rule on names: asking for the size of a table which cannot be found is undefined
behaviour, in any state. -/
theorem C87_name_rule_needed (s : PyState) (h : Heap) {i : Nat} {o : PyObj} {d : OiFits}
    (ho : s.obj i = some (o, d)) (n : CStr) :
    (d.arrayHash.knows n = false → pyCall s (.nelement i n) h = .ub) ∧
    (d.wavelengthHash.knows n = false → pyCall s (.nwave i n) h = .ub ∧
      pyCall s (.effWave i n) h = .ub) := by
  refine ⟨fun hk => ?_, fun hk => ⟨?_, ?_⟩⟩
  · simp only [pyCall, ho]
    exact NoAbort.bad (noAbort_touch _) (fun _ => bad_lookup hk) h
  · simp only [pyCall, ho]
    exact NoAbort.bad (noAbort_touch _) (fun _ => bad_lookup hk) h
  · simp only [pyCall, ho]
    exact NoAbort.bad (noAbort_touch _) (fun _ => bad_lookup hk) h

/-- C87, the rule on lists: after a list which is not empty has been assigned, in any state,
reading the list is undefined behaviour; and if the object came from a constructor, so is
deleting it. -/
theorem C87_list_rule_needed (s : PyState) (h : Heap) {i : Nat} {o : PyObj} {d : OiFits}
    (ho : s.obj i = some (o, d)) (k : DataKind) {rs : List Nat} (hne : rs ≠ [])
    (hrs : ∀ r ∈ rs, r < s.refs.length) :
    (∀ j, pyRun s [.assign i k rs, .table i (.data k) j] h = .ub) ∧
    (o.own = true → pyRun s [.assign i k rs, .del i] h = .ub) := by
  obtain ⟨g1, g2, g3⟩ := obj_some ho
  obtain ⟨l, hl⟩ := mapM_some (f := fun r => s.refs[r]?) rs fun r hr =>
    ⟨_, List.getElem?_eq_getElem (hrs r hr)⟩
  have hi1 := (List.getElem?_eq_some_iff.mp g1).1
  have hi2 := (List.getElem?_eq_some_iff.mp g2).1
  have hstep : ∀ (c : PyCall), (∀ s' fl, s'.obj i = some ({ o with freedLists := k :: fl }, d.clearList k) →
      Bad (pyCall s' c)) → pyRun s [.assign i k rs, c] h = .ub := by
    intro c hbad
    have e : pyRun s [.assign i k rs, c] =
        (pyCall s (.assign i k rs) >>= fun s' => pyCall s' c >>= Pure.pure) := rfl
    rw [e]
    have ea : pyCall s (.assign i k rs) = (touch o.self >>= fun _ => Pure.pure { s with
        objs := s.objs.set i { o with
          freedLists := k :: o.freedLists.filter (fun x => decide (x ≠ k)) },
        ds := s.ds.set i (some (d.clearList k)) }) := by
      simp only [pyCall, ho, hl, if_neg hne]
    rw [ea, bind_assoc]
    refine NoAbort.bad (noAbort_touch _) (fun _ => ?_) h
    rw [pure_bind]
    intro h
    rw [bind_def, hbad _ (o.freedLists.filter (fun x => decide (x ≠ k))) ?_ h]
    · rfl
    · simp only [PyState.obj, List.getElem?_set_self hi1, List.getElem?_set_self hi2, g3, if_true]
  refine ⟨fun j => hstep _ fun s' fl hs' => ?_, fun hown => hstep _ fun s' fl hs' => ?_⟩
  · simp only [pyCall, hs']
    refine NoAbort.bad (noAbort_touch _) fun _ => ?_
    simp only [List.any_cons, decide_true, Bool.true_or, if_true]
    exact fun _ => rfl
  · simp only [pyCall, hs', hown, if_true, useLists]
    exact fun _ => rfl

/-! ### A program -/

/-- A program like the examples in the documentation of the modules: it reads a file, looks at
tables and records, filters, empties a list, merges, and deletes what it read before it looks
at the rest. -/
def samplePy : List PyCall :=
  [.openFile sampleRead, .table 0 (.data .vis) 0, .attr 0, .record 0 1,
   .table 0 (.data .vis2) 1, .record 1 0, .table 0 .array 5, .element 0 "X".toList,
   .nelement 0 "A".toList, .nwave 0 "W".toList, .effWave 0 "W".toList, .attr 2, .target 0,
   .apply 0 sampleFilter, .merge [0, 1, 0] sampleMerge,
   .assign 0 .vis2 [], .record 1 0, .apply 0 sampleFilter,
   .table 2 .wave 0, .del 0, .attr 3, .del 2, .attr 3, .new, .openFile { sampleRead with targets := none },
   .del 1, .del 3, .del 4]

/-- The number of blocks allocated after some steps; `none` if they do not end well. -/
def pyLiveAfter (cs : List PyCall) : Option Nat :=
  match pyRun pyStart cs sampleHeap with
  | .ok (_, h) => some h.live.length
  | _ => none

/-- The program keeps the rules, and runs to its end. -/
theorem samplePy_runs :
    carefulRun pyStart samplePy sampleHeap = true ∧
    pyLiveAfter (samplePy.take 1) = some 82 ∧ (pyLiveAfter samplePy).isSome = true := by
  decide +kernel

example : pyRun pyStart samplePy sampleHeap ≠ .ub :=
  C87_safe_partial samplePy sampleHeap_good samplePy_runs.1

/-- A program which also gives up no table halfway. -/
def cleanPy : List PyCall :=
  [.openFile sampleRead, .table 0 (.data .t3) 0, .record 0 0, .apply 0 sampleFilter, .del 0, .del 1]

theorem cleanPy_clean : ∀ c ∈ cleanPy, c.Clean := by
  intro c hc
  simp only [cleanPy, List.mem_cons, List.not_mem_nil, or_false] at hc
  rcases hc with rfl | rfl | rfl | rfl | rfl | rfl
  · exact sampleRead_clean
  · trivial
  · trivial
  · exact sampleFilter_clean
  · trivial
  · trivial

theorem cleanPy_runs : carefulRun pyStart cleanPy sampleHeap = true ∧
    (pyLiveAfter cleanPy).isSome = true := by decide +kernel

example {s : PyState} {h' : Heap} (hr : pyRun pyStart cleanPy sampleHeap = .ok (s, h')) :
    (h'.live : Multiset Nat) =
      poolBlocks s.ds + structBlocks s.objs + (sampleHeap.live : Multiset Nat) :=
  (C87_remains cleanPy sampleHeap_good cleanPy_clean cleanPy_runs.1 hr).1

/-! ### What goes wrong -/

/-- The program has undefined behaviour. -/
def pyUb (cs : List PyCall) : Bool :=
  match pyRun pyStart cs sampleHeap with
  | .ub => true
  | _ => false

theorem ub_of {cs : List PyCall} (h : pyUb cs = true) : pyRun pyStart cs sampleHeap = .ub := by
  unfold pyUb at h
  cases hr : pyRun pyStart cs sampleHeap with
  | ok r => rw [hr] at h; cases h
  | abort => rw [hr] at h; cases h
  | ub => rfl

/-- C87 is false of `t = OiFits('f').visList[0]` followed by `t.insname`: the object made by
the constructor goes before the table is used, and takes the table with it. -/
theorem C87_table_outlives_counterexample :
    pyRun pyStart [.openFile sampleRead, .table 0 (.data .vis) 0, .del 0, .attr 0] sampleHeap =
      .ub := ub_of (by decide +kernel)

/-- The same with the column which `get_eff_wave` returns. -/
theorem C87_column_outlives_counterexample :
    pyRun pyStart [.openFile sampleRead, .effWave 0 "W".toList, .del 0, .attr 0] sampleHeap =
      .ub := ub_of (by decide +kernel)

/-- C87 is false of `o.vis2List = o.vis2List[:1]`: the list assigned is freed as soon as it has
been assigned, so that not even the deletion of the object is safe. -/
theorem C87_assign_counterexample :
    pyRun pyStart [.openFile sampleRead, .table 0 (.data .vis2) 0, .assign 0 .vis2 [0], .del 0]
      sampleHeap = .ub ∧
    pyRun pyStart [.openFile sampleRead, .table 0 (.data .vis2) 0, .assign 0 .vis2 [0],
      .table 0 (.data .vis2) 0] sampleHeap = .ub :=
  ⟨ub_of (by decide +kernel), ub_of (by decide +kernel)⟩

/-- C87 is false of `o.get_nelement(name)` and `o.get_nwave(name)` if there is no such table;
`o.get_element(name, 1)` is safe. -/
theorem C87_unknown_name_counterexample :
    pyRun pyStart [.openFile sampleRead, .nelement 0 "X".toList] sampleHeap = .ub ∧
    pyRun pyStart [.openFile sampleRead, .nwave 0 "X".toList] sampleHeap = .ub ∧
    pyRun pyStart [.openFile sampleRead, .element 0 "X".toList] sampleHeap ≠ .ub :=
  ⟨ub_of (by decide +kernel), ub_of (by decide +kernel),
    C87_safe_partial _ sampleHeap_good (by decide +kernel)⟩

/-- C87 is false of `t.record[2]` if the table has two records; Python programs expect
IndexError, and a loop `for r in t.record` needs it to end. -/
theorem C87_index_counterexample :
    pyRun pyStart [.openFile sampleRead, .table 0 (.data .vis) 0, .record 0 2] sampleHeap =
      .ub := ub_of (by decide +kernel)

/-- Deleting all its objects does not return the memory a program has used: the struct of each
object remains, and so does everything that `apply` or `merge` returned. -/
theorem C87_lost :
    pyLiveAfter [] = some 1 ∧ pyLiveAfter [.openFile sampleRead, .del 0] = some 2 ∧
    pyLiveAfter [.openFile sampleRead, .apply 0 sampleFilter, .del 0, .del 1] = some 46 := by
  decide +kernel

end Verif.Mem
