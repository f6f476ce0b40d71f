import Verif.Proof.PyState
import Verif.Props.Cli
import Verif.Props.File
import Verif.Props.ReadFile

/-!
# C106–C108: filters and datasets of a Python session
-/

set_option Elab.async false

namespace Verif
open Outcome Spec Py
variable {R : FP} {u : Undef R} {today : CStr} {fs : Files R}

/-! ### C106: attributes of filters -/

theorem assigned_cons_set (k k' : Nat) (a : FilterAttr R) (cs : List (Call R)) :
    assigned k (.set k' a :: cs) = if k' = k then a :: assigned k cs else assigned k cs := by
  unfold assigned
  by_cases h : k' = k <;> simp [h]

theorem assigned_cons_other {c : Call R} (h : ∀ k a, c ≠ .set k a) (k : Nat) (cs : List (Call R)) :
    assigned k (c :: cs) = assigned k cs := by
  unfold assigned
  rw [List.filterMap_cons]
  split
  · rfl
  · rename_i b hb
    split at hb
    · exact absurd rfl (h _ _)
    · cases hb

/-- A filter is what assignments have made of what it was. -/
theorem run_filters {cs : List (Call R)} {s s' : Session R} {vs : List (Value R)}
    (h : Py.run u today s cs = (s', vs, none)) {k : Nat} {f : FilterSpec R} (hf : s'.filters[k]? = some f) :
    (∃ f0, s.filters[k]? = some f0 ∧ setAll f0 (assigned k cs) = some f) ∨
    (s.filters[k]? = none ∧ setAll (init_oi_filter R) (assigned k cs) = some f) := by
  induction cs generalizing s vs with
  | nil =>
    cases h
    exact .inl ⟨f, hf, rfl⟩
  | cons c cs ih =>
    obtain ⟨s1, v, vs', h1, h2, rfl⟩ := run_cons_inv h
    have i := ih h2
    by_cases hc : ∃ k a, c = .set k a
    · obtain ⟨k', a, rfl⟩ := hc
      obtain ⟨f', g, h3, h4, rfl, -⟩ := step_set_inv h1
      rw [assigned_cons_set]
      obtain ⟨hk, hf'⟩ := List.getElem?_eq_some_iff.mp h3
      by_cases e : k' = k
      · subst e
        rw [if_pos rfl]
        rcases i with ⟨f0, i1, i2⟩ | ⟨i1, -⟩
        · simp only at i1
          rw [List.getElem?_set_self hk] at i1
          cases i1
          exact .inl ⟨f', h3, (setAll_cons h4 _).trans i2⟩
        · simp only at i1
          rw [List.getElem?_set_self hk] at i1
          cases i1
      · rw [if_neg e]
        simp only at i
        rw [List.getElem?_set_ne e] at i
        exact i
    · have hc : ∀ k a, c ≠ .set k a := fun k a e => hc ⟨k, a, e⟩
      rw [assigned_cons_other hc]
      rcases step_cases (u := u) (today := today) s c with hm | ⟨rfl, e⟩ | ⟨k', a, _, _, e, -⟩ | ⟨i', name, oi, rfl, -, e⟩
      · have : s1.filters = s.filters := by
          rcases hm with ⟨b, e', e, -⟩ | ⟨b, oi, e⟩ <;> (rw [h1] at e; cases e; rfl)
        rw [← this]
        exact i
      · rw [h1] at e
        cases e
        simp only at i
        rcases Nat.lt_trichotomy k s.filters.length with hk | hk | hk
        · rw [List.getElem?_append_left hk] at i
          exact i
        · subst hk
          rw [List.getElem?_concat_length] at i
          rcases i with ⟨f0, i1, i2⟩ | ⟨i1, -⟩
          · cases i1
            exact .inr ⟨by simp, i2⟩
          · cases i1
        · rw [List.getElem?_eq_none (by simp; omega)] at i
          rcases i with ⟨f0, i1, i2⟩ | ⟨-, i2⟩
          · cases i1
          · exact .inr ⟨List.getElem?_eq_none (by omega), i2⟩
      · exact absurd e (hc k' a)
      · have : s1.filters = s.filters := by
          rw [h1] at e
          unfold pyWrite at e
          rcases inC_cases (writeFile today name oi) s (fun st s =>
            if st ≠ .ok then (s, .raised .io) else (s, .value .nothing)) with ⟨a, w, -, h2⟩ | ⟨x, -, h2⟩
          · rw [h2] at e
            split at e <;> cases e
            rfl
          · rw [h2] at e; cases e
        rw [← this]
        exact i

/-- C106. Whatever else a script does, each criterion of a filter it has made is the value last
assigned to the attribute of this filter, and if there was none, the default. Missing: the
criterion `uvrad_range`, which the Python class does not have (`C106_counterexample`). -/
theorem C106_partial {cs : List (Call R)} (h : Finished (Py.run u today (.start fs) cs)) {k : Nat} {f : FilterSpec R}
    (hf : (Py.run u today (.start fs) cs).1.filters[k]? = some f) : AttrsAre (assigned k cs) f := by
  rcases hr : Py.run u today (.start fs) cs with ⟨s, vs, e⟩
  rw [hr] at h hf
  cases e with
  | some e => cases h
  | none =>
    rcases run_filters hr hf with ⟨f0, h1, -⟩ | ⟨-, h2⟩
    · cases h1
    · exact attrsAre_of h2

/-- Two filters; the first is given a target twice, and a range which the second is not given. -/
def Ex.filterCalls : List (Call FP.ratFP) :=
  [.filter, .set 0 (.target_id (.int 3)), .filter, .set 1 (.arrname ("CHARA" : CStr)),
    .set 0 (.bas_range (.seq [.float (some 10), .float (some 300)])), .set 0 (.target_id (.int 4)),
    .set 0 (.accept_vis (.int 0))]

theorem Ex.filterCalls_run : Finished (Py.run Ex.undef ("today" : CStr) (.start Ex.files) Ex.filterCalls) ∧
    ((Py.run Ex.undef ("today" : CStr) (.start Ex.files) Ex.filterCalls).1.filters.map fun f =>
      (f.target_id, (f.bas_range : Option Rat × Option Rat), f.arrname, f.accept_vis)) =
      [(4, (some 10, some 300), ("*" : CStr), false), (-1, (some 0, some 10000), ("CHARA" : CStr), true)] := by
  unfold Finished
  decide +kernel

example : ∃ f, (Py.run Ex.undef ("today" : CStr) (.start Ex.files) Ex.filterCalls).1.filters[0]? = some f ∧
    AttrsAre (assigned 0 Ex.filterCalls) f ∧ f.target_id = 4 := by
  obtain ⟨h1, h2⟩ := Ex.filterCalls_run
  cases hf : (Py.run Ex.undef ("today" : CStr) (.start Ex.files) Ex.filterCalls).1.filters with
  | nil => rw [hf] at h2; cases h2
  | cons f l =>
    refine ⟨f, rfl, C106_partial h1 (by rw [hf]; rfl), ?_⟩
    rw [hf] at h2
    exact congrArg Prod.fst (List.cons.inj h2).1

/-- C106. Assigning to `uvrad_range` is accepted and changes nothing. -/
theorem C106_counterexample (s : Session R) {k : Nat} {f : FilterSpec R} (hf : s.filters[k]? = some f) (x y : R.Dbl) :
    step u today s (.set k (.uvrad_range (.seq [.float x, .float y]))) = (s, .value .nothing) := by
  rw [step_set_ok hf (a := .uvrad_range (.seq [.float x, .float y])) rfl]
  obtain ⟨hk, rfl⟩ := List.getElem?_eq_some_iff.mp hf
  rw [List.set_getElem_self hk]

/-- C106. An assignment is accepted if the value is acceptable, and then changes nothing but the
filter it is made to. Otherwise it raises the exception for the value and changes nothing;
except that a name of 71 characters is stored without its end. -/
theorem C106_assign (s : Session R) {k : Nat} {f : FilterSpec R} (hf : s.filters[k]? = some f) (a : FilterAttr R) :
    (Acceptable a → ∃ g, step u today s (.set k a) = ({ s with filters := s.filters.set k g }, .value .nothing)) ∧
    (∀ e, RaisesFor e a → step u today s (.set k a) = (s, .raised e)) ∧
    (LeavesNoRoom a → step u today s (.set k a) = (s, .crash .ub)) ∧
    (Acceptable a ∨ (∃ e, RaisesFor e a) ∨ LeavesNoRoom a) := by
  obtain ⟨h1, h2, h3⟩ := setAttr_spec f a
  refine ⟨fun h => ?_, fun e h => ?_, fun h => ?_, ?_⟩
  · obtain ⟨g, hg⟩ := h1 h
    exact ⟨g, step_set_ok hf hg⟩
  · rw [step, hf]
    simp only
    rw [inC_call_ok (h3 e h)]
  · rw [step, hf]
    simp only
    rw [h2 h]
    rfl
  · rcases attr_cases a with h | h | h
    · exact .inl h
    · exact .inr (.inr h)
    · exact .inr (.inl h)

example : Acceptable (R := FP.ratFP) (.arrname (List.replicate 70 'A')) ∧
    RaisesFor (R := FP.ratFP) .type (.arrname (List.replicate 72 'A')) ∧
    LeavesNoRoom (R := FP.ratFP) (.arrname (List.replicate 71 'A')) := by
  simp [Acceptable, RaisesFor, LeavesNoRoom]

example : Acceptable (R := FP.ratFP) (.mjd_range (.seq [.float (some 1), .float (some 2)])) :=
  ⟨(some 1, some 2), rfl⟩

/-- Ints are refused where floats are expected. -/
example : RaisesFor (R := FP.ratFP) .value (.mjd_range (.seq [.int 1, .int 2])) :=
  .inr ⟨⟨_, rfl⟩, fun p h => (by unfold IsPair at h; injection h with h; injection h with h; cases h), rfl⟩

/-! ### C107: what calls change -/

theorem obeys_writeFile_bang (path : CStr) (today : CStr) (oi : OiFits R) :
    Obeys (KeepsOthers path) (writeFile today ('!' :: path) oi) := by
  intro w
  unfold writeFile
  simp only
  have set_ok := fun x => keepsOthers_set (R := R) path w.files x
  cases write_oi_fits today false oi .ok with
  | ok p =>
    obtain ⟨o, st⟩ := p
    cases o with
    | none => exact ⟨fun e h => (by cases h), fun b w' h => by cases h; exact (keepsOthers_pre _).refl _⟩
    | some hdus => exact ⟨fun e h => (by cases h), fun b w' h => by cases h; exact set_ok _⟩
  | abort => exact ⟨fun e h => (by cases h; exact set_ok _), fun b w' h => by cases h⟩
  | ub => exact ⟨fun e h => (by cases h; exact set_ok _), fun b w' h => by cases h⟩

/-- A call of `write`. -/
theorem pyWrite_frame {T : Files R → Files R → Prop} {name : CStr} {oi : OiFits R} (hT : Obeys T (writeFile today name oi))
    (s : Session R) : ∃ g b e, pyWrite today oi name s = ({ s with files := g, buffer := b }, e) ∧ T s.files g ∧
      ∀ i, e ≠ .value (.data i) := by
  have := hT ⟨[], s.files, s.buffer⟩
  unfold pyWrite
  rcases inC_cases (writeFile today name oi) s (fun st s =>
    if st ≠ .ok then (s, .raised .io) else (s, .value .nothing)) with ⟨a, w, h1, h2⟩ | ⟨x, h1, h2⟩
  · rw [h2]
    refine ⟨w.files, w.buffer, if a ≠ .ok then .raised .io else .value .nothing, ?_, this.2 _ _ h1, ?_⟩
    · by_cases ha : a ≠ .ok
      · rw [if_pos ha, if_pos ha]
      · rw [if_neg ha, if_neg ha]
    · intro i h
      by_cases ha : a ≠ .ok
      · rw [if_pos ha] at h; cases h
      · rw [if_neg ha] at h; injection h with h; cases h
  · rw [h2]
    exact ⟨x.files, s.buffer, _, rfl, this.1 _ h1, fun i h => by cases h⟩

theorem writes_frame {name : CStr} {oi : OiFits R} {other : CStr} {i : Nat} (h : fileWritten (R := R) (.write i name) ≠ some other) :
    Obeys (fun f g : Files R => g other = f other) (writeFile today name oi) := by
  by_cases hn : name.head? = some '!'
  · obtain ⟨path, rfl⟩ : ∃ path, name = '!' :: path := by
      cases name with
      | nil => cases hn
      | cons c cs => exact ⟨cs, by injection hn with hn; rw [hn]⟩
    have : other ≠ path := fun e => h (by rw [e]; rfl)
    intro w
    exact ⟨fun e he => (obeys_writeFile_bang path today oi w).1 e he other this,
      fun a w' he => (obeys_writeFile_bang path today oi w).2 a w' he other this⟩
  · have : other ≠ name := by
      intro e
      subst e
      apply h
      unfold fileWritten
      split
      · rename_i h'
        injection h' with _ h'
        subst h'
        exact absurd rfl hn
      · rename_i h'
        injection h' with _ h'
        rw [h']
      · rename_i h1 h2
        exact absurd rfl (h2 _ _)
    intro w
    exact ⟨fun e he => (obeys_writeFile_keepsOthers hn today oi w).1 e he other this,
      fun a w' he => (obeys_writeFile_keepsOthers hn today oi w).2 a w' he other this⟩

/-- C107, one call. It makes at most one dataset, and leaves those there are alone. It changes at
most the filter it assigns to, and at most the file it writes. -/
theorem C107_step (s : Session R) (c : Call R) :
    ((step u today s c).1.data = s.data ∨ ∃ oi, (step u today s c).1.data = s.data ++ [oi] ∧
      (step u today s c).2 = .value (.data s.data.length)) ∧
    (∀ k, k < s.filters.length → filterChanged c ≠ some k → (step u today s c).1.filters[k]? = s.filters[k]?) ∧
    (∀ name, fileWritten c ≠ some name → (step u today s c).1.files name = s.files name) := by
  rcases step_cases (u := u) (today := today) s c with hm | ⟨rfl, e⟩ | ⟨k', a, f, g, rfl, -, -, e⟩ | ⟨i', name, oi, rfl, -, e⟩
  · rcases hm with ⟨b, e', e, -⟩ | ⟨b, oi, e⟩ <;> rw [e]
    · exact ⟨.inl rfl, fun _ _ _ => rfl, fun _ _ => rfl⟩
    · exact ⟨.inr ⟨oi, rfl, rfl⟩, fun _ _ _ => rfl, fun _ _ => rfl⟩
  · rw [e]
    exact ⟨.inl rfl, fun k hk _ => List.getElem?_append_left hk, fun _ _ => rfl⟩
  · rw [e]
    exact ⟨.inl rfl, fun k hk hne => List.getElem?_set_ne (fun e => hne (by rw [e]; rfl)), fun _ _ => rfl⟩
  · rw [e]
    have hT : Obeys (fun f g : Files R => True) (writeFile today name oi) := fun w => ⟨fun _ _ => trivial, fun _ _ _ => trivial⟩
    obtain ⟨g, b, x, hx, -, -⟩ := pyWrite_frame hT s
    refine ⟨.inl (by rw [hx]), fun k _ _ => by rw [hx], fun other ho => ?_⟩
    obtain ⟨g, b, x, hx, h, -⟩ := pyWrite_frame (writes_frame (today := today) (oi := oi) ho) s
    rw [hx]
    exact h

/-- C107. However a script ends, the datasets it has made are never changed, a filter is only
changed by assignments to it, and a file only by writing it. -/
theorem C107_run (s : Session R) (cs : List (Call R)) :
    s.data <+: (Py.run u today s cs).1.data ∧
    (∀ k, k < s.filters.length → (∀ c ∈ cs, filterChanged c ≠ some k) →
      (Py.run u today s cs).1.filters[k]? = s.filters[k]?) ∧
    (∀ name, (∀ c ∈ cs, fileWritten c ≠ some name) → (Py.run u today s cs).1.files name = s.files name) := by
  induction cs generalizing s with
  | nil => exact ⟨List.prefix_refl _, fun _ _ _ => rfl, fun _ _ => rfl⟩
  | cons c cs ih =>
    obtain ⟨h1, h2, h3⟩ := C107_step (u := u) (today := today) s c
    have hd : s.data <+: (step u today s c).1.data := by
      rcases h1 with h | ⟨oi, h, -⟩
      · rw [h]; exact List.prefix_refl _
      · rw [h]; exact List.prefix_append _ _
    rcases hs : step u today s c with ⟨s1, e⟩
    rw [hs] at h2 h3 hd
    cases e with
    | value v =>
      rw [run_cons_value hs]
      obtain ⟨i1, i2, i3⟩ := ih s1
      refine ⟨hd.trans i1, fun k hk hc => ?_, fun name hc => ?_⟩
      · have e := h2 k hk (hc c List.mem_cons_self)
        have hk' : k < s1.filters.length := by
          rw [List.getElem?_eq_getElem hk] at e
          exact (List.getElem?_eq_some_iff.mp e).1
        exact (i2 k hk' fun c hc' => hc c (List.mem_cons_of_mem _ hc')).trans e
      · exact (i3 name fun c hc' => hc c (List.mem_cons_of_mem _ hc')).trans (h3 name (hc c List.mem_cons_self))
    | raised x =>
      rw [Py.run, hs]
      exact ⟨hd, fun k hk hc => h2 k hk (hc c List.mem_cons_self), fun name hc => h3 name (hc c List.mem_cons_self)⟩
    | crash x =>
      rw [Py.run, hs]
      exact ⟨hd, fun k hk hc => h2 k hk (hc c List.mem_cons_self), fun name hc => h3 name (hc c List.mem_cons_self)⟩

/-- C107. Writing never changes a file that exists, except if the name begins with `!`. -/
theorem C107_existing (s : Session R) (cs : List (Call R))
    (h : ∀ i name, Call.write i name ∈ cs → name.head? ≠ some '!') {name : CStr} {d : FileData R} (hd : s.files name = some d) :
    (Py.run u today s cs).1.files name = some d := by
  induction cs generalizing s with
  | nil => exact hd
  | cons c cs ih =>
    have key : (step u today s c).1.files name = some d := by
      by_cases hc : ∃ i n, c = .write i n
      · obtain ⟨i, n, rfl⟩ := hc
        rw [step, withData]
        cases s.data[i]? with
        | none => exact hd
        | some oi =>
          obtain ⟨g, b, x, hx, h, -⟩ := pyWrite_frame (obeys_writeFile_keepsExisting (h i n List.mem_cons_self) today oi) s
          simp only [hx]
          exact h name d hd
      · refine ((C107_step s c).2.2 name ?_).trans hd
        cases c <;> first
          | exact absurd ⟨_, _, rfl⟩ hc
          | exact fun h => by cases h
    rcases hs : step u today s c with ⟨s1, e⟩
    rw [hs] at key
    cases e with
    | value v =>
      rw [run_cons_value hs]
      exact ih s1 (fun i n hm => h i n (List.mem_cons_of_mem _ hm)) key
    | raised x => rw [Py.run, hs]; exact key
    | crash x => rw [Py.run, hs]; exact key

/-- C107. A call which raises an exception makes no dataset and no filter, and changes none; and if
it is not `write`, no file. -/
theorem C107_raised {s s' : Session R} {c : Call R} {e : Raised} (h : step u today s c = (s', .raised e)) :
    s'.data = s.data ∧ s'.filters = s.filters ∧ ((∀ i name, c ≠ .write i name) → s'.files = s.files) := by
  rcases step_cases (u := u) (today := today) s c with hm | ⟨-, e⟩ | ⟨k', a, f, g, -, -, -, e⟩ | ⟨i', name, oi, rfl, -, e⟩
  · rcases hm with ⟨b, e', e, -⟩ | ⟨b, oi, e⟩ <;> rw [h] at e <;> cases e
    exact ⟨rfl, rfl, fun _ => rfl⟩
  · rw [h] at e; cases e
  · rw [h] at e; cases e
  · have hT : Obeys (fun f g : Files R => True) (writeFile today name oi) := fun w => ⟨fun _ _ => trivial, fun _ _ _ => trivial⟩
    obtain ⟨g, b, x, hx, -, -⟩ := pyWrite_frame hT s
    rw [h, hx] at e
    cases e
    exact ⟨rfl, rfl, fun hc => absurd rfl (hc _ _)⟩

/-- C107. `str` of a dataset is its summary and `str` of a filter its description, whatever the
script did before. -/
theorem C107_str (s : Session R) :
    (∀ i oi, s.data[i]? = some oi → oi.WF → ∃ s', step u today s (.str i) = (s', .value (.text (summary oi)))) ∧
    (∀ k f, s.filters[k]? = some f → ∃ s', step u today s (.filterStr k) = (s', .value (.text (filterText f)))) := by
  refine ⟨fun i oi h hw => ?_, fun k f h => ?_⟩
  · rw [step, withData, h]
    have : textOf (R := R) (format_oi_fits_summary oi) ⟨[], s.files, s.buffer⟩ =
        .ok (summary oi, ⟨[], s.files, some (summary oi)⟩) := by
      unfold textOf; rw [summary_eq hw]
    simp only
    rw [inC_ok this]
    exact ⟨_, rfl⟩
  · rw [step, h]
    have : textOf (R := R) (format_oi_filter f) ⟨[], s.files, s.buffer⟩ =
        .ok (filterText f, ⟨[], s.files, some (filterText f)⟩) := by
      unfold textOf; rw [filterText_eq f]
    simp only
    rw [inC_ok this]
    exact ⟨_, rfl⟩

/-- A script which reads a file, writes it under a name that is there and under one that is not,
and raises an exception at the first of these. -/
def Ex.overwriting : List (Call FP.ratFP) := [.oifits (some ("in" : CStr)), .filter, .write 0 ("old" : CStr), .write 0 ("new" : CStr)]

example : (Py.run Ex.undef ("today" : CStr) (.start Ex.files) Ex.overwriting).2.1.length = 2 ∧
    (match (Py.run Ex.undef ("today" : CStr) (.start Ex.files) Ex.overwriting).2.2 with
      | some (.raised .io) => true | _ => false) = true ∧
    (Py.run Ex.undef ("today" : CStr) (.start Ex.files) Ex.overwriting).1.data.length = 1 := by
  decide +kernel

/-! ### C108: what the accessors return -/

/-- C108. What Python tells about targets of a dataset. -/
theorem C108_targets (s : Session R) {i : Nat} {oi : OiFits R} (h : s.data[i]? = some oi) :
    step u today s (.numTargets i) = (s, .value (.int oi.targets.targ.length)) ∧
    (∀ id t, FirstWith (fun t => t.target_id = id) oi.targets.targ t →
      step u today s (.getTarget i id) = (s, .value (.target (some t)))) ∧
    (∀ id, (∀ t ∈ oi.targets.targ, t.target_id ≠ id) → step u today s (.getTarget i id) = (s, .value (.target none))) := by
  refine ⟨by rw [step, withData, h], fun id t ht => ?_, fun id hn => ?_⟩
  · simp only [step, withData, h, (C16_lookup_target oi id t).mpr ht]
  · simp only [step, withData, h, (C16_lookup_target_null oi id).mpr hn]

/-- C108. For a dataset read from a file, Python tells the wavelengths and stations of the tables of
the given name, if a data table names them. Missing: the names of other tables, for which the
interpreter crashes (`C108_counterexample`, `C108_unknown`). -/
theorem C108_partial {hdus : List (Hdu R)} {st : Status} {oi : OiFits R} (h0 : hdus ≠ [])
    (hr : read_oi_fits u (some hdus) .ok = .ok (some oi, st)) (s : Session R) {i : Nat} (h : s.data[i]? = some oi) :
    (∀ n w, NamesInstrument oi n → FirstWith (fun w => w.insname = n) oi.wavelengthList w →
      step u today s (.getNwave i n) = (s, .value (.int w.nwave)) ∧
      step u today s (.getEffWave i n) = (s, .value (.waves w.eff_wave)) ∧
      step u today s (.getEffBand i n) = (s, .value (.waves w.eff_band)) ∧
      w.eff_wave.length = w.nwave ∧ w.eff_band.length = w.nwave) ∧
    (∀ n a, NamesArray oi n → FirstWith (fun a => a.arrname = n) oi.arrayList a →
      step u today s (.getNelement i n) = (s, .value (.int a.elem.length)) ∧
      (∀ j e, FirstWith (fun e => e.sta_index = j) a.elem e →
        step u today s (.getElement i n j) = (s, .value (.element (some e)))) ∧
      (∀ j, (∀ e ∈ a.elem, e.sta_index ≠ j) → step u today s (.getElement i n j) = (s, .value (.element none)))) := by
  have key := C17_partial h0 hr
  have hw := C64_wf h0 hr
  refine ⟨fun n w hn hf => ?_, fun n a hn hf => ?_⟩
  · have e : oi_fits_lookup_wavelength oi n = some w := by
      rw [(key n).2.1 hn]
      exact (find?_firstWith (q := fun w : OiWavelength R => w.insname = n) (by simp) _ _).mpr hf
    have hmem : w ∈ oi.wavelengthList := by
      obtain ⟨pre, post, e, -⟩ := hf
      rw [e]; simp
    have hww := hw.wavelength w hmem
    refine ⟨?_, ?_, ?_, ?_, ?_⟩
    · simp only [step, withData, h, e]; rfl
    · simp only [step, withData, h, e]; rfl
    · simp only [step, withData, h, e]; rfl
    · exact hww.eff_wave
    · exact hww.eff_band
  · have e : oi_fits_lookup_array oi n = some a := by
      rw [(key n).1 hn.1 hn.2]
      exact (find?_firstWith (q := fun a : OiArray R => a.arrname = n) (by simp) _ _).mpr hf
    refine ⟨?_, fun j x hx => ?_, fun j hj => ?_⟩
    · simp only [step, withData, h, e]; rfl
    · simp only [step, withData, h, (C16_lookup_element oi n j x).mpr ⟨a, e, hx⟩]
    · have : oi_fits_lookup_element oi n j = none := (C16_lookup_element_null oi n j).mpr fun b hb => by
        rw [e] at hb; cases hb; exact hj
      simp only [step, withData, h, this]

-- there are files for which the hypotheses hold
example (u : Undef FP.ratFP) : ∃ hdus oi n w a, hdus ≠ [] ∧ read_oi_fits u (some hdus) .ok = .ok (some oi, .ok) ∧
    NamesInstrument oi n ∧ FirstWith (fun w => w.insname = n) oi.wavelengthList w ∧
    NamesArray oi Ex.array.arrname ∧ FirstWith (fun a => a.arrname = Ex.array.arrname) oi.arrayList a := by
  obtain ⟨hdus, h1, h2⟩ := C50_partial "2016-01-01" Ex.oic_storable
  obtain ⟨oi, h3, -, -, e3, e4, -, -, -, e8, e9, -⟩ := h2 u
  have h0 : hdus ≠ [] := by
    rw [write_oi_fits_eq _ _ Ex.oic_storable] at h1
    cases h1
    exact List.cons_ne_nil _ _
  have f1 : (oi.wavelengthList.find? fun w => w.insname == Ex.vis2.insname).isSome := by rw [e4]; decide +kernel
  have f2 : (oi.arrayList.find? fun w => w.arrname == Ex.array.arrname).isSome := by rw [e3]; decide +kernel
  obtain ⟨w, hw⟩ := Option.isSome_iff_exists.mp f1
  obtain ⟨a, ha⟩ := Option.isSome_iff_exists.mp f2
  refine ⟨hdus, oi, Ex.vis2.insname, w, a, h0, h3, .inr (.inl ?_), (find?_firstWith (by simp) _ _).mp hw,
    ⟨by decide, .inr (.inl ?_)⟩, (find?_firstWith (by simp) _ _).mp ha⟩
  · rw [e8]; exact ⟨_, List.mem_cons_self, rfl⟩
  · rw [e8]; exact ⟨_, List.mem_cons_self, rfl⟩

/-- C108. Asking for the number of stations of an array which is not there crashes the
interpreter, and so does asking for wavelengths of an instrument which is not there. -/
theorem C108_unknown (s : Session R) {i : Nat} {oi : OiFits R} (h : s.data[i]? = some oi) (n : CStr) :
    (oi_fits_lookup_array oi n = none → step u today s (.getNelement i n) = (s, .crash .ub)) ∧
    (oi_fits_lookup_wavelength oi n = none → step u today s (.getNwave i n) = (s, .crash .ub) ∧
      step u today s (.getEffWave i n) = (s, .crash .ub) ∧ step u today s (.getEffBand i n) = (s, .crash .ub)) := by
  refine ⟨fun e => ?_, fun e => ⟨?_, ?_, ?_⟩⟩ <;> (simp only [step, withData, h, e]; rfl)

/-- C108. The interpreter crashes even though the array is in the file. -/
theorem C108_counterexample (u : Undef FP.ratFP) (today : CStr) : ∃ (fs : Files FP.ratFP) (file : CStr) (oi : OiFits FP.ratFP) (n : CStr),
    Holds u fs file oi ∧ (∃ a ∈ oi.arrayList, a.arrname = n) ∧
    (Py.run u today (.start fs) [.oifits (some file), .getNelement 0 n]).2.2 = some (.crash .ub) := by
  obtain ⟨hdus, oi, n, h1, -, -, h2, h3⟩ := C17_inspol_counterexample u
  have hh : Holds u (fun _ => some (.fits hdus)) ("file" : CStr) oi := ⟨hdus, rfl, h1⟩
  refine ⟨fun _ => some (.fits hdus), ("file" : CStr), oi, n, hh, h2, ?_⟩
  have r1 : step u today (.start fun _ => some (.fits hdus)) (.oifits (some ("file" : CStr))) = _ :=
    newOiFits_holds (s := .start fun _ => some (.fits hdus)) hh
  rw [run_cons_value r1, Py.run, (C108_unknown (u := u) (today := today) _ rfl n).1 h3]

end Verif
