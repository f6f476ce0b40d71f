import Verif.Spec.PyScript
import Verif.Proof.Cli
import Verif.Proof.Results

/-! Lemmas about Python scripts. -/

namespace Verif
open Outcome Spec Py
variable {R : FP} {α : Type} {u : Undef R} {today : CStr}

theorem inC_ok {m : Prog R α} {s : Session R} {a : α} {w : World R}
    (h : m ⟨[], s.files, s.buffer⟩ = .ok (a, w)) (next : α → Session R → Session R × Ended R) :
    inC m s next = next a { s with files := w.files, buffer := w.buffer } := by
  unfold inC; rw [h]

theorem inC_call_ok {m : Outcome α} {s : Session R} {a : α} (h : m = .ok a) (next : α → Session R → Session R × Ended R) :
    inC (call m) s next = next a s := by
  subst h; rfl

/-- What `inC` can end with. -/
theorem inC_cases (m : Prog R α) (s : Session R) (next : α → Session R → Session R × Ended R) :
    (∃ a w, m ⟨[], s.files, s.buffer⟩ = .ok (a, w) ∧ inC m s next = next a { s with files := w.files, buffer := w.buffer }) ∨
    (∃ e, m ⟨[], s.files, s.buffer⟩ = .error e ∧ inC m s next = ({ s with files := e.files }, .crash e.exit)) := by
  unfold inC
  cases h : m ⟨[], s.files, s.buffer⟩ with
  | ok p => exact .inl ⟨p.1, p.2, rfl, rfl⟩
  | error e => exact .inr ⟨e, rfl, rfl⟩

theorem run_cons_value {s s' : Session R} {c : Call R} {v : Value R} (h : step u today s c = (s', .value v)) (cs : List (Call R)) :
    Py.run u today s (c :: cs) = ((Py.run u today s' cs).1, v :: (Py.run u today s' cs).2.1, (Py.run u today s' cs).2.2) := by
  rw [Py.run, h]

/-- The script goes on after its first part. -/
theorem run_append {s s' : Session R} {cs : List (Call R)} {vs : List (Value R)} (h : Py.run u today s cs = (s', vs, none))
    (ds : List (Call R)) :
    Py.run u today s (cs ++ ds) = ((Py.run u today s' ds).1, vs ++ (Py.run u today s' ds).2.1, (Py.run u today s' ds).2.2) := by
  induction cs generalizing s vs with
  | nil => cases h; rfl
  | cons c cs ih =>
    rw [List.cons_append]
    rw [Py.run] at h ⊢
    rcases hc : step u today s c with ⟨s1, e⟩
    rw [hc] at h
    cases e with
    | value v =>
      simp only at h ⊢
      rcases hr : Py.run u today s1 cs with ⟨s2, vs2, e2⟩
      rw [hr] at h
      cases h
      rw [ih hr]
      rfl
    | raised e => cases h
    | crash e => cases h

/-- A script which finishes makes each of its calls with success. -/
theorem run_cons_inv {s s' : Session R} {c : Call R} {cs : List (Call R)} {vs : List (Value R)}
    (h : Py.run u today s (c :: cs) = (s', vs, none)) :
    ∃ s1 v vs', step u today s c = (s1, .value v) ∧ Py.run u today s1 cs = (s', vs', none) ∧ vs = v :: vs' := by
  rw [Py.run] at h
  rcases hc : step u today s c with ⟨s1, e⟩
  rw [hc] at h
  cases e with
  | value v =>
    rcases hr : Py.run u today s1 cs with ⟨s2, vs2, e2⟩
    simp only [hr] at h
    cases h
    exact ⟨s1, v, vs2, rfl, hr, rfl⟩
  | raised e => cases h
  | crash e => cases h

theorem run_append_inv {s s' : Session R} {cs ds : List (Call R)} {vs : List (Value R)}
    (h : Py.run u today s (cs ++ ds) = (s', vs, none)) :
    ∃ s1 vs1 vs2, Py.run u today s cs = (s1, vs1, none) ∧ Py.run u today s1 ds = (s', vs2, none) ∧ vs = vs1 ++ vs2 := by
  induction cs generalizing s vs with
  | nil => exact ⟨s, [], vs, rfl, h, rfl⟩
  | cons c cs ih =>
    obtain ⟨s1, v, vs', h1, h2, rfl⟩ := run_cons_inv h
    obtain ⟨s2, vs1, vs2, h3, h4, rfl⟩ := ih h2
    exact ⟨s2, v :: vs1, vs2, by rw [run_cons_value h1, h3], h4, rfl⟩

/-! ### Reading and writing -/

theorem newOiFits_holds {s : Session R} {name : CStr} {oi : OiFits R} (h : Holds u s.files name oi) :
    newOiFits u (some name) s = ({ s with data := s.data ++ [oi] }, .value (.data s.data.length)) := by
  unfold newOiFits
  simp only
  rw [inC_ok (readFile_holds (w := ⟨[], s.files, s.buffer⟩) h)]
  rfl

theorem newOiFits_inv {s s' : Session R} {name : CStr} {v : Value R}
    (h : newOiFits u (some name) s = (s', .value v)) :
    ∃ oi, Holds u s.files name oi ∧ s' = { s with data := s.data ++ [oi] } ∧ v = .data s.data.length := by
  unfold newOiFits at h
  simp only at h
  rcases inC_cases (readFile u name) s constructed with ⟨a, w, h1, h2⟩ | ⟨e, h1, h2⟩
  · rw [h2] at h
    unfold readFile at h1
    cases hf : s.files name with
    | none =>
      obtain ⟨st, hs, e⟩ := C63_unopened u
      simp only [hf, e] at h1
      cases h1
      rw [constructed, if_pos hs] at h
      cases h
    | some d =>
      cases d with
      | other =>
        obtain ⟨st, hs, e⟩ := C63_unopened u
        simp only [hf, e] at h1
        cases h1
        rw [constructed, if_pos hs] at h
        cases h
      | fits hdus =>
        simp only [hf] at h1
        cases hr : read_oi_fits u (some hdus) .ok with
        | abort => rw [hr] at h1; cases h1
        | ub => rw [hr] at h1; cases h1
        | ok r =>
          rw [hr] at h1
          cases h1
          obtain ⟨oi, st⟩ := a
          by_cases hst : st = .ok
          · subst hst
            rw [constructed, if_neg (fun h => h rfl)] at h
            cases oi with
            | none => cases h
            | some oi =>
              cases h
              exact ⟨oi, ⟨hdus, hf, hr⟩, rfl, rfl⟩
          · rw [constructed, if_pos hst] at h
            cases h
  · rw [h2] at h; cases h

theorem pyWrite_new {s : Session R} {name : CStr} {oi : OiFits R} {hdus : List (Hdu R)} (hn : name.head? ≠ some '!')
    (hx : s.files name = none) (hw : write_oi_fits today false oi .ok = .ok (some hdus, .ok)) :
    pyWrite today oi name s = ({ s with files := s.files.set name (some (.fits hdus)) }, .value .nothing) := by
  unfold pyWrite
  rw [inC_ok (writeFile_new (w := ⟨[], s.files, s.buffer⟩) hn hx hw)]
  rfl

theorem pyWrite_inv {s s' : Session R} {name : CStr} {oi : OiFits R} {v : Value R} (hn : name.head? ≠ some '!')
    (h : pyWrite today oi name s = (s', .value v)) :
    s.files name = none ∧ ∃ hdus, write_oi_fits today false oi .ok = .ok (some hdus, .ok) ∧
      s' = { s with files := s.files.set name (some (.fits hdus)) } ∧ v = .nothing := by
  unfold pyWrite at h
  rcases inC_cases (writeFile today name oi) s (fun st s =>
    if st ≠ .ok then (s, .raised .io) else (s, .value .nothing)) with ⟨a, w, h1, h2⟩ | ⟨e, h1, h2⟩
  · rw [h2] at h
    by_cases ha : a = .ok
    · subst ha
      obtain ⟨hx, hdus, hw, rfl⟩ := writeFile_inv hn h1
      rw [if_neg (fun h => h rfl)] at h
      cases h
      exact ⟨hx, hdus, hw, rfl, rfl⟩
    · rw [if_pos ha] at h; cases h
  · rw [h2] at h; cases h

/-! ### Filters -/

/-- Assignments which are all accepted. -/
def setAll (f : FilterSpec R) : List (FilterAttr R) → Option (FilterSpec R)
  | [] => some f
  | a :: as =>
    match setAttr f a with
    | .ok (.ok g) => setAll g as
    | _ => none

theorem step_set_ok {s : Session R} {k : Nat} {f g : FilterSpec R} {a : FilterAttr R} (h : s.filters[k]? = some f)
    (ha : setAttr f a = .ok (.ok g)) :
    step u today s (.set k a) = ({ s with filters := s.filters.set k g }, .value .nothing) := by
  show (match s.filters[k]? with
    | none => _
    | some f => _) = _
  rw [h]
  simp only
  rw [inC_call_ok ha]

theorem step_set_inv {s s' : Session R} {k : Nat} {a : FilterAttr R} {v : Value R}
    (h : step u today s (.set k a) = (s', .value v)) :
    ∃ f g, s.filters[k]? = some f ∧ setAttr f a = .ok (.ok g) ∧ s' = { s with filters := s.filters.set k g } ∧
      v = .nothing := by
  change (match s.filters[k]? with
    | none => _
    | some f => _) = _ at h
  cases hf : s.filters[k]? with
  | none => rw [hf] at h; cases h
  | some f =>
    rw [hf] at h
    simp only at h
    cases ha : setAttr f a with
    | abort => rw [ha] at h; cases h
    | ub => rw [ha] at h; cases h
    | ok r =>
      rw [inC_call_ok ha] at h
      cases r with
      | error e => cases h
      | ok g => cases h; exact ⟨f, g, rfl, ha, rfl, rfl⟩

theorem run_sets {as : List (FilterAttr R)} {s : Session R} {k : Nat} {f g : FilterSpec R} (h : s.filters[k]? = some f)
    (ha : setAll f as = some g) : ∃ vs, Py.run u today s (as.map (.set k)) = ({ s with filters := s.filters.set k g }, vs, none) := by
  induction as generalizing s f with
  | nil =>
    cases ha
    refine ⟨[], ?_⟩
    have : s.filters.set k g = s.filters := by
      obtain ⟨hk, rfl⟩ := List.getElem?_eq_some_iff.mp h
      exact List.set_getElem_self hk
    rw [this]
    rfl
  | cons a as ih =>
    rw [setAll] at ha
    split at ha
    · rename_i f' hf'
      have hs := step_set_ok (u := u) (today := today) h hf'
      have hk : k < s.filters.length := (List.getElem?_eq_some_iff.mp h).1
      obtain ⟨vs, hr⟩ := ih (s := { s with filters := s.filters.set k f' }) (f := f')
        (by simp [hk]) ha
      refine ⟨.nothing :: vs, ?_⟩
      rw [List.map_cons, run_cons_value hs, hr]
      simp only [List.set_set]
    · cases ha

theorem run_sets_inv {as : List (FilterAttr R)} {s s' : Session R} {k : Nat} {f : FilterSpec R} {vs : List (Value R)}
    (h : s.filters[k]? = some f) (hr : Py.run u today s (as.map (.set k)) = (s', vs, none)) :
    ∃ g, setAll f as = some g ∧ s' = { s with filters := s.filters.set k g } := by
  induction as generalizing s f vs with
  | nil =>
    cases hr
    refine ⟨f, rfl, ?_⟩
    have : s'.filters.set k f = s'.filters := by
      obtain ⟨hk, rfl⟩ := List.getElem?_eq_some_iff.mp h
      exact List.set_getElem_self hk
    rw [this]
  | cons a as ih =>
    obtain ⟨s1, v, vs', h1, h2, rfl⟩ := run_cons_inv hr
    obtain ⟨f0, f', h3, h4, rfl, -⟩ := step_set_inv h1
    rw [h] at h3
    cases h3
    have hk : k < s.filters.length := (List.getElem?_eq_some_iff.mp h).1
    obtain ⟨g, h5, h6⟩ := ih (f := f') (by simp [hk]) h2
    refine ⟨g, ?_, ?_⟩
    · rw [setAll, h4]; exact h5
    · rw [h6]; simp only [List.set_set]

theorem setAll_cons {f g : FilterSpec R} {a : FilterAttr R} (h : setAttr f a = .ok (.ok g)) (as : List (FilterAttr R)) :
    setAll f (a :: as) = setAll g as := by
  rw [setAll, h]

theorem setChars_ok {s : CStr} (h : s.length < FLEN_VALUE) (store : CStr → FilterSpec R) :
    setChars s store = .ok (.ok (store s)) := by
  unfold setChars; rw [if_pos h]

theorem setInt_ok {n : Int} (h : FitsInt n) (store : Int → FilterSpec R) :
    setInt (.int n) store = .ok (.ok (store n)) := by
  unfold setInt
  have h : -(2 ^ 31) ≤ n ∧ n < 2 ^ 31 := by unfold FitsInt at h; omega
  simp only [if_pos h]

theorem strlcpy_lt (s : CStr) {n : Nat} (h : 0 < n) : (strlcpy s n).length < n := by
  unfold strlcpy
  rw [List.length_take]
  omega

/-- What `Expressible` options leave alone, and the limits of the rest. -/
theorem user_expressible {opts : List (FilterOpt R)} (h : ∀ o ∈ opts, Expressible o) :
    (userFilter opts).uvrad_range = (init_oi_filter R).uvrad_range ∧ FitsInt (userFilter opts).target_id := by
  have key : ∀ (l : List (FilterOpt R)) (v : ParseVars R), (∀ o ∈ l, Expressible o) →
      v.parsedFilter.uvrad_range = (init_oi_filter R).uvrad_range ∧ FitsInt v.parsedFilter.target_id →
      (l.foldl storeOption v).parsedFilter.uvrad_range = (init_oi_filter R).uvrad_range ∧
        FitsInt (l.foldl storeOption v).parsedFilter.target_id := by
    intro l
    induction l with
    | nil => intro v _ hv; exact hv
    | cons o l ih =>
      intro v hl hv
      rw [List.foldl_cons]
      refine ih _ (fun o ho => hl o (List.mem_cons_of_mem _ ho)) ?_
      have := hl o List.mem_cons_self
      cases o <;> first | exact hv | exact ⟨hv.1, this⟩ | exact this.elim
  have := key opts filter_pre_parse h ⟨rfl, show FitsInt (-1) by unfold FitsInt; decide⟩
  exact ⟨(post_rest _).2.2.2.1.trans this.1, (post_rest (opts.foldl storeOption filter_pre_parse)).1 ▸ this.2⟩

/-- Assignments which give all attributes of a filter; wavelengths and signal-to-noise ratios are
given as doubles. -/
def attrsOf (f : FilterSpec R) (w s : R.Dbl × R.Dbl) : List (FilterAttr R) :=
  [.arrname f.arrname, .insname f.insname, .corrname f.corrname, .target_id (.int f.target_id),
    .mjd_range (.seq [.float f.mjd_range.1, .float f.mjd_range.2]), .wave_range (.seq [.float w.1, .float w.2]),
    .bas_range (.seq [.float f.bas_range.1, .float f.bas_range.2]), .snr_range (.seq [.float s.1, .float s.2]),
    .accept_vis (.int (if f.accept_vis then 1 else 0)), .accept_vis2 (.int (if f.accept_vis2 then 1 else 0)),
    .accept_t3amp (.int (if f.accept_t3amp then 1 else 0)), .accept_t3phi (.int (if f.accept_t3phi then 1 else 0)),
    .accept_flux (.int (if f.accept_flux then 1 else 0)), .accept_flagged (.int (if f.accept_flagged then 1 else 0))]

theorem fitsInt_ite (b : Bool) : FitsInt (if b then 1 else 0) := by cases b <;> (unfold FitsInt; decide)

theorem setAll_arrname (f : FilterSpec R) {s : CStr} (h : s.length < FLEN_VALUE) (as : List (FilterAttr R)) :
    setAll f (.arrname s :: as) = setAll { f with arrname := s } as :=
  setAll_cons (a := .arrname s) (setChars_ok h fun x => { f with arrname := x }) as

theorem setAll_insname (f : FilterSpec R) {s : CStr} (h : s.length < FLEN_VALUE) (as : List (FilterAttr R)) :
    setAll f (.insname s :: as) = setAll { f with insname := s } as :=
  setAll_cons (a := .insname s) (setChars_ok h fun x => { f with insname := x }) as

theorem setAll_corrname (f : FilterSpec R) {s : CStr} (h : s.length < FLEN_VALUE) (as : List (FilterAttr R)) :
    setAll f (.corrname s :: as) = setAll { f with corrname := s } as :=
  setAll_cons (a := .corrname s) (setChars_ok h fun x => { f with corrname := x }) as

theorem setAll_target_id (f : FilterSpec R) {n : Int} (h : FitsInt n) (as : List (FilterAttr R)) :
    setAll f (.target_id (.int n) :: as) = setAll { f with target_id := n } as :=
  setAll_cons (a := .target_id (.int n)) (setInt_ok h fun x => { f with target_id := x }) as

theorem setAll_mjd_range (f : FilterSpec R) (x y : R.Dbl) (as : List (FilterAttr R)) :
    setAll f (.mjd_range (.seq [.float x, .float y]) :: as) = setAll { f with mjd_range := (x, y) } as :=
  setAll_cons rfl as

theorem setAll_bas_range (f : FilterSpec R) (x y : R.Dbl) (as : List (FilterAttr R)) :
    setAll f (.bas_range (.seq [.float x, .float y]) :: as) = setAll { f with bas_range := (x, y) } as :=
  setAll_cons rfl as

theorem setAll_wave_range (f : FilterSpec R) (x y : R.Dbl) (as : List (FilterAttr R)) :
    setAll f (.wave_range (.seq [.float x, .float y]) :: as) = setAll { f with wave_range := (R.toF x, R.toF y) } as :=
  setAll_cons rfl as

theorem setAll_snr_range (f : FilterSpec R) (x y : R.Dbl) (as : List (FilterAttr R)) :
    setAll f (.snr_range (.seq [.float x, .float y]) :: as) = setAll { f with snr_range := (R.toF x, R.toF y) } as :=
  setAll_cons rfl as

theorem setAll_accept_vis (f : FilterSpec R) (b : Bool) (as : List (FilterAttr R)) :
    setAll f (.accept_vis (.int (if b then 1 else 0)) :: as) = setAll { f with accept_vis := b } as := by
  rw [setAll_cons (a := .accept_vis (.int (if b then 1 else 0))) (setInt_ok (fitsInt_ite b) fun x => { f with accept_vis := x ≠ 0 })]
  cases b <;> rfl

theorem setAll_accept_vis2 (f : FilterSpec R) (b : Bool) (as : List (FilterAttr R)) :
    setAll f (.accept_vis2 (.int (if b then 1 else 0)) :: as) = setAll { f with accept_vis2 := b } as := by
  rw [setAll_cons (a := .accept_vis2 (.int (if b then 1 else 0))) (setInt_ok (fitsInt_ite b) fun x => { f with accept_vis2 := x ≠ 0 })]
  cases b <;> rfl

theorem setAll_accept_t3amp (f : FilterSpec R) (b : Bool) (as : List (FilterAttr R)) :
    setAll f (.accept_t3amp (.int (if b then 1 else 0)) :: as) = setAll { f with accept_t3amp := b } as := by
  rw [setAll_cons (a := .accept_t3amp (.int (if b then 1 else 0))) (setInt_ok (fitsInt_ite b) fun x => { f with accept_t3amp := x ≠ 0 })]
  cases b <;> rfl

theorem setAll_accept_t3phi (f : FilterSpec R) (b : Bool) (as : List (FilterAttr R)) :
    setAll f (.accept_t3phi (.int (if b then 1 else 0)) :: as) = setAll { f with accept_t3phi := b } as := by
  rw [setAll_cons (a := .accept_t3phi (.int (if b then 1 else 0))) (setInt_ok (fitsInt_ite b) fun x => { f with accept_t3phi := x ≠ 0 })]
  cases b <;> rfl

theorem setAll_accept_flux (f : FilterSpec R) (b : Bool) (as : List (FilterAttr R)) :
    setAll f (.accept_flux (.int (if b then 1 else 0)) :: as) = setAll { f with accept_flux := b } as := by
  rw [setAll_cons (a := .accept_flux (.int (if b then 1 else 0))) (setInt_ok (fitsInt_ite b) fun x => { f with accept_flux := x ≠ 0 })]
  cases b <;> rfl

theorem setAll_accept_flagged (f : FilterSpec R) (b : Bool) (as : List (FilterAttr R)) :
    setAll f (.accept_flagged (.int (if b then 1 else 0)) :: as) = setAll { f with accept_flagged := b } as := by
  rw [setAll_cons (a := .accept_flagged (.int (if b then 1 else 0))) (setInt_ok (fitsInt_ite b) fun x => { f with accept_flagged := x ≠ 0 })]
  cases b <;> rfl

theorem setAll_attrsOf {f : FilterSpec R} {w s : R.Dbl × R.Dbl} (h1 : f.arrname.length < FLEN_VALUE)
    (h2 : f.insname.length < FLEN_VALUE) (h3 : f.corrname.length < FLEN_VALUE) (h4 : FitsInt f.target_id)
    (h5 : f.wave_range = (R.toF w.1, R.toF w.2)) (h6 : f.snr_range = (R.toF s.1, R.toF s.2))
    (h7 : f.uvrad_range = (init_oi_filter R).uvrad_range) : setAll (init_oi_filter R) (attrsOf f w s) = some f := by
  unfold attrsOf
  obtain ⟨_, _, _, _, _, _, _, _, _, _, _, _, _, _, _⟩ := f
  simp only at h1 h2 h3 h4 h5 h6 h7
  subst h5 h6 h7
  simp only
  generalize init_oi_filter R = g
  rw [setAll_arrname _ h1, setAll_insname _ h2, setAll_corrname _ h3, setAll_target_id _ h4, setAll_mjd_range,
    setAll_wave_range, setAll_bas_range, setAll_snr_range, setAll_accept_vis, setAll_accept_vis2,
    setAll_accept_t3amp, setAll_accept_t3phi, setAll_accept_flux, setAll_accept_flagged, setAll]

/-- There are assignments which make any filter that options can. -/
theorem user_attrs {opts : List (FilterOpt R)} (h : ∀ o ∈ opts, Expressible o) :
    ∃ as, setAll (init_oi_filter R) as = some (userFilter opts) := by
  obtain ⟨h1, h2⟩ := user_expressible h
  have short : ∀ (o : Option CStr) (d : CStr), d.length < FLEN_VALUE →
      (match o with | none => d | some s => strlcpy s FLEN_VALUE).length < FLEN_VALUE := by
    intro o d hd
    cases o with
    | none => exact hd
    | some s => exact strlcpy_lt s (by decide)
  have names : ∀ (l : List (FilterOpt R)) (v : ParseVars R),
      (l.foldl storeOption v).parsedFilter.arrname = v.parsedFilter.arrname ∧
      (l.foldl storeOption v).parsedFilter.insname = v.parsedFilter.insname ∧
      (l.foldl storeOption v).parsedFilter.corrname = v.parsedFilter.corrname := by
    intro l
    induction l with
    | nil => intro v; exact ⟨rfl, rfl, rfl⟩
    | cons o l ih =>
      intro v
      rw [List.foldl_cons]
      obtain ⟨k1, k2, k3⟩ := ih (storeOption v o)
      rw [k1, k2, k3]
      cases o <;> exact ⟨rfl, rfl, rfl⟩
  obtain ⟨n1, n2, n3⟩ := names opts filter_pre_parse
  refine ⟨_, setAll_attrsOf (w := (_, _)) (s := (_, _)) ?_ ?_ ?_ h2 rfl rfl h1⟩
  · unfold userFilter
    rw [post_arrname]
    exact short _ _ (by rw [n1]; exact show ("*" : CStr).length < FLEN_VALUE by decide)
  · unfold userFilter
    rw [post_insname]
    exact short _ _ (by rw [n2]; exact show ("*" : CStr).length < FLEN_VALUE by decide)
  · unfold userFilter
    rw [post_corrname]
    exact short _ _ (by rw [n3]; exact show ("*" : CStr).length < FLEN_VALUE by decide)

end Verif
