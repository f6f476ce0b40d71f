import Verif.Proof.DemoScan

/-! Lemmas about the reading of tables from text by `demo_write`. -/

namespace Verif
open Outcome Verif.Spec

variable {R : FP} {α β : Type}

/-- On a text with these items, followed by words which `next` allows, the program uses up the items and gives `a`. `b`
says that there is no white space before the items. -/
def Scans (b : Bool) (next : List CStr → Prop) (m : ScanM R α) (ts : List Tok) (a : α) : Prop :=
  ∀ (st : ScanState R) (rest : List CStr), (∀ t ∈ ts, t.OK) → Pos b st.input (ts.map Tok.word ++ rest) → next rest →
    ∃ st', m st = .ok (a, st') ∧ Pos true st'.input rest

variable {b b' : Bool} {next next' : List CStr → Prop} {ts ts' T : List Tok}

theorem scanM_bind {m : ScanM R α} {f : α → ScanM R β} {st st' : ScanState R} {a : α} (h : m st = .ok (a, st')) :
    (m >>= f) st = f a st' := by
  show (m st >>= fun x => f x.1 x.2) = _
  rw [h]
  rfl

theorem Scans.pure (a : α) : Scans true next (Pure.pure a : ScanM R α) [] a :=
  fun st _ _ hp _ => ⟨st, rfl, hp⟩

theorem Scans.weaken {m : ScanM R α} {a : α} (h : Scans b next m ts a) (hn : ∀ ws, next' ws → next ws) :
    Scans b next' m ts a :=
  fun st rest h1 h2 h3 => h st rest h1 h2 (hn rest h3)

theorem Scans.bind {m : ScanM R α} {f : α → ScanM R β} {x : α} {y : β} (h : Scans b next' m ts x)
    (hn : ∀ rest, next rest → next' (ts'.map Tok.word ++ rest)) (h' : Scans true next (f x) ts' y) :
    Scans b next (m >>= f) (ts ++ ts') y := by
  intro st rest hok hp hr
  obtain ⟨st1, e1, p1⟩ := h st (ts'.map Tok.word ++ rest) (fun t ht => hok t (List.mem_append_left _ ht))
    (by rw [← List.append_assoc, ← List.map_append]; exact hp) (hn rest hr)
  obtain ⟨st2, e2, p2⟩ := h' st1 rest (fun t ht => hok t (List.mem_append_right _ ht)) p1 hr
  exact ⟨st2, (scanM_bind e1).trans e2, p2⟩

theorem fscanf_plan (N : Numerals R) {format : CStr} {dests : List ScanDest}
    (hp : plan b (formatDirs .text format) dests ts = some b') {st : ScanState R} {rest : List CStr}
    (hok : ∀ t ∈ ts, t.OK) (hs : Pos b st.input (ts.map Tok.word ++ rest)) :
    ∃ r, fscanf N format dests st = .ok (ts.filterMap (Tok.val N), { st with input := r }) ∧ Pos b' r rest := by
  obtain ⟨r, h1, h2⟩ := plan_scan N ts hp hok hs
  refine ⟨r, ?_, h1⟩
  simp only [fscanf, h2]

/-- A call of `fscanf` for the first `k` items. -/
theorem Scans.scan (N : Numerals R) {format : CStr} {dests : List ScanDest} {f : List (ScanVal R) → ScanM R β} {y : β}
    (k : Nat) (hp : plan b (formatDirs .text format) dests (T.take k) = some b')
    (h : Scans b' next (f ((T.take k).filterMap (Tok.val N))) (T.drop k) y) :
    Scans b next (fscanf N format dests >>= f) T y := by
  intro st rest hok hs hr
  have hok : (∀ t ∈ T.take k, t.OK) ∧ ∀ t ∈ T.drop k, t.OK := by
    rw [← List.take_append_drop k T] at hok
    exact ⟨fun t ht => hok t (List.mem_append_left _ ht), fun t ht => hok t (List.mem_append_right _ ht)⟩
  rw [← List.take_append_drop k T, List.map_append, List.append_assoc] at hs
  obtain ⟨r, e1, p1⟩ := fscanf_plan N hp hok.1 hs
  obtain ⟨st2, e2, p2⟩ := h { st with input := r } rest hok.2 p1 hr
  exact ⟨st2, (scanM_bind e1).trans e2, p2⟩

/-! ### Options -/

/-- The next word does not begin with this character. -/
def HeadNot (c : Char) (ws : List CStr) : Prop := ∀ w ∈ ws.head?, w.head? ≠ some c

/-- The first character which the format asks for. -/
def firstLit : Bool → List Dir → Option Char
  | true, .lit c :: _ => some c
  | _, .ws :: .lit c :: _ => some c
  | _, _ => none

theorem scanLit_none (N : Numerals R) {c : Char} {s : CStr} {ws : List CStr} (hs : Pos true s ws) (hn : HeadNot c ws)
    (ds : List Dir) (dests : List ScanDest) : scanDirs N (.lit c :: ds) dests s = .ok ([], s) := by
  cases ws with
  | nil =>
    rw [pos_nil hs]
    rfl
  | cons w ws =>
    obtain ⟨r, rfl, _, _, hne, _⟩ := pos_cons hs
    obtain ⟨x, w, rfl⟩ := List.exists_cons_of_ne_nil hne
    have hx : x ≠ c := fun e => hn _ rfl (by rw [e]; rfl)
    show (if x = c then _ else _) = _
    rw [if_neg hx]
    rfl

theorem absent_scan (N : Numerals R) {ds : List Dir} {c : Char} (ha : firstLit b ds = some c) {s : CStr} {ws : List CStr}
    (hs : Pos b s ws) (hn : HeadNot c ws) (dests : List ScanDest) :
    ∃ r, Pos true r ws ∧ scanDirs N ds dests s = .ok ([], r) := by
  unfold firstLit at ha
  split at ha
  · cases ha
    exact ⟨s, hs, scanLit_none N hs hn _ dests⟩
  · cases ha
    exact ⟨skipSpace s, pos_skip hs, scanLit_none N (pos_skip hs) hn _ dests⟩
  · cases ha

theorem fscanf_absent (N : Numerals R) {format : CStr} {c : Char} (ha : firstLit b (formatDirs .text format) = some c)
    {st : ScanState R} {ws : List CStr} (hs : Pos b st.input ws) (hn : HeadNot c ws) (dests : List ScanDest) :
    ∃ r, fscanf N format dests st = .ok ([], { st with input := r }) ∧ Pos true r ws := by
  obtain ⟨r, h1, h2⟩ := absent_scan N ha hs hn dests
  refine ⟨r, ?_, h1⟩
  simp only [fscanf, h2]

theorem Pos.weaken {s : CStr} {ws : List CStr} (h : Pos true s ws) : Pos b s ws := ⟨h.1, fun _ => h.2 rfl⟩

/-- What an optional item does: its value, or a default. -/
theorem option_scan (N : Numerals R) {format : CStr} {name : CStr} {item : CStr → Tok} {dests : List ScanDest} {c : Char}
    {g : List (ScanVal R) → α} {val : Option CStr → α} (o : Option CStr)
    (hp : ∀ w, plan b (formatDirs .text format) dests [.kw name, item w] = some b')
    (ha : firstLit b (formatDirs .text format) = some c)
    (hn : o = none → ∀ rest, next rest → HeadNot c (T.map Tok.word ++ rest))
    (h1 : ∀ w, g ([.kw name, item w].filterMap (Tok.val N)) = val (some w)) (h0 : g [] = val none)
    {f : α → ScanM R β} {y : β} (h : Scans b' next (f (val o)) T y) :
    Scans b next (fscanf N format dests >>= fun vs => f (g vs)) (Spec.option name item o ++ T) y := by
  cases o with
  | none =>
    intro st rest hok hs hr
    obtain ⟨r, e1, p1⟩ := fscanf_absent N ha hs (hn rfl rest hr) dests
    obtain ⟨st2, e2, p2⟩ := h { st with input := r } rest hok p1.weaken hr
    exact ⟨st2, (scanM_bind e1).trans ((congrArg (fun x => f x _) h0).trans e2), p2⟩
  | some w =>
    refine Scans.scan N 2 (hp w) ?_
    rw [show (Spec.option name item (some w) ++ T).take 2 = [.kw name, item w] from rfl, h1]
    exact h

theorem Scans.opt_string (N : Numerals R) {format : CStr} {name : CStr} {max size : Nat} {c : Char} (o : Option CStr)
    (hp : ∀ w, plan b (formatDirs .text format) [.chars size] [.kw name, .str max w] = some b')
    (ha : firstLit b (formatDirs .text format) = some c)
    (hn : o = none → ∀ rest, next rest → HeadNot c (T.map Tok.word ++ rest))
    {f : Bool × CStr → ScanM R β} {y : β} (h : Scans b' next (f (o.isSome, o.getD [])) T y) :
    Scans b next (scan_opt_string N format size >>= f) (Spec.option name (.str max) o ++ T) y := by
  have e : (scan_opt_string N format size >>= f) = (fscanf N format [.chars size] >>= fun vs => f (match vs with
      | [.str s] => (true, s)
      | _ => (false, []))) := by
    unfold scan_opt_string
    rw [bind_assoc]
    congr 1
    funext vs
    split <;> simp
  rw [e]
  exact option_scan N (val := fun o => (o.isSome, o.getD [])) o hp ha hn (fun w => rfl) rfl h

theorem Scans.opt_int (N : Numerals R) {format : CStr} {name : CStr} {d : Int} {c : Char} (o : Option CStr)
    (hp : ∀ w, plan b (formatDirs .text format) [.int] [.kw name, .int w] = some b')
    (ha : firstLit b (formatDirs .text format) = some c)
    (hn : o = none → ∀ rest, next rest → HeadNot c (T.map Tok.word ++ rest))
    {f : Int → ScanM R β} {y : β} (h : Scans b' next (f ((o.map intOf).getD d)) T y) :
    Scans b next (scan_opt_int N format d >>= f) (Spec.option name .int o ++ T) y := by
  have e : (scan_opt_int N format d >>= f) = (fscanf N format [.int] >>= fun vs => f (match vs with
      | [.int i] => i
      | _ => d)) := by
    unfold scan_opt_int
    rw [bind_assoc]
    congr 1
    funext vs
    split <;> simp
  rw [e]
  exact option_scan N (val := fun o => (o.map intOf).getD d) o hp ha hn (fun w => rfl) rfl h

theorem Scans.opt_double (N : Numerals R) {format : CStr} {name : CStr} {d : R.Dbl} {c : Char} (o : Option CStr)
    (hp : ∀ w, plan b (formatDirs .text format) [.dbl] [.kw name, .dbl w] = some b')
    (ha : firstLit b (formatDirs .text format) = some c)
    (hn : o = none → ∀ rest, next rest → HeadNot c (T.map Tok.word ++ rest))
    {f : R.Dbl → ScanM R β} {y : β} (h : Scans b' next (f ((o.map N.dbl).getD d)) T y) :
    Scans b next (scan_opt_double N format d >>= f) (Spec.option name .dbl o ++ T) y := by
  have e : (scan_opt_double N format d >>= f) = (fscanf N format [.dbl] >>= fun vs => f (match vs with
      | [.dbl i] => i
      | _ => d)) := by
    unfold scan_opt_double
    rw [bind_assoc]
    congr 1
    funext vs
    split <;> simp
  rw [e]
  exact option_scan N (val := fun o => (o.map N.dbl).getD d) o hp ha hn (fun w => rfl) rfl h

/-! ### Numbers of rows and loops -/

theorem Scans.rows (N : Numerals R) {format w : CStr} {γ : Type} {l : List γ} (hc : Counts w l) (k : Nat)
    (hp : plan b (formatDirs .text format) [.int] (T.take k) = some true)
    (hv : (T.take k).filterMap (Tok.val N) = [.int (intOf w)])
    {f : Nat → ScanM R β} {y : β} (h : Scans true next (f l.length) (T.drop k) y) :
    Scans b next (scanRows N format >>= f) T y := by
  intro st rest hok hs hr
  have hok : (∀ t ∈ T.take k, t.OK) ∧ ∀ t ∈ T.drop k, t.OK := by
    rw [← List.take_append_drop k T] at hok
    exact ⟨fun t ht => hok t (List.mem_append_left _ ht), fun t ht => hok t (List.mem_append_right _ ht)⟩
  rw [← List.take_append_drop k T, List.map_append, List.append_assoc] at hs
  obtain ⟨r, e1, p1⟩ := fscanf_plan N hp hok.1 hs
  rw [hv, hc.2] at e1
  obtain ⟨st2, e2, p2⟩ := h { st with input := r, nrows := some (l.length : Int) } rest hok.2 p1 hr
  refine ⟨st2, ?_, p2⟩
  have hl : ¬ ((l.length : Int) ≤ 0) := by
    have := List.length_pos_iff.mpr hc.1
    omega
  refine (scanM_bind (?_ : scanRows N format st = .ok (l.length, { st with input := r, nrows := some (l.length : Int) }))).trans e2
  unfold scanRows
  rw [scanM_bind e1]
  show (if (l.length : Int) ≤ 0 then fun _ => .abort else Pure.pure (l.length : Int).toNat : ScanM R Nat) _ = _
  rw [if_neg hl]
  rfl

theorem Scans.numrec (N : Numerals R) {format w : CStr} {γ : Type} {l : List γ} (hc : Counts w l) (k : Nat)
    (hp : plan b (formatDirs .text format) [.long] (T.take k) = some true)
    (hv : (T.take k).filterMap (Tok.val N) = [.int (intOf w)])
    {f : Nat → ScanM R β} {y : β} (h : Scans true next (f l.length) (T.drop k) y) :
    Scans b next (scanNumrec N format >>= f) T y := by
  intro st rest hok hs hr
  have hok : (∀ t ∈ T.take k, t.OK) ∧ ∀ t ∈ T.drop k, t.OK := by
    rw [← List.take_append_drop k T] at hok
    exact ⟨fun t ht => hok t (List.mem_append_left _ ht), fun t ht => hok t (List.mem_append_right _ ht)⟩
  rw [← List.take_append_drop k T, List.map_append, List.append_assoc] at hs
  obtain ⟨r, e1, p1⟩ := fscanf_plan N hp hok.1 hs
  rw [hv, hc.2] at e1
  obtain ⟨st2, e2, p2⟩ := h { st with input := r, numrec := some (l.length : Int) } rest hok.2 p1 hr
  refine ⟨st2, ?_, p2⟩
  have hl : ¬ ((l.length : Int) ≤ 0) := by
    have := List.length_pos_iff.mpr hc.1
    omega
  refine (scanM_bind (?_ : scanNumrec N format st = .ok (l.length, { st with input := r, numrec := some (l.length : Int) }))).trans e2
  unfold scanNumrec
  rw [scanM_bind e1]
  show (if (l.length : Int) ≤ 0 then fun _ => .abort else Pure.pure (l.length : Int).toNat : ScanM R Nat) _ = _
  rw [if_neg hl]
  rfl

theorem Scans.loop {γ : Type} {body : Nat → ScanM R α} {item : γ → List Tok} : ∀ (l : List γ) {val : Nat → γ → α}
    (_ : ∀ j, ∀ x ∈ l, Scans true next (body j) (item x) (val j x))
    (_ : ∀ x ∈ l, ∀ rest, next ((item x).map Tok.word ++ rest)) (i : Nat),
    Scans true next (scanLoop body l.length i) (l.flatMap item) (l.mapIdx fun j => val (i + j)) := by
  intro l
  induction l with
  | nil => intro val _ _ i; exact Scans.pure _
  | cons x l ih =>
    intro val h hn i
    show Scans true next (body i >>= fun x => scanLoop body l.length (i + 1) >>= fun xs => Pure.pure (x :: xs))
      (item x ++ l.flatMap item) _
    refine Scans.bind (h i x List.mem_cons_self) (fun rest hr => ?_) ?_
    · cases l with
      | nil => exact hr
      | cons z l =>
        rw [List.flatMap_cons, List.map_append, List.append_assoc]
        exact hn z (List.mem_cons_of_mem _ List.mem_cons_self) _
    · rw [← List.append_nil (l.flatMap item)]
      refine Scans.bind (ih (val := val) (fun j z hz => h j z (List.mem_cons_of_mem _ hz)) (fun z hz => hn z (List.mem_cons_of_mem _ hz)) (i + 1))
        (fun rest hr => hr) ?_
      rw [show ((x :: l).mapIdx fun j => val (i + j)) = val i x :: l.mapIdx fun j => val (i + 1 + j) from by
        rw [List.mapIdx_cons, Nat.add_zero]
        congr 1
        congr 1
        funext j
        rw [Nat.add_assoc, Nat.add_comm 1]]
      exact Scans.pure _

theorem Scans.loop_map {γ : Type} {body : Nat → ScanM R α} {item : γ → List Tok} (l : List γ) {val : γ → α}
    (h : ∀ j, ∀ x ∈ l, Scans true next (body j) (item x) (val x))
    (hn : ∀ x ∈ l, ∀ rest, next ((item x).map Tok.word ++ rest)) (i : Nat) :
    Scans true next (scanLoop body l.length i) (l.flatMap item) (l.map val) := by
  have := Scans.loop l h hn i
  rwa [List.mapIdx_eq_zipIdx_map, show (fun x : γ × Nat => val x.1) = val ∘ Prod.fst from rfl, ← List.map_map,
    List.zipIdx_map_fst] at this

/-- Any words may follow. -/
def Any (_ : List CStr) : Prop := True

theorem scans_doubles (N : Numerals R) {n : Nat} (l : List CStr) (hl : l.length = n) :
    Scans true Any (scanDoubles N n) (l.map .dbl) (l.map N.dbl) := by
  rw [← hl, show l.map Tok.dbl = l.flatMap fun w => [.dbl w] from List.map_eq_flatMap]
  exact Scans.loop_map l (fun j x _ => Scans.scan N 1 rfl (Scans.pure _)) (fun _ _ _ => trivial) 0

theorem scans_floats (N : Numerals R) {n : Nat} (l : List CStr) (hl : l.length = n) :
    Scans true Any (scanFloats N n) (l.map .flt) (l.map N.flt) := by
  rw [← hl, show l.map Tok.flt = l.flatMap fun w => [.flt w] from List.map_eq_flatMap]
  exact Scans.loop_map l (fun j x _ => Scans.scan N 1 rfl (Scans.pure _)) (fun _ _ _ => trivial) 0

theorem scans_ints (N : Numerals R) {n : Nat} (l : List CStr) (hl : l.length = n) :
    Scans true Any (scanInts N n) (l.map .int) (l.map intOf) := by
  rw [← hl, show l.map Tok.int = l.flatMap fun w => [.int w] from List.map_eq_flatMap]
  exact Scans.loop_map l (fun j x _ => Scans.scan N 1 rfl (Scans.pure _)) (fun _ _ _ => trivial) 0

/-! ### Complex numbers -/

/-- The next word is no number. -/
def NotNum (ws : List CStr) : Prop :=
  ∀ w ∈ ws.head?, ∀ c ∈ w.head?, ((c = '+' || c = '-') || isDigit c || c = '.') = false

theorem fscanf_notNum (N : Numerals R) {st : ScanState R} {ws : List CStr} (hs : Pos true st.input ws) (hn : NotNum ws) :
    fscanf N "%f %fi " [.flt, .flt] st = .ok ([], st) := by
  have e : scanNumber st.input = (none, st.input) ∧ skipSpace st.input = st.input := by
    cases ws with
    | nil =>
      rw [pos_nil hs]
      exact ⟨rfl, rfl⟩
    | cons w ws =>
      obtain ⟨r, h1, _, _, hne, hsp⟩ := pos_cons hs
      rw [h1]
      refine ⟨?_, skipSpace_word hne hsp r⟩
      obtain ⟨x, w, rfl⟩ := List.exists_cons_of_ne_nil hne
      exact scanNumber_none _ (hn _ rfl x rfl)
  have e2 : scanConv N .flt .flt st.input = .ok (none, st.input) := by
    simp only [scanConv, e.2, e.1]
  have e3 : scanDirs N (formatDirs .text ("%f %fi " : CStr)) [.flt, .flt] st.input = .ok ([], st.input) := by
    show scanDirs N (.flt :: _) (.flt :: _) st.input = _
    simp only [scanDirs, e2]
    rfl
  simp only [fscanf, e3]

theorem scans_complex_go (N : Numerals R) : ∀ (n : Nat) (l : List (CStr × CStr)) (z : CStr × CStr) (i : Nat)
    (st : ScanState R) (rest : List CStr), l.length ≤ n →
    (l = [] → st.real = some (N.flt z.1) ∧ st.imag = some (N.flt z.2)) →
    (∀ t ∈ complexToks l, t.OK) → Pos true st.input ((complexToks l).map Tok.word ++ rest) → NotNum rest →
    ∃ st', scanLoop (fun _ => scanComplex N) n i st =
        .ok ((l ++ List.replicate (n - l.length) (l.getLastD z)).map (fun z => (N.flt z.1, N.flt z.2)), st') ∧
      Pos true st'.input rest := by
  intro n
  induction n with
  | zero =>
    intro l z i st rest hl hz hok hs hr
    cases l with
    | nil => exact ⟨st, rfl, hs⟩
    | cons x l => cases hl
  | succ n ih =>
    intro l z i st rest hl hz hok hs hr
    cases l with
    | nil =>
      obtain ⟨h1, h2⟩ := hz rfl
      have e : scanComplex N st = .ok ((N.flt z.1, N.flt z.2), st) := by
        unfold scanComplex
        rw [scanM_bind (fscanf_notNum N hs hr)]
        show (match st.real, st.imag with
          | some re, some im => Pure.pure (re, im)
          | _, _ => indeterminate : ScanM R (R.Flt × R.Flt)) st = _
        rw [h1, h2]
        rfl
      obtain ⟨st', e', p'⟩ := ih [] z (i + 1) st rest (Nat.zero_le _) (fun _ => ⟨h1, h2⟩) hok hs hr
      refine ⟨st', ?_, p'⟩
      show (scanComplex N >>= fun x => scanLoop (fun _ => scanComplex N) n (i + 1) >>= fun xs => Pure.pure (x :: xs)) st = _
      rw [scanM_bind e, scanM_bind e']
      rfl
    | cons x l =>
      obtain ⟨r, e1, p1⟩ := fscanf_plan N (ts := [.flt x.1, .imag x.2]) (format := ("%f %fi " : CStr)) (dests := [.flt, .flt])
        (b := true) (b' := true) rfl (fun t ht => hok t (List.mem_append_left _ ht))
        (rest := (complexToks l).map Tok.word ++ rest) hs
      have e : scanComplex N st = .ok ((N.flt x.1, N.flt x.2),
          { st with input := r, real := some (N.flt x.1), imag := some (N.flt x.2) }) := by
        unfold scanComplex
        rw [scanM_bind e1]
        rfl
      obtain ⟨st', e', p'⟩ := ih l x (i + 1) { st with input := r, real := some (N.flt x.1), imag := some (N.flt x.2) }
        rest (by simpa using hl) (fun _ => ⟨rfl, rfl⟩) (fun t ht => hok t (List.mem_append_right _ ht)) p1 hr
      refine ⟨st', ?_, p'⟩
      show (scanComplex N >>= fun x => scanLoop (fun _ => scanComplex N) n (i + 1) >>= fun xs => Pure.pure (x :: xs)) st = _
      rw [scanM_bind e, scanM_bind e', show (x :: l).length = l.length + 1 from rfl, Nat.add_sub_add_right,
        show (x :: l).getLastD z = l.getLastD x from by cases l <;> rfl]
      rfl

theorem scans_complexes (N : Numerals R) {n : Nat} {l : List (CStr × CStr)} (hl : l ≠ [] ∧ l.length ≤ n) :
    Scans true NotNum (scanLoop (fun _ => scanComplex N) n 0) (complexToks l) (complexes N n l) :=
  fun st rest hok hs hr => scans_complex_go N n l ([], []) 0 st rest hl.2 (fun e => absurd e hl.1) hok hs hr

/-! ### The tables -/

theorem scans_element (N : Numerals R) (d : ElementDoc) (i : Nat) :
    Scans true Any (scanElement N i) d.toks (d.row N i) := by
  unfold scanElement
  refine Scans.scan N 4 rfl ?_
  refine Scans.scan N 6 rfl ?_
  refine Scans.scan N 4 rfl ?_
  exact Scans.pure _

theorem scans_array (N : Numerals R) (d : ArrayDoc) (h : Counts d.nelement d.elem) :
    Scans true Any (scanArray N) d.toks (d.table N) := by
  unfold scanArray
  refine Scans.scan N 3 rfl ?_
  refine Scans.scan N 2 rfl ?_
  refine Scans.scan N 6 rfl ?_
  refine Scans.rows N h 2 rfl rfl ?_
  show Scans true Any _ (d.elem.flatMap ElementDoc.toks) _
  rw [← List.append_nil (d.elem.flatMap ElementDoc.toks)]
  refine Scans.bind (Scans.loop d.elem (val := ElementDoc.row N) (fun j x _ => scans_element N x j)
    (fun _ _ _ => trivial) 0) (fun _ _ => trivial) ?_
  simp only [Nat.zero_add]
  exact Scans.pure _

theorem scans_target (N : Numerals R) (d : TargetDoc) (i : Nat) :
    Scans true (HeadNot 'c') (scanTarget N i) d.toks (d.row N, d.category.isSome) := by
  unfold scanTarget
  refine Scans.scan N 2 rfl ?_
  refine Scans.scan N 2 rfl ?_
  refine Scans.scan N 2 rfl ?_
  refine Scans.scan N 2 rfl ?_
  refine Scans.scan N 2 rfl ?_
  refine Scans.scan N 2 rfl ?_
  refine Scans.scan N 2 rfl ?_
  refine Scans.scan N 2 rfl ?_
  refine Scans.scan N 2 rfl ?_
  refine Scans.scan N 2 rfl ?_
  refine Scans.scan N 2 rfl ?_
  refine Scans.scan N 2 rfl ?_
  refine Scans.scan N 2 rfl ?_
  refine Scans.scan N 2 rfl ?_
  refine Scans.scan N 2 rfl ?_
  refine Scans.scan N 2 rfl ?_
  refine Scans.scan N 2 rfl ?_
  show Scans true _ _ (Spec.option "category" (.str 3) d.category) _
  rw [← List.append_nil (Spec.option _ _ _)]
  refine Scans.opt_string N (b' := false) d.category (fun w => rfl) rfl (fun _ rest hr => hr) ?_
  refine Scans.scan N 0 (b' := true) rfl ?_
  exact Scans.pure _

theorem scans_targets (N : Numerals R) (d : TargetsDoc) (h : Counts d.ntarget d.targ) :
    Scans true (HeadNot 'c') (scanTargets N) d.toks (d.table N) := by
  unfold scanTargets
  refine Scans.rows N h 3 rfl rfl ?_
  show Scans true _ _ (d.targ.flatMap TargetDoc.toks) _
  rw [← List.append_nil (d.targ.flatMap TargetDoc.toks)]
  refine Scans.bind (Scans.loop_map d.targ (val := fun d => (d.row N, d.category.isSome)) (fun j x _ => scans_target N x j)
    (fun x _ rest w hw => ?_) 0) (fun _ h => h) ?_
  · cases hw
    decide
  · rw [show d.table N = { revision := OI_REVN_V2_TARGET, targ := (d.targ.map fun d => (d.row N, d.category.isSome)).map (·.1),
                           usecategory := (d.targ.map fun d => (d.row N, d.category.isSome)).any (·.2) } from by
      unfold TargetsDoc.table
      rw [List.map_map, List.any_map]
      rfl]
    exact Scans.pure _

/-- A list of numbers after its name, and what follows. -/
theorem Scans.then_list {γ : Type} {m : ScanM R γ} {x : γ} (hm : Scans true Any m ts x) {f : γ → ScanM R β} {y : β}
    (h : Scans true next (f x) T y) : Scans true next (m >>= f) (ts ++ T) y :=
  Scans.bind hm (fun _ _ => trivial) h

theorem scans_wave (N : Numerals R) (d : WaveDoc) (h : Counts d.nwave d.eff_wave)
    (hb : d.eff_band.length = d.eff_wave.length) : Scans true Any (scanWavelength N) d.toks (d.table N) := by
  unfold scanWavelength WaveDoc.toks
  simp only [List.append_assoc]
  refine Scans.scan N 3 rfl ?_
  refine Scans.rows N h 2 rfl rfl ?_
  refine Scans.scan N 1 rfl ?_
  refine Scans.then_list (scans_floats N d.eff_wave rfl) ?_
  refine Scans.scan N 1 rfl ?_
  show Scans true _ _ (d.eff_band.map .flt) _
  rw [← List.append_nil (d.eff_band.map Tok.flt)]
  refine Scans.then_list (scans_floats N d.eff_band hb) ?_
  exact Scans.pure _

theorem scans_corr (N : Numerals R) (d : CorrDoc) (h : Counts d.ncorr d.corr) (hi : d.iindx.length = d.corr.length)
    (hj : d.jindx.length = d.corr.length) : Scans true Any (scanCorr N) d.toks (d.table N) := by
  unfold scanCorr CorrDoc.toks
  simp only [List.append_assoc]
  refine Scans.scan N 3 rfl ?_
  refine Scans.scan N 2 rfl ?_
  refine Scans.rows N h 2 rfl rfl ?_
  refine Scans.scan N 1 rfl ?_
  refine Scans.then_list (scans_ints N d.iindx hi) ?_
  refine Scans.scan N 1 rfl ?_
  refine Scans.then_list (scans_ints N d.jindx hj) ?_
  refine Scans.scan N 1 rfl ?_
  show Scans true _ _ (d.corr.map .dbl) _
  rw [← List.append_nil (d.corr.map Tok.dbl)]
  refine Scans.then_list (scans_doubles N d.corr rfl) ?_
  exact Scans.pure _

theorem scans_inspolRecord (N : Numerals R) (n : Nat) (d : InspolRecordDoc)
    (h : ∀ l ∈ [d.jxx, d.jyy, d.jxy, d.jyx], l ≠ [] ∧ l.length ≤ n) (i : Nat) :
    Scans true Any (scanInspolRecord N n i) d.toks (d.row N n) := by
  have hk : ∀ (w : CStr) (ts : List Tok), (∀ c ∈ w.head?, ((c = '+' || c = '-') || isDigit c || c = '.') = false) →
      ∀ rest, Any rest → NotNum ((Tok.kw w :: ts).map Tok.word ++ rest) := by
    intro w ts hw rest _ v hv
    cases hv
    exact hw
  have h1 := h d.jxx (by simp)
  have h2 := h d.jyy (by simp)
  have h3 := h d.jxy (by simp)
  have h4 := h d.jyx (by simp)
  unfold scanInspolRecord InspolRecordDoc.toks
  simp only [List.append_assoc]
  refine Scans.scan N 6 rfl ?_
  refine Scans.scan N 3 rfl ?_
  refine Scans.bind (ts := complexToks d.jxx) (scans_complexes N h1) (hk "jyy" _ (by decide)) ?_
  refine Scans.scan N 1 rfl ?_
  refine Scans.bind (ts := complexToks d.jyy) (scans_complexes N h2) (hk "jxy" _ (by decide)) ?_
  refine Scans.scan N 1 rfl ?_
  refine Scans.bind (ts := complexToks d.jxy) (scans_complexes N h3) (hk "jyx" _ (by decide)) ?_
  refine Scans.scan N 1 rfl ?_
  refine Scans.bind (ts := complexToks d.jyx) (scans_complexes N h4) (hk "sta_index" _ (by decide)) ?_
  refine Scans.scan N 2 rfl ?_
  exact Scans.pure _

theorem scans_inspol (N : Numerals R) (n : Nat) (d : InspolDoc) (h : Counts d.numrec d.record)
    (hr : ∀ r ∈ d.record, ∀ l ∈ [r.jxx, r.jyy, r.jxy, r.jyx], l ≠ [] ∧ l.length ≤ n) :
    Scans true Any (scanInspol N n) d.toks (d.table N n) := by
  unfold scanInspol
  refine Scans.scan N 3 rfl ?_
  refine Scans.scan N 2 rfl ?_
  refine Scans.scan N 2 rfl ?_
  refine Scans.scan N 2 rfl ?_
  refine Scans.scan N 2 rfl ?_
  refine Scans.numrec N h 2 rfl rfl ?_
  show Scans true _ _ (d.record.flatMap InspolRecordDoc.toks) _
  rw [← List.append_nil (d.record.flatMap _)]
  refine Scans.bind (Scans.loop_map d.record (fun j x hx => scans_inspolRecord N n x (hr x hx) j) (fun _ _ _ => trivial) 0)
    (fun _ h => h) ?_
  exact Scans.pure _

theorem scans_visRecord (N : Numerals R) (u : Undef R) (n : Nat) (d : VisRecordDoc)
    (h : ∀ l ∈ [d.visamp, d.visamperr, d.visphi, d.visphierr], l.length = n) (i : Nat) :
    Scans true Any (scanVisRecord N u n i) d.toks (d.row N u.int n) := by
  have h1 := h d.visamp (by simp)
  have h2 := h d.visamperr (by simp)
  have h3 := h d.visphi (by simp)
  have h4 := h d.visphierr (by simp)
  unfold scanVisRecord VisRecordDoc.toks
  simp only [List.append_assoc]
  refine Scans.scan N 6 rfl ?_
  refine Scans.scan N 3 rfl ?_
  refine Scans.then_list (scans_doubles N d.visamp h1) ?_
  refine Scans.scan N 1 rfl ?_
  refine Scans.then_list (scans_doubles N d.visamperr h2) ?_
  refine Scans.scan N 2 rfl ?_
  refine Scans.scan N 1 rfl ?_
  refine Scans.then_list (scans_doubles N d.visphi h3) ?_
  refine Scans.scan N 1 rfl ?_
  refine Scans.then_list (scans_doubles N d.visphierr h4) ?_
  refine Scans.scan N 2 rfl ?_
  refine Scans.scan N 4 rfl ?_
  refine Scans.scan N 3 rfl ?_
  exact Scans.pure _

theorem scans_vis2Record (N : Numerals R) (n : Nat) (d : Vis2RecordDoc)
    (h : ∀ l ∈ [d.vis2data, d.vis2err], l.length = n) (i : Nat) :
    Scans true Any (scanVis2Record N n i) d.toks (d.row N n) := by
  have h1 := h d.vis2data (by simp)
  have h2 := h d.vis2err (by simp)
  unfold scanVis2Record Vis2RecordDoc.toks
  simp only [List.append_assoc]
  refine Scans.scan N 6 rfl ?_
  refine Scans.scan N 3 rfl ?_
  refine Scans.then_list (scans_doubles N d.vis2data h1) ?_
  refine Scans.scan N 1 rfl ?_
  refine Scans.then_list (scans_doubles N d.vis2err h2) ?_
  refine Scans.scan N 2 rfl ?_
  refine Scans.scan N 4 rfl ?_
  refine Scans.scan N 3 rfl ?_
  exact Scans.pure _

theorem scans_vis2 (N : Numerals R) (n : Nat) (d : Vis2Doc) (h : Counts d.numrec d.record)
    (hr : ∀ r ∈ d.record, ∀ l ∈ [r.vis2data, r.vis2err], l.length = n) :
    Scans true Any (scanVis2 N n) d.toks (d.table N n) := by
  unfold scanVis2
  refine Scans.scan N 3 rfl ?_
  refine Scans.scan N 4 rfl ?_
  refine Scans.scan N 2 rfl ?_
  refine Scans.numrec N h 2 rfl rfl ?_
  show Scans true _ _ (d.record.flatMap Vis2RecordDoc.toks) _
  rw [← List.append_nil (d.record.flatMap _)]
  refine Scans.bind (Scans.loop_map d.record (fun j x hx => scans_vis2Record N n x (hr x hx) j) (fun _ _ _ => trivial) 0)
    (fun _ h => h) ?_
  exact Scans.pure _

theorem scans_t3Record (N : Numerals R) (n : Nat) (d : T3RecordDoc)
    (h : ∀ l ∈ [d.t3amp, d.t3amperr, d.t3phi, d.t3phierr], l.length = n) (i : Nat) :
    Scans true Any (scanT3Record N n i) d.toks (d.row N n) := by
  have h1 := h d.t3amp (by simp)
  have h2 := h d.t3amperr (by simp)
  have h3 := h d.t3phi (by simp)
  have h4 := h d.t3phierr (by simp)
  unfold scanT3Record T3RecordDoc.toks
  simp only [List.append_assoc]
  refine Scans.scan N 6 rfl ?_
  refine Scans.scan N 3 rfl ?_
  refine Scans.then_list (scans_doubles N d.t3amp h1) ?_
  refine Scans.scan N 1 rfl ?_
  refine Scans.then_list (scans_doubles N d.t3amperr h2) ?_
  refine Scans.scan N 2 rfl ?_
  refine Scans.scan N 1 rfl ?_
  refine Scans.then_list (scans_doubles N d.t3phi h3) ?_
  refine Scans.scan N 1 rfl ?_
  refine Scans.then_list (scans_doubles N d.t3phierr h4) ?_
  refine Scans.scan N 2 rfl ?_
  refine Scans.scan N 4 rfl ?_
  refine Scans.scan N 4 rfl ?_
  refine Scans.scan N 4 rfl ?_
  exact Scans.pure _

theorem scans_t3 (N : Numerals R) (n : Nat) (d : T3Doc) (h : Counts d.numrec d.record)
    (hr : ∀ r ∈ d.record, ∀ l ∈ [r.t3amp, r.t3amperr, r.t3phi, r.t3phierr], l.length = n) :
    Scans true Any (scanT3 N n) d.toks (d.table N n) := by
  unfold scanT3
  refine Scans.scan N 3 rfl ?_
  refine Scans.scan N 4 rfl ?_
  refine Scans.scan N 2 rfl ?_
  refine Scans.numrec N h 2 rfl rfl ?_
  show Scans true _ _ (d.record.flatMap T3RecordDoc.toks) _
  rw [← List.append_nil (d.record.flatMap _)]
  refine Scans.bind (Scans.loop_map d.record (fun j x hx => scans_t3Record N n x (hr x hx) j) (fun _ _ _ => trivial) 0)
    (fun _ h => h) ?_
  exact Scans.pure _

theorem scans_fluxRecord (N : Numerals R) (n : Nat) (d : FluxRecordDoc)
    (h : ∀ l ∈ [d.fluxdata, d.fluxerr], l.length = n) (i : Nat) :
    Scans true (HeadNot 's') (scanFluxRecord N n i) d.toks (d.row N n) := by
  have h1 := h d.fluxdata (by simp)
  have h2 := h d.fluxerr (by simp)
  unfold scanFluxRecord FluxRecordDoc.toks
  simp only [List.append_assoc]
  refine Scans.scan N 4 rfl ?_
  refine Scans.scan N 3 rfl ?_
  refine Scans.then_list (scans_doubles N d.fluxdata h1) ?_
  refine Scans.scan N 1 rfl ?_
  refine Scans.then_list (scans_doubles N d.fluxerr h2) ?_
  refine Scans.scan N 2 rfl ?_
  show Scans true _ _ (Spec.option "sta_index" .int d.sta_index) _
  rw [← List.append_nil (Spec.option _ _ _)]
  refine Scans.opt_int N (b' := true) d.sta_index (fun w => rfl) rfl (fun _ rest hr => hr) ?_
  exact Scans.pure _

theorem scans_flux (N : Numerals R) (n : Nat) (d : FluxDoc) (h : Counts d.numrec d.record)
    (hr : ∀ r ∈ d.record, ∀ l ∈ [r.fluxdata, r.fluxerr], l.length = n) (hf : d.fov = none → d.fovtype = none) :
    Scans true (HeadNot 's') (scanFlux N n) d.toks (d.table N n) := by
  unfold scanFlux FluxDoc.toks
  simp only [List.append_assoc]
  refine Scans.scan N 3 rfl ?_
  refine Scans.opt_string N (b' := true) d.arrname (fun w => rfl) rfl (fun _ rest hr w hw => ?_) ?_
  · cases hw
    decide
  refine Scans.scan N 4 rfl ?_
  refine Scans.opt_double N (b' := true) d.fov (fun w => rfl) rfl (fun e rest hr w hw => ?_) ?_
  · rw [hf e] at hw
    cases hw
    decide
  refine Scans.opt_string N (b' := true) d.fovtype (fun w => rfl) rfl (fun _ rest hr w hw => ?_) ?_
  · cases hw
    decide
  refine Scans.scan N 2 rfl ?_
  refine Scans.numrec N h 2 rfl rfl ?_
  show Scans true _ _ (d.record.flatMap FluxRecordDoc.toks) _
  rw [← List.append_nil (d.record.flatMap _)]
  refine Scans.bind (Scans.loop_map d.record (fun j x hx => scans_fluxRecord N n x (hr x hx) j) (fun x _ rest w hw => ?_) 0)
    (fun _ h => h) ?_
  · cases hw
    decide
  · exact Scans.pure _

theorem no_blank {s : CStr} : ∀ w ∈ words s, ∀ c ∈ w, isSpace c = false := by
  induction s with
  | nil => intro w hw; cases hw
  | cons c s ih =>
    obtain ⟨_, _, _, _, h4⟩ := splitWords_spec s
    cases hc : isSpace c with
    | true => rw [words_space hc]; exact ih
    | false =>
      have e : words (c :: s) = (c :: (splitWords s).1) :: (splitWords s).2 := by
        simp only [words, splitWords, hc]
        rfl
      rw [e]
      intro w hw
      rcases List.mem_cons.mp hw with rfl | hw
      · intro x hx
        rcases List.mem_cons.mp hx with rfl | hx
        · exact hc
        · exact h4 x hx
      · refine ih w ?_
        unfold words
        by_cases hn : (splitWords s).1 = []
        · simp only [if_pos hn]; exact hw
        · simp only [if_neg hn]; exact List.mem_cons_of_mem _ hw

/-- The words of the table are words. -/
def Blankless (ts : List Tok) : Prop := ∀ t ∈ ts, ∀ c ∈ t.word, isSpace c = false

theorem scans_vis (N : Numerals R) (u : Undef R) (n : Nat) (d : VisDoc) (h : Counts d.numrec d.record)
    (hr : ∀ r ∈ d.record, ∀ l ∈ [r.visamp, r.visamperr, r.visphi, r.visphierr], l.length = n)
    (h1 : d.amptyp = none → d.phityp = none → d.amporder = none)
    (h2 : d.phityp = none → d.amporder = none → d.phiorder = none)
    (hb : Blankless d.toks) :
    Scans true Any (scanVis N u n) d.toks (d.table N u.int n) := by
  have ha : d.amptyp.getD [] ≠ ("correlated flux" : CStr) := by
    cases e : d.amptyp with
    | none => exact fun h => by cases h
    | some w =>
      intro hw
      have := hb (.str 70 w) (by simp [VisDoc.toks, e, Spec.option]) ' ' (by
        rw [show w = ("correlated flux" : CStr) from hw]
        decide)
      exact absurd this (by decide)
  unfold scanVis VisDoc.toks
  simp only [List.append_assoc]
  refine Scans.scan N 3 rfl ?_
  refine Scans.scan N 4 rfl ?_
  refine Scans.scan N 2 rfl ?_
  refine Scans.opt_string N (b' := false) d.amptyp (fun w => rfl) rfl (fun e rest hr w hw => ?_) ?_
  · cases e2 : d.phityp with
    | some x => rw [e2] at hw; cases hw; decide
    | none =>
      rw [e2, h1 e e2] at hw
      cases e4 : d.phiorder with
      | some x => rw [e4] at hw; cases hw; decide
      | none => rw [e4] at hw; cases hw; decide
  refine Scans.opt_string N (b' := false) d.phityp (fun w => rfl) rfl (fun e rest hr w hw => ?_) ?_
  · cases e3 : d.amporder with
    | some x => rw [e3] at hw; cases hw; decide
    | none => rw [e3, h2 e e3] at hw; cases hw; decide
  refine Scans.opt_int N (b' := false) d.amporder (fun w => rfl) rfl (fun e rest hr w hw => ?_) ?_
  · cases e4 : d.phiorder with
    | some x => rw [e4] at hw; cases hw; decide
    | none => rw [e4] at hw; cases hw; decide
  refine Scans.opt_int N (b' := false) d.phiorder (fun w => rfl) rfl (fun e rest hr w hw => ?_) ?_
  · cases hw
    decide
  refine Scans.numrec N h 2 rfl rfl ?_
  show Scans true _ _ (d.record.flatMap VisRecordDoc.toks) _
  rw [← List.append_nil (d.record.flatMap _)]
  refine Scans.bind (Scans.loop_map d.record (fun j x hx => scans_visRecord N u n x (hr x hx) j) (fun _ _ _ => trivial) 0)
    (fun _ h => h) ?_
  rw [show d.table N u.int n = {
        revision := OI_REVN_V2_VIS, date_obs := d.date_obs, arrname := d.arrname,
        insname := d.insname, corrname := d.corrname, amptyp := d.amptyp.getD [], phityp := d.phityp.getD [],
        amporder := (d.amporder.map intOf).getD (-1), phiorder := (d.phiorder.map intOf).getD (-1),
        usevisrefmap := false, usecomplex := false, complexunit := [],
        ampunit := if d.amptyp.getD [] = "correlated flux" then "Jy" else [], nwave := n,
        record := d.record.map (VisRecordDoc.row N u.int n) } from by rw [if_neg ha]; rfl]
  exact Scans.pure _

/-- All tables. -/
theorem scans_demo (N : Numerals R) (u : Undef R) (d : DemoDoc) (hc : d.Consistent) (hd : d.Distinct)
    (hb : Blankless d.toks) : Scans true (HeadNot 's') (scanDemo N u) d.toks (d.tables N u.int) := by
  have hv : Blankless d.vis.toks := fun t ht => hb t (by simp [DemoDoc.toks, ht])
  unfold scanDemo DemoDoc.toks
  simp only [List.append_assoc]
  refine Scans.then_list (scans_array N d.array hc.nelement) ?_
  refine Scans.bind (scans_targets N d.targets hc.ntarget) (fun rest _ w hw => ?_) ?_
  · cases hw
    decide
  refine Scans.then_list (scans_wave N d.wave hc.nwave hc.eff_band) ?_
  refine Scans.then_list (scans_corr N d.corr hc.ncorr hc.iindx hc.jindx) ?_
  refine Scans.then_list (scans_inspol N _ d.inspol hc.inspol hc.jones) ?_
  refine Scans.then_list (scans_vis N u _ d.vis hc.vis hc.visData hd.amptyp hd.phityp hv) ?_
  refine Scans.then_list (scans_vis2 N _ d.vis2 hc.vis2 hc.vis2Data) ?_
  refine Scans.then_list (scans_t3 N _ d.t3 hc.t3 hc.t3Data) ?_
  rw [← List.append_nil d.flux.toks]
  refine Scans.bind (scans_flux N _ d.flux hc.flux hc.fluxData hd.fov) (fun _ h => h) ?_
  exact Scans.pure _

theorem scanDemo_eq (N : Numerals R) (u : Undef R) (d : DemoDoc) (ho : ∀ t ∈ d.toks, t.OK) (hc : d.Consistent)
    (hd : d.Distinct) {text : CStr} (ht : d.IsText text) :
    ∃ st, scanDemo N u { input := text } = .ok (d.tables N u.int, st) := by
  have hb : Blankless d.toks := fun t hm => no_blank t.word (by rw [ht.1]; exact List.mem_map_of_mem hm)
  obtain ⟨st, h1, _⟩ := scans_demo N u d hc hd hb { input := text } [] ho
    ⟨by rw [List.append_nil]; exact ht.1, fun _ => ht.2⟩ (fun w hw => by cases hw)
  exact ⟨st, h1⟩

end Verif
