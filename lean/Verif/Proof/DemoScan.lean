import Verif.Spec.DemoText

/-! Lemmas about `fscanf` on texts of which the words are known. -/

namespace Verif
open Outcome Verif.Spec

variable {R : FP} {α β : Type}

/-! ### Words -/

/-- Nothing, or white space first. -/
def Stop (s : CStr) : Prop := ∀ c ∈ s.head?, isSpace c = true

/-- The words from here on; `true` says that there is no white space first. -/
def Pos (b : Bool) (s : CStr) (ws : List CStr) : Prop := words s = ws ∧ (b = true → ∀ c ∈ s.head?, isSpace c = false)

theorem splitWords_spec (s : CStr) : ∃ r, s = (splitWords s).1 ++ r ∧ Stop r ∧ words r = (splitWords s).2 ∧
    ∀ c ∈ (splitWords s).1, isSpace c = false := by
  induction s with
  | nil => exact ⟨[], rfl, (fun c hc => by cases hc), rfl, (fun c hc => by cases hc)⟩
  | cons c s ih =>
    obtain ⟨r, h1, h2, h3, h4⟩ := ih
    cases hc : isSpace c with
    | true =>
      have e : splitWords (c :: s) = ([], words s) := by
        simp only [splitWords, hc, words]
        rfl
      rw [e]
      refine ⟨c :: s, rfl, fun x hx => ?_, ?_, fun x hx => by cases hx⟩
      · simp only [List.head?_cons, Option.mem_def, Option.some.injEq] at hx
        rw [← hx]
        exact hc
      · rw [words, e]
        rfl
    | false =>
      have e : splitWords (c :: s) = (c :: (splitWords s).1, (splitWords s).2) := by
        simp only [splitWords, hc]
        rfl
      rw [e]
      refine ⟨r, ?_, h2, h3, ?_⟩
      · show c :: s = c :: ((splitWords s).1 ++ r)
        rw [← h1]
      · intro x hx
        rcases List.mem_cons.mp hx with rfl | hx
        · exact hc
        · exact h4 x hx

theorem pos_cons {s w : CStr} {ws : List CStr} (h : Pos true s (w :: ws)) :
    ∃ r, s = w ++ r ∧ Stop r ∧ words r = ws ∧ w ≠ [] ∧ ∀ c ∈ w, isSpace c = false := by
  obtain ⟨r, h1, h2, h3, h4⟩ := splitWords_spec s
  have hw := h.1
  have hne : (splitWords s).1 ≠ [] := by
    intro he
    rw [he, List.nil_append] at h1
    subst h1
    have hs : s = [] := by
      cases s with
      | nil => rfl
      | cons c s =>
        have a := h2 c rfl
        rw [h.2 rfl c rfl] at a
        cases a
    subst hs
    cases hw
  unfold words at hw
  rw [show (splitWords s) = ((splitWords s).1, (splitWords s).2) from rfl] at hw
  simp only [if_neg hne] at hw
  obtain ⟨e1, e2⟩ := List.cons.inj hw
  refine ⟨r, ?_, h2, h3.trans e2, e1 ▸ hne, e1 ▸ h4⟩
  rw [← e1]
  exact h1

theorem pos_nil {s : CStr} (h : Pos true s []) : s = [] := by
  cases s with
  | nil => rfl
  | cons c s =>
    have hc := h.2 rfl c rfl
    have hw := h.1
    simp only [words, splitWords, hc] at hw
    cases hw

theorem words_space {c : Char} (hc : isSpace c = true) (s : CStr) : words (c :: s) = words s := by
  conv => lhs; unfold words
  simp only [splitWords, hc]
  rfl

theorem words_skipSpace (s : CStr) : words (skipSpace s) = words s := by
  induction s with
  | nil => rfl
  | cons c s ih =>
    unfold skipSpace
    cases hc : isSpace c with
    | true =>
      rw [List.dropWhile_cons_of_pos hc, words_space hc]
      exact ih
    | false => rw [List.dropWhile_cons_of_neg (by rw [hc]; exact Bool.false_ne_true)]

theorem skipSpace_head (s : CStr) : ∀ c ∈ (skipSpace s).head?, isSpace c = false := by
  induction s with
  | nil => intro c hc; cases hc
  | cons c s ih =>
    unfold skipSpace
    cases hc : isSpace c with
    | true => rw [List.dropWhile_cons_of_pos hc]; exact ih
    | false =>
      rw [List.dropWhile_cons_of_neg (by rw [hc]; exact Bool.false_ne_true)]
      intro x hx
      cases hx
      exact hc

theorem pos_skip {b : Bool} {s : CStr} {ws : List CStr} (h : Pos b s ws) : Pos true (skipSpace s) ws :=
  ⟨(words_skipSpace s).trans h.1, fun _ => skipSpace_head s⟩

theorem skipSpace_word {w : CStr} (hne : w ≠ []) (hw : ∀ c ∈ w, isSpace c = false) (r : CStr) :
    skipSpace (w ++ r) = w ++ r := by
  obtain ⟨c, w, rfl⟩ := List.exists_cons_of_ne_nil hne
  show List.dropWhile isSpace (c :: (w ++ r)) = _
  rw [List.dropWhile_cons_of_neg (by rw [hw c List.mem_cons_self]; exact Bool.false_ne_true)]
  rfl

/-! ### Conversions of one word -/

theorem scanWord_none {w r : CStr} (hw : ∀ c ∈ w, isSpace c = false) (hr : Stop r) : scanWord none (w ++ r) = (w, r) := by
  induction w with
  | nil =>
    cases r with
    | nil => rfl
    | cons c r =>
      show (if isSpace c then _ else _) = _
      rw [if_pos (hr c rfl)]
  | cons c w ih =>
    show (if isSpace c then _ else _) = _
    rw [if_neg (by rw [hw c List.mem_cons_self]; exact Bool.false_ne_true)]
    show (c :: (scanWord none (w ++ r)).1, (scanWord none (w ++ r)).2) = _
    rw [ih fun x hx => hw x (List.mem_cons_of_mem _ hx)]

theorem scanWord_some {w r : CStr} (hw : ∀ c ∈ w, isSpace c = false) (hr : Stop r) :
    ∀ n, w.length ≤ n → scanWord (some n) (w ++ r) = (w, r) := by
  induction w with
  | nil =>
    intro n _
    cases r with
    | nil => cases n <;> rfl
    | cons c r =>
      cases n with
      | zero => rfl
      | succ n =>
        show (if isSpace c then _ else _) = _
        rw [if_pos (hr c rfl)]
  | cons c w ih =>
    intro n hn
    cases n with
    | zero => simp only [List.length_cons, Nat.le_zero_eq] at hn; cases hn
    | succ n =>
      show (if isSpace c then _ else _) = _
      rw [if_neg (by rw [hw c List.mem_cons_self]; exact Bool.false_ne_true)]
      show (c :: (scanWord (some n) (w ++ r)).1, (scanWord (some n) (w ++ r)).2) = _
      rw [ih (fun x hx => hw x (List.mem_cons_of_mem _ hx)) n (by simpa using hn)]

/-- What can follow a number. -/
def NumStop (s : CStr) : Prop := ∀ c ∈ s.head?, isDigit c = false ∧ c ≠ '.' ∧ c ≠ 'e' ∧ c ≠ 'E'

theorem isSpace_iff {c : Char} (h : isSpace c = true) : c = ' ' ∨ c = '\t' ∨ c = '\n' ∨ c = '\x0b' ∨ c = '\x0c' ∨ c = '\r' := by
  simp only [isSpace, Bool.or_eq_true, decide_eq_true_eq] at h
  rcases h with ((((h | h) | h) | h) | h) | h
  · exact Or.inl h
  · exact Or.inr (Or.inl h)
  · exact Or.inr (Or.inr (Or.inl h))
  · exact Or.inr (Or.inr (Or.inr (Or.inl h)))
  · exact Or.inr (Or.inr (Or.inr (Or.inr (Or.inl h))))
  · exact Or.inr (Or.inr (Or.inr (Or.inr (Or.inr h))))

theorem stop_num {s : CStr} (h : Stop s) : NumStop s := by
  intro c hc
  rcases isSpace_iff (h c hc) with rfl | rfl | rfl | rfl | rfl | rfl <;> decide

theorem scanDecDigits_eq {ds r : CStr} (hd : ∀ c ∈ ds, isDigit c = true) (hr : ∀ c ∈ r.head?, isDigit c = false) :
    scanDecDigits (ds ++ r) = (ds, r) := by
  induction ds with
  | nil =>
    cases r with
    | nil => rfl
    | cons c r =>
      show (List.takeWhile isDigit (c :: r), List.dropWhile isDigit (c :: r)) = _
      rw [List.takeWhile_cons_of_neg (by rw [hr c rfl]; exact Bool.false_ne_true),
        List.dropWhile_cons_of_neg (by rw [hr c rfl]; exact Bool.false_ne_true)]
  | cons c ds ih =>
    have hc := hd c List.mem_cons_self
    have ih := ih fun x hx => hd x (List.mem_cons_of_mem _ hx)
    unfold scanDecDigits at ih ⊢
    obtain ⟨e1, e2⟩ := Prod.mk.inj ih
    show (List.takeWhile isDigit (c :: (ds ++ r)), List.dropWhile isDigit (c :: (ds ++ r))) = _
    rw [List.takeWhile_cons_of_pos hc, List.dropWhile_cons_of_pos hc, e1, e2]

theorem digit_not_sign {c : Char} (h : isDigit c = true) : (c = '+' || c = '-') = false := by
  cases hc : (c = '+' || c = '-' : Bool) with
  | false => rfl
  | true =>
    simp only [Bool.or_eq_true, decide_eq_true_eq] at hc
    rcases hc with rfl | rfl <;> exact absurd h (by decide)

/-- A sign, perhaps, before something which does not begin with a sign. -/
theorem scanSign_eq {sg r : CStr} (hs : sg ∈ [[], ['+'], ['-']]) (hr : ∀ c ∈ r.head?, (c = '+' || c = '-') = false) :
    scanSign (sg ++ r) = (sg, r) := by
  simp only [List.mem_cons, List.not_mem_nil, or_false] at hs
  rcases hs with rfl | rfl | rfl
  · cases r with
    | nil => rfl
    | cons c r =>
      show (if (c = '+' || c = '-') = true then _ else _) = _
      rw [if_neg (by rw [hr c rfl]; exact Bool.false_ne_true)]
  · rfl
  · rfl

theorem decimalVal_go (s : CStr) : ∀ n, s.foldl (fun n c => n * 10 + (c.toNat - '0'.toNat)) n = n * 10 ^ s.length + natOf s := by
  induction s with
  | nil => intro n; simp [natOf]
  | cons c s ih =>
    intro n
    rw [List.foldl_cons, ih]
    simp only [natOf, List.length_cons, Nat.pow_succ]
    rw [Nat.add_mul, Nat.mul_assoc, Nat.mul_comm 10, Nat.add_assoc]

theorem decimalVal_eq (s : CStr) : decimalVal s = natOf s := by
  unfold decimalVal
  rw [decimalVal_go]
  simp

theorem signedVal_eq {sg ds : CStr} (hs : sg ∈ [[], ['+'], ['-']]) (hd : ∀ c ∈ ds, isDigit c = true) :
    signedVal sg ds = intOf (sg ++ ds) := by
  unfold signedVal
  rw [decimalVal_eq]
  simp only [List.mem_cons, List.not_mem_nil, or_false] at hs
  rcases hs with rfl | rfl | rfl
  · rw [if_neg (by decide)]
    cases ds with
    | nil => rfl
    | cons c ds =>
      have hc := hd c List.mem_cons_self
      have h1 : c ≠ '-' := by rintro rfl; exact absurd hc (by decide)
      have h2 : c ≠ '+' := by rintro rfl; exact absurd hc (by decide)
      rw [List.nil_append]
      unfold intOf
      split
      · rename_i h; exact absurd (List.cons.inj h).1 h1
      · rename_i h; exact absurd (List.cons.inj h).1 h2
      · rfl
  · rw [if_neg (by decide)]
    rfl
  · rw [if_pos rfl]
    rfl

theorem head_append_digits {ds r : CStr} (hne : ds ≠ []) (hd : ∀ c ∈ ds, isDigit c = true) :
    ∀ c ∈ (ds ++ r).head?, isDigit c = true := by
  obtain ⟨a, ds, rfl⟩ := List.exists_cons_of_ne_nil hne
  intro c hc
  cases hc
  exact hd _ List.mem_cons_self

theorem scanInt_eq {w r : CStr} (hw : IsInteger w) (hr : ∀ c ∈ r.head?, isDigit c = false) :
    scanInt (w ++ r) = (some (intOf w), r) := by
  obtain ⟨sg, ds, rfl, hs, hne, hd⟩ := hw
  simp only [scanInt, List.append_assoc, scanSign_eq hs fun c hc => digit_not_sign (head_append_digits hne hd c hc),
    scanDecDigits_eq hd hr, if_neg hne, signedVal_eq hs hd]

theorem scanExponent_eq {e r : CStr} (he : e = [] ∨ ∃ c int, e = c :: int ∧ c ∈ ['e', 'E'] ∧ IsInteger int)
    (hr : NumStop r) : scanExponent (e ++ r) = (some e, r) := by
  rcases he with rfl | ⟨c, int, rfl, hc, sg, ds, rfl, hs, hne, hd⟩
  · cases r with
    | nil => rfl
    | cons c r =>
      obtain ⟨_, _, h1, h2⟩ := hr c rfl
      show (if (c = 'e' || c = 'E') = true then _ else _) = _
      rw [if_neg (by simp [h1, h2])]
  · have hc' : (c = 'e' || c = 'E') = true := by
      simp only [List.mem_cons, List.not_mem_nil, or_false] at hc
      rcases hc with rfl | rfl <;> rfl
    simp only [List.cons_append, scanExponent, if_pos hc', List.append_assoc,
      scanSign_eq hs fun c hc => digit_not_sign (head_append_digits hne hd c hc),
      scanDecDigits_eq hd fun c hc => (hr c hc).1, if_neg hne]

theorem scanNumber_eq {w r : CStr} (hw : IsDecimal w) (hr : NumStop r) : scanNumber (w ++ r) = (some w, r) := by
  obtain ⟨sg, ds, fr, ex, rfl, hs, hd, hf, he⟩ := hw
  have hex : ∀ c ∈ (ex ++ r).head?, isDigit c = false ∧ c ≠ '.' := by
    intro c hc
    rcases he with rfl | ⟨e, int, rfl, h, _⟩
    · exact ⟨(hr c hc).1, (hr c hc).2.1⟩
    · cases hc
      simp only [List.mem_cons, List.not_mem_nil, or_false] at h
      rcases h with rfl | rfl <;> decide
  have hfr : ∀ c ∈ (fr ++ (ex ++ r)).head?, isDigit c = false := by
    intro c hc
    rcases hf with ⟨rfl, _⟩ | ⟨m, rfl, _⟩
    · exact (hex c hc).1
    · cases hc
      rfl
  have hsg : ∀ c ∈ (ds ++ (fr ++ (ex ++ r))).head?, (c = '+' || c = '-') = false := by
    intro c hc
    cases ds with
    | cons a ds =>
      cases hc
      exact digit_not_sign (hd _ List.mem_cons_self)
    | nil =>
      rcases hf with ⟨rfl, h⟩ | ⟨m, rfl, _⟩
      · exact absurd rfl h
      · cases hc
        rfl
  have hfrac : scanFraction (fr ++ (ex ++ r)) = (fr, ex ++ r) := by
    rcases hf with ⟨rfl, _⟩ | ⟨m, rfl, hm, _⟩
    · rw [List.nil_append]
      cases hx : ex ++ r with
      | nil => rfl
      | cons c t =>
        have := (hex c (by rw [hx]; rfl)).2
        show (if c = '.' then _ else _) = _
        rw [if_neg this]
    · simp only [List.cons_append, scanFraction, if_true, scanDecDigits_eq hm fun c hc => (hex c hc).1]
  have hno : ¬(ds = [] ∧ fr.drop 1 = []) := by
    rintro ⟨h1, h2⟩
    rcases hf with ⟨_, h⟩ | ⟨m, rfl, _, h⟩
    · exact h h1
    · rcases h with h | h
      · exact h h1
      · exact h h2
  simp only [scanNumber, List.append_assoc, scanSign_eq hs hsg, scanDecDigits_eq hd hfr, hfrac, if_neg hno,
    scanExponent_eq he hr]

/-- No number here. -/
theorem scanNumber_none {c : Char} (s : CStr) (h : ((c = '+' || c = '-') || isDigit c || c = '.') = false) :
    scanNumber (c :: s) = (none, c :: s) := by
  simp only [Bool.or_eq_false_iff, decide_eq_false_iff_not] at h
  obtain ⟨⟨⟨h1, h2⟩, h3⟩, h4⟩ := h
  have e1 : scanSign (c :: s) = ([], c :: s) := by
    show (if (c = '+' || c = '-') = true then _ else _) = _
    rw [if_neg (by simp [h1, h2])]
  have e2 : scanDecDigits (c :: s) = ([], c :: s) := scanDecDigits_eq (ds := []) (fun x hx => by cases hx) fun x hx => by
    cases hx
    exact h3
  have e3 : scanFraction (c :: s) = ([], c :: s) := by
    show (if c = '.' then _ else _) = _
    rw [if_neg h4]
  simp only [scanNumber, e1, e2, e3]
  rfl

/-! ### Formats -/

/-- The value which the item stands for. -/
def Spec.Tok.val (N : Numerals R) : Tok → Option (ScanVal R)
  | .kw _ => none
  | .str _ w => some (.str w)
  | .int w => some (.int (intOf w))
  | .long w => some (.int (intOf w))
  | .dbl w => some (.dbl (N.dbl w))
  | .flt w => some (.flt (N.flt w))
  | .imag w => some (.flt (N.flt w))
  | .chr c => some (.chr c)

/-- The directives after the literal characters of a word. -/
def stripLits : CStr → List Dir → Option (List Dir)
  | [], ds => some ds
  | c :: w, .lit c' :: ds => if c' = c then stripLits w ds else none
  | _, _ => none

/-- The first directives and destinations are for this item: those which remain. -/
def useTok : Tok → List Dir → List ScanDest → Option (List Dir × List ScanDest)
  | .kw w, ds, dests => (stripLits w ds).map fun ds => (ds, dests)
  | .str max _, .str none :: ds, .chars size :: dests => if max < size then some (ds, dests) else none
  | .str max _, .str (some n) :: ds, .chars size :: dests => if max ≤ n ∧ max < size then some (ds, dests) else none
  | .int _, .int :: ds, .int :: dests => some (ds, dests)
  | .long _, .long :: ds, .long :: dests => some (ds, dests)
  | .dbl _, .dbl :: ds, .dbl :: dests => some (ds, dests)
  | .flt _, .flt :: ds, .flt :: dests => some (ds, dests)
  | .imag _, .flt :: .lit 'i' :: ds, .flt :: dests => some (ds, dests)
  | .chr _, .chr :: ds, .chr :: dests => some (ds, dests)
  | _, _, _ => none

/-- Whether a format and the destinations are for the items. The result says whether white space is skipped at the end. -/
def plan : Bool → List Dir → List ScanDest → List Tok → Option Bool
  | b, ds, _, [] =>
    match ds with
    | [] => some b
    | [.ws] => some true
    | _ => none
  | b, ds, dests, t :: ts =>
    match ds with
    | .ws :: ds =>
      match useTok t ds dests with
      | some (ds, dests) => plan false ds dests ts
      | none => none
    | ds =>
      if b then
        match useTok t ds dests with
        | some (ds, dests) => plan false ds dests ts
        | none => none
      else none

theorem stripLits_scan (N : Numerals R) {w : CStr} : ∀ {ds ds' : List Dir}, stripLits w ds = some ds' →
    ∀ dests r, scanDirs N ds dests (w ++ r) = scanDirs N ds' dests r := by
  induction w with
  | nil =>
    intro ds ds' h dests r
    cases h
    rfl
  | cons c w ih =>
    intro ds ds' h dests r
    cases ds with
    | nil => cases h
    | cons d ds =>
      cases d with
      | lit c' =>
        by_cases hc : c' = c
        · subst hc
          simp only [stripLits, if_true] at h
          show (if c' = c' then _ else _) = _
          rw [if_pos rfl]
          exact ih h dests r
        · simp only [stripLits, if_neg hc] at h
          cases h
      | _ => cases h

theorem scanDirs_conv (N : Numerals R) {d : Dir} (hd : d ≠ .ws ∧ ∀ c, d ≠ .lit c) {dest : ScanDest} {s r : CStr}
    {v : ScanVal R} (h : scanConv N d dest s = .ok (some v, r)) (ds : List Dir) (dests : List ScanDest) :
    scanDirs N (d :: ds) (dest :: dests) s = (scanDirs N ds dests r >>= fun x => .ok (v :: x.1, x.2)) := by
  have e : scanDirs N (d :: ds) (dest :: dests) s = (scanConv N d dest s >>= fun x =>
      match x with
      | (none, s) => .ok ([], s)
      | (some v, s) => scanDirs N ds dests s >>= fun x => .ok (v :: x.1, x.2)) := by
    cases d with
    | ws => exact absurd rfl hd.1
    | lit c => exact absurd rfl (hd.2 c)
    | _ => rfl
  rw [e, h]
  rfl

theorem scanConv_str (N : Numerals R) {w r : CStr} (hne : w ≠ []) (hsp : ∀ c ∈ w, isSpace c = false) (hr : Stop r)
    {o : Option Nat} {size : Nat} (hm : w.length < size) (ho : ∀ n, o = some n → w.length ≤ n) :
    scanConv N (.str o) (.chars size) (w ++ r) = .ok (some (.str w), r) := by
  have e : scanWord o (w ++ r) = (w, r) := by
    cases o with
    | none => exact scanWord_none hsp hr
    | some n => exact scanWord_some hsp hr n (ho n rfl)
  simp only [scanConv, skipSpace_word hne hsp, e, if_neg hne, if_pos hm]

theorem scanConv_int (N : Numerals R) {w r : CStr} (hne : w ≠ []) (hsp : ∀ c ∈ w, isSpace c = false) (hr : Stop r)
    (hw : (Tok.int w).OK) : scanConv N .int .int (w ++ r) = .ok (some (.int (intOf w)), r) := by
  simp only [scanConv, skipSpace_word hne hsp, scanInt_eq hw.1 fun c hc => (stop_num hr c hc).1, if_pos hw.2]

theorem scanConv_long (N : Numerals R) {w r : CStr} (hne : w ≠ []) (hsp : ∀ c ∈ w, isSpace c = false) (hr : Stop r)
    (hw : (Tok.long w).OK) : scanConv N .long .long (w ++ r) = .ok (some (.int (intOf w)), r) := by
  simp only [scanConv, skipSpace_word hne hsp, scanInt_eq hw.1 fun c hc => (stop_num hr c hc).1, if_pos hw.2]

theorem scanConv_dbl (N : Numerals R) {w r : CStr} (hne : w ≠ []) (hsp : ∀ c ∈ w, isSpace c = false) (hr : NumStop r)
    (hw : IsDecimal w) : scanConv N .dbl .dbl (w ++ r) = .ok (some (.dbl (N.dbl w)), r) := by
  simp only [scanConv, skipSpace_word hne hsp, scanNumber_eq hw hr]

theorem scanConv_flt (N : Numerals R) {w r : CStr} (hne : w ≠ []) (hsp : ∀ c ∈ w, isSpace c = false) (hr : NumStop r)
    (hw : IsDecimal w) : scanConv N .flt .flt (w ++ r) = .ok (some (.flt (N.flt w)), r) := by
  simp only [scanConv, skipSpace_word hne hsp, scanNumber_eq hw hr]

theorem decimal_ne {w : CStr} (h : IsDecimal w) : w ≠ [] := by
  obtain ⟨sg, ds, fr, ex, rfl, _, _, hf, _⟩ := h
  rcases hf with ⟨_, h⟩ | ⟨m, rfl, _⟩
  · intro e
    simp only [List.append_eq_nil_iff] at e
    exact h e.1.1.2
  · intro e
    simp only [List.append_eq_nil_iff] at e
    exact absurd e.1.2 (by simp)

/-- One item. -/
theorem useTok_scan (N : Numerals R) {t : Tok} (ht : t.OK) {ds ds' : List Dir} {dests dests' : List ScanDest}
    (h : useTok t ds dests = some (ds', dests')) {s : CStr} {ws : List CStr} (hs : Pos true s (t.word :: ws)) :
    ∃ r, Pos false r ws ∧ scanDirs N ds dests s =
      (scanDirs N ds' dests' r >>= fun x => .ok ((t.val N).toList ++ x.1, x.2)) := by
  obtain ⟨r, rfl, hr, hw, hne, hsp⟩ := pos_cons hs
  refine ⟨r, ⟨hw, fun h => by cases h⟩, ?_⟩
  have eta : ∀ x : Outcome (List (ScanVal R) × CStr), (x >>= fun x => .ok (x.1, x.2)) = x := by
    intro x
    cases x <;> rfl
  cases t with
  | kw w =>
    simp only [useTok, Option.map_eq_some_iff] at h
    obtain ⟨ds1, h1, h2⟩ := h
    cases h2
    rw [show (Tok.kw w).word = w from rfl, stripLits_scan N h1 dests r]
    exact (eta _).symm
  | str max w =>
    unfold useTok at h
    split at h <;> first | cases ‹Tok.str _ _ = _› | cases h
    · split at h
      · cases h
        exact scanDirs_conv N (by simp) (scanConv_str N hne hsp hr (Nat.lt_of_le_of_lt ht ‹_›) fun n hn => by cases hn) _ _
      · cases h
    · split at h
      · rename_i hm
        cases h
        exact scanDirs_conv N (by simp) (scanConv_str N hne hsp hr (Nat.lt_of_le_of_lt ht hm.2) fun n hn => by
          cases hn
          exact Nat.le_trans ht hm.1) _ _
      · cases h
  | int w =>
    unfold useTok at h
    split at h <;> first | cases ‹Tok.int _ = _› | cases h
    cases h
    exact scanDirs_conv N (by simp) (scanConv_int N hne hsp hr ht) _ _
  | long w =>
    unfold useTok at h
    split at h <;> first | cases ‹Tok.long _ = _› | cases h
    cases h
    exact scanDirs_conv N (by simp) (scanConv_long N hne hsp hr ht) _ _
  | dbl w =>
    unfold useTok at h
    split at h <;> first | cases ‹Tok.dbl _ = _› | cases h
    cases h
    exact scanDirs_conv N (by simp) (scanConv_dbl N hne hsp (stop_num hr) ht) _ _
  | flt w =>
    unfold useTok at h
    split at h <;> first | cases ‹Tok.flt _ = _› | cases h
    cases h
    exact scanDirs_conv N (by simp) (scanConv_flt N hne hsp (stop_num hr) ht) _ _
  | imag w =>
    unfold useTok at h
    split at h <;> first | cases ‹Tok.imag _ = _› | cases h
    cases h
    have hi : NumStop (['i'] ++ r) := by
      intro c hc
      cases hc
      decide
    rw [show (Tok.imag w).word ++ r = w ++ (['i'] ++ r) from List.append_assoc _ _ _]
    refine (scanDirs_conv N (by simp) (scanConv_flt N (decimal_ne ht) (fun c hc => hsp c ?_) hi ht) _ _).trans ?_
    · exact List.mem_append_left _ hc
    · rfl
  | chr c =>
    unfold useTok at h
    split at h <;> first | cases ‹Tok.chr _ = _› | cases h
    cases h
    exact scanDirs_conv N (by simp) (v := .chr c) rfl _ _

/-- A whole format. -/
theorem plan_scan (N : Numerals R) {rest : List CStr} : ∀ (ts : List Tok) {b b' : Bool} {ds : List Dir}
    {dests : List ScanDest} {s : CStr}, plan b ds dests ts = some b' → (∀ t ∈ ts, t.OK) →
    Pos b s (ts.map Tok.word ++ rest) →
    ∃ r, Pos b' r rest ∧ scanDirs N ds dests s = .ok (ts.filterMap (Tok.val N), r) := by
  intro ts
  induction ts with
  | nil =>
    intro b b' ds dests s hp _ hs
    unfold plan at hp
    split at hp
    · cases hp
      exact ⟨s, hs, rfl⟩
    · cases hp
      exact ⟨skipSpace s, pos_skip hs, rfl⟩
    · cases hp
  | cons t ts ih =>
    intro b b' ds dests s hp hok hs
    have key : ∀ {ds ds' : List Dir} {dests' : List ScanDest} {s : CStr}, useTok t ds dests = some (ds', dests') →
        plan false ds' dests' ts = some b' → Pos true s ((t :: ts).map Tok.word ++ rest) →
        ∃ r, Pos b' r rest ∧ scanDirs N ds dests s = .ok ((t :: ts).filterMap (Tok.val N), r) := by
      intro ds ds' dests' s hu hp hs
      obtain ⟨r, h1, h2⟩ := useTok_scan N (hok t List.mem_cons_self) hu hs
      obtain ⟨r', h3, h4⟩ := ih hp (fun t ht => hok t (List.mem_cons_of_mem _ ht)) h1
      refine ⟨r', h3, ?_⟩
      rw [h2, h4, List.filterMap_cons]
      cases t.val N <;> rfl
    unfold plan at hp
    split at hp
    · split at hp
      · obtain ⟨r, h1, h2⟩ := key ‹_› hp (pos_skip hs)
        exact ⟨r, h1, h2⟩
      · cases hp
    · split at hp
      · subst b
        split at hp
        · exact key ‹_› hp hs
        · cases hp
      · cases hp

end Verif
