import Verif.Proof.MergeData
import Verif.Proof.Date

/-! The header of a merged dataset. -/

namespace Verif
open Outcome Spec

variable {R : FP}

/-! ### Keywords -/

theorem mergeKeyLoop_one {vs : List CStr} {v : CStr} (hv : v ≠ []) :
    mergeKeyLoop vs 1 v = if ∀ x ∈ vs, x = [] ∨ x = v then (1, v) else (2, v) := by
  induction vs with
  | nil => simp [mergeKeyLoop]
  | cons x vs ih =>
    unfold mergeKeyLoop
    by_cases hx : x.length > 0 ∧ x ≠ v
    · rw [if_pos hx, if_pos (by omega), if_neg]
      simp only [List.mem_cons, forall_eq_or_imp, not_and]
      intro h
      rcases h with h | h
      · rw [h] at hx; simp at hx
      · exact absurd h hx.2
    · rw [if_neg hx, ih]
      have : x = [] ∨ x = v := by
        by_cases he : x = []
        · exact Or.inl he
        · right
          by_contra hn
          exact hx ⟨List.length_pos_of_ne_nil he, hn⟩
      simp [this]

theorem mergeKeyLoop_zero {vs : List CStr} (hl : ∀ v ∈ vs, v.length < FLEN_VALUE) :
    ((∀ x ∈ vs, x = []) ∧ mergeKeyLoop vs 0 [] = (0, [])) ∨
    (∃ v ∈ vs, v ≠ [] ∧ (∀ x ∈ vs, x = [] ∨ x = v) ∧ mergeKeyLoop vs 0 [] = (1, v)) ∨
    ((∃ x ∈ vs, ∃ y ∈ vs, x ≠ [] ∧ y ≠ [] ∧ x ≠ y) ∧ ∃ v, mergeKeyLoop vs 0 [] = (2, v)) := by
  induction vs with
  | nil => left; simp [mergeKeyLoop]
  | cons x vs ih =>
    unfold mergeKeyLoop
    by_cases hx : x = []
    · rw [if_neg (by simp [hx])]
      subst hx
      rcases ih fun v hv => hl v (by simp [hv]) with ⟨h1, h2⟩ | ⟨v, hv, h1, h2, h3⟩ |
        ⟨⟨a, ha, b, hb, h⟩, h2⟩
      · left; exact ⟨by simpa using h1, h2⟩
      · right; left; exact ⟨v, by simp [hv], h1, by simpa using h2, h3⟩
      · right; right; exact ⟨⟨a, by simp [ha], b, by simp [hb], h⟩, h2⟩
    · right
      rw [if_pos ⟨List.length_pos_of_ne_nil hx, hx⟩, if_neg (by omega)]
      have hs : strlcpy x FLEN_VALUE = x := by
        have := hl x (by simp)
        unfold strlcpy
        exact List.take_of_length_le (by unfold FLEN_VALUE at *; omega)
      rw [hs, Nat.zero_add, mergeKeyLoop_one hx]
      by_cases hall : ∀ y ∈ vs, y = [] ∨ y = x
      · left
        exact ⟨x, by simp, hx, by simpa using hall, by rw [if_pos hall]⟩
      · right
        rw [if_neg hall]
        refine ⟨?_, x, rfl⟩
        simp only [not_forall, not_or] at hall
        obtain ⟨y, hy, h1, h2⟩ := hall
        exact ⟨x, by simp, y, by simp [hy], hx, h1, fun e => h2 e.symm⟩

theorem mergeKey_summarises {vals : List CStr} (required : Bool)
    (hl : ∀ v ∈ vals, v.length < FLEN_VALUE) :
    Summarises (if required then "UNKNOWN" else []) vals (mergeKey vals required []) := by
  unfold mergeKey
  rcases mergeKeyLoop_zero hl with ⟨h1, h2⟩ | ⟨v, hv, h1, h2, h3⟩ | ⟨h, v, h2⟩
  · left
    rw [h2]
    refine ⟨h1, ?_⟩
    cases required <;> rfl
  · right; left
    rw [h3]
    simp only [Nat.one_ne_zero, false_and, if_false, Nat.lt_irrefl, gt_iff_lt]
    exact ⟨h1, hv, h2⟩
  · right; right
    rw [h2]
    exact ⟨h, by simp; rfl⟩

/-! ### Dates -/

theorem digit_cases (n : Int) : ∃ k : Fin 10, (n % 10).toNat = k ∧ digit n = Char.ofNat (48 + k) := by
  refine ⟨⟨(n % 10).toNat, by omega⟩, rfl, rfl⟩

theorem digit_props : ∀ k : Fin 10, isSpaceC (Char.ofNat (48 + k)) = false ∧
    (Char.ofNat (48 + k)).isDigit = true ∧ Char.ofNat (48 + k) ≠ '-' ∧ Char.ofNat (48 + k) ≠ '+' ∧
    (Char.ofNat (48 + k)).toNat - 48 = k := by
  decide

theorem digit_space (n : Int) : isSpaceC (digit n) = false := by
  obtain ⟨k, -, e⟩ := digit_cases n; rw [e]; exact (digit_props k).1
theorem digit_isDigit (n : Int) : (digit n).isDigit = true := by
  obtain ⟨k, -, e⟩ := digit_cases n; rw [e]; exact (digit_props k).2.1
theorem digit_minus (n : Int) : digit n ≠ '-' := by
  obtain ⟨k, -, e⟩ := digit_cases n; rw [e]; exact (digit_props k).2.2.1
theorem digit_plus (n : Int) : digit n ≠ '+' := by
  obtain ⟨k, -, e⟩ := digit_cases n; rw [e]; exact (digit_props k).2.2.2.1
theorem digit_toNat (n : Int) : (digit n).toNat - 48 = (n % 10).toNat := by
  obtain ⟨k, h, e⟩ := digit_cases n; rw [e, h]; exact (digit_props k).2.2.2.2

theorem scanLong_digit (w : Nat) (n : Int) (s : CStr) : scanLong w (digit n :: s) =
    (scanDigits w (digit n :: s)).map fun (n, s) => ((n : Int), s) := by
  unfold scanLong
  rw [List.dropWhile_cons_of_neg (by simp [digit_space])]
  split
  · rename_i h; exact absurd (List.cons.inj h).1 (digit_minus n)
  · rename_i h; exact absurd (List.cons.inj h).1 (digit_plus n)
  · rfl

theorem scan4 (a b c e : Int) (s : CStr) :
    scanLong 4 (digit a :: digit b :: digit c :: digit e :: s) =
      some (1000 * (a % 10) + 100 * (b % 10) + 10 * (c % 10) + e % 10, s) := by
  rw [scanLong_digit]
  simp only [scanDigits, List.take_succ_cons, List.take_zero, List.takeWhile_cons, digit_isDigit,
    if_true, List.takeWhile_nil, List.isEmpty_cons, Bool.false_eq_true, if_false, Option.map_some,
    List.length_cons, List.length_nil, List.drop_succ_cons, List.drop_zero, digitsVal,
    List.foldl_cons, List.foldl_nil, digit_toNat, Option.some.injEq, Prod.mk.injEq, and_true]
  omega

theorem scan2 (a b : Int) (s : CStr) :
    scanLong 2 (digit a :: digit b :: s) = some (10 * (a % 10) + b % 10, s) := by
  rw [scanLong_digit]
  simp only [scanDigits, List.take_succ_cons, List.take_zero, List.takeWhile_cons, digit_isDigit,
    if_true, List.takeWhile_nil, List.isEmpty_cons, Bool.false_eq_true, if_false, Option.map_some,
    List.length_cons, List.length_nil, List.drop_succ_cons, List.drop_zero, digitsVal,
    List.foldl_cons, List.foldl_nil, digit_toNat, Option.some.injEq, Prod.mk.injEq, and_true]
  omega

theorem day_le {d : Date} (hv : ValidDate d) : d.day ≤ 31 := by
  refine Int.le_trans hv.2.2.2 ?_
  unfold daysInMonth
  repeat' split
  all_goals omega

theorem sscanfDate_iso {s : CStr} {d : Date} (h : StartsWithDate s d) : sscanfDate s = some d := by
  obtain ⟨hv, h1, h2, rest, rfl⟩ := h
  have hd := day_le hv
  obtain ⟨y, m, d⟩ := d
  obtain ⟨hm1, hm2, hd1, -⟩ := hv
  simp only at *
  unfold sscanfDate isoDate
  simp only [List.cons_append, List.nil_append, scan4, Option.bind_eq_bind, Option.bind_some, scanDash, scan2]
  simp only [pure, Option.some.injEq, Date.mk.injEq]
  omega

theorem sscanfDate_nil : sscanfDate [] = none := by decide

/-! ### The earliest date -/

theorem dayNo_bounds {d : Date} (hv : ValidDate d) (h1 : 1901 ≤ d.year) (h2 : d.year ≤ 2099) :
    15385 ≤ dayNo d.year d.month d.day ∧ dayNo d.year d.month d.day ≤ 88068 := by
  have hd := day_le hv
  obtain ⟨y, m, d⟩ := d
  obtain ⟨hm1, hm2, h3, h4⟩ := hv
  simp only at *
  unfold dayNo
  rcases month_cases hm1 hm2 with h | h | h | h | h | h | h | h | h | h | h | h <;> subst h <;>
    simp <;> omega

/-- The day numbers of the inputs' dates. -/
def DatedMin (ins : List (OiFits R)) (m0 m : Int) : Prop :=
  m ≤ m0 ∧ (m = m0 ∨ ∃ oi ∈ ins, ∃ d, StartsWithDate oi.header.date_obs d ∧
    m = dayNo d.year d.month d.day) ∧
  ∀ oi ∈ ins, ∀ d, StartsWithDate oi.header.date_obs d → m ≤ dayNo d.year d.month d.day

theorem startsWithDate_unique {s : CStr} {d d' : Date} (h : StartsWithDate s d)
    (h' : StartsWithDate s d') : d = d' := by
  have e := sscanfDate_iso h
  rw [sscanfDate_iso h'] at e
  cases e
  rfl

theorem min_mjd_fold {ins : List (OiFits R)} (hg : GoodDates ins) :
    ∀ m0, ∃ m, ins.foldlM minMjdStep m0 = .ok m ∧ DatedMin ins m0 m := by
  induction ins with
  | nil => intro m0; exact ⟨m0, rfl, Int.le_refl _, Or.inl rfl, by simp⟩
  | cons oi ins ih =>
    intro m0
    have ih := ih fun o ho => hg o (by simp [ho])
    rcases hg oi (by simp) with hs | ⟨d, hd⟩
    · obtain ⟨m, hm, h1, h2, h3⟩ := ih m0
      refine ⟨m, ?_, h1, ?_, ?_⟩
      · rw [List.foldlM_cons]
        unfold minMjdStep
        rw [hs, sscanfDate_nil]
        exact hm
      · rcases h2 with h2 | ⟨o, ho, d, hd⟩
        · exact Or.inl h2
        · exact Or.inr ⟨o, by simp [ho], d, hd⟩
      · intro o ho d hd
        rcases List.mem_cons.mp ho with rfl | ho
        · rw [hs] at hd
          obtain ⟨-, -, -, r, hr⟩ := hd
          simp [isoDate] at hr
        · exact h3 o ho d hd
    · have hstep : ∀ m0, minMjdStep m0 oi = .ok (min m0 (dayNo d.year d.month d.day)) := by
        intro m0
        unfold minMjdStep
        rw [sscanfDate_iso hd]
        simp only [date2mjd_eq hd.1 hd.2.1 hd.2.2.1, bind_ok]
        split <;> simp only [pure_eq, Outcome.ok.injEq] <;> omega
      obtain ⟨m, hm, h1, h2, h3⟩ := ih (min m0 (dayNo d.year d.month d.day))
      refine ⟨m, ?_, by omega, ?_, ?_⟩
      · rw [List.foldlM_cons, hstep, bind_ok, hm]
      · rcases h2 with h2 | ⟨o, ho, d, hd⟩
        · by_cases hlt : m0 ≤ dayNo d.year d.month d.day
          · left; omega
          · right; exact ⟨oi, by simp, d, hd, by omega⟩
        · exact Or.inr ⟨o, by simp [ho], d, hd⟩
      · intro o ho d' hd'
        rcases List.mem_cons.mp ho with rfl | ho
        · rw [startsWithDate_unique hd' hd]; omega
        · exact h3 o ho d' hd'

theorem notLater_nextDay {d : Date} (hv : ValidDate d) : NotLater d (nextDay d) := by
  unfold nextDay NotLater
  obtain ⟨h1, h2, h3, h4⟩ := hv
  split
  · simp
  split
  · simp
  · simp

theorem notLater_trans {a b c : Date} (h : NotLater a b) (h' : NotLater b c) : NotLater a c := by
  unfold NotLater at *
  omega

theorem notLater_of_dayNo {d d' : Date} (hv : ValidDate d) (hv' : ValidDate d')
    (h1 : 1901 ≤ d.year) (h1' : 1901 ≤ d'.year) (h2' : d'.year ≤ 2099)
    (h : dayNo d.year d.month d.day ≤ dayNo d'.year d'.month d'.day) : NotLater d d' := by
  have key : ∀ (n : Nat) (d : Date), ValidDate d → 1901 ≤ d.year →
      dayNo d.year d.month d.day + n = dayNo d'.year d'.month d'.day → NotLater d d' := by
    intro n
    induction n with
    | zero =>
      intro d hv h1 h
      have h2 : d.year ≤ 2099 := year_le_of_dayNo hv (by
        have := (dayNo_bounds hv' h1' h2').2
        omega)
      have e : d = d' := by
        rw [← mjd2date_dayNo hv h1 h2, ← mjd2date_dayNo hv' h1' h2']
        congr 1
        omega
      subst e
      unfold NotLater
      omega
    | succ n ih =>
      intro d hv h1 h
      refine notLater_trans (notLater_nextDay hv) (ih _ (nextDay_valid hv) ?_ ?_)
      · have := notLater_nextDay hv
        unfold NotLater at this
        omega
      · rw [dayNo_nextDay hv]
        omega
  exact key (dayNo d'.year d'.month d'.day - dayNo d.year d.month d.day).toNat d hv h1 (by omega)

theorem snprintf_short {s : CStr} (h : s.length < FLEN_VALUE) : snprintf FLEN_VALUE s = s := by
  unfold snprintf
  exact List.take_of_length_le (by unfold FLEN_VALUE at *; omega)

theorem date_out {d : Date} (hv : ValidDate d) (h1 : 1901 ≤ d.year) (h2 : d.year ≤ 2099) :
    snprintf FLEN_VALUE (fmtDate (mjd2date (dayNo d.year d.month d.day))) = isoDate d := by
  rw [mjd2date_dayNo hv h1 h2, fmtDate_eq hv h1 h2]
  exact snprintf_short (by simp [isoDate, FLEN_VALUE])

end Verif
