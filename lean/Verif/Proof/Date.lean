import Verif.Spec.Calendar

/-! Helper lemmas for `Verif.Props.Date`. -/

namespace Verif
open Spec

/-- Day number by a closed formula valid in all years. -/
def dayNo (y m d : Int) : Int :=
  let y' := if m ≤ 2 then y - 1 else y
  let mp := if m ≤ 2 then m + 9 else m - 3
  365 * y' + y' / 4 - y' / 100 + y' / 400 + (153 * mp + 2) / 5 + d - 678882

theorem month_cases {m : Int} (h1 : 1 ≤ m) (h2 : m ≤ 12) :
    m = 1 ∨ m = 2 ∨ m = 3 ∨ m = 4 ∨ m = 5 ∨ m = 6 ∨ m = 7 ∨ m = 8 ∨ m = 9 ∨ m = 10 ∨ m = 11 ∨
      m = 12 := by omega

theorem isLeap_iff (y : Int) : isLeap y = true ↔ (y % 4 = 0 ∧ y % 100 ≠ 0) ∨ y % 400 = 0 := by
  simp [isLeap]

theorem dayNo_epoch : dayNo 1858 11 17 = 0 := by decide

/-- The calendar day before. -/
def prevDay (d : Date) : Date :=
  if 1 < d.day then ⟨d.year, d.month, d.day - 1⟩
  else if 1 < d.month then ⟨d.year, d.month - 1, daysInMonth d.year (d.month - 1)⟩
  else ⟨d.year - 1, 12, 31⟩

theorem prevDay_valid {d : Date} (h : ValidDate d) : ValidDate (prevDay d) := by
  obtain ⟨y, m, d⟩ := d
  obtain ⟨h1, h2, h3, h4⟩ := h
  simp only [ValidDate] at *
  unfold prevDay daysInMonth at *
  cases hl : isLeap y
  all_goals
    rcases month_cases h1 h2 with h | h | h | h | h | h | h | h | h | h | h | h <;> subst h <;>
      simp [hl] at h4 ⊢ <;> split <;> simp [hl] <;> (try omega)

theorem nextDay_prevDay {d : Date} (h : ValidDate d) : nextDay (prevDay d) = d := by
  obtain ⟨y, m, d⟩ := d
  obtain ⟨h1, h2, h3, h4⟩ := h
  simp only at *
  unfold nextDay prevDay daysInMonth at *
  cases hl : isLeap y
  all_goals
    rcases month_cases h1 h2 with h | h | h | h | h | h | h | h | h | h | h | h <;> subst h <;>
      simp [hl] at h4 ⊢ <;> by_cases hd : 1 < d <;> simp [hd, hl] <;> (try split) <;> (try simp) <;>
      (try omega)

theorem dayNo_prevDay {d : Date} (h : ValidDate d) :
    dayNo (prevDay d).year (prevDay d).month (prevDay d).day = dayNo d.year d.month d.day - 1 := by
  obtain ⟨y, m, d⟩ := d
  obtain ⟨h1, h2, h3, h4⟩ := h
  simp only at *
  unfold prevDay daysInMonth dayNo at *
  have hl := isLeap_iff y
  by_cases hl' : isLeap y = true
  all_goals
    simp only [hl', true_iff, false_iff, Bool.false_eq_true] at hl
    rcases month_cases h1 h2 with h | h | h | h | h | h | h | h | h | h | h | h <;> subst h <;>
      simp [hl'] at * <;> by_cases hd : 1 < d <;> simp [hd, hl'] <;> omega

theorem leap_count (y : Int) : ∃ q c s : Int, y = 400 * q + 100 * c + s ∧ 0 ≤ c ∧ c ≤ 3 ∧ 0 ≤ s ∧
    s ≤ 99 ∧ y / 4 - y / 100 + y / 400 = 97 * q + 24 * c + s / 4 := by
  refine ⟨y / 400, (y % 400) / 100, y % 100, ?_⟩
  omega

theorem year_of_count {y K : Int} (h : 365 * y + (y / 4 - y / 100 + y / 400) = K) (h1 : 678514 ≤ K)
    (h2 : K ≤ 678881) : y = 1857 ∨ y = 1858 := by
  obtain ⟨q, c, s, h3, h4, h5, h6, h7, h8⟩ := leap_count y
  rw [h8] at h
  clear h8
  have hc : c = 0 ∨ c = 1 ∨ c = 2 ∨ c = 3 := by omega
  rcases hc with hc | hc | hc | hc <;> subst hc <;> omega

theorem dayNo_zero {d : Date} (h : ValidDate d) (h0 : dayNo d.year d.month d.day = 0) :
    d = ⟨1858, 11, 17⟩ := by
  obtain ⟨y, m, d⟩ := d
  obtain ⟨h1, h2, h3, h4⟩ := h
  simp only at *
  have hd31 : d ≤ 31 := by
    refine Int.le_trans h4 ?_
    unfold daysInMonth
    repeat' split
    all_goals omega
  unfold dayNo at h0
  have hy : y = 1858 ∨ y = 1859 := by
    simp only at h0
    split at h0
    · have := year_of_count (y := y - 1) rfl (by omega) (by omega)
      omega
    · have := year_of_count (y := y) rfl (by omega) (by omega)
      omega
  rcases hy with hy | hy <;> subst hy <;>
  rcases month_cases h1 h2 with h | h | h | h | h | h | h | h | h | h | h | h <;> subst h <;>
      simp [daysInMonth] at * <;> omega

theorem mjd_dayNo (n : Nat) : ∀ d : Date, ValidDate d → dayNo d.year d.month d.day = n →
    MJD d n := by
  induction n with
  | zero =>
    intro d hv h
    rw [dayNo_zero hv h]
    exact .epoch
  | succ n ih =>
    intro d hv h
    have := ih (prevDay d) (prevDay_valid hv) (by rw [dayNo_prevDay hv, h]; omega)
    have := MJD.next this
    rw [nextDay_prevDay hv] at this
    exact_mod_cast this

theorem nextDay_valid {d : Date} (h : ValidDate d) : ValidDate (nextDay d) := by
  obtain ⟨y, m, d⟩ := d
  obtain ⟨h1, h2, h3, h4⟩ := h
  simp only [ValidDate] at *
  unfold nextDay daysInMonth at *
  cases hl : isLeap y
  all_goals
    rcases month_cases h1 h2 with h | h | h | h | h | h | h | h | h | h | h | h <;> subst h <;>
      simp [hl] at h4 ⊢ <;> split <;> simp [hl] <;> (try split) <;> (try omega)

theorem dayNo_nextDay {d : Date} (h : ValidDate d) :
    dayNo (nextDay d).year (nextDay d).month (nextDay d).day = dayNo d.year d.month d.day + 1 := by
  obtain ⟨y, m, d⟩ := d
  obtain ⟨h1, h2, h3, h4⟩ := h
  simp only at *
  unfold nextDay daysInMonth dayNo at *
  have hl := isLeap_iff y
  by_cases hl' : isLeap y = true
  all_goals
    simp only [hl', true_iff, false_iff, Bool.false_eq_true] at hl
    rcases month_cases h1 h2 with h | h | h | h | h | h | h | h | h | h | h | h <;> subst h <;>
      simp [hl'] at * <;> split <;> simp <;> omega

theorem mjd_valid_dayNo {d : Date} {n : Int} (h : MJD d n) :
    ValidDate d ∧ dayNo d.year d.month d.day = n := by
  induction h with
  | epoch => decide
  | next _ ih => exact ⟨nextDay_valid ih.1, by rw [dayNo_nextDay ih.1, ih.2]⟩

theorem mjd_iff {d : Date} (hv : ValidDate d) (hy : 1859 ≤ d.year) {n : Int} :
    MJD d n ↔ n = dayNo d.year d.month d.day := by
  constructor
  · intro h; exact (mjd_valid_dayNo h).2.symm
  · intro h
    have hpos : 0 ≤ dayNo d.year d.month d.day := by
      obtain ⟨y, m, d⟩ := d
      obtain ⟨h1, h2, h3, h4⟩ := hv
      unfold dayNo
      simp only at *
      split <;> omega
    have := mjd_dayNo n.toNat d hv (by omega)
    rwa [show ((n.toNat : Nat) : Int) = n by omega] at this

theorem date2mjd_eq {d : Date} (hv : ValidDate d) (h1 : 1901 ≤ d.year) (h2 : d.year ≤ 2099) :
    date2mjd d.year d.month d.day = .ok (dayNo d.year d.month d.day) := by
  obtain ⟨y, m, d⟩ := d
  obtain ⟨hm1, hm2, h3, h4⟩ := hv
  simp only at *
  unfold date2mjd
  rw [if_pos ⟨h1, h2⟩]
  congr 1
  rw [Int.tdiv_eq_ediv_of_nonneg (a := m + 9) (by omega),
    Int.tdiv_eq_ediv_of_nonneg (b := 4) (by omega), Int.tdiv_eq_ediv_of_nonneg (b := 9) (by omega)]
  unfold dayNo
  rcases month_cases hm1 hm2 with h | h | h | h | h | h | h | h | h | h | h | h <;> subst h <;>
    simp
  all_goals
    have e1 : y / 100 - y / 400 = 15 := by omega
    have e2 : (y - 1) / 100 - (y - 1) / 400 = 15 := by omega
    obtain ⟨k, t, ht, h⟩ : ∃ k t : Int, y = 4 * k + t ∧ (t = 0 ∨ t = 1 ∨ t = 2 ∨ t = 3) :=
      ⟨y / 4, y % 4, by omega, by omega⟩
    rcases h with h | h | h | h <;> subst h <;> omega

/-- `mjd2date` with flooring division, for non-negative operands. -/
theorem mjd2date_eq {n : Int} (h : 0 ≤ n) (hn : n ≤ 1000000) :
    ∃ L N L1 I L2 J, L = n + 2468570 ∧ N = (4 * L) / 146097 ∧ L1 = L - (146097 * N + 3) / 4 ∧
      I = (4000 * (L1 + 1)) / 1461001 ∧ L2 = L1 - (1461 * I) / 4 + 31 ∧ J = (80 * L2) / 2447 ∧
      0 ≤ L1 ∧ L1 ≤ 36524 ∧ 0 ≤ I ∧ 31 ≤ L2 ∧ L2 ≤ 31 + 366 ∧ 
      mjd2date n = ⟨100 * (N - 49) + I + J / 11, J + 2 - 12 * (J / 11), L2 - (2447 * J) / 80⟩ := by
  refine ⟨_, _, _, _, _, _, rfl, rfl, rfl, rfl, rfl, rfl, ?_, ?_, ?_, ?_, ?_, ?_⟩
  · omega
  · omega
  · omega
  · omega
  · omega
  · unfold mjd2date
    simp only
    rw [Int.tdiv_eq_ediv_of_nonneg (a := 4 * _) (by omega)]
    rw [show n + 2400001 + 68569 = n + 2468570 by omega]
    rw [Int.tdiv_eq_ediv_of_nonneg (a := 146097 * _ + 3) (by omega)]
    rw [Int.tdiv_eq_ediv_of_nonneg (a := 4000 * _) (by omega)]
    rw [Int.tdiv_eq_ediv_of_nonneg (a := 1461 * _) (by omega)]
    rw [Int.tdiv_eq_ediv_of_nonneg (a := 80 * _) (by omega)]
    rw [Int.tdiv_eq_ediv_of_nonneg (a := 2447 * _) (by omega)]
    rw [Int.tdiv_eq_ediv_of_nonneg (b := 11) (by omega)]


theorem mjd2date_dayNo {d : Date} (hv : ValidDate d) (h1 : 1901 ≤ d.year) (h2 : d.year ≤ 2099) :
    mjd2date (dayNo d.year d.month d.day) = d := by
  obtain ⟨y, m, d⟩ := d
  obtain ⟨hm1, hm2, h3, h4⟩ := hv
  simp only at *
  -- year counted from 1 March, and day within that year
  obtain ⟨y', mp, hy', hmp⟩ : ∃ y' mp, y' = (if m ≤ 2 then y - 1 else y) ∧
      mp = (if m ≤ 2 then m + 9 else m - 3) := ⟨_, _, rfl, rfl⟩
  have hdn : dayNo y m d = 365 * y' + y' / 4 - y' / 100 + y' / 400 + (153 * mp + 2) / 5 + d
      - 678882 := by rw [hy', hmp]; rfl
  have hb1 : 1900 ≤ y' := by rw [hy']; split <;> omega
  have hb2 : y' ≤ 2099 := by rw [hy']; split <;> omega
  have hlp : y' / 100 - y' / 400 = 15 := by omega
  have hd : d ≤ 31 := by
    refine Int.le_trans h4 ?_
    unfold daysInMonth
    repeat' split
    all_goals omega
  -- day in year, counted from 0
  obtain ⟨t, ht⟩ : ∃ t, t = (153 * mp + 2) / 5 + d - 1 := ⟨_, rfl⟩
  have ht0 : 0 ≤ t := by rw [ht, hmp]; split <;> omega
  have ht1 : t ≤ 365 ∧ (t = 365 → y' % 4 = 3) := by
    have hl := isLeap_iff y
    rcases month_cases hm1 hm2 with h | h | h | h | h | h | h | h | h | h | h | h <;> subst h <;>
      simp at hmp hy' <;> subst hmp <;> simp [daysInMonth] at h4 <;> subst hy'
    all_goals try omega
    cases hL : isLeap y
    · simp [hL] at h4; omega
    · simp [hL] at h4 hl; omega
  have hdn' : dayNo y m d = 365 * y' + y' / 4 + t - 678896 := by omega
  obtain ⟨L, N, L1, I, L2, J, eL, eN, eL1, eI, eL2, eJ, b1, b2, b3, b4, b5, e⟩ :=
    mjd2date_eq (n := dayNo y m d) (by omega) (by omega)
  rw [e]
  clear e hdn
  have hN : (y' ≤ 1999 ∧ N = 68) ∨ (2000 ≤ y' ∧ N = 69) := by omega
  have hI : I = y' - 100 * (N - 49) := by
    rcases hN with ⟨h, rfl⟩ | ⟨h, rfl⟩ <;> omega
  have hL2 : L2 = t + 31 := by
    rcases hN with ⟨h, rfl⟩ | ⟨h, rfl⟩ <;> omega
  clear eN eI eL1 eL2 eL hlp hdn' b1 b2 b3 b4 b5 ht1
  have hJ : J = mp + 1 := by
    have hd29 : m = 2 → d ≤ 29 := by
      rintro rfl
      refine Int.le_trans h4 ?_
      unfold daysInMonth
      repeat' split
      all_goals omega
    clear hI hN hy'
    rcases month_cases hm1 hm2 with h | h | h | h | h | h | h | h | h | h | h | h <;> subst h <;>
      simp at hmp hd29 <;> subst hmp <;> simp [daysInMonth] at h4 <;> omega
  rcases month_cases hm1 hm2 with h | h | h | h | h | h | h | h | h | h | h | h <;> subst h <;>
      simp at hmp hy' <;> subst hmp <;> subst hy' <;> subst hJ <;> simp only [Date.mk.injEq] <;>
      omega

theorem exists_date (k : Nat) : ∃ d : Date, ValidDate d ∧ 1901 ≤ d.year ∧
    dayNo d.year d.month d.day = 15385 + k := by
  induction k with
  | zero => exact ⟨⟨1901, 1, 1⟩, by decide, by decide, by decide⟩
  | succ k ih =>
    obtain ⟨d, hv, hy, hn⟩ := ih
    refine ⟨nextDay d, nextDay_valid hv, ?_, by rw [dayNo_nextDay hv, hn]; omega⟩
    unfold nextDay
    repeat' split
    all_goals simp only; omega

theorem year_le_of_dayNo {d : Date} (hv : ValidDate d)
    (h : dayNo d.year d.month d.day ≤ 88068) : d.year ≤ 2099 := by
  obtain ⟨y, m, d⟩ := d
  obtain ⟨h1, h2, h3, h4⟩ := hv
  unfold dayNo at h
  simp only at *
  apply Int.not_lt.mp
  intro hy
  split at h
  · obtain ⟨q, c, s, g1, g2, g3, g4, g5, g6⟩ := leap_count (y - 1)
    have hc : c = 0 ∨ c = 1 ∨ c = 2 ∨ c = 3 := by omega
    have h' : 365 * (y - 1) + (97 * q + 24 * c + s / 4) + (153 * (m + 9) + 2) / 5 + d - 678882
        ≤ 88068 := by omega
    clear h g6
    rcases hc with hc | hc | hc | hc <;> subst hc <;> omega
  · obtain ⟨q, c, s, g1, g2, g3, g4, g5, g6⟩ := leap_count y
    have hc : c = 0 ∨ c = 1 ∨ c = 2 ∨ c = 3 := by omega
    have h' : 365 * y + (97 * q + 24 * c + s / 4) + (153 * (m - 3) + 2) / 5 + d - 678882
        ≤ 88068 := by omega
    clear h g6
    rcases hc with hc | hc | hc | hc <;> subst hc <;> omega

end Verif
