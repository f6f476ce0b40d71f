import Verif.Proof.Date

/-! Properties C01-C03: conversion between calendar dates and MJD. -/

namespace Verif
open Spec

/-- C01. For a valid date of the years 1901..2099 `date2mjd` returns normally, and
its result is the one and only number of days from 1858-11-17 to that date
counted by the calendar's successor rule. -/
theorem C01_date2mjd_counts_days (d : Date) (hv : ValidDate d) (h1 : 1901 ≤ d.year)
    (h2 : d.year ≤ 2099) (n : Int) :
    date2mjd d.year d.month d.day = .ok n ↔ MJD d n := by
  rw [date2mjd_eq hv h1 h2, mjd_iff hv (by omega)]
  simp [eq_comm]

/-- C01. From each day of the range to the next the result grows by one. -/
theorem C01_date2mjd_next_day (d : Date) (hv : ValidDate d) (h1 : 1901 ≤ d.year)
    (h2 : (nextDay d).year ≤ 2099) :
    ∃ n, date2mjd d.year d.month d.day = .ok n ∧
      date2mjd (nextDay d).year (nextDay d).month (nextDay d).day = .ok (n + 1) := by
  have hy : d.year ≤ (nextDay d).year := by
    unfold nextDay
    repeat' split
    all_goals simp only; omega
  exact ⟨_, date2mjd_eq hv h1 (by omega), by
    rw [date2mjd_eq (nextDay_valid hv) (by omega) h2, dayNo_nextDay hv]⟩

/-- C01. Outside the years 1901..2099 the call aborts. -/
theorem C01_date2mjd_aborts (y m d : Int) (h : y < 1901 ∨ 2099 < y) :
    date2mjd y m d = .abort := by
  unfold date2mjd
  rw [if_neg (by omega)]

/-- C02. Converting a date to MJD and back gives the same date. -/
theorem C02_date_roundtrip (d : Date) (hv : ValidDate d) (h1 : 1901 ≤ d.year)
    (h2 : d.year ≤ 2099) :
    ∃ n, date2mjd d.year d.month d.day = .ok n ∧ mjd2date n = d :=
  ⟨_, date2mjd_eq hv h1 h2, mjd2date_dayNo hv h1 h2⟩

/-- C03. Each MJD of the range is converted to a valid date of the years
1901..2099, whose MJD it is. -/
theorem C03_mjd2date_inverts (n : Int) (h1 : 15385 ≤ n) (h2 : n ≤ 88068) :
    ValidDate (mjd2date n) ∧ 1901 ≤ (mjd2date n).year ∧ (mjd2date n).year ≤ 2099 ∧
      MJD (mjd2date n) n ∧
      date2mjd (mjd2date n).year (mjd2date n).month (mjd2date n).day = .ok n := by
  obtain ⟨d, hv, hy, hn⟩ := exists_date (n - 15385).toNat
  have hn : dayNo d.year d.month d.day = n := by omega
  have hy2 : d.year ≤ 2099 := year_le_of_dayNo hv (by omega)
  have hd : mjd2date n = d := by rw [← hn]; exact mjd2date_dayNo hv hy hy2
  rw [hd]
  exact ⟨hv, hy, hy2, (mjd_iff hv (by omega)).mpr hn.symm, by rw [date2mjd_eq hv hy hy2, hn]⟩

-- The hypotheses are met, at both ends of the range and on a leap day.
example : ValidDate ⟨1901, 1, 1⟩ ∧ ValidDate ⟨2000, 2, 29⟩ ∧ ValidDate ⟨2099, 12, 31⟩ := by decide
example : date2mjd 2000 2 29 = .ok 51603 ∧ mjd2date 51603 = ⟨2000, 2, 29⟩ := by decide
example : date2mjd 1901 1 1 = .ok 15385 ∧ date2mjd 2099 12 31 = .ok 88068 := by decide
example : ¬ ValidDate ⟨2001, 2, 29⟩ := by decide

end Verif
