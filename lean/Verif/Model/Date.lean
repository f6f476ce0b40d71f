import Verif.Core.Outcome

/-! Model of `/repo/src/oifitslib/datemjd.c`. -/

namespace Verif

/-- A calendar date as the three `long` values passed to or returned by the
functions of datemjd.c. -/
structure Date where
  year : Int
  month : Int
  day : Int
deriving DecidableEq, Repr

/-- datemjd.c:39-44 `date2mjd`. C's `/` on `long` truncates, hence `Int.tdiv`.
The `assert` on the year is an `abort`. `long` overflow is not modelled. -/
def date2mjd (year month day : Int) : Outcome Int :=
  if year ≥ 1901 ∧ year ≤ 2099 then
    .ok (367 * year - (7 * (year + (month + 9).tdiv 12)).tdiv 4 + (275 * month).tdiv 9 +
          day + 1721013 - 2400000)
  else
    .abort

/-- datemjd.c:57-71 `mjd2date`. The three results stored through pointers are
returned as a `Date`. `long` overflow is not modelled. -/
def mjd2date (mjd : Int) : Date :=
  let L := mjd + 2400001 + 68569
  let N := (4 * L).tdiv 146097
  let L := L - (146097 * N + 3).tdiv 4
  let I := (4000 * (L + 1)).tdiv 1461001
  let L := L - (1461 * I).tdiv 4 + 31
  let J := (80 * L).tdiv 2447
  let day := L - (2447 * J).tdiv 80
  let L := J.tdiv 11
  let month := J + 2 - (12 * L)
  let year := 100 * (N - 49) + I + L
  ⟨year, month, day⟩

end Verif
