import Verif.Model.Merge
import Verif.Model.Read

/-!
# Date arithmetic in machine integers

`Date`, `File` and `Merge` compute with unbounded integers. Here the same functions compute with
`long` of any number of bits: each addition, subtraction and multiplication, and each conversion of
a double, whose result does not fit is undefined behaviour. (`long` has 64 bits on most systems,
but 32 on others.) Divisions by positive constants cannot overflow.
-/

namespace Verif
open Outcome

variable {R : FP}

/-- The value, if a signed integer of this many bits can hold it. -/
def machine (bits : Nat) (x : Int) : Outcome Int :=
  if -2 ^ (bits - 1) ≤ x ∧ x < 2 ^ (bits - 1) then .ok x else .ub

/-- datemjd.c:39-44 `date2mjd`. -/
def date2mjdM (bits : Nat) (year month day : Int) : Outcome Int := do
  guardAssert (decide (year ≥ 1901 ∧ year ≤ 2099))
  let a ← machine bits (367 * year)
  let b ← machine bits (month + 9)
  let c ← machine bits (year + b.tdiv 12)
  let d ← machine bits (7 * c)
  let e ← machine bits (a - d.tdiv 4)
  let f ← machine bits (275 * month)
  let g ← machine bits (e + f.tdiv 9)
  let h ← machine bits (g + day)
  let i ← machine bits (h + 1721013)
  machine bits (i - 2400000)

/-- datemjd.c:57-71 `mjd2date`. -/
def mjd2dateM (bits : Nat) (mjd : Int) : Outcome Date := do
  let L ← machine bits (mjd + 2400001)
  let L ← machine bits (L + 68569)
  let a ← machine bits (4 * L)
  let N := a.tdiv 146097
  let a ← machine bits (146097 * N)
  let b ← machine bits (a + 3)
  let L ← machine bits (L - b.tdiv 4)
  let a ← machine bits (L + 1)
  let b ← machine bits (4000 * a)
  let I := b.tdiv 1461001
  let a ← machine bits (1461 * I)
  let b ← machine bits (L - a.tdiv 4)
  let L ← machine bits (b + 31)
  let a ← machine bits (80 * L)
  let J := a.tdiv 2447
  let a ← machine bits (2447 * J)
  let day ← machine bits (L - a.tdiv 80)
  let L := J.tdiv 11
  let a ← machine bits (J + 2)
  let b ← machine bits (12 * L)
  let month ← machine bits (a - b)
  let a ← machine bits (N - 49)
  let b ← machine bits (100 * a)
  let c ← machine bits (b + I)
  let year ← machine bits (c + L)
  return ⟨year, month, day⟩

/-- The loop body of oimerge.c:148-151. -/
def minMjdStepM (bits : Nat) (minMjd : Int) (oi : OiFits R) : Outcome Int :=
  match sscanfDate oi.header.date_obs with
  | none => .ok minMjd
  | some d => do
    let mjd ← date2mjdM bits d.year d.month d.day
    if mjd < minMjd then return mjd else return minMjd

/-- oimerge.c:138-157 `files_min_mjd`. -/
def files_min_mjdM (bits : Nat) (list : List (OiFits R)) : Outcome Int :=
  list.foldlM (minMjdStepM bits) 100000

/-- oimerge.c:194-220 `merge_oi_header`. Only DATE-OBS is computed with machine integers; the rest is
as in `merge_oi_header`. -/
def merge_oi_headerM (bits : Nat) (inList : List (OiFits R)) (out : OiFits R) : Outcome (OiFits R) := do
  guardAssert (out.header.origin.length == 0)
  let mjd ← files_min_mjdM bits inList
  let d ← mjd2dateM bits mjd
  let h := out.header
  let key (f : OiHeader → CStr) (required : Bool) : CStr :=
    mergeKey (inList.map fun i => f i.header) required (f h)
  return { out with
    header :=
      { date_obs := snprintf FLEN_VALUE (fmtDate d)
        date := snprintf FLEN_VALUE ("[unset]" : CStr)
        content := snprintf FLEN_VALUE ("OIFITS2" : CStr)
        origin := key OiHeader.origin true
        telescop := key OiHeader.telescop true
        instrume := key OiHeader.instrume true
        observer := key OiHeader.observer true
        insmode := key OiHeader.insmode true
        object := key OiHeader.object true
        referenc := key OiHeader.referenc false
        author := key OiHeader.author false
        prog_id := key OiHeader.prog_id false
        procsoft := key OiHeader.procsoft false
        obstech := key OiHeader.obstech false } }

/-- oimerge.c:793-837 `merge_oi_fits_list`, with `merge_oi_headerM`. -/
def merge_oi_fits_listM (bits : Nat) (inList : List (OiFits R)) : Outcome (OiFits R) := do
  let out := init_oi_fits R
  let out ← merge_oi_headerM bits inList out
  let (out, ids) ← merge_oi_target inList out
  let (out, arrs) ← merge_all_oi_array inList out
  let (out, inss) ← merge_all_oi_wavelength inList out
  let (out, corrs) ← merge_all_oi_corr inList out
  let out ← merge_all_oi_inspol ids inList arrs inss out
  let out ← merge_all_oi_vis ids inList arrs inss corrs out
  let out ← merge_all_oi_vis2 ids inList arrs inss corrs out
  let out ← merge_all_oi_t3 ids inList arrs inss corrs out
  merge_all_oi_flux ids inList arrs inss corrs out

/-- oifile.c:564-616 `set_oi_header`; the argument of `mjd2date` is a double converted to `long`
(oifile.c:608). -/
def set_oi_headerM (bits : Nat) (oi : OiFits R) : Outcome (OiFits R) := do
  let telescop ← headerTelescop oi
  let instrume ← headerInstrume oi
  let object := headerObject oi
  let mjd ← machine bits (R.floor (get_min_mjd oi))
  let d ← mjd2dateM bits mjd
  return { oi with
    header := { oi.header with
      telescop := telescop
      instrume := instrume
      object := object
      date_obs := snprintf FLEN_VALUE (fmtDate d)
      origin := strlcpy ("UNKNOWN" : CStr) FLEN_VALUE
      observer := strlcpy ("UNKNOWN" : CStr) FLEN_VALUE
      insmode := strlcpy ("UNKNOWN" : CStr) FLEN_VALUE } }

/-- oifile.c:968. -/
def finishHeaderM (bits : Nat) (oi : OiFits R) : Outcome (OiFits R) :=
  if !is_oi_fits_two oi then set_oi_headerM bits oi else .ok oi

/-- oifile.c:701-968, with `finishHeaderM`. -/
def readBodyM (bits : Nat) (u : Undef R) : FitsM R (Option (OiFits R)) := do
  let header ← read_oi_header u.header
  let targets ← read_oi_target u u.target
  guardStatus none do
    let arrayList ← readTables false (read_next_oi_array u u.array)
    guardStatus none do
      let wavelengthList ← readTables false (read_next_oi_wavelength u u.wave)
      guardStatus none do
        let corrList ← readTables true (read_next_oi_corr u u.corr)
        let inspolList ← readTables true (read_next_oi_inspol u u.inspol)
        let visList ← readTables true (read_next_oi_vis u u.vis)
        let vis2List ← readTables true (read_next_oi_vis2 u u.vis2)
        let t3List ← readTables true (read_next_oi_t3 u u.t3)
        let fluxList ← readTables true (read_next_oi_flux u u.flux)
        let oi ← FitsM.lift (finishHeaderM bits (assemble header targets arrayList wavelengthList
          corrList inspolList visList vis2List t3List fluxList))
        return some oi

/-- oifile.c:684-976 `read_oi_fits`. -/
def read_oi_fitsM (bits : Nat) (u : Undef R) (file : Option (List (Hdu R))) (status : Status) :
    Outcome (Option (OiFits R) × Status) :=
  if status ≠ .ok then .ok (none, status)
  else
    match file with
    | none => .ok (none, .other 104)
    | some hdus => do
      let (oi, s) ← readBodyM bits u ⟨hdus, 0, .ok⟩
      return (oi, s.status)

end Verif
