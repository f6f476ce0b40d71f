import Verif.Model.Read

/-!
# Reading a file while calls fail

Each call of `read_next_oi_X` may end early because of an error of the file system. This is modelled
for the whole call: it either does the same as without error, or it ends with an error code and has
moved somewhere between the HDU it started from and the one it would have stopped at. (Inside these
functions errors other than KEY_NO_EXIST and COL_NOT_FOUND stay: read_fits.c:53, 77, 107, 137, 191,
294, 1047, 1149, 1613.)
-/

namespace Verif
open Outcome

variable {R : FP} {α : Type}

/-- An error which ends a call: its code, and how many HDUs have been passed by. -/
structure ReadFault where
  status : Status
  moved : Nat

/-- A call of `read_next_oi_X` which may fail. What a failed call has stored is not used. -/
def readFailing (read : FitsM R α) (fault : Option ReadFault) : FitsM R α := fun s =>
  match fault, read s with
  | some f, .ok (a, s') => .ok (a, ⟨s'.hdus, s.cur + min f.moved (s'.cur - s.cur), f.status⟩)
  | _, r => r

/-- A call which may end with an error: read_oi_header, read_oi_target and `fits_movabs_hdu`. -/
def callFailing (fault : Option Status) (m : FitsM R α) : FitsM R α := fun s =>
  match fault, m s with
  | some st, .ok (a, _) => .ok (a, { s with status := st })
  | _, r => r

/-- The loops of oifile.c:725-966, as `readAll`. The errors are those of the calls one after
another; after the last of them no call fails. -/
def readAllFailing (skip : Bool) (read : FitsM R α) : List (Option ReadFault) → Nat → FitsM R (List α)
  | _, 0 => FitsM.lift .ub
  | faults, fuel + 1 => do
    let x ← readFailing read faults.head?.join
    let st ← getStatus
    if st = .ok then do
      let xs ← readAllFailing skip read faults.tail fuel
      return x :: xs
    else if st = .END_OF_FILE then do
      setStatus .ok
      return []
    else if skip then do
      setStatus .ok
      readAllFailing skip read faults.tail fuel
    else return []

/-- The errors while the tables of one type are read: of the move to the first HDU, and of the
calls in the loop. -/
structure TableFaults where
  move : Option Status
  reads : List (Option ReadFault)

/-- `fits_movabs_hdu(fptr, 1)` followed by a reading loop. The last argument of `readAllFailing` only
bounds the number of iterations. -/
def readTablesFailing (skip : Bool) (read : FitsM R α) (faults : TableFaults) : FitsM R (List α) := do
  let _ ← callFailing faults.move (fits_movabs_hdu 1)
  let nhdu ← fits_get_num_hdus
  let s ← fun s => .ok (s, s)
  readAllFailing skip read faults.reads
    (nhdu + 1 + (if faults.move.isSome then s.hdus.length + 1 else 0) + faults.reads.length)

/-- The errors while a file is read. -/
structure FileFaults where
  opening : Option Status
  header : Option Status
  target : Option Status
  array : TableFaults
  wavelength : TableFaults
  corr : TableFaults
  inspol : TableFaults
  vis : TableFaults
  vis2 : TableFaults
  t3 : TableFaults
  flux : TableFaults
  closing : Option Status

/-- oifile.c:717-968, as `readBody`. -/
def readBodyFailing (u : Undef R) (F : FileFaults) : FitsM R (Option (OiFits R)) := do
  let header ← callFailing F.header (read_oi_header u.header)
  let targets ← guardStatus u.target (callFailing F.target (read_oi_target u u.target))
  guardStatus none do
    let arrayList ← readTablesFailing false (read_next_oi_array u u.array) F.array
    guardStatus none do
      let wavelengthList ← readTablesFailing false (read_next_oi_wavelength u u.wave) F.wavelength
      guardStatus none do
        let corrList ← readTablesFailing true (read_next_oi_corr u u.corr) F.corr
        let inspolList ← readTablesFailing true (read_next_oi_inspol u u.inspol) F.inspol
        let visList ← readTablesFailing true (read_next_oi_vis u u.vis) F.vis
        let vis2List ← readTablesFailing true (read_next_oi_vis2 u u.vis2) F.vis2
        let t3List ← readTablesFailing true (read_next_oi_t3 u u.t3) F.t3
        let fluxList ← readTablesFailing true (read_next_oi_flux u u.flux) F.flux
        let oi ← FitsM.lift (finishHeader (assemble header targets arrayList wavelengthList
          corrList inspolList visList vis2List t3List fluxList))
        return some oi

/-- oifile.c:684-976 `read_oi_fits` of a file which exists. An error while the file is closed
(line 971) is not noticed if there is one already: CFITSIO keeps that. -/
def read_oi_fits_failing (u : Undef R) (F : FileFaults) (hdus : List (Hdu R)) : Outcome (Option (OiFits R) × Status) :=
  match F.opening with
  | some st => .ok (none, st)
  | none => do
    let (oi, s) ← readBodyFailing u F ⟨hdus, 0, .ok⟩
    return (oi, if s.status = .ok then F.closing.getD .ok else s.status)

end Verif
