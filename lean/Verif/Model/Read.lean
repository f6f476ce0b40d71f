import Verif.Model.Fits
import Verif.Model.Filter

/-! Model of `/repo/src/oifitslib/read_fits.c`, of the allocation functions of
`alloc_fits.c`, and of `read_oi_fits` in `oifile.c`.

A function which fills a struct given by a pointer takes its previous contents
(`old`) and returns the new contents; the status it returns is the status variable.
Warnings, error messages and checksum verification are not modelled. -/

namespace Verif
open Outcome

variable {R : FP}

/-- Values found in memory which has not been initialised. Theorems quantify over
them. A single value for each type stands for all uninitialised memory of that type. -/
structure Undef (R : FP) where
  int : Int
  flt : R.Flt
  dbl : R.Dbl
  str : CStr
  log : Bool
  chr : Char

/-! ### Reading keywords and columns -/

/-- The common part of read_fits.c:44-61, 68-85 and 92-115: read a keyword which may
be missing. The result is whether it was found, and its value, or `missing`. When
entered with an error status the C functions return it, which converts to TRUE. -/
def readKeyOpt {α : Type} (read : FitsM R α) (dst missing : α) : FitsM R (Bool × α) :=
  guardStatus (true, dst) do
    let v ← read
    let st ← getStatus
    if st = .ok then return (true, v)
    else if st = .KEY_NO_EXIST then do
      setStatus .ok
      return (false, missing)
    else return (false, missing)

/-- read_fits.c:44-61 `read_key_opt_string`. -/
def read_key_opt_string (name dst : CStr) : FitsM R (Bool × CStr) :=
  readKeyOpt (fits_read_key_str name dst) dst []

/-- read_fits.c:68-85 `read_key_opt_int`. -/
def read_key_opt_int (name : CStr) (dst : Int) : FitsM R (Bool × Int) :=
  readKeyOpt (fits_read_key_int name dst) dst (-1)

/-- read_fits.c:92-115 `read_key_opt_double`. -/
def read_key_opt_double (name : CStr) (dst : R.Dbl) : FitsM R (Bool × R.Dbl) :=
  readKeyOpt (fits_read_key_dbl name dst) dst R.nan

/-- read_fits.c:144-162 and 199-222: the part of `read_col_string` and
`read_col_string_truncate` after the column has been found. `maxRepeat` is `none`
when any width is accepted. -/
def readStrCol (colnum : Nat) (maxRepeat : Option Nat) (irow : Nat) (value : CStr) :
    FitsM R (Bool × CStr) := do
  let (typecode, actualRepeat) ← fits_get_coltype colnum (.A, 0)
  if typecode ≠ .A then do
    setStatus .BAD_BTABLE_FORMAT
    return (false, value)
  else if maxRepeat.any (· < actualRepeat) then do
    setStatus .BAD_BTABLE_FORMAT
    return (false, value)
  else do
    let xs ← fits_read_col Cell.toStr colnum irow 1 [value]
    let st ← getStatus
    return (decide (st = .ok), xs.headD value)

/-- read_fits.c:132-143 and 187-198: find the column. -/
def findStrCol (optional : Bool) (colname : CStr) (maxRepeat : Option Nat) (irow : Nat)
    (value : CStr) : FitsM R (Bool × CStr) :=
  guardStatus (true, value) do
    let colnum ← fits_get_colnum colname 0
    let st ← getStatus
    if st = .COL_NOT_FOUND then
      if optional then do
        setStatus .ok
        return (false, value)
      else return (false, value)
    else readStrCol colnum maxRepeat irow value

/-- read_fits.c:126-164 `read_col_string`. The type code is not initialised when
`fits_get_colnum` fails for another reason than a missing column; that does not
happen in the model of CFITSIO. -/
def read_col_string (optional : Bool) (colname : CStr) (maxRepeat irow : Nat) (value : CStr) :
    FitsM R (Bool × CStr) :=
  findStrCol optional colname (some maxRepeat) irow value

/-- read_fits.c:179-224 `read_col_string_truncate`. -/
def read_col_string_truncate (colname : CStr) (maxRepeat irow : Nat) (value : CStr) :
    FitsM R (Bool × CStr) := do
  let (found, v) ← findStrCol false colname none irow value
  return (found, if found then v.take maxRepeat else v)

/-- `fits_get_colnum` and `fits_read_col` of `n` elements of a row. -/
def readArr {α : Type} (conv : Cell R → Option α) (junk : α) (colname : CStr) (irow n : Nat) :
    FitsM R (List α) := do
  let colnum ← fits_get_colnum colname 0
  fits_read_col conv colnum irow n (List.replicate n junk)

/-- `fits_get_colnum` and `fits_read_col` of a single element. -/
def readOne {α : Type} (conv : Cell R → Option α) (junk : α) (colname : CStr) (irow : Nat) :
    FitsM R α := do
  let xs ← readArr conv junk colname irow 1
  return xs.headD junk

/-! ### Finding HDUs -/

/-- read_fits.c:286-308: the loop of `next_named_hdu` over the HDUs after number `i`
(counted from 0). The results are the new current HDU and the status. -/
def nextLoop (reqName : CStr) : List (Hdu R) → Nat → Nat × Status
  | [], i => (i, .END_OF_FILE)
  | h :: rest, i =>
    if h.type = .binary then
      match h.readStr "EXTNAME" with
      | .error .KEY_NO_EXIST => nextLoop reqName rest (i + 1)
      | .error st => (i + 1, st)
      | .ok extname => if extname = reqName then (i + 1, .ok) else nextLoop reqName rest (i + 1)
    else nextLoop reqName rest (i + 1)

/-- read_fits.c:277-311 `next_named_hdu`. -/
def next_named_hdu (reqName : CStr) : FitsM R Unit :=
  guardStatus () fun s =>
    let (i, st) := nextLoop reqName (s.hdus.drop (s.cur + 1)) s.cur
    .ok ((), { s with cur := i, status := st })

/-- read_fits.c:338-356: the loop of `specific_named_hdu`, starting with HDU number
`i` (counted from 0). As in the code, an HDU which is not a binary table ends the
search as if it were a match. -/
def specificLoop (reqName keyword reqVal : CStr) : List (Hdu R) → Nat → Option Nat
  | [], _ => none
  | h :: rest, i =>
    if h.type = .binary then
      match h.readStr "EXTNAME", h.readStr keyword with
      | .ok extname, .ok value =>
        if extname ≠ reqName ∨ value ≠ reqVal then specificLoop reqName keyword reqVal rest (i + 1)
        else some i
      | _, _ => specificLoop reqName keyword reqVal rest (i + 1)
    else some i

/-- read_fits.c:325-364 `specific_named_hdu`. -/
def specific_named_hdu (reqName keyword reqVal : CStr) : FitsM R Unit :=
  guardStatus () fun s =>
    match specificLoop reqName keyword reqVal (s.hdus.drop 1) 1 with
    | some i => .ok ((), { s with cur := i })
    | none => .ok ((), { s with cur := max s.cur (s.hdus.length - 1), status := .BAD_HDU_NUM })

/-- The first HDU, from number `i` on, which `fits_movnam_hdu` accepts. -/
def movnamLoop (name : CStr) : List (Hdu R) → Nat → Option Nat
  | [], _ => none
  | h :: rest, i =>
    if h.type = .binary then
      match h.readStr "EXTNAME" with
      | .ok extname => if extname = name then some i else movnamLoop name rest (i + 1)
      | .error _ => movnamLoop name rest (i + 1)
    else movnamLoop name rest (i + 1)

/-- `fits_movnam_hdu(fptr, BINARY_TBL, name, 0)` (CFITSIO): move to the first binary
table of that name (compared without regard to case by CFITSIO, with it here). -/
def fits_movnam_hdu (name : CStr) : FitsM R Unit :=
  guardStatus () fun s =>
    match movnamLoop name s.hdus 0 with
    | some i => .ok ((), { s with cur := i })
    | none => .ok ((), { s with status := .BAD_HDU_NUM })

/-! ### Tables -/

/-- read_fits.c:418-447: one row of an OI_ARRAY table. -/
def readElement (u : Undef R) (revision : Int) (irow : Nat) : FitsM R (Element R) := do
  let (_, tel_name) ← read_col_string false "TEL_NAME" 16 irow u.str
  let (_, sta_name) ← read_col_string false "STA_NAME" 16 irow u.str
  let sta_index ← readOne Cell.toInt u.int "STA_INDEX" irow
  let diameter ← readOne Cell.toFlt u.flt "DIAMETER" irow
  let xyz ← readArr Cell.toDbl u.dbl "STAXYZ" irow 3
  let staxyz := (xyz.getD 0 u.dbl, xyz.getD 1 u.dbl, xyz.getD 2 u.dbl)
  if revision ≥ 2 then do
    let fov ← readOne Cell.toDbl u.dbl "FOV" irow
    let (_, fovtype) ← read_col_string false "FOVTYPE" 6 irow u.str
    return ⟨tel_name, sta_name, sta_index, diameter, staxyz, fov, fovtype⟩
  else return ⟨tel_name, sta_name, sta_index, diameter, staxyz, R.nan, "FWHM"⟩

/-- read_fits.c:401-410: the name is read from the keyword, unless it is known. -/
def readName (u : Undef R) (keyword : CStr) (name : Option CStr) : FitsM R CStr :=
  match name with
  | none => do
    let name ← fits_read_key_str keyword u.str
    return name.take FLEN_VALUE
  | some n => return n.take FLEN_VALUE

/-- read_fits.c:377-457 `read_oi_array_chdu`, with alloc_fits.c:38-42. -/
def read_oi_array_chdu (u : Undef R) (old : OiArray R) (name : Option CStr) : FitsM R (OiArray R) :=
  guardStatus old do
    let revision ← fits_read_key_int "OI_REVN" old.revision
    guardStatus { old with revision := revision } do
      let arrname ← readName u "ARRNAME" name
      let frame ← fits_read_key_str "FRAME" old.frame
      let arrayx ← fits_read_key_dbl "ARRAYX" old.arrayx
      let arrayy ← fits_read_key_dbl "ARRAYY" old.arrayy
      let arrayz ← fits_read_key_dbl "ARRAYZ" old.arrayz
      let nrows ← fits_get_num_rows 0
      guardStatus ⟨revision, arrname, frame, arrayx, arrayy, arrayz, old.elem⟩ do
        FitsM.lift (chkmallocN nrows)
        let elem ← forRows 1 nrows (readElement u revision)
        return ⟨revision, arrname, frame, arrayx, arrayy, arrayz, elem⟩

/-- read_fits.c:470-514 `read_oi_wavelength_chdu`, with alloc_fits.c:62-67. -/
def read_oi_wavelength_chdu (u : Undef R) (old : OiWavelength R) (name : Option CStr) :
    FitsM R (OiWavelength R) :=
  guardStatus old do
    let revision ← fits_read_key_int "OI_REVN" old.revision
    guardStatus { old with revision := revision } do
      let insname ← readName u "INSNAME" name
      let nrows ← fits_get_num_rows 0
      guardStatus { old with revision := revision, insname := insname } do
        FitsM.lift (chkmallocN nrows)
        let eff_wave ← readArr Cell.toFlt u.flt "EFF_WAVE" 1 nrows
        let eff_band ← readArr Cell.toFlt u.flt "EFF_BAND" 1 nrows
        return ⟨revision, insname, nrows, eff_wave, eff_band⟩

/-- read_fits.c:527-575 `read_oi_corr_chdu`, with alloc_fits.c:75-81. -/
def read_oi_corr_chdu (u : Undef R) (old : OiCorr R) (name : Option CStr) : FitsM R (OiCorr R) :=
  guardStatus old do
    let revision ← fits_read_key_int "OI_REVN" old.revision
    guardStatus { old with revision := revision } do
      let corrname ← readName u "CORRNAME" name
      let ndata ← fits_read_key_int "NDATA" old.ndata
      let nrows ← fits_get_num_rows 0
      guardStatus { old with revision := revision, corrname := corrname, ndata := ndata } do
        FitsM.lift (chkmallocN nrows)
        let iindx ← readArr Cell.toInt u.int "IINDX" 1 nrows
        let jindx ← readArr Cell.toInt u.int "JINDX" 1 nrows
        let corr ← readArr Cell.toDbl u.dbl "CORR" 1 nrows
        return ⟨revision, corrname, ndata, nrows, iindx, jindx, corr⟩

/-- read_fits.c:631-642: a Jones matrix column is read with type `TDOUBLE` into an
array of `float complex`, of the same element size. -/
def readJones (u : Undef R) (colname : CStr) (irow nwave : Nat) : FitsM R (List (R.Flt × R.Flt)) := do
  let xs ← readArr Cell.toDbl u.dbl colname irow nwave
  return xs.map R.pun

/-- read_fits.c:619-650: one row of an OI_INSPOL table. -/
def readInspolRecord (u : Undef R) (nwave irow : Nat) : FitsM R (OiInspolRecord R) := do
  let target_id ← readOne Cell.toInt u.int "TARGET_ID" irow
  let (_, insname) ← read_col_string false "INSNAME" (FLEN_VALUE - 1) irow u.str
  let mjd_obs ← readOne Cell.toDbl u.dbl "MJD_OBS" irow
  let mjd_end ← readOne Cell.toDbl u.dbl "MJD_END" irow
  let jxx ← readJones u "JXX" irow nwave
  let jyy ← readJones u "JYY" irow nwave
  let jxy ← readJones u "JXY" irow nwave
  let jyx ← readJones u "JYX" irow nwave
  let sta_index ← readOne Cell.toInt u.int "STA_INDEX" irow
  return ⟨target_id, insname, mjd_obs, mjd_end, jxx, jyy, jxy, jyx, sta_index⟩

/-- The `chkmalloc` calls of alloc_fits.c:90-211 for `nrows` records with arrays of
`nwave` elements. -/
def allocRecords (nrows nwave : Nat) : Outcome Unit := do
  chkmallocN nrows
  chkmallocN nwave

/-- read_fits.c:587-653 `read_oi_inspol_chdu`, with alloc_fits.c:90-107. -/
def read_oi_inspol_chdu (u : Undef R) (old : OiInspol R) : FitsM R (OiInspol R) :=
  guardStatus old do
    let revision ← fits_read_key_int "OI_REVN" old.revision
    guardStatus { old with revision := revision } do
      let date_obs ← fits_read_key_str "DATE-OBS" old.date_obs
      let npol ← fits_read_key_int "NPOL" old.npol
      let arrname ← fits_read_key_str "ARRNAME" old.arrname
      let orient ← fits_read_key_str "ORIENT" old.orient
      let model ← fits_read_key_str "MODEL" old.model
      let nrows ← fits_get_num_rows 0
      let colnum ← fits_get_colnum "JXX" 0
      let (_, nwave) ← fits_get_coltype colnum (.A, 0)
      guardStatus ⟨revision, date_obs, npol, arrname, orient, model, old.nwave, old.record⟩ do
        FitsM.lift (allocRecords nrows nwave)
        let record ← forRows 1 nrows (readInspolRecord u nwave)
        return ⟨revision, date_obs, npol, arrname, orient, model, nwave, record⟩

/-- read_fits.c:671-704 `read_oi_header`. -/
def read_oi_header (old : OiHeader) : FitsM R OiHeader :=
  guardStatus old do
    let _ ← fits_movabs_hdu 1
    let (_, origin) ← read_key_opt_string "ORIGIN" old.origin
    let (_, date) ← read_key_opt_string "DATE" old.date
    let (_, date_obs) ← read_key_opt_string "DATE-OBS" old.date_obs
    let (_, content) ← read_key_opt_string "CONTENT" old.content
    let (_, telescop) ← read_key_opt_string "TELESCOP" old.telescop
    let (_, instrume) ← read_key_opt_string "INSTRUME" old.instrume
    let (_, observer) ← read_key_opt_string "OBSERVER" old.observer
    let (_, insmode) ← read_key_opt_string "INSMODE" old.insmode
    let (_, object) ← read_key_opt_string "OBJECT" old.object
    let (_, referenc) ← read_key_opt_string "REFERENC" old.referenc
    let (_, author) ← read_key_opt_string "AUTHOR" old.author
    let (_, prog_id) ← read_key_opt_string "PROG_ID" old.prog_id
    let (_, procsoft) ← read_key_opt_string "PROCSOFT" old.procsoft
    let (_, obstech) ← read_key_opt_string "OBSTECH" old.obstech
    return ⟨origin, date, date_obs, content, telescop, instrume, observer, insmode, object,
      referenc, author, prog_id, procsoft, obstech⟩

/-- read_fits.c:746-797: one row of an OI_TARGET table, except CATEGORY. -/
def readTarget (u : Undef R) (irow : Nat) : FitsM R (Target R) := do
  let target_id ← readOne Cell.toInt u.int "TARGET_ID" irow
  let (_, target) ← read_col_string_truncate "TARGET" 32 irow u.str
  let raep0 ← readOne Cell.toDbl u.dbl "RAEP0" irow
  let decep0 ← readOne Cell.toDbl u.dbl "DECEP0" irow
  let equinox ← readOne Cell.toFlt u.flt "EQUINOX" irow
  let ra_err ← readOne Cell.toDbl u.dbl "RA_ERR" irow
  let dec_err ← readOne Cell.toDbl u.dbl "DEC_ERR" irow
  let sysvel ← readOne Cell.toDbl u.dbl "SYSVEL" irow
  let (_, veltyp) ← read_col_string false "VELTYP" 8 irow u.str
  let (_, veldef) ← read_col_string false "VELDEF" 8 irow u.str
  let pmra ← readOne Cell.toDbl u.dbl "PMRA" irow
  let pmdec ← readOne Cell.toDbl u.dbl "PMDEC" irow
  let pmra_err ← readOne Cell.toDbl u.dbl "PMRA_ERR" irow
  let pmdec_err ← readOne Cell.toDbl u.dbl "PMDEC_ERR" irow
  let parallax ← readOne Cell.toFlt u.flt "PARALLAX" irow
  let para_err ← readOne Cell.toFlt u.flt "PARA_ERR" irow
  let (_, spectyp) ← read_col_string_truncate "SPECTYP" 32 irow u.str
  return ⟨target_id, target, raep0, decep0, equinox, ra_err, dec_err, sysvel, veltyp, veldef,
    pmra, pmdec, pmra_err, pmdec_err, parallax, para_err, spectyp, u.str⟩

/-- The loop `for (irow = first; ...; irow++)` over records already allocated,
changing each. -/
def forRecs {α β : Type} (first : Nat) : List α → (Nat → α → FitsM R β) → FitsM R (List β)
  | [], _ => pure []
  | x :: xs, body => do
    let y ← body first x
    let ys ← forRecs (first + 1) xs body
    pure (y :: ys)

/-- read_fits.c:804-812. Read CATEGORY of one target. -/
def readCategory (irow : Nat) (t : Target R) : FitsM R (Target R) := do
  let (_, category) ← read_col_string false "CATEGORY" 3 irow t.category
  return { t with category := category }

/-- read_fits.c:800-815: the optional column CATEGORY. -/
def readCategories (revision : Int) (targ : List (Target R)) : FitsM R (OiTarget R) :=
  if revision ≥ 2 then
    match targ with
    | [] => FitsM.lift .ub
    | t :: rest => do
      let (usecategory, category) ← read_col_string true "CATEGORY" 3 1 t.category
      if usecategory then do
        let rest' ← forRecs 2 rest readCategory
        return ⟨revision, { t with category := category } :: rest', true⟩
      else return ⟨revision, { t with category := category } :: rest, false⟩
  else return ⟨revision, targ, false⟩

/-- read_fits.c:716-825 `read_oi_target`, with alloc_fits.c:50-54. -/
def read_oi_target (u : Undef R) (old : OiTarget R) : FitsM R (OiTarget R) :=
  guardStatus old do
    fits_movnam_hdu "OI_TARGET"
    let revision ← fits_read_key_int "OI_REVN" old.revision
    guardStatus { old with revision := revision } do
      let nrows ← fits_get_num_rows 0
      guardStatus { old with revision := revision } do
        FitsM.lift (chkmallocN nrows)
        let targ ← forRows 1 nrows (readTarget u)
        readCategories revision targ

/-- read_fits.c:838-856 `read_oi_array`. -/
def read_oi_array (u : Undef R) (arrname : CStr) (old : OiArray R) : FitsM R (OiArray R) :=
  guardStatus old do
    specific_named_hdu "OI_ARRAY" "ARRNAME" arrname
    read_oi_array_chdu u old (some arrname)

/-- read_fits.c:868-885 `read_next_oi_array`. -/
def read_next_oi_array (u : Undef R) (old : OiArray R) : FitsM R (OiArray R) :=
  guardStatus old do
    next_named_hdu "OI_ARRAY"
    guardStatus old (read_oi_array_chdu u old none)

/-- read_fits.c:898-915 `read_oi_wavelength`. -/
def read_oi_wavelength (u : Undef R) (insname : CStr) (old : OiWavelength R) :
    FitsM R (OiWavelength R) :=
  guardStatus old do
    specific_named_hdu "OI_WAVELENGTH" "INSNAME" insname
    read_oi_wavelength_chdu u old (some insname)

/-- read_fits.c:927-945 `read_next_oi_wavelength`. -/
def read_next_oi_wavelength (u : Undef R) (old : OiWavelength R) : FitsM R (OiWavelength R) :=
  guardStatus old do
    next_named_hdu "OI_WAVELENGTH"
    guardStatus old (read_oi_wavelength_chdu u old none)

/-- read_fits.c:958-975 `read_oi_corr`. -/
def read_oi_corr (u : Undef R) (corrname : CStr) (old : OiCorr R) : FitsM R (OiCorr R) :=
  guardStatus old do
    specific_named_hdu "OI_CORR" "CORRNAME" corrname
    read_oi_corr_chdu u old (some corrname)

/-- read_fits.c:987-1004 `read_next_oi_corr`. -/
def read_next_oi_corr (u : Undef R) (old : OiCorr R) : FitsM R (OiCorr R) :=
  guardStatus old do
    next_named_hdu "OI_CORR"
    guardStatus old (read_oi_corr_chdu u old none)

/-- read_fits.c:1015-1032 `read_next_oi_inspol`. -/
def read_next_oi_inspol (u : Undef R) (old : OiInspol R) : FitsM R (OiInspol R) :=
  guardStatus old do
    next_named_hdu "OI_INSPOL"
    guardStatus old (read_oi_inspol_chdu u old)

/-- read_fits.c:1091-1099: the columns CORRINDX_RVIS and CORRINDX_IVIS of a row. -/
def readVisComplexCorr (u : Undef R) (correlated : Bool) (irow : Nat) (r : OiVisRecord R) :
    FitsM R (OiVisRecord R) :=
  if correlated then do
    let corrindx_rvis ← readOne Cell.toInt u.int "CORRINDX_RVIS" irow
    let corrindx_ivis ← readOne Cell.toInt u.int "CORRINDX_IVIS" irow
    return { r with corrindx_rvis := corrindx_rvis, corrindx_ivis := corrindx_ivis }
  else return r

/-- read_fits.c:1070-1099: the complex visibility columns of a row. -/
def readVisComplexRow (u : Undef R) (nwave : Nat) (correlated : Bool) (irow : Nat)
    (r : OiVisRecord R) : FitsM R (OiVisRecord R) := do
  FitsM.lift (chkmallocN nwave)
  let rvis ← readArr Cell.toDbl u.dbl "RVIS" irow nwave
  let rviserr ← readArr Cell.toDbl u.dbl "RVISERR" irow nwave
  let ivis ← readArr Cell.toDbl u.dbl "IVIS" irow nwave
  let iviserr ← readArr Cell.toDbl u.dbl "IVISERR" irow nwave
  readVisComplexCorr u correlated irow { r with
    rvis := some rvis, rviserr := some rviserr, ivis := some ivis, iviserr := some iviserr }

/-- read_fits.c:1037-1103 `read_oi_vis_complex`. -/
def read_oi_vis_complex (u : Undef R) (vis : OiVis R) (correlated : Bool) : FitsM R (OiVis R) :=
  guardStatus vis do
    let colnum ← fits_get_colnum "RVIS" 0
    let st ← getStatus
    if st = .COL_NOT_FOUND then do
      setStatus .ok
      return { vis with
        usecomplex := false
        complexunit := []
        record := vis.record.map fun r =>
          { r with rvis := none, rviserr := none, ivis := none, iviserr := none } }
    else do
      let complexunit ← readColUnit colnum vis.complexunit
      let record ← forRecs 1 vis.record (readVisComplexRow u vis.nwave correlated)
      return { vis with usecomplex := true, complexunit := complexunit, record := record }

/-- read_fits.c:1134-1142: CORRINDX_VISAMP and CORRINDX_VISPHI of a row. -/
def readVisCorrRow (u : Undef R) (irow : Nat) (r : OiVisRecord R) : FitsM R (OiVisRecord R) := do
  let corrindx_visamp ← readOne Cell.toInt u.int "CORRINDX_VISAMP" irow
  let corrindx_visphi ← readOne Cell.toInt u.int "CORRINDX_VISPHI" irow
  return { r with corrindx_visamp := corrindx_visamp, corrindx_visphi := corrindx_visphi }

/-- read_fits.c:1131-1144: the loop over rows, if the data are correlated. -/
def readVisCorr (u : Undef R) (correlated : Bool) (record : List (OiVisRecord R)) :
    FitsM R (List (OiVisRecord R)) :=
  if correlated then forRecs 1 record (readVisCorrRow u) else return record

/-- read_fits.c:1162-1166: VISREFMAP of a row, from column `colnum`. -/
def readRefmapRow (u : Undef R) (nwave colnum irow : Nat) (r : OiVisRecord R) :
    FitsM R (OiVisRecord R) := do
  FitsM.lift (chkmallocN (nwave * nwave))
  let map ← fits_read_col Cell.toLog colnum irow (nwave * nwave) (List.replicate (nwave * nwave) u.log)
  return { r with visrefmap := some map }

/-- read_fits.c:1145-1168: the optional column VISREFMAP. As in the code, the status is
cleared if it is `COL_NOT_FOUND` for whatever reason. -/
def readRefmap (u : Undef R) (vis : OiVis R) : FitsM R (OiVis R) := do
  let colnum ← fits_get_colnum "VISREFMAP" 0
  let st ← getStatus
  if st = .COL_NOT_FOUND then do
    setStatus .ok
    return { vis with
      usevisrefmap := false
      record := vis.record.map fun r => { r with visrefmap := none } }
  else do
    let record ← forRecs 1 vis.record (readRefmapRow u vis.nwave colnum)
    return { vis with usevisrefmap := true, record := record }

/-- read_fits.c:1108-1173 `read_oi_vis_opt`. -/
def read_oi_vis_opt (u : Undef R) (vis : OiVis R) : FitsM R (OiVis R) :=
  guardStatus vis do
    if vis.revision = OI_REVN_V1_VIS then
      return { vis with corrname := [], amptyp := [], phityp := [], amporder := -1, phiorder := -1,
                        usevisrefmap := false, usecomplex := false }
    else do
      let (correlated, corrname) ← read_key_opt_string "CORRNAME" vis.corrname
      let (_, amptyp) ← read_key_opt_string "AMPTYP" vis.amptyp
      let (_, phityp) ← read_key_opt_string "PHITYP" vis.phityp
      let (_, amporder) ← read_key_opt_int "AMPORDER" vis.amporder
      let (_, phiorder) ← read_key_opt_int "PHIORDER" vis.phiorder
      let record ← readVisCorr u correlated vis.record
      let vis ← readRefmap u { vis with
        corrname := corrname, amptyp := amptyp, phityp := phityp, amporder := amporder,
        phiorder := phiorder, record := record }
      read_oi_vis_complex u vis correlated

/-- read_fits.c:1225-1264: one row of an OI_VIS table, except the optional columns.
The pointers to the optional arrays are set to NULL by `alloc_oi_vis`
(alloc_fits.c:128-132). -/
def readVisRecord (u : Undef R) (nwave irow : Nat) : FitsM R (OiVisRecord R) := do
  let target_id ← readOne Cell.toInt u.int "TARGET_ID" irow
  let time ← readOne Cell.toDbl u.dbl "TIME" irow
  let mjd ← readOne Cell.toDbl u.dbl "MJD" irow
  let int_time ← readOne Cell.toDbl u.dbl "INT_TIME" irow
  let visamp ← readArr Cell.toDbl u.dbl "VISAMP" irow nwave
  let visamperr ← readArr Cell.toDbl u.dbl "VISAMPERR" irow nwave
  let visphi ← readArr Cell.toDbl u.dbl "VISPHI" irow nwave
  let visphierr ← readArr Cell.toDbl u.dbl "VISPHIERR" irow nwave
  let ucoord ← readOne Cell.toDbl u.dbl "UCOORD" irow
  let vcoord ← readOne Cell.toDbl u.dbl "VCOORD" irow
  let sta ← readArr Cell.toInt u.int "STA_INDEX" irow 2
  let flag ← readArr Cell.toLog u.log "FLAG" irow nwave
  return { target_id := target_id, time := time, mjd := mjd, int_time := int_time
           visamp := visamp, visamperr := visamperr, corrindx_visamp := u.int
           visphi := visphi, visphierr := visphierr, corrindx_visphi := u.int
           visrefmap := none, rvis := none, rviserr := none, corrindx_rvis := u.int
           ivis := none, iviserr := none, corrindx_ivis := u.int
           ucoord := ucoord, vcoord := vcoord
           sta_index := (sta.getD 0 u.int, sta.getD 1 u.int), flag := flag }

/-- read_fits.c:1185-1276 `read_next_oi_vis`, with alloc_fits.c:116-139. -/
def read_next_oi_vis (u : Undef R) (old : OiVis R) : FitsM R (OiVis R) :=
  guardStatus old do
    next_named_hdu "OI_VIS"
    guardStatus old do
      let revision ← fits_read_key_int "OI_REVN" old.revision
      guardStatus { old with revision := revision } do
        let date_obs ← fits_read_key_str "DATE-OBS" old.date_obs
        let (_, arrname) ← read_key_opt_string "ARRNAME" old.arrname
        let insname ← fits_read_key_str "INSNAME" old.insname
        let nrows ← fits_get_num_rows 0
        let colnum ← fits_get_colnum "VISAMP" 0
        let (_, nwave) ← fits_get_coltype colnum (.A, 0)
        guardStatus { old with
            revision := revision, date_obs := date_obs, arrname := arrname, insname := insname } do
          FitsM.lift (allocRecords nrows nwave)
          let (_, ampunit) ← readKeyOpt (readColUnit colnum old.ampunit) old.ampunit []
          let record ← forRows 1 nrows (readVisRecord u nwave)
          read_oi_vis_opt u { old with
            revision := revision, date_obs := date_obs, arrname := arrname, insname := insname
            usevisrefmap := false, usecomplex := false
            ampunit := ampunit, nwave := nwave, record := record }

/-- read_fits.c:1321-1331 (and 1437-1447): CORRNAME is only read from revision 2 on. -/
def readCorrname (revision : Int) (old : CStr) : FitsM R (Bool × CStr) :=
  if revision ≥ 2 then do
    let (found, corrname) ← read_key_opt_string "CORRNAME" old
    return (found, if found then corrname else [])
  else return (false, [])

/-- read_fits.c:1093-1098, 1139-1144, 1376, 1504-1509, 1626. A column CORRINDX_*, if the data are correlated. -/
def readCorrindx (u : Undef R) (correlated : Bool) (colname : CStr) (irow : Nat) : FitsM R Int :=
  if correlated then readOne Cell.toInt u.int colname irow else return u.int

/-- read_fits.c:1342-1380: one row of an OI_VIS2 table. -/
def readVis2Record (u : Undef R) (nwave : Nat) (correlated : Bool) (irow : Nat) :
    FitsM R (OiVis2Record R) := do
  let target_id ← readOne Cell.toInt u.int "TARGET_ID" irow
  let time ← readOne Cell.toDbl u.dbl "TIME" irow
  let mjd ← readOne Cell.toDbl u.dbl "MJD" irow
  let int_time ← readOne Cell.toDbl u.dbl "INT_TIME" irow
  let vis2data ← readArr Cell.toDbl u.dbl "VIS2DATA" irow nwave
  let vis2err ← readArr Cell.toDbl u.dbl "VIS2ERR" irow nwave
  let ucoord ← readOne Cell.toDbl u.dbl "UCOORD" irow
  let vcoord ← readOne Cell.toDbl u.dbl "VCOORD" irow
  let sta ← readArr Cell.toInt u.int "STA_INDEX" irow 2
  let flag ← readArr Cell.toLog u.log "FLAG" irow nwave
  let corrindx ← readCorrindx u correlated "CORRINDX_VIS2DATA" irow
  return ⟨target_id, time, mjd, int_time, vis2data, vis2err, corrindx, ucoord, vcoord,
    (sta.getD 0 u.int, sta.getD 1 u.int), flag⟩

/-- read_fits.c:1288-1390 `read_next_oi_vis2`, with alloc_fits.c:148-164. -/
def read_next_oi_vis2 (u : Undef R) (old : OiVis2 R) : FitsM R (OiVis2 R) :=
  guardStatus old do
    next_named_hdu "OI_VIS2"
    guardStatus old do
      let revision ← fits_read_key_int "OI_REVN" old.revision
      guardStatus { old with revision := revision } do
        let date_obs ← fits_read_key_str "DATE-OBS" old.date_obs
        let (_, arrname) ← read_key_opt_string "ARRNAME" old.arrname
        let insname ← fits_read_key_str "INSNAME" old.insname
        let (correlated, corrname) ← readCorrname revision old.corrname
        let nrows ← fits_get_num_rows 0
        let colnum ← fits_get_colnum "VIS2DATA" 0
        let (_, nwave) ← fits_get_coltype colnum (.A, 0)
        guardStatus ⟨revision, date_obs, arrname, insname, corrname, old.nwave, old.record⟩ do
          FitsM.lift (allocRecords nrows nwave)
          let record ← forRows 1 nrows (readVis2Record u nwave correlated)
          return ⟨revision, date_obs, arrname, insname, corrname, nwave, record⟩

/-- read_fits.c:1458-1510: one row of an OI_T3 table. -/
def readT3Record (u : Undef R) (nwave : Nat) (correlated : Bool) (irow : Nat) :
    FitsM R (OiT3Record R) := do
  let target_id ← readOne Cell.toInt u.int "TARGET_ID" irow
  let time ← readOne Cell.toDbl u.dbl "TIME" irow
  let mjd ← readOne Cell.toDbl u.dbl "MJD" irow
  let int_time ← readOne Cell.toDbl u.dbl "INT_TIME" irow
  let t3amp ← readArr Cell.toDbl u.dbl "T3AMP" irow nwave
  let t3amperr ← readArr Cell.toDbl u.dbl "T3AMPERR" irow nwave
  let t3phi ← readArr Cell.toDbl u.dbl "T3PHI" irow nwave
  let t3phierr ← readArr Cell.toDbl u.dbl "T3PHIERR" irow nwave
  let u1coord ← readOne Cell.toDbl u.dbl "U1COORD" irow
  let v1coord ← readOne Cell.toDbl u.dbl "V1COORD" irow
  let u2coord ← readOne Cell.toDbl u.dbl "U2COORD" irow
  let v2coord ← readOne Cell.toDbl u.dbl "V2COORD" irow
  let sta ← readArr Cell.toInt u.int "STA_INDEX" irow 3
  let flag ← readArr Cell.toLog u.log "FLAG" irow nwave
  let corrindx_t3amp ← readCorrindx u correlated "CORRINDX_T3AMP" irow
  let corrindx_t3phi ← readCorrindx u correlated "CORRINDX_T3PHI" irow
  return ⟨target_id, time, mjd, int_time, t3amp, t3amperr, corrindx_t3amp, t3phi, t3phierr,
    corrindx_t3phi, u1coord, v1coord, u2coord, v2coord,
    (sta.getD 0 u.int, sta.getD 1 u.int, sta.getD 2 u.int), flag⟩

/-- read_fits.c:1402-1520 `read_next_oi_t3`, with alloc_fits.c:173-191. -/
def read_next_oi_t3 (u : Undef R) (old : OiT3 R) : FitsM R (OiT3 R) :=
  guardStatus old do
    next_named_hdu "OI_T3"
    guardStatus old do
      let revision ← fits_read_key_int "OI_REVN" old.revision
      guardStatus { old with revision := revision } do
        let date_obs ← fits_read_key_str "DATE-OBS" old.date_obs
        let (_, arrname) ← read_key_opt_string "ARRNAME" old.arrname
        let insname ← fits_read_key_str "INSNAME" old.insname
        let (correlated, corrname) ← readCorrname revision old.corrname
        let nrows ← fits_get_num_rows 0
        let colnum ← fits_get_colnum "T3AMP" 0
        let (_, nwave) ← fits_get_coltype colnum (.A, 0)
        guardStatus ⟨revision, date_obs, arrname, insname, corrname, old.nwave, old.record⟩ do
          FitsM.lift (allocRecords nrows nwave)
          let record ← forRows 1 nrows (readT3Record u nwave correlated)
          return ⟨revision, date_obs, arrname, insname, corrname, nwave, record⟩

/-- read_fits.c:1610-1622: the optional column STA_INDEX of an OI_FLUX table. As in the
code, the status is cleared if it is `COL_NOT_FOUND` for whatever reason. -/
def readFluxSta (u : Undef R) (irow : Nat) : FitsM R Int := do
  let colnum ← fits_get_colnum "STA_INDEX" 0
  let st ← getStatus
  if st = .COL_NOT_FOUND then do
    setStatus .ok
    return -1
  else do
    let xs ← fits_read_col Cell.toInt colnum irow 1 [u.int]
    return xs.headD u.int

/-- read_fits.c:1588-1630: one row of an OI_FLUX table. -/
def readFluxRecord (u : Undef R) (nwave : Nat) (correlated : Bool) (irow : Nat) :
    FitsM R (OiFluxRecord R) := do
  let target_id ← readOne Cell.toInt u.int "TARGET_ID" irow
  let mjd ← readOne Cell.toDbl u.dbl "MJD" irow
  let int_time ← readOne Cell.toDbl u.dbl "INT_TIME" irow
  let fluxdata ← readArr Cell.toDbl u.dbl "FLUXDATA" irow nwave
  let fluxerr ← readArr Cell.toDbl u.dbl "FLUXERR" irow nwave
  let flag ← readArr Cell.toLog u.log "FLAG" irow nwave
  let sta_index ← readFluxSta u irow
  let corrindx ← readCorrindx u correlated "CORRINDX_FLUXDATA" irow
  return ⟨target_id, mjd, int_time, fluxdata, fluxerr, corrindx, sta_index, flag⟩

/-- read_fits.c:1532-1640 `read_next_oi_flux`, with alloc_fits.c:200-216. The first
character of an empty string is NUL. -/
def read_next_oi_flux (u : Undef R) (old : OiFlux R) : FitsM R (OiFlux R) :=
  guardStatus old do
    next_named_hdu "OI_FLUX"
    guardStatus old do
      let revision ← fits_read_key_int "OI_REVN" old.revision
      guardStatus { old with revision := revision } do
        let date_obs ← fits_read_key_str "DATE-OBS" old.date_obs
        let (_, arrname) ← read_key_opt_string "ARRNAME" old.arrname
        let insname ← fits_read_key_str "INSNAME" old.insname
        let (correlated, corrname) ← read_key_opt_string "CORRNAME" old.corrname
        let (_, fov) ← read_key_opt_double "FOV" old.fov
        let (_, fovtype) ← read_key_opt_string "FOVTYPE" old.fovtype
        let calstat ← fits_read_key_str "CALSTAT" u.str
        let nrows ← fits_get_num_rows 0
        let colnum ← fits_get_colnum "FLUXDATA" 0
        let (_, nwave) ← fits_get_coltype colnum (.A, 0)
        guardStatus ⟨revision, date_obs, arrname, insname, corrname, fov, fovtype,
            calstat.headD '\x00', old.fluxunit, old.nwave, old.record⟩ do
          FitsM.lift (allocRecords nrows nwave)
          let fluxunit ← readColUnit colnum old.fluxunit
          let record ← forRows 1 nrows (readFluxRecord u nwave correlated)
          return ⟨revision, date_obs, arrname, insname, corrname, fov, fovtype,
            calstat.headD '\x00', fluxunit, nwave, record⟩

/-! ### Files -/

/-- The local variables and structs of oifile.c:684-970 which are not set before they are passed on. Uninitialised structs. -/
def Undef.header (u : Undef R) : OiHeader :=
  ⟨u.str, u.str, u.str, u.str, u.str, u.str, u.str, u.str, u.str, u.str, u.str, u.str, u.str, u.str⟩
@[inherit_doc Undef.header]
def Undef.target (u : Undef R) : OiTarget R := ⟨u.int, [], u.log⟩
@[inherit_doc Undef.header]
def Undef.array (u : Undef R) : OiArray R := ⟨u.int, u.str, u.str, u.dbl, u.dbl, u.dbl, []⟩
@[inherit_doc Undef.header]
def Undef.wave (u : Undef R) : OiWavelength R := ⟨u.int, u.str, 0, [], []⟩
@[inherit_doc Undef.header]
def Undef.corr (u : Undef R) : OiCorr R := ⟨u.int, u.str, u.int, 0, [], [], []⟩
@[inherit_doc Undef.header]
def Undef.inspol (u : Undef R) : OiInspol R := ⟨u.int, u.str, u.int, u.str, u.str, u.str, 0, []⟩
@[inherit_doc Undef.header]
def Undef.vis (u : Undef R) : OiVis R :=
  ⟨u.int, u.str, u.str, u.str, u.str, u.str, u.str, u.int, u.int, u.log, u.log, u.str, u.str, 0, []⟩
@[inherit_doc Undef.header]
def Undef.vis2 (u : Undef R) : OiVis2 R := ⟨u.int, u.str, u.str, u.str, u.str, 0, []⟩
@[inherit_doc Undef.header]
def Undef.t3 (u : Undef R) : OiT3 R := ⟨u.int, u.str, u.str, u.str, u.str, 0, []⟩
@[inherit_doc Undef.header]
def Undef.flux (u : Undef R) : OiFlux R :=
  ⟨u.int, u.str, u.str, u.str, u.str, u.dbl, u.str, u.chr, u.str, 0, []⟩

/-- The loops `while (TRUE) { read_next_oi_X ... }` of oifile.c:725-966, with the move
to the first HDU before them taken out. `skip` says that tables which cannot be
read are skipped; otherwise the first such table ends the loop with its status.
`fuel` bounds the number of iterations: running out of it stands for not
terminating, which never happens when it exceeds the number of HDUs. -/
def readAll {α : Type} (skip : Bool) (read : FitsM R α) : Nat → FitsM R (List α)
  | 0 => FitsM.lift .ub
  | fuel + 1 => do
    let x ← read
    let st ← getStatus
    if st = .ok then do
      let xs ← readAll skip read fuel
      return x :: xs
    else if st = .END_OF_FILE then do
      setStatus .ok
      return []
    else if skip then do
      setStatus .ok
      readAll skip read fuel
    else return []

/-- oifile.c:727, 743, 760, 785, 811, 852, 893, 934: `fits_movabs_hdu(fptr, 1)` followed by a reading loop. -/
def readTables {α : Type} (skip : Bool) (read : FitsM R α) : FitsM R (List α) := do
  let _ ← fits_movabs_hdu 1
  let nhdu ← fits_get_num_hdus
  readAll skip read (nhdu + 1)

/-- oifile.c:834-839 etc.: enter the array of a table in the hash table, unless it is
there. (`g_hash_table_insert` of NULL is looked up as NULL, like no entry.) -/
def hashArray (oi : OiFits R) (arrname : CStr) : OiFits R :=
  if arrname.length > 0 then
    match oi.arrayHash.lookup arrname, find_oi_array oi arrname with
    | none, some a => { oi with arrayHash := oi.arrayHash.insert arrname a }
    | _, _ => oi
  else oi

/-- oifile.c:840-842 etc. -/
def hashWavelength (oi : OiFits R) (insname : CStr) : OiFits R :=
  match oi.wavelengthHash.lookup insname, find_oi_wavelength oi insname with
  | none, some w => { oi with wavelengthHash := oi.wavelengthHash.insert insname w }
  | _, _ => oi

/-- oifile.c:843-848 etc. -/
def hashCorr (oi : OiFits R) (corrname : CStr) : OiFits R :=
  if corrname.length > 0 then
    match oi.corrHash.lookup corrname, find_oi_corr oi corrname with
    | none, some c => { oi with corrHash := oi.corrHash.insert corrname c }
    | _, _ => oi
  else oi

/-- oifile.c:834-848, 879-893 and 924-938: enter the tables an OI_VIS, OI_VIS2 or OI_T3
table refers to. -/
def hashData (oi : OiFits R) (arrname insname corrname : CStr) : OiFits R :=
  hashCorr (hashWavelength (hashArray oi arrname) insname) corrname

/-- oifile.c:811-970. The dataset read, with its hash tables. The code enters the tables referred to by a
data table right after reading it; the lists searched are complete by then. -/
def assemble (header : OiHeader) (targets : OiTarget R) (arrayList : List (OiArray R))
    (wavelengthList : List (OiWavelength R)) (corrList : List (OiCorr R))
    (inspolList : List (OiInspol R)) (visList : List (OiVis R)) (vis2List : List (OiVis2 R))
    (t3List : List (OiT3 R)) (fluxList : List (OiFlux R)) : OiFits R :=
  let oi : OiFits R :=
    { numArray := arrayList.length, numWavelength := wavelengthList.length
      numCorr := corrList.length, numInspol := inspolList.length, numVis := visList.length
      numVis2 := vis2List.length, numT3 := t3List.length, numFlux := fluxList.length
      header := header, targets := targets, arrayList := arrayList
      wavelengthList := wavelengthList, corrList := corrList, inspolList := inspolList
      visList := visList, vis2List := vis2List, t3List := t3List, fluxList := fluxList
      arrayHash := HMap.empty, wavelengthHash := HMap.empty, corrHash := HMap.empty }
  let oi := visList.foldl (fun oi t => hashData oi t.arrname t.insname t.corrname) oi
  let oi := vis2List.foldl (fun oi t => hashData oi t.arrname t.insname t.corrname) oi
  let oi := t3List.foldl (fun oi t => hashData oi t.arrname t.insname t.corrname) oi
  fluxList.foldl (fun oi t => hashWavelength (hashArray oi t.arrname) t.insname) oi

/-- oifile.c:968: a header not in the form of version 2 is made up. -/
def finishHeader (oi : OiFits R) : Outcome (OiFits R) :=
  if !is_oi_fits_two oi then set_oi_header oi else .ok oi

/-- oifile.c:701-968: the body of `read_oi_fits` once the file has been opened. The
result is `none` where the contents of the struct are undefined because of an error. -/
def readBody (u : Undef R) : FitsM R (Option (OiFits R)) := do
  let header ← read_oi_header u.header
  let targets ← read_oi_target u u.target
  guardStatus none do
    let arrayList ← readTables false (read_next_oi_array u u.array)
    guardStatus none do
      let wavelengthList ← readTables false (read_next_oi_wavelength u u.wave)
      guardStatus none do
        let corrList ← readTables true (read_next_oi_corr u u.corr)
        let inspolList ← readTables true (read_next_oi_inspol u u.inspol)
        let visList ← readTables true (read_next_oi_vis u u.vis)
        let vis2List ← readTables true (read_next_oi_vis2 u u.vis2)
        let t3List ← readTables true (read_next_oi_t3 u u.t3)
        let fluxList ← readTables true (read_next_oi_flux u u.flux)
        let oi ← FitsM.lift (finishHeader (assemble header targets arrayList wavelengthList
          corrList inspolList visList vis2List t3List fluxList))
        return some oi

/-- oifile.c:684-976 `read_oi_fits` of a file with the given HDUs (`none` if it cannot
be opened): the dataset and the status. -/
def read_oi_fits (u : Undef R) (file : Option (List (Hdu R))) (status : Status) :
    Outcome (Option (OiFits R) × Status) :=
  if status ≠ .ok then .ok (none, status)
  else
    match file with
    | none => .ok (none, .other 104)
    | some hdus => do
      let (oi, s) ← readBody u ⟨hdus, 0, .ok⟩
      return (oi, s.status)

end Verif
