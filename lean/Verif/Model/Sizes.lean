import Verif.Model.Machine
import Verif.Model.Write

/-!
# Sizes of reference maps in machine integers

The reference map of an OI_VIS record has a row and a column for each channel. The code computes its number of elements,
and where an element is, as products of two variables of type `int`. `Read`, `Write`, `File` and `Filter` compute with
unbounded integers. Here the same functions compute with `int` of any number of bits (32 on usual systems): a product or a
sum which does not fit is undefined behaviour. Simplification: the numbers of rows and channels themselves are taken to fit.
-/

namespace Verif
open Outcome

variable {R : FP}

/-! ### Reading -/

/-- read_fits.c:1162-1167: VISREFMAP of a row, from column `colnum`. The product is computed twice; the second time is like
the first. -/
def readRefmapRowM (bits : Nat) (u : Undef R) (nwave colnum irow : Nat) (r : OiVisRecord R) :
    FitsM R (OiVisRecord R) := do
  let _ ← FitsM.lift (machine bits (nwave * nwave))
  FitsM.lift (chkmallocN (nwave * nwave))
  let map ← fits_read_col Cell.toLog colnum irow (nwave * nwave) (List.replicate (nwave * nwave) u.log)
  return { r with visrefmap := some map }

/-- read_fits.c:1145-1168: the optional column VISREFMAP. -/
def readRefmapM (bits : Nat) (u : Undef R) (vis : OiVis R) : FitsM R (OiVis R) := do
  let colnum ← fits_get_colnum "VISREFMAP" 0
  let st ← getStatus
  if st = .COL_NOT_FOUND then do
    setStatus .ok
    return { vis with
      usevisrefmap := false
      record := vis.record.map fun r => { r with visrefmap := none } }
  else do
    let record ← forRecs 1 vis.record (readRefmapRowM bits u vis.nwave colnum)
    return { vis with usevisrefmap := true, record := record }

/-- read_fits.c:1108-1173 `read_oi_vis_opt`. -/
def read_oi_vis_optM (bits : Nat) (u : Undef R) (vis : OiVis R) : FitsM R (OiVis R) :=
  guardStatus vis do
    if vis.revision = OI_REVN_V1_VIS then
      return { vis with corrname := [], amptyp := [], phityp := [], amporder := -1, phiorder := -1,
                        usevisrefmap := false, usecomplex := false }
    else do
      let (correlated, corrname) ← read_key_opt_string "CORRNAME" vis.corrname
      let (_, amptyp) ← read_key_opt_string "AMPTYP" vis.amptyp
      let (_, phityp) ← read_key_opt_string "PHITYP" vis.phityp
      let (_, amporder) ← read_key_opt_int "AMPORDER" vis.amporder
      let (_, phiorder) ← read_key_opt_int "PHIORDER" vis.phiorder
      let record ← readVisCorr u correlated vis.record
      let vis ← readRefmapM bits u { vis with
        corrname := corrname, amptyp := amptyp, phityp := phityp, amporder := amporder,
        phiorder := phiorder, record := record }
      read_oi_vis_complex u vis correlated

/-- read_fits.c:1185-1276 `read_next_oi_vis`, with alloc_fits.c:116-139. -/
def read_next_oi_visM (bits : Nat) (u : Undef R) (old : OiVis R) : FitsM R (OiVis R) :=
  guardStatus old do
    next_named_hdu "OI_VIS"
    guardStatus old do
      let revision ← fits_read_key_int "OI_REVN" old.revision
      guardStatus { old with revision := revision } do
        let date_obs ← fits_read_key_str "DATE-OBS" old.date_obs
        let (_, arrname) ← read_key_opt_string "ARRNAME" old.arrname
        let insname ← fits_read_key_str "INSNAME" old.insname
        let nrows ← fits_get_num_rows 0
        let colnum ← fits_get_colnum "VISAMP" 0
        let (_, nwave) ← fits_get_coltype colnum (.A, 0)
        guardStatus { old with
            revision := revision, date_obs := date_obs, arrname := arrname, insname := insname } do
          FitsM.lift (allocRecords nrows nwave)
          let (_, ampunit) ← readKeyOpt (readColUnit colnum old.ampunit) old.ampunit []
          let record ← forRows 1 nrows (readVisRecord u nwave)
          read_oi_vis_optM bits u { old with
            revision := revision, date_obs := date_obs, arrname := arrname, insname := insname
            usevisrefmap := false, usecomplex := false
            ampunit := ampunit, nwave := nwave, record := record }

/-- oifile.c:701-968, with `read_next_oi_visM`. -/
def readBodySized (bits : Nat) (u : Undef R) : FitsM R (Option (OiFits R)) := do
  let header ← read_oi_header u.header
  let targets ← read_oi_target u u.target
  guardStatus none do
    let arrayList ← readTables false (read_next_oi_array u u.array)
    guardStatus none do
      let wavelengthList ← readTables false (read_next_oi_wavelength u u.wave)
      guardStatus none do
        let corrList ← readTables true (read_next_oi_corr u u.corr)
        let inspolList ← readTables true (read_next_oi_inspol u u.inspol)
        let visList ← readTables true (read_next_oi_visM bits u u.vis)
        let vis2List ← readTables true (read_next_oi_vis2 u u.vis2)
        let t3List ← readTables true (read_next_oi_t3 u u.t3)
        let fluxList ← readTables true (read_next_oi_flux u u.flux)
        let oi ← FitsM.lift (finishHeader (assemble header targets arrayList wavelengthList
          corrList inspolList visList vis2List t3List fluxList))
        return some oi

/-- oifile.c:684-976 `read_oi_fits`. -/
def read_oi_fitsSized (bits : Nat) (u : Undef R) (file : Option (List (Hdu R))) (status : Status) :
    Outcome (Option (OiFits R) × Status) :=
  if status ≠ .ok then .ok (none, status)
  else
    match file with
    | none => .ok (none, .other 104)
    | some hdus => do
      let (oi, s) ← readBodySized bits u ⟨hdus, 0, .ok⟩
      return (oi, s.status)

/-! ### Writing -/

/-- write_fits.c:576-588: the optional column VISREFMAP. -/
def writeVisRefmapM (bits : Nat) (vis : OiVis R) : FitsM R Unit :=
  if vis.usevisrefmap then do
    let size ← FitsM.lift (machine bits (vis.nwave * vis.nwave))
    fits_insert_col 11 "VISREFMAP" (snprintf FLEN_VALUE (fmtInt size ++ ("L" : CStr)))
    writeColDim 11 (snprintf FLEN_VALUE
      (("(" : CStr) ++ fmtInt vis.nwave ++ ("," : CStr) ++ fmtInt vis.nwave ++ (")" : CStr)))
    forEach 1 vis.record fun irow r =>
      fits_write_col_ptr 11 irow size.toNat (r.visrefmap.map fun l => l.map .log)
  else pure ()

/-- write_fits.c:533-630 `write_oi_vis_opt`. -/
def write_oi_vis_optM (bits : Nat) (vis : OiVis R) : FitsM R Unit := do
  writeVisOptKeys vis
  writeVisCorr vis
  writeVisRefmapM bits vis
  writeVisComplex vis

/-- write_fits.c:644-733 `write_oi_vis`. -/
def write_oi_visM (bits : Nat) (vis : OiVis R) (extver : Int) : FitsM R Unit :=
  guardStatus () do
    let tform ← FitsM.lift (make_tform
      ["I", "D", "D", "D", "?D", "?D", "?D", "?D", "1D", "1D", "2I", "?L"] vis.nwave)
    fits_create_tbl (zip3
      ["TARGET_ID", "TIME", "MJD", "INT_TIME", "VISAMP", "VISAMPERR", "VISPHI", "VISPHIERR",
       "UCOORD", "VCOORD", "STA_INDEX", "FLAG"]
      tform
      ["", "s", "day", "s", "", "", "deg", "deg", "m", "m", "", ""]) "OI_VIS"
    writeAmpunit vis
    fits_write_key "OI_REVN" (.int OI_REVN_V2_VIS)
    fits_write_key "DATE-OBS" (.str vis.date_obs)
    writeOptKey "ARRNAME" vis.arrname
    fits_write_key "INSNAME" (.str vis.insname)
    fits_write_key "EXTVER" (.int extver)
    forEach 1 vis.record (writeVisRecord vis.nwave)
    write_oi_vis_optM bits vis

/-! ### Copying -/

/-- oifile.c:1325-1329: the reference map of a copied record. -/
def memdupRefmapM (bits : Nat) (t : OiVis R) (r : OiVisRecord R) : Outcome (Option (List Bool)) :=
  if t.usevisrefmap then do
    let size ← machine bits (t.nwave * t.nwave)
    memdupOpt r.visrefmap size.toNat
  else pure r.visrefmap

/-- oifile.c:1302-1343 `dup_oi_vis`. -/
def dup_oi_visM (bits : Nat) (t : OiVis R) : Outcome (OiVis R) := do
  let record ← memdup t.record t.record.length
  let record ← record.mapM fun r => do
    let visamp ← memdup r.visamp t.nwave
    let visamperr ← memdup r.visamperr t.nwave
    let visphi ← memdup r.visphi t.nwave
    let visphierr ← memdup r.visphierr t.nwave
    let flag ← memdup r.flag t.nwave
    let visrefmap ← memdupRefmapM bits t r
    let rvis ← memdupIf t.usecomplex r.rvis r.rvis t.nwave
    let rviserr ← memdupIf t.usecomplex r.rviserr r.rviserr t.nwave
    let ivis ← memdupIf t.usecomplex r.ivis r.ivis t.nwave
    let iviserr ← memdupIf t.usecomplex r.rviserr r.iviserr t.nwave
    return { r with visamp := visamp, visamperr := visamperr, visphi := visphi,
                    visphierr := visphierr, flag := flag, visrefmap := visrefmap,
                    rvis := rvis, rviserr := rviserr, ivis := ivis, iviserr := iviserr }
  return { t with record := record }

/-! ### Filtering -/

/-- oifilter.c:1097-1106: row `k` of the new VISREFMAP. -/
def visRefmapRowM (bits : Nat) (useWave : List Bool) (nwaveIn nwaveOut : Nat) (r : OiVisRecord R) (j k : Nat)
    (buf : List Bool) : Outcome (List Bool) := do
  let (_, buf) ← useLoop nwaveIn useWave (fun l (s : Nat × List Bool) => do
    let a ← machine bits (j * nwaveIn)
    let i ← machine bits (l + a)
    let x ← indexOpt r.visrefmap i.toNat
    let b ← machine bits (k * nwaveOut)
    let o ← machine bits (s.1 + b)
    if o.toNat < nwaveOut * nwaveOut ∧ o.toNat = s.2.length then
      return (s.1 + 1, s.2 ++ [x])
    else .ub) (0, buf)
  return buf

/-- `if (usevisrefmap) { ... }` at oifilter.c:1095-1107. -/
def visRefmapIfM (bits : Nat) (usevisrefmap : Bool) (useWave : List Bool) (nwaveIn nwaveOut : Nat)
    (r : OiVisRecord R) (j k : Nat) (buf : List Bool) : Outcome (List Bool) :=
  if usevisrefmap then visRefmapRowM bits useWave nwaveIn nwaveOut r j k buf else return buf

/-- The body of the loop at oifilter.c:1067-1116, for a channel that is used. -/
def filterVisChanM (bits : Nat) (f : FilterSpec R) (pWave : Option (OiWavelength R)) (useWave : List Bool)
    (nwaveIn nwaveOut : Nat) (usevisrefmap usecomplex : Bool) (r : OiVisRecord R) (j : Nat)
    (s : VisBuf R) : Outcome (VisBuf R) := do
  checkWrite s.k nwaveOut
  let amp ← index r.visamp j
  let amperr ← index r.visamperr j
  let phi ← index r.visphi j
  let phierr ← index r.visphierr j
  let flag ← visNewFlag f pWave r j
  let visrefmap ← visRefmapIfM bits usevisrefmap useWave nwaveIn nwaveOut r j s.k s.visrefmap
  let rvis ← copyIf usecomplex r.rvis j s.rvis
  let rviserr ← copyIf usecomplex r.rviserr j s.rviserr
  let ivis ← copyIf usecomplex r.ivis j s.ivis
  let iviserr ← copyIf usecomplex r.iviserr j s.iviserr
  return {
    k := s.k + 1
    visamp := s.visamp ++ [amp]
    visamperr := s.visamperr ++ [amperr]
    visphi := s.visphi ++ [phi]
    visphierr := s.visphierr ++ [phierr]
    flag := s.flag ++ [flag]
    visrefmap := visrefmap
    rvis := rvis
    rviserr := rviserr
    ivis := ivis
    iviserr := iviserr }

/-- oifilter.c:1045-1048: the size of the new reference map, if there is one. -/
def newRefmapSize (bits : Nat) (usevisrefmap : Bool) (nwaveOut : Nat) : Outcome Int :=
  if usevisrefmap then machine bits (nwaveOut * nwaveOut) else pure 0

/-- oifilter.c:1026-1118 `filter_oi_vis_record`. -/
def filter_oi_vis_recordM (bits : Nat) (f : FilterSpec R) (pWave : Option (OiWavelength R)) (useWave : List Bool)
    (nwaveIn nwaveOut : Nat) (usevisrefmap usecomplex : Bool) (r : OiVisRecord R) :
    Outcome (OiVisRecord R) := do
  chkmallocN nwaveOut
  let _ ← newRefmapSize bits usevisrefmap nwaveOut
  let s ← useLoop nwaveIn useWave
    (filterVisChanM bits f pWave useWave nwaveIn nwaveOut usevisrefmap usecomplex r)
    ⟨0, [], [], [], [], [], [], [], [], [], []⟩
  guardAssert (f.accept_flagged || s.flag.any (!·))
  return { r with
    target_id := newTargetId f r.target_id
    visamp := s.visamp
    visamperr := s.visamperr
    visphi := s.visphi
    visphierr := s.visphierr
    flag := s.flag
    visrefmap := arrayIf usevisrefmap s.visrefmap
    rvis := arrayIf usecomplex s.rvis
    rviserr := arrayIf usecomplex s.rviserr
    ivis := arrayIf usecomplex s.ivis
    iviserr := arrayIf usecomplex s.iviserr }

/-- oifilter.c:1129-1171 `filter_oi_vis`. -/
def filter_oi_visM (bits : Nat) (t : OiVis R) (f : FilterSpec R) (pWave : Option (OiWavelength R))
    (useWave : List Bool) : Outcome (OiVis R) := do
  let nwaveOut ← countUse t.nwave useWave
  chkmallocN t.record.length
  let record ← filterRecs (visKeep f pWave useWave t.nwave)
    (filter_oi_vis_recordM bits f pWave useWave t.nwave nwaveOut t.usevisrefmap t.usecomplex) t.record
  return { t with nwave := nwaveOut, record := record }

end Verif
