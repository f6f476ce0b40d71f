import Verif.Model.Fits
import Verif.Model.File

/-! Model of `/repo/src/oifitslib/write_fits.c` and of `write_oi_fits` in `oifile.c`.

Messages, checksums (`fits_write_chksum`) and the units in keyword comments
(`fits_write_key_unit`) are not modelled. The functions return nothing: the status
they return is the status variable. A C array of `n` records is a list. -/

namespace Verif
open Outcome

variable {R : FP}

/-- write_fits.c:56-66: the body of the loop of `make_tform`. `snprintf` returns the
number of characters of the complete text. -/
def expandTform (value : Int) (template : CStr) : Outcome CStr :=
  match template with
  | '?' :: rest => do
    let size := template.length + 4
    let full := fmtInt value ++ rest
    guardAssert (decide (full.length < size))
    return snprintf size full
  | _ => return template

/-- write_fits.c:47-69 `make_tform`. -/
def make_tform (template : List CStr) (value : Int) : Outcome (List CStr) := do
  guardAssert (decide (template.length ≠ 0))
  template.mapM (expandTform value)

/-- The arguments of `fits_create_tbl` in write_fits.c. Column names, formats and units as one list. -/
def zip3 (ttype tform tunit : List CStr) : List (CStr × CStr × CStr) := ttype.zip (tform.zip tunit)

/-- write_fits.c:140-154, 548-553, 686, 781, 890, 1009, 1040. Write the keyword unless the value is the empty string. -/
def writeOptKey (name value : CStr) : FitsM R Unit :=
  if value.length > 0 then fits_write_key name (.str value) else pure ()

/-- write_fits.c:108-117: move to the primary HDU, creating it in an empty file. -/
def primaryHdu (nhdu : Nat) : FitsM R Unit :=
  if nhdu = 0 then fits_create_img
  else do
    let _ ← fits_movabs_hdu 1
    pure ()

/-- write_fits.c:554-559. Write the keyword unless the value is negative. -/
def writeOptOrder (name : CStr) (value : Int) : FitsM R Unit :=
  if value ≥ 0 then fits_write_key name (.int value) else pure ()

/-- write_fits.c:100-164 `write_oi_header`. `today` is the date of the run. -/
def write_oi_header (today : CStr) (header : OiHeader) : FitsM R Unit :=
  guardStatus () do
    let nhdu ← fits_get_num_hdus
    primaryHdu nhdu
    fits_write_key "ORIGIN" (.str header.origin)
    fits_write_date today
    fits_write_key "DATE-OBS" (.str header.date_obs)
    fits_write_key "TELESCOP" (.str header.telescop)
    fits_write_key "INSTRUME" (.str header.instrume)
    fits_write_key "OBSERVER" (.str header.observer)
    fits_write_key "CONTENT" (.str "OIFITS2")
    fits_write_key "INSMODE" (.str header.insmode)
    fits_write_key "OBJECT" (.str header.object)
    writeOptKey "REFERENC" header.referenc
    writeOptKey "AUTHOR" header.author
    writeOptKey "PROG_ID" header.prog_id
    writeOptKey "PROCSOFT" header.procsoft
    writeOptKey "OBSTECH" header.obstech

/-- write_fits.c:211-230: one row of an OI_ARRAY table. -/
def writeElement (irow : Nat) (e : Element R) : FitsM R Unit := do
  fits_write_col 1 irow 1 [.str e.tel_name]
  fits_write_col 2 irow 1 [.str e.sta_name]
  fits_write_col 3 irow 1 [.int e.sta_index]
  fits_write_col 4 irow 1 [.flt e.diameter]
  fits_write_col 5 irow 3 [.dbl e.staxyz.1, .dbl e.staxyz.2.1, .dbl e.staxyz.2.2]
  fits_write_col 6 irow 1 [.dbl e.fov]
  fits_write_col 7 irow 1 [.str e.fovtype]

/-- write_fits.c:176-242 `write_oi_array`. -/
def write_oi_array (array : OiArray R) (extver : Int) : FitsM R Unit :=
  guardStatus () do
    fits_create_tbl (zip3
      ["TEL_NAME", "STA_NAME", "STA_INDEX", "DIAMETER", "STAXYZ", "FOV", "FOVTYPE"]
      ["16A", "16A", "I", "E", "3D", "D", "6A"]
      ["", "", "", "m", "m", "arcsec", ""]) "OI_ARRAY"
    fits_write_key "OI_REVN" (.int OI_REVN_V2_ARRAY)
    fits_write_key "ARRNAME" (.str array.arrname)
    fits_write_key "FRAME" (.str array.frame)
    fits_write_key "ARRAYX" (.dbl array.arrayx)
    fits_write_key "ARRAYY" (.dbl array.arrayy)
    fits_write_key "ARRAYZ" (.dbl array.arrayz)
    fits_write_key "EXTVER" (.int extver)
    forEach 1 array.elem writeElement

/-- write_fits.c:282-317: one row of an OI_TARGET table. -/
def writeTarget (irow : Nat) (t : Target R) : FitsM R Unit := do
  fits_write_col 1 irow 1 [.int t.target_id]
  fits_write_col 2 irow 1 [.str t.target]
  fits_write_col 3 irow 1 [.dbl t.raep0]
  fits_write_col 4 irow 1 [.dbl t.decep0]
  fits_write_col 5 irow 1 [.flt t.equinox]
  fits_write_col 6 irow 1 [.dbl t.ra_err]
  fits_write_col 7 irow 1 [.dbl t.dec_err]
  fits_write_col 8 irow 1 [.dbl t.sysvel]
  fits_write_col 9 irow 1 [.str t.veltyp]
  fits_write_col 10 irow 1 [.str t.veldef]
  fits_write_col 11 irow 1 [.dbl t.pmra]
  fits_write_col 12 irow 1 [.dbl t.pmdec]
  fits_write_col 13 irow 1 [.dbl t.pmra_err]
  fits_write_col 14 irow 1 [.dbl t.pmdec_err]
  fits_write_col 15 irow 1 [.flt t.parallax]
  fits_write_col 16 irow 1 [.flt t.para_err]
  fits_write_col 17 irow 1 [.str t.spectyp]

/-- write_fits.c:320-329: the optional column CATEGORY. -/
def writeCategory (targets : OiTarget R) : FitsM R Unit :=
  if targets.usecategory then do
    fits_insert_col 18 "CATEGORY" "3A"
    forEach 1 targets.targ fun irow t => fits_write_col 18 irow 1 [.str t.category]
  else pure ()

/-- write_fits.c:253-339 `write_oi_target`. -/
def write_oi_target (targets : OiTarget R) : FitsM R Unit :=
  guardStatus () do
    fits_create_tbl (zip3
      ["TARGET_ID", "TARGET", "RAEP0", "DECEP0", "EQUINOX", "RA_ERR", "DEC_ERR", "SYSVEL",
       "VELTYP", "VELDEF", "PMRA", "PMDEC", "PMRA_ERR", "PMDEC_ERR", "PARALLAX", "PARA_ERR",
       "SPECTYP"]
      ["I", "32A", "D", "D", "E", "D", "D", "D", "8A", "8A", "D", "D", "D", "D", "E", "E", "32A"]
      ["", "", "deg", "deg", "yr", "deg", "deg", "m/s", "", "", "deg/yr", "deg/yr", "deg/yr",
       "deg/yr", "deg", "deg", ""]) "OI_TARGET"
    fits_write_key "OI_REVN" (.int OI_REVN_V2_TARGET)
    forEach 1 targets.targ writeTarget
    writeCategory targets

/-- write_fits.c:351-388 `write_oi_wavelength`. -/
def write_oi_wavelength (wave : OiWavelength R) (extver : Int) : FitsM R Unit :=
  guardStatus () do
    fits_create_tbl (zip3 ["EFF_WAVE", "EFF_BAND"] ["E", "E"] ["m", "m"]) "OI_WAVELENGTH"
    fits_write_key "OI_REVN" (.int OI_REVN_V2_WAVELENGTH)
    fits_write_key "INSNAME" (.str wave.insname)
    fits_write_key "EXTVER" (.int extver)
    fits_write_col 1 1 wave.nwave (wave.eff_wave.map .flt)
    fits_write_col 2 1 wave.nwave (wave.eff_band.map .flt)

/-- write_fits.c:400-439 `write_oi_corr`. -/
def write_oi_corr (corr : OiCorr R) (extver : Int) : FitsM R Unit :=
  guardStatus () do
    fits_create_tbl (zip3 ["IINDX", "JINDX", "CORR"] ["J", "J", "D"] ["", "", ""]) "OI_CORR"
    fits_write_key "OI_REVN" (.int OI_REVN_V2_CORR)
    fits_write_key "CORRNAME" (.str corr.corrname)
    fits_write_key "NDATA" (.int corr.ndata)
    fits_write_key "EXTVER" (.int extver)
    fits_write_col 1 1 corr.ncorr (corr.iindx.map .int)
    fits_write_col 2 1 corr.ncorr (corr.jindx.map .int)
    fits_write_col 3 1 corr.ncorr (corr.corr.map .dbl)

/-- write_fits.c:495-516: one row of an OI_INSPOL table. -/
def writeInspolRecord (nwave irow : Nat) (r : OiInspolRecord R) : FitsM R Unit := do
  fits_write_col 1 irow 1 [.int r.target_id]
  fits_write_col 2 irow 1 [.str r.insname]
  fits_write_col 3 irow 1 [.dbl r.mjd_obs]
  fits_write_col 4 irow 1 [.dbl r.mjd_end]
  fits_write_col 5 irow nwave (r.jxx.map .cpx)
  fits_write_col 6 irow nwave (r.jyy.map .cpx)
  fits_write_col 7 irow nwave (r.jxy.map .cpx)
  fits_write_col 8 irow nwave (r.jyx.map .cpx)
  fits_write_col 9 irow 1 [.int r.sta_index]

/-- write_fits.c:451-528 `write_oi_inspol`. -/
def write_oi_inspol (inspol : OiInspol R) (extver : Int) : FitsM R Unit :=
  guardStatus () do
    let tform ← FitsM.lift (make_tform ["I", "70A", "D", "D", "?C", "?C", "?C", "?C", "I"] inspol.nwave)
    fits_create_tbl (zip3
      ["TARGET_ID", "INSNAME", "MJD_OBS", "MJD_END", "JXX", "JYY", "JXY", "JYX", "STA_INDEX"]
      tform
      ["", "", "day", "day", "", "", "", "", ""]) "OI_INSPOL"
    fits_write_key "OI_REVN" (.int OI_REVN_V2_INSPOL)
    fits_write_key "DATE-OBS" (.str inspol.date_obs)
    fits_write_key "NPOL" (.int inspol.npol)
    fits_write_key "ARRNAME" (.str inspol.arrname)
    fits_write_key "ORIENT" (.str inspol.orient)
    fits_write_key "MODEL" (.str inspol.model)
    fits_write_key "EXTVER" (.int extver)
    forEach 1 inspol.record (writeInspolRecord inspol.nwave)

/-- write_fits.c:543-561: the optional keywords of `write_oi_vis_opt`. -/
def writeVisOptKeys (vis : OiVis R) : FitsM R Unit := do
  writeOptKey "CORRNAME" vis.corrname
  writeOptKey "AMPTYP" vis.amptyp
  writeOptKey "PHITYP" vis.phityp
  writeOptOrder "AMPORDER" vis.amporder
  writeOptOrder "PHIORDER" vis.phiorder

/-- write_fits.c:564-575: the optional columns CORRINDX_VISAMP and CORRINDX_VISPHI. -/
def writeVisCorr (vis : OiVis R) : FitsM R Unit :=
  if vis.corrname.length > 0 then do
    fits_insert_col 7 "CORRINDX_VISAMP" "J"
    fits_insert_col 10 "CORRINDX_VISPHI" "J"
    forEach 1 vis.record fun irow r => do
      fits_write_col 7 irow 1 [.int r.corrindx_visamp]
      fits_write_col 10 irow 1 [.int r.corrindx_visphi]
  else pure ()

/-- write_fits.c:576-588: the optional column VISREFMAP. -/
def writeVisRefmap (vis : OiVis R) : FitsM R Unit :=
  if vis.usevisrefmap then do
    fits_insert_col 11 "VISREFMAP" (snprintf FLEN_VALUE (fmtInt (vis.nwave * vis.nwave) ++ ("L" : CStr)))
    writeColDim 11 (snprintf FLEN_VALUE
      (("(" : CStr) ++ fmtInt vis.nwave ++ ("," : CStr) ++ fmtInt vis.nwave ++ (")" : CStr)))
    forEach 1 vis.record fun irow r =>
      fits_write_col_ptr 11 irow (vis.nwave * vis.nwave) (r.visrefmap.map fun l => l.map .log)
  else pure ()

/-- write_fits.c:603-616: one row of the complex visibility columns. -/
def writeVisComplexRow (nwave irow : Nat) (r : OiVisRecord R) : FitsM R Unit := do
  FitsM.lift (guardAssert r.rvis.isSome)
  FitsM.lift (guardAssert r.rviserr.isSome)
  FitsM.lift (guardAssert r.ivis.isSome)
  FitsM.lift (guardAssert r.iviserr.isSome)
  fits_write_col_ptr 9 irow nwave (r.rvis.map fun l => l.map .dbl)
  fits_write_col_ptr 10 irow nwave (r.rviserr.map fun l => l.map .dbl)
  fits_write_col_ptr 11 irow nwave (r.ivis.map fun l => l.map .dbl)
  fits_write_col_ptr 12 irow nwave (r.iviserr.map fun l => l.map .dbl)

/-- write_fits.c:617-627: the optional columns CORRINDX_RVIS and CORRINDX_IVIS. -/
def writeVisComplexCorr (vis : OiVis R) : FitsM R Unit :=
  if vis.corrname.length > 0 then do
    fits_insert_col 11 "CORRINDX_RVIS" "J"
    fits_insert_col 14 "CORRINDX_IVIS" "J"
    forEach 1 vis.record fun irow r => do
      fits_write_col 11 irow 1 [.int r.corrindx_rvis]
      fits_write_col 14 irow 1 [.int r.corrindx_ivis]
  else pure ()

/-- write_fits.c:589-628: the optional complex visibility columns. -/
def writeVisComplex (vis : OiVis R) : FitsM R Unit :=
  if vis.usecomplex then do
    let tform ← FitsM.lift (make_tform ["?D", "?D", "?D", "?D"] vis.nwave)
    fits_insert_cols 9 (List.zip (["RVIS", "RVISERR", "IVIS", "IVISERR"] : List CStr) tform)
    writeColUnit 9 vis.complexunit
    writeColUnit 10 vis.complexunit
    writeColUnit 11 vis.complexunit
    writeColUnit 12 vis.complexunit
    forEach 1 vis.record (writeVisComplexRow vis.nwave)
    writeVisComplexCorr vis
  else pure ()

/-- write_fits.c:533-630 `write_oi_vis_opt`. -/
def write_oi_vis_opt (vis : OiVis R) : FitsM R Unit := do
  writeVisOptKeys vis
  writeVisCorr vis
  writeVisRefmap vis
  writeVisComplex vis

/-- write_fits.c:695-720: one row of an OI_VIS table. TIME is always written as zero. -/
def writeVisRecord (nwave irow : Nat) (r : OiVisRecord R) : FitsM R Unit := do
  fits_write_col 1 irow 1 [.int r.target_id]
  fits_write_col 2 irow 1 [.dbl (R.lit 0.0)]
  fits_write_col 3 irow 1 [.dbl r.mjd]
  fits_write_col 4 irow 1 [.dbl r.int_time]
  fits_write_col 5 irow nwave (r.visamp.map .dbl)
  fits_write_col 6 irow nwave (r.visamperr.map .dbl)
  fits_write_col 7 irow nwave (r.visphi.map .dbl)
  fits_write_col 8 irow nwave (r.visphierr.map .dbl)
  fits_write_col 9 irow 1 [.dbl r.ucoord]
  fits_write_col 10 irow 1 [.dbl r.vcoord]
  fits_write_col 11 irow 2 [.int r.sta_index.1, .int r.sta_index.2]
  fits_write_col 12 irow nwave (r.flag.map .log)

/-- write_fits.c:667-672: units of the columns VISAMP and VISAMPERR. -/
def writeAmpunit (vis : OiVis R) : FitsM R Unit :=
  if vis.amptyp = ("correlated flux" : CStr) then do
    writeColUnit 5 vis.ampunit
    writeColUnit 6 vis.ampunit
  else pure ()

/-- write_fits.c:644-733 `write_oi_vis`. -/
def write_oi_vis (vis : OiVis R) (extver : Int) : FitsM R Unit :=
  guardStatus () do
    let tform ← FitsM.lift (make_tform
      ["I", "D", "D", "D", "?D", "?D", "?D", "?D", "1D", "1D", "2I", "?L"] vis.nwave)
    fits_create_tbl (zip3
      ["TARGET_ID", "TIME", "MJD", "INT_TIME", "VISAMP", "VISAMPERR", "VISPHI", "VISPHIERR",
       "UCOORD", "VCOORD", "STA_INDEX", "FLAG"]
      tform
      ["", "s", "day", "s", "", "", "deg", "deg", "m", "m", "", ""]) "OI_VIS"
    writeAmpunit vis
    fits_write_key "OI_REVN" (.int OI_REVN_V2_VIS)
    fits_write_key "DATE-OBS" (.str vis.date_obs)
    writeOptKey "ARRNAME" vis.arrname
    fits_write_key "INSNAME" (.str vis.insname)
    fits_write_key "EXTVER" (.int extver)
    forEach 1 vis.record (writeVisRecord vis.nwave)
    write_oi_vis_opt vis

/-- write_fits.c:793-815: one row of an OI_VIS2 table. -/
def writeVis2Record (nwave irow : Nat) (r : OiVis2Record R) : FitsM R Unit := do
  fits_write_col 1 irow 1 [.int r.target_id]
  fits_write_col 2 irow 1 [.dbl (R.lit 0.0)]
  fits_write_col 3 irow 1 [.dbl r.mjd]
  fits_write_col 4 irow 1 [.dbl r.int_time]
  fits_write_col 5 irow nwave (r.vis2data.map .dbl)
  fits_write_col 6 irow nwave (r.vis2err.map .dbl)
  fits_write_col 7 irow 1 [.dbl r.ucoord]
  fits_write_col 8 irow 1 [.dbl r.vcoord]
  fits_write_col 9 irow 2 [.int r.sta_index.1, .int r.sta_index.2]
  fits_write_col 10 irow nwave (r.flag.map .log)

/-- write_fits.c:818-831: the optional keyword and column of an OI_VIS2 table. -/
def writeVis2Corr (vis2 : OiVis2 R) : FitsM R Unit :=
  if vis2.corrname.length > 0 then do
    fits_write_key "CORRNAME" (.str vis2.corrname)
    fits_insert_col 7 "CORRINDX_VIS2DATA" "J"
    forEach 1 vis2.record fun irow r => fits_write_col 7 irow 1 [.int r.corrindx_vis2data]
  else pure ()

/-- write_fits.c:747-840 `write_oi_vis2`. -/
def write_oi_vis2 (vis2 : OiVis2 R) (extver : Int) : FitsM R Unit :=
  guardStatus () do
    let tform ← FitsM.lift (make_tform
      ["I", "D", "D", "D", "?D", "?D", "1D", "1D", "2I", "?L"] vis2.nwave)
    fits_create_tbl (zip3
      ["TARGET_ID", "TIME", "MJD", "INT_TIME", "VIS2DATA", "VIS2ERR", "UCOORD", "VCOORD",
       "STA_INDEX", "FLAG"]
      tform
      ["", "s", "day", "s", "", "", "m", "m", "", ""]) "OI_VIS2"
    fits_write_key "OI_REVN" (.int OI_REVN_V2_VIS2)
    fits_write_key "DATE-OBS" (.str vis2.date_obs)
    writeOptKey "ARRNAME" vis2.arrname
    fits_write_key "INSNAME" (.str vis2.insname)
    fits_write_key "EXTVER" (.int extver)
    forEach 1 vis2.record (writeVis2Record vis2.nwave)
    writeVis2Corr vis2

/-- write_fits.c:901-931: one row of an OI_T3 table. -/
def writeT3Record (nwave irow : Nat) (r : OiT3Record R) : FitsM R Unit := do
  fits_write_col 1 irow 1 [.int r.target_id]
  fits_write_col 2 irow 1 [.dbl (R.lit 0.0)]
  fits_write_col 3 irow 1 [.dbl r.mjd]
  fits_write_col 4 irow 1 [.dbl r.int_time]
  fits_write_col 5 irow nwave (r.t3amp.map .dbl)
  fits_write_col 6 irow nwave (r.t3amperr.map .dbl)
  fits_write_col 7 irow nwave (r.t3phi.map .dbl)
  fits_write_col 8 irow nwave (r.t3phierr.map .dbl)
  fits_write_col 9 irow 1 [.dbl r.u1coord]
  fits_write_col 10 irow 1 [.dbl r.v1coord]
  fits_write_col 11 irow 1 [.dbl r.u2coord]
  fits_write_col 12 irow 1 [.dbl r.v2coord]
  fits_write_col 13 irow 3 [.int r.sta_index.1, .int r.sta_index.2.1, .int r.sta_index.2.2]
  fits_write_col 14 irow nwave (r.flag.map .log)

/-- write_fits.c:934-951: the optional keyword and columns of an OI_T3 table. -/
def writeT3Corr (t3 : OiT3 R) : FitsM R Unit :=
  if t3.corrname.length > 0 then do
    fits_write_key "CORRNAME" (.str t3.corrname)
    fits_insert_col 7 "CORRINDX_T3AMP" "J"
    fits_insert_col 10 "CORRINDX_T3PHI" "J"
    forEach 1 t3.record fun irow r => do
      fits_write_col 7 irow 1 [.int r.corrindx_t3amp]
      fits_write_col 10 irow 1 [.int r.corrindx_t3phi]
  else pure ()

/-- write_fits.c:854-960 `write_oi_t3`. -/
def write_oi_t3 (t3 : OiT3 R) (extver : Int) : FitsM R Unit :=
  guardStatus () do
    let tform ← FitsM.lift (make_tform
      ["I", "D", "D", "D", "?D", "?D", "?D", "?D", "1D", "1D", "1D", "1D", "3I", "?L"] t3.nwave)
    fits_create_tbl (zip3
      ["TARGET_ID", "TIME", "MJD", "INT_TIME", "T3AMP", "T3AMPERR", "T3PHI", "T3PHIERR",
       "U1COORD", "V1COORD", "U2COORD", "V2COORD", "STA_INDEX", "FLAG"]
      tform
      ["", "s", "day", "s", "", "", "deg", "deg", "m", "m", "m", "m", "", ""]) "OI_T3"
    fits_write_key "OI_REVN" (.int OI_REVN_V2_T3)
    fits_write_key "DATE-OBS" (.str t3.date_obs)
    writeOptKey "ARRNAME" t3.arrname
    fits_write_key "INSNAME" (.str t3.insname)
    fits_write_key "EXTVER" (.int extver)
    forEach 1 t3.record (writeT3Record t3.nwave)
    writeT3Corr t3

/-- write_fits.c:1021-1035: one row of an OI_FLUX table. -/
def writeFluxRecord (nwave irow : Nat) (r : OiFluxRecord R) : FitsM R Unit := do
  fits_write_col 1 irow 1 [.int r.target_id]
  fits_write_col 2 irow 1 [.dbl r.mjd]
  fits_write_col 3 irow 1 [.dbl r.int_time]
  fits_write_col 4 irow nwave (r.fluxdata.map .dbl)
  fits_write_col 5 irow nwave (r.fluxerr.map .dbl)
  fits_write_col 6 irow nwave (r.flag.map .log)

/-- write_fits.c:1038-1046: the optional keywords FOV and FOVTYPE. -/
def writeFluxFov (flux : OiFlux R) : FitsM R Unit :=
  if flux.fovtype.length > 0 then do
    fits_write_key "FOV" (.dbl flux.fov)
    fits_write_key "FOVTYPE" (.str flux.fovtype)
  else pure ()

/-- write_fits.c:1047-1061: the optional keyword CORRNAME and column CORRINDX_FLUXDATA. -/
def writeFluxCorr (flux : OiFlux R) : FitsM R Unit :=
  if flux.corrname.length > 0 then do
    fits_write_key "CORRNAME" (.str flux.corrname)
    fits_insert_col 5 "CORRINDX_FLUXDATA" "J"
    forEach 1 flux.record fun irow r => fits_write_col 5 irow 1 [.int r.corrindx_fluxdata]
  else pure ()

/-- write_fits.c:1062-1070: the optional column STA_INDEX. -/
def writeFluxSta (flux : OiFlux R) : FitsM R Unit :=
  if flux.arrname.length > 0 then do
    fits_insert_col 6 "STA_INDEX" "I"
    forEach 1 flux.record fun irow r => fits_write_col 6 irow 1 [.int r.sta_index]
  else pure ()

/-- write_fits.c:972-1081 `write_oi_flux`. A CALSTAT of NUL is the empty string. -/
def write_oi_flux (flux : OiFlux R) (extver : Int) : FitsM R Unit :=
  guardStatus () do
    let tform ← FitsM.lift (make_tform ["I", "D", "D", "?D", "?D", "?L"] flux.nwave)
    fits_create_tbl (zip3
      ["TARGET_ID", "MJD", "INT_TIME", "FLUXDATA", "FLUXERR", "FLAG"]
      tform
      ["", "day", "s", "", "", ""]) "OI_FLUX"
    writeColUnit 4 flux.fluxunit
    writeColUnit 5 flux.fluxunit
    fits_write_key "OI_REVN" (.int OI_REVN_V2_FLUX)
    fits_write_key "DATE-OBS" (.str flux.date_obs)
    writeOptKey "ARRNAME" flux.arrname
    fits_write_key "INSNAME" (.str flux.insname)
    fits_write_key "CALSTAT" (.str (if flux.calstat = '\x00' then [] else [flux.calstat]))
    fits_write_key "EXTVER" (.int extver)
    forEach 1 flux.record (writeFluxRecord flux.nwave)
    writeFluxFov flux
    writeFluxCorr flux
    writeFluxSta flux

/-- oifile.c:544-554 `WRITE_OI_LIST`: `extver` counts from 1. -/
def writeList {α : Type} (l : List α) (write : α → Int → FitsM R Unit) : FitsM R Unit :=
  forEach 1 l fun extver t => write t extver

/-- oifile.c:638-663: the body of `write_oi_fits` once the file has been created. -/
def writeBody (today : CStr) (oi : OiFits R) : FitsM R Unit := do
  write_oi_header today oi.header
  write_oi_target oi.targets
  writeList oi.arrayList write_oi_array
  writeList oi.wavelengthList write_oi_wavelength
  writeList oi.corrList write_oi_corr
  writeList oi.inspolList write_oi_inspol
  writeList oi.visList write_oi_vis
  writeList oi.vis2List write_oi_vis2
  writeList oi.t3List write_oi_t3
  writeList oi.fluxList write_oi_flux

/-- oifile.c:628-672 `write_oi_fits`: the HDUs of the new file and the status.
`exists_` says that there is a file of that name already, which `fits_create_file`
does not overwrite (`FILE_NOT_CREATED`). -/
def write_oi_fits (today : CStr) (exists_ : Bool) (oi : OiFits R) (status : Status) :
    Outcome (Option (List (Hdu R)) × Status) :=
  if status ≠ .ok then .ok (none, status)
  else if exists_ then .ok (none, .other 105)
  else do
    let (_, s) ← writeBody today oi ⟨[], 0, .ok⟩
    return (some s.hdus, s.status)

end Verif
