import Verif.Model.Cli

/-!
# Writing files when calls of CFITSIO fail

`Write` models what is written if CFITSIO does its work. Here the functions of
`/repo/src/oifitslib/write_fits.c` are given as the list of calls of CFITSIO which they make, any
of which may fail, for any reason (a full disk, say), with any error code and with anything left in
the file. `Proof/Fault.lean` shows that without failures the lists do the same as the functions in
`Write`. Calls for checksums and units of keywords, which `Write` leaves out, are listed, since
they can fail too.
-/

namespace Verif
open Outcome

variable {R : FP}

/-- What the functions of write_fits.c do one after the other. `isCall` says which of these are
calls of CFITSIO. -/
inductive WriteOp (R : FP) where
  /-- `fits_get_num_hdus` (which cannot fail), then `fits_create_img` or `fits_movabs_hdu` -/
  | primary
  /-- `fits_create_tbl` -/
  | table (names forms units : List CStr) (extname : CStr)
  /-- `fits_write_key` -/
  | key (name : CStr) (v : KeyVal R)
  /-- `fits_write_date` -/
  | date (today : CStr)
  /-- `fits_write_key_unit`, which adds to the comment of a keyword -/
  | keyUnit (name unit : CStr)
  /-- `fits_write_key` for TUNITn -/
  | colUnit (n : Nat) (v : CStr)
  /-- `fits_write_key` for TDIMn -/
  | colDim (n : Nat) (v : CStr)
  /-- `fits_insert_col` or `fits_insert_cols` -/
  | insert (n : Nat) (fields : List (CStr × CStr))
  /-- `fits_write_col` -/
  | col (colnum row n : Nat) (array : List (Cell R))
  /-- `fits_write_col` of an array which may be NULL -/
  | colPtr (colnum row n : Nat) (array : Option (List (Cell R)))
  /-- `fits_write_chksum` -/
  | chksum
  /-- `make_tform` -/
  | tform (template : List CStr) (value : Int)
  /-- `assert` -/
  | assert (b : Bool)

/-- Whether this is a call of CFITSIO. -/
def WriteOp.isCall : WriteOp R → Bool
  | .tform _ _ => false
  | .assert _ => false
  | _ => true

/-- What is done if CFITSIO does its work. -/
def WriteOp.run : WriteOp R → FitsM R Unit
  | .primary => do
    let nhdu ← fits_get_num_hdus
    primaryHdu nhdu
  | .table names forms units extname => fits_create_tbl (zip3 names forms units) extname
  | .key name v => fits_write_key name v
  | .date today => fits_write_date today
  | .keyUnit _ _ => pure ()
  | .colUnit n v => writeColUnit n v
  | .colDim n v => writeColDim n v
  | .insert n fields => fits_insert_cols n fields
  | .col colnum row n array => fits_write_col colnum row n array
  | .colPtr colnum row n array => fits_write_col_ptr colnum row n array
  | .chksum => pure ()
  | .tform template value => do
    let _ ← FitsM.lift (make_tform template value)
    pure ()
  | .assert b => FitsM.lift (guardAssert b)

/-- A call fails: the error code, and the HDUs which are then in the file. -/
structure Fault (R : FP) where
  code : Status
  bad : code ≠ .ok
  left : List (Hdu R)

/-- With a fault, a call which CFITSIO does not refuse to make because of an earlier error fails. -/
def WriteOp.attempt (fault : Option (Fault R)) (op : WriteOp R) : FitsM R Unit := fun s =>
  match fault with
  | some f => if op.isCall = true ∧ s.status = .ok then .ok ((), ⟨f.left, s.cur, f.code⟩) else op.run s
  | none => op.run s

/-- One after the other, from number `n` on. -/
def runOps (faults : Nat → Option (Fault R)) : Nat → List (WriteOp R) → FitsM R Unit
  | _, [] => pure ()
  | n, op :: ops => do
    op.attempt (faults n)
    runOps faults (n + 1) ops

/-- For the rows of a table, from number `first` on. -/
def eachRow {α : Type} (first : Nat) : List α → (Nat → α → List (WriteOp R)) → List (WriteOp R)
  | [], _ => []
  | x :: xs, ops => ops first x ++ eachRow (first + 1) xs ops

/-- The formats which `make_tform` (write_fits.c:47-69) makes. If it ends the program there are none. -/
def tforms (template : List CStr) (value : Int) : List CStr :=
  match make_tform template value with
  | .ok l => l
  | _ => []

/-- write_fits.c:140-154 and the like. Write the keyword unless the value is the empty string. -/
def optKey (name value : CStr) : List (WriteOp R) :=
  if value.length > 0 then [.key name (.str value)] else []

/-- write_fits.c:554-559. Write the keyword unless the value is negative. -/
def optOrder (name : CStr) (value : Int) : List (WriteOp R) :=
  if value ≥ 0 then [.key name (.int value)] else []

/-- write_fits.c:107-155 `write_oi_header`. -/
def headerSteps (today : CStr) (header : OiHeader) : List (WriteOp R) :=
  [.primary, .key "ORIGIN" (.str header.origin), .date today, .key "DATE-OBS" (.str header.date_obs),
   .key "TELESCOP" (.str header.telescop), .key "INSTRUME" (.str header.instrume),
   .key "OBSERVER" (.str header.observer), .key "CONTENT" (.str "OIFITS2"), .key "INSMODE" (.str header.insmode),
   .key "OBJECT" (.str header.object)] ++
  optKey "REFERENC" header.referenc ++ optKey "AUTHOR" header.author ++ optKey "PROG_ID" header.prog_id ++
  optKey "PROCSOFT" header.procsoft ++ optKey "OBSTECH" header.obstech ++ [.chksum]

/-- write_fits.c:191-233 `write_oi_array`. -/
def arraySteps (array : OiArray R) (extver : Int) : List (WriteOp R) :=
  [.table ["TEL_NAME", "STA_NAME", "STA_INDEX", "DIAMETER", "STAXYZ", "FOV", "FOVTYPE"]
      ["16A", "16A", "I", "E", "3D", "D", "6A"] ["", "", "", "m", "m", "arcsec", ""] "OI_ARRAY",
   .key "OI_REVN" (.int OI_REVN_V2_ARRAY), .key "ARRNAME" (.str array.arrname), .key "FRAME" (.str array.frame),
   .key "ARRAYX" (.dbl array.arrayx), .keyUnit "ARRAYX" "m", .key "ARRAYY" (.dbl array.arrayy),
   .keyUnit "ARRAYY" "m", .key "ARRAYZ" (.dbl array.arrayz), .keyUnit "ARRAYZ" "m", .key "EXTVER" (.int extver)] ++
  eachRow 1 array.elem (fun irow e =>
    [.col 1 irow 1 [.str e.tel_name], .col 2 irow 1 [.str e.sta_name], .col 3 irow 1 [.int e.sta_index],
     .col 4 irow 1 [.flt e.diameter], .col 5 irow 3 [.dbl e.staxyz.1, .dbl e.staxyz.2.1, .dbl e.staxyz.2.2],
     .col 6 irow 1 [.dbl e.fov], .col 7 irow 1 [.str e.fovtype]]) ++
  [.chksum]

/-- write_fits.c:270-331 `write_oi_target`. -/
def targetSteps (targets : OiTarget R) : List (WriteOp R) :=
  [.table
      ["TARGET_ID", "TARGET", "RAEP0", "DECEP0", "EQUINOX", "RA_ERR", "DEC_ERR", "SYSVEL",
       "VELTYP", "VELDEF", "PMRA", "PMDEC", "PMRA_ERR", "PMDEC_ERR", "PARALLAX", "PARA_ERR",
       "SPECTYP"]
      ["I", "32A", "D", "D", "E", "D", "D", "D", "8A", "8A", "D", "D", "D", "D", "E", "E", "32A"]
      ["", "", "deg", "deg", "yr", "deg", "deg", "m/s", "", "", "deg/yr", "deg/yr", "deg/yr",
       "deg/yr", "deg", "deg", ""] "OI_TARGET",
   .key "OI_REVN" (.int OI_REVN_V2_TARGET)] ++
  eachRow 1 targets.targ (fun irow t =>
    [.col 1 irow 1 [.int t.target_id], .col 2 irow 1 [.str t.target], .col 3 irow 1 [.dbl t.raep0],
     .col 4 irow 1 [.dbl t.decep0], .col 5 irow 1 [.flt t.equinox], .col 6 irow 1 [.dbl t.ra_err],
     .col 7 irow 1 [.dbl t.dec_err], .col 8 irow 1 [.dbl t.sysvel], .col 9 irow 1 [.str t.veltyp],
     .col 10 irow 1 [.str t.veldef], .col 11 irow 1 [.dbl t.pmra], .col 12 irow 1 [.dbl t.pmdec],
     .col 13 irow 1 [.dbl t.pmra_err], .col 14 irow 1 [.dbl t.pmdec_err], .col 15 irow 1 [.flt t.parallax],
     .col 16 irow 1 [.flt t.para_err], .col 17 irow 1 [.str t.spectyp]]) ++
  (if targets.usecategory then
    .insert 18 [("CATEGORY", "3A")] :: eachRow 1 targets.targ fun irow t => [.col 18 irow 1 [.str t.category]]
  else []) ++
  [.chksum]

/-- write_fits.c:362-379 `write_oi_wavelength`. -/
def wavelengthSteps (wave : OiWavelength R) (extver : Int) : List (WriteOp R) :=
  [.table ["EFF_WAVE", "EFF_BAND"] ["E", "E"] ["m", "m"] "OI_WAVELENGTH",
   .key "OI_REVN" (.int OI_REVN_V2_WAVELENGTH), .key "INSNAME" (.str wave.insname), .key "EXTVER" (.int extver),
   .col 1 1 wave.nwave (wave.eff_wave.map .flt), .col 2 1 wave.nwave (wave.eff_band.map .flt), .chksum]

/-- write_fits.c:411-430 `write_oi_corr`. -/
def corrSteps (corr : OiCorr R) (extver : Int) : List (WriteOp R) :=
  [.table ["IINDX", "JINDX", "CORR"] ["J", "J", "D"] ["", "", ""] "OI_CORR",
   .key "OI_REVN" (.int OI_REVN_V2_CORR), .key "CORRNAME" (.str corr.corrname), .key "NDATA" (.int corr.ndata),
   .key "EXTVER" (.int extver), .col 1 1 corr.ncorr (corr.iindx.map .int), .col 2 1 corr.ncorr (corr.jindx.map .int),
   .col 3 1 corr.ncorr (corr.corr.map .dbl), .chksum]

/-- write_fits.c:464-519 `write_oi_inspol`. -/
def inspolSteps (inspol : OiInspol R) (extver : Int) : List (WriteOp R) :=
  [.tform ["I", "70A", "D", "D", "?C", "?C", "?C", "?C", "I"] inspol.nwave,
   .table ["TARGET_ID", "INSNAME", "MJD_OBS", "MJD_END", "JXX", "JYY", "JXY", "JYX", "STA_INDEX"]
      (tforms ["I", "70A", "D", "D", "?C", "?C", "?C", "?C", "I"] inspol.nwave)
      ["", "", "day", "day", "", "", "", "", ""] "OI_INSPOL",
   .key "OI_REVN" (.int OI_REVN_V2_INSPOL), .key "DATE-OBS" (.str inspol.date_obs), .key "NPOL" (.int inspol.npol),
   .key "ARRNAME" (.str inspol.arrname), .key "ORIENT" (.str inspol.orient), .key "MODEL" (.str inspol.model),
   .key "EXTVER" (.int extver)] ++
  eachRow 1 inspol.record (fun irow r =>
    [.col 1 irow 1 [.int r.target_id], .col 2 irow 1 [.str r.insname], .col 3 irow 1 [.dbl r.mjd_obs],
     .col 4 irow 1 [.dbl r.mjd_end], .col 5 irow inspol.nwave (r.jxx.map .cpx),
     .col 6 irow inspol.nwave (r.jyy.map .cpx), .col 7 irow inspol.nwave (r.jxy.map .cpx),
     .col 8 irow inspol.nwave (r.jyx.map .cpx), .col 9 irow 1 [.int r.sta_index]]) ++
  [.chksum]

/-- write_fits.c:543-628 `write_oi_vis_opt`. -/
def visOptSteps (vis : OiVis R) : List (WriteOp R) :=
  optKey "CORRNAME" vis.corrname ++ optKey "AMPTYP" vis.amptyp ++ optKey "PHITYP" vis.phityp ++
  optOrder "AMPORDER" vis.amporder ++ optOrder "PHIORDER" vis.phiorder ++
  (if vis.corrname.length > 0 then
    [.insert 7 [("CORRINDX_VISAMP", "J")], .insert 10 [("CORRINDX_VISPHI", "J")]] ++
    eachRow 1 vis.record fun irow r => [.col 7 irow 1 [.int r.corrindx_visamp], .col 10 irow 1 [.int r.corrindx_visphi]]
  else []) ++
  (if vis.usevisrefmap then
    [.insert 11 [("VISREFMAP", snprintf FLEN_VALUE (fmtInt (vis.nwave * vis.nwave) ++ ("L" : CStr)))],
     .colDim 11 (snprintf FLEN_VALUE
      (("(" : CStr) ++ fmtInt vis.nwave ++ ("," : CStr) ++ fmtInt vis.nwave ++ (")" : CStr)))] ++
    eachRow 1 vis.record fun irow r =>
      [.colPtr 11 irow (vis.nwave * vis.nwave) (r.visrefmap.map fun l => l.map .log)]
  else []) ++
  (if vis.usecomplex then
    [.tform ["?D", "?D", "?D", "?D"] vis.nwave,
     .insert 9 (List.zip (["RVIS", "RVISERR", "IVIS", "IVISERR"] : List CStr)
      (tforms ["?D", "?D", "?D", "?D"] vis.nwave)),
     .colUnit 9 vis.complexunit, .colUnit 10 vis.complexunit, .colUnit 11 vis.complexunit,
     .colUnit 12 vis.complexunit] ++
    eachRow 1 vis.record (fun irow r =>
      [.assert r.rvis.isSome, .assert r.rviserr.isSome, .assert r.ivis.isSome, .assert r.iviserr.isSome,
       .colPtr 9 irow vis.nwave (r.rvis.map fun l => l.map .dbl),
       .colPtr 10 irow vis.nwave (r.rviserr.map fun l => l.map .dbl),
       .colPtr 11 irow vis.nwave (r.ivis.map fun l => l.map .dbl),
       .colPtr 12 irow vis.nwave (r.iviserr.map fun l => l.map .dbl)]) ++
    (if vis.corrname.length > 0 then
      [.insert 11 [("CORRINDX_RVIS", "J")], .insert 14 [("CORRINDX_IVIS", "J")]] ++
      eachRow 1 vis.record fun irow r => [.col 11 irow 1 [.int r.corrindx_rvis], .col 14 irow 1 [.int r.corrindx_ivis]]
    else [])
  else [])

/-- write_fits.c:660-724 `write_oi_vis`. -/
def visSteps (vis : OiVis R) (extver : Int) : List (WriteOp R) :=
  [.tform ["I", "D", "D", "D", "?D", "?D", "?D", "?D", "1D", "1D", "2I", "?L"] vis.nwave,
   .table ["TARGET_ID", "TIME", "MJD", "INT_TIME", "VISAMP", "VISAMPERR", "VISPHI", "VISPHIERR",
       "UCOORD", "VCOORD", "STA_INDEX", "FLAG"]
      (tforms ["I", "D", "D", "D", "?D", "?D", "?D", "?D", "1D", "1D", "2I", "?L"] vis.nwave)
      ["", "s", "day", "s", "", "", "deg", "deg", "m", "m", "", ""] "OI_VIS"] ++
  (if vis.amptyp = ("correlated flux" : CStr) then [.colUnit 5 vis.ampunit, .colUnit 6 vis.ampunit] else []) ++
  [.key "OI_REVN" (.int OI_REVN_V2_VIS), .key "DATE-OBS" (.str vis.date_obs)] ++
  optKey "ARRNAME" vis.arrname ++
  [.key "INSNAME" (.str vis.insname), .key "EXTVER" (.int extver)] ++
  eachRow 1 vis.record (fun irow r =>
    [.col 1 irow 1 [.int r.target_id], .col 2 irow 1 [.dbl (R.lit 0.0)], .col 3 irow 1 [.dbl r.mjd],
     .col 4 irow 1 [.dbl r.int_time], .col 5 irow vis.nwave (r.visamp.map .dbl),
     .col 6 irow vis.nwave (r.visamperr.map .dbl), .col 7 irow vis.nwave (r.visphi.map .dbl),
     .col 8 irow vis.nwave (r.visphierr.map .dbl), .col 9 irow 1 [.dbl r.ucoord], .col 10 irow 1 [.dbl r.vcoord],
     .col 11 irow 2 [.int r.sta_index.1, .int r.sta_index.2], .col 12 irow vis.nwave (r.flag.map .log)]) ++
  visOptSteps vis ++ [.chksum]

/-- write_fits.c:762-831 `write_oi_vis2`. -/
def vis2Steps (vis2 : OiVis2 R) (extver : Int) : List (WriteOp R) :=
  [.tform ["I", "D", "D", "D", "?D", "?D", "1D", "1D", "2I", "?L"] vis2.nwave,
   .table ["TARGET_ID", "TIME", "MJD", "INT_TIME", "VIS2DATA", "VIS2ERR", "UCOORD", "VCOORD",
       "STA_INDEX", "FLAG"]
      (tforms ["I", "D", "D", "D", "?D", "?D", "1D", "1D", "2I", "?L"] vis2.nwave)
      ["", "s", "day", "s", "", "", "m", "m", "", ""] "OI_VIS2",
   .key "OI_REVN" (.int OI_REVN_V2_VIS2), .key "DATE-OBS" (.str vis2.date_obs)] ++
  optKey "ARRNAME" vis2.arrname ++
  [.key "INSNAME" (.str vis2.insname), .key "EXTVER" (.int extver)] ++
  eachRow 1 vis2.record (fun irow r =>
    [.col 1 irow 1 [.int r.target_id], .col 2 irow 1 [.dbl (R.lit 0.0)], .col 3 irow 1 [.dbl r.mjd],
     .col 4 irow 1 [.dbl r.int_time], .col 5 irow vis2.nwave (r.vis2data.map .dbl),
     .col 6 irow vis2.nwave (r.vis2err.map .dbl), .col 7 irow 1 [.dbl r.ucoord], .col 8 irow 1 [.dbl r.vcoord],
     .col 9 irow 2 [.int r.sta_index.1, .int r.sta_index.2], .col 10 irow vis2.nwave (r.flag.map .log)]) ++
  (if vis2.corrname.length > 0 then
    [.key "CORRNAME" (.str vis2.corrname), .insert 7 [("CORRINDX_VIS2DATA", "J")]] ++
    eachRow 1 vis2.record fun irow r => [.col 7 irow 1 [.int r.corrindx_vis2data]]
  else []) ++
  [.chksum]

/-- write_fits.c:870-951 `write_oi_t3`. -/
def t3Steps (t3 : OiT3 R) (extver : Int) : List (WriteOp R) :=
  [.tform ["I", "D", "D", "D", "?D", "?D", "?D", "?D", "1D", "1D", "1D", "1D", "3I", "?L"] t3.nwave,
   .table ["TARGET_ID", "TIME", "MJD", "INT_TIME", "T3AMP", "T3AMPERR", "T3PHI", "T3PHIERR",
       "U1COORD", "V1COORD", "U2COORD", "V2COORD", "STA_INDEX", "FLAG"]
      (tforms ["I", "D", "D", "D", "?D", "?D", "?D", "?D", "1D", "1D", "1D", "1D", "3I", "?L"] t3.nwave)
      ["", "s", "day", "s", "", "", "deg", "deg", "m", "m", "m", "m", "", ""] "OI_T3",
   .key "OI_REVN" (.int OI_REVN_V2_T3), .key "DATE-OBS" (.str t3.date_obs)] ++
  optKey "ARRNAME" t3.arrname ++
  [.key "INSNAME" (.str t3.insname), .key "EXTVER" (.int extver)] ++
  eachRow 1 t3.record (fun irow r =>
    [.col 1 irow 1 [.int r.target_id], .col 2 irow 1 [.dbl (R.lit 0.0)], .col 3 irow 1 [.dbl r.mjd],
     .col 4 irow 1 [.dbl r.int_time], .col 5 irow t3.nwave (r.t3amp.map .dbl),
     .col 6 irow t3.nwave (r.t3amperr.map .dbl), .col 7 irow t3.nwave (r.t3phi.map .dbl),
     .col 8 irow t3.nwave (r.t3phierr.map .dbl), .col 9 irow 1 [.dbl r.u1coord], .col 10 irow 1 [.dbl r.v1coord],
     .col 11 irow 1 [.dbl r.u2coord], .col 12 irow 1 [.dbl r.v2coord],
     .col 13 irow 3 [.int r.sta_index.1, .int r.sta_index.2.1, .int r.sta_index.2.2],
     .col 14 irow t3.nwave (r.flag.map .log)]) ++
  (if t3.corrname.length > 0 then
    [.key "CORRNAME" (.str t3.corrname), .insert 7 [("CORRINDX_T3AMP", "J")], .insert 10 [("CORRINDX_T3PHI", "J")]] ++
    eachRow 1 t3.record fun irow r => [.col 7 irow 1 [.int r.corrindx_t3amp], .col 10 irow 1 [.int r.corrindx_t3phi]]
  else []) ++
  [.chksum]

/-- write_fits.c:986-1072 `write_oi_flux`. -/
def fluxSteps (flux : OiFlux R) (extver : Int) : List (WriteOp R) :=
  [.tform ["I", "D", "D", "?D", "?D", "?L"] flux.nwave,
   .table ["TARGET_ID", "MJD", "INT_TIME", "FLUXDATA", "FLUXERR", "FLAG"]
      (tforms ["I", "D", "D", "?D", "?D", "?L"] flux.nwave)
      ["", "day", "s", "", "", ""] "OI_FLUX",
   .colUnit 4 flux.fluxunit, .colUnit 5 flux.fluxunit,
   .key "OI_REVN" (.int OI_REVN_V2_FLUX), .key "DATE-OBS" (.str flux.date_obs)] ++
  optKey "ARRNAME" flux.arrname ++
  [.key "INSNAME" (.str flux.insname),
   .key "CALSTAT" (.str (if flux.calstat = '\x00' then [] else [flux.calstat])), .key "EXTVER" (.int extver)] ++
  eachRow 1 flux.record (fun irow r =>
    [.col 1 irow 1 [.int r.target_id], .col 2 irow 1 [.dbl r.mjd], .col 3 irow 1 [.dbl r.int_time],
     .col 4 irow flux.nwave (r.fluxdata.map .dbl), .col 5 irow flux.nwave (r.fluxerr.map .dbl),
     .col 6 irow flux.nwave (r.flag.map .log)]) ++
  (if flux.fovtype.length > 0 then
    [.key "FOV" (.dbl flux.fov), .keyUnit "FOV" "arcsec", .key "FOVTYPE" (.str flux.fovtype)]
  else []) ++
  (if flux.corrname.length > 0 then
    [.key "CORRNAME" (.str flux.corrname), .insert 5 [("CORRINDX_FLUXDATA", "J")]] ++
    eachRow 1 flux.record fun irow r => [.col 5 irow 1 [.int r.corrindx_fluxdata]]
  else []) ++
  (if flux.arrname.length > 0 then
    .insert 6 [("STA_INDEX", "I")] :: eachRow 1 flux.record fun irow r => [.col 6 irow 1 [.int r.sta_index]]
  else []) ++
  [.chksum]

/-- oifile.c:639-662: what is done for each part of the file in turn. -/
def fileSteps (today : CStr) (oi : OiFits R) : List (List (WriteOp R)) :=
  headerSteps today oi.header :: targetSteps oi.targets ::
    ((oi.arrayList.mapIdx fun k t => arraySteps t (k + 1))
    ++ (oi.wavelengthList.mapIdx fun k t => wavelengthSteps t (k + 1))
    ++ (oi.corrList.mapIdx fun k t => corrSteps t (k + 1))
    ++ (oi.inspolList.mapIdx fun k t => inspolSteps t (k + 1))
    ++ (oi.visList.mapIdx fun k t => visSteps t (k + 1))
    ++ (oi.vis2List.mapIdx fun k t => vis2Steps t (k + 1))
    ++ (oi.t3List.mapIdx fun k t => t3Steps t (k + 1))
    ++ (oi.fluxList.mapIdx fun k t => fluxSteps t (k + 1)))

/-- Which calls of CFITSIO fail while a file is written: `create` for `fits_create_file` (and what is
then there under the name of the file), `calls k n` for number `n` of part `k`, and `close` for
`fits_close_file`. -/
structure Faults (R : FP) where
  create : Option (Fault R × Option (FileData R))
  calls : Nat → Nat → Option (Fault R)
  close : Option (Fault R)

/-- The parts of a file, from number `k` on. Each function begins with
`if (*pStatus) return *pStatus;`. -/
def runParts (faults : Nat → Nat → Option (Fault R)) : Nat → List (List (WriteOp R)) → FitsM R Unit
  | _, [] => pure ()
  | k, part :: parts => do
    guardStatus () (runOps (faults k) 0 part)
    runParts faults (k + 1) parts

/-- `fits_close_file`, which acts even if there was an error before, and then keeps its code. -/
def closeFile (fault : Option (Fault R)) : FitsM R Unit := fun s =>
  match fault with
  | some f => .ok ((), ⟨f.left, s.cur, if s.status = .ok then f.code else s.status⟩)
  | none => .ok ((), s)

/-- oifile.c:628-672 `write_oi_fits` with failing calls: the HDUs of the new file, if it was created, and the status. -/
def write_oi_fits_failing (faults : Faults R) (today : CStr) (exists_ : Bool) (oi : OiFits R) (status : Status) :
    Outcome (Option (List (Hdu R)) × Status) :=
  if status ≠ .ok then .ok (none, status)
  else if exists_ then .ok (none, .other 105)
  else
    match faults.create with
    | some (f, _) => .ok (none, f.code)
    | none => do
      let (_, s) ← (do runParts faults.calls 0 (fileSteps today oi); closeFile faults.close : FitsM R Unit) ⟨[], 0, .ok⟩
      return (some s.hdus, s.status)

/-- As called at oifits-filter.c:102, oifits-merge.c:75, oifits-upgrade.c:77: `writeFile` of `Cli` with failing calls. If the file cannot be created, what was there under its name may be lost. -/
def writeFileFailing (faults : Faults R) (today name : CStr) (oi : OiFits R) : Prog R Status := fun w =>
  let (path, there) := match name with
    | '!' :: path => (path, false)
    | path => (path, (w.files path).isSome)
  match write_oi_fits_failing faults today there oi .ok with
  | .ok (some hdus, st) => .ok (st, { w with files := w.files.set path (some (.fits hdus)) })
  | .ok (none, st) =>
    match faults.create with
    | some (_, left) => if there then .ok (st, w) else .ok (st, { w with files := w.files.set path left })
    | none => .ok (st, w)
  | .abort => .error ⟨.abort, w.out, w.files.set path (some .other)⟩
  | .ub => .error ⟨.ub, w.out, w.files.set path (some .other)⟩

/-- oifits-filter.c:36-112 `main`, as `oifits_filter` in `Cli`, with any function for writing files. -/
def filterMain (write : CStr → OiFits R → Prog R Status) (u : Undef R) (removable : CStr → Bool) (line : CommandLine R) :
    Prog R Unit := do
  match line with
  | .error message =>
    say (("Error parsing command-line options: " : CStr) ++ message ++ ("\n" : CStr))
    exitWith 2
  | .args opts clobber [_, infile, outfile] =>
    let inFilename := strlcpy infile FLEN_FILENAME
    let outFilename := strlcpy outfile FLEN_FILENAME
    let (inData, status) ← readFile u inFilename
    match inData with
    | none => exitWith EXIT_FAILURE
    | some inData =>
      if status ≠ .ok then exitWith EXIT_FAILURE
      else
        say ("=== INPUT DATA: ===\n" : CStr)
        sayText (format_oi_fits_summary inData)
        say ("=== Applying filter: ===\n" : CStr)
        sayText (format_oi_filter (userFilter opts))
        let outData ← call (apply_oi_filter inData (userFilter opts))
        say ("--> OUTPUT DATA: ===\n" : CStr)
        sayText (format_oi_fits_summary outData)
        let there ← fun w => .ok ((w.files outFilename).isSome, w)
        if there then
          if clobber = false then
            say (("Output file '" : CStr) ++ outFilename ++
              ("' exists and '--clobber' not specified -> Exiting...\n" : CStr))
            exitWith 1
          else if removable outFilename = false then
            say (("Failed to remove existing output file '" : CStr) ++ outFilename ++ ("'\n" : CStr))
            exitWith 1
          else fun w => .ok ((), { w with files := w.files.set outFilename none })
        let status ← write outFilename outData
        if status ≠ .ok then exitWith EXIT_FAILURE
        exitWith EXIT_SUCCESS
  | .args _ _ argv =>
    say (("Wrong number of command-line arguments\nEnter '" : CStr) ++ (argv.head?.getD []) ++
      (" --help' for usage information\n" : CStr))
    exitWith 2

/-- oifits-merge.c:31-95 `main`, as `oifits_merge` in `Cli`, with any function for writing files. -/
def mergeMain (write : CStr → OiFits R → Prog R Status) (u : Undef R) (argv : List CStr) : Prog R Unit := do
  match argv with
  | _ :: outFilename :: in1 :: in2 :: more =>
    let inOiList ← readInputs u (in1 :: in2 :: more)
    let outOi ← call (merge_oi_fits_list inOiList)
    say ("=== MERGED DATA: ===\n" : CStr)
    sayText (format_oi_fits_summary outOi)
    let status ← write outFilename outOi
    if status ≠ .ok then exitWith EXIT_FAILURE
    exitWith EXIT_SUCCESS
  | _ =>
    say (("Usage:\n" : CStr) ++ (argv.head?.getD []) ++ (" OUTFILE INFILE1 INFILE2...\n" : CStr))
    exitWith 2

/-- oifits-upgrade.c:32-85 `main`, as `oifits_upgrade` in `Cli`, with any function for writing files. -/
def upgradeMain (write : CStr → OiFits R → Prog R Status) (u : Undef R) (argv : List CStr) : Prog R Unit := do
  match argv with
  | _ :: inFilename :: outFilename :: origin :: observer :: more =>
    let insmode := more.head?
    let (oi, status) ← readFile u inFilename
    match oi with
    | none => exitWith EXIT_FAILURE
    | some oi =>
      if status ≠ .ok then exitWith EXIT_FAILURE
      else if is_oi_fits_two oi then
        say ("Input datafile is already latest OIFITS version\n" : CStr)
        exitWith EXIT_FAILURE
      else if oi.numArray = 0 then
        say ("Input datafile has no OI_ARRAY table - cannot convert\n" : CStr)
        exitWith EXIT_FAILURE
      else
        let oi := { oi with header := { oi.header with
          origin := copyArg oi.header.origin (some origin)
          observer := copyArg oi.header.observer (some observer)
          insmode := copyArg oi.header.insmode insmode } }
        say ("=== INPUT DATA: ===\n" : CStr)
        sayText (format_oi_fits_summary oi)
        let status ← write outFilename oi
        if status ≠ .ok then exitWith EXIT_FAILURE
        exitWith EXIT_SUCCESS
  | _ =>
    say (("Usage:\n" : CStr) ++ (argv.head?.getD []) ++ (" INFILE OUTFILE ORIGIN OBSERVER INSMODE\n" : CStr))
    exitWith 2

end Verif
