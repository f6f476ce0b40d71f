import Verif.Spec.Read

/-! What a table of a FITS file holds, in the words of the OIFITS standard: which keyword
and which column each member of the structs of `exchange.h` is found in. The keywords and
columns are looked up as CFITSIO does; nothing here depends on how the library reads or
writes a table. -/

namespace Verif
namespace Spec
variable {R : FP} {α : Type}

/-! ### Keywords -/

/-- The keyword is there, and its value is the given string. -/
def TextKey (h : Hdu R) (name v : CStr) : Prop := h.readStr name = .ok v
/-- The keyword is there, and its value is the given integer. -/
def IntKey (h : Hdu R) (name : CStr) (v : Int) : Prop := h.readInt name = .ok v
/-- The keyword is there, and its value is the given real number. -/
def RealKey (h : Hdu R) (name : CStr) (v : R.Dbl) : Prop := h.readDbl name = .ok v

/-- A name which other tables refer to: at most 71 characters (a FITS keyword has at most 68). -/
def NameKey (h : Hdu R) (name v : CStr) : Prop := ∃ w, TextKey h name w ∧ v = w.take 71

/-- The value of a keyword which need not be there; without it, the string is empty. -/
def OptText (h : Hdu R) (name v : CStr) : Prop :=
  TextKey h name v ∨ (h.readStr name = .error .KEY_NO_EXIST ∧ v = [])
/-- The value of a keyword which need not be there; without it, the integer is −1. -/
def OptInt (h : Hdu R) (name : CStr) (v : Int) : Prop :=
  IntKey h name v ∨ (h.readInt name = .error .KEY_NO_EXIST ∧ v = -1)
/-- The value of a keyword which need not be there; without it, the number is NaN. -/
def OptReal (h : Hdu R) (name : CStr) (v : R.Dbl) : Prop :=
  RealKey h name v ∨ (h.readDbl name = .error .KEY_NO_EXIST ∧ v = R.nan)

/-- The table names the OI_CORR table its data refer to. -/
def Correlated (h : Hdu R) : Prop := hasKeyword "CORRNAME" h = true

/-! ### Columns -/

/-- The elements of the column, from the start of row `i` (counted from 1). -/
def Cells (conv : Cell R → Option α) (h : Hdu R) (name : CStr) (i n : Nat) (xs : List α) : Prop :=
  ∃ k, h.colnum name = .ok k ∧ h.readCol k i n conv = .ok xs

/-- Integers, floating-point numbers in single and double precision, and logical values. -/
abbrev Ints : Hdu R → CStr → Nat → Nat → List Int → Prop := Cells Cell.toInt
@[inherit_doc Ints]
abbrev Flts : Hdu R → CStr → Nat → Nat → List R.Flt → Prop := Cells Cell.toFlt
@[inherit_doc Ints]
abbrev Dbls : Hdu R → CStr → Nat → Nat → List R.Dbl → Prop := Cells Cell.toDbl
@[inherit_doc Ints]
abbrev Logs : Hdu R → CStr → Nat → Nat → List Bool → Prop := Cells Cell.toLog

/-- The string in row `i` of the column, which is of strings of at most `width` characters
if that is given. -/
def Text (h : Hdu R) (name : CStr) (width : Option Nat) (i : Nat) (v : CStr) : Prop :=
  ∃ k c, h.colnum name = .ok k ∧ h.cols[k - 1]? = some c ∧ c.type = .A ∧
    (∀ w, width = some w → c.rep ≤ w) ∧ h.readCol k i 1 Cell.toStr = .ok [v]

/-- The number of elements the column has in each row. -/
def Repeat (h : Hdu R) (name : CStr) (n : Nat) : Prop :=
  ∃ k c, h.colnum name = .ok k ∧ h.cols[k - 1]? = some c ∧ c.rep = n

/-- The unit of the column (keyword TUNIT). -/
def ColUnit (h : Hdu R) (name v : CStr) : Prop :=
  ∃ k c, h.colnum name = .ok k ∧ h.cols[k - 1]? = some c ∧ c.unit = some v

/-- The unit of a column which need not have one. -/
def OptColUnit (h : Hdu R) (name v : CStr) : Prop :=
  ColUnit h name v ∨ ∃ k c, h.colnum name = .ok k ∧ h.cols[k - 1]? = some c ∧ c.unit = none ∧ v = []

/-- There is one record for each row of the table. -/
structure Rows (h : Hdu R) (records : List α) (row : Nat → α → Prop) : Prop where
  nonempty : h.nrows ≠ 0
  each : records.length = h.nrows
  row : ∀ i r, records[i]? = some r → row (i + 1) r

/-! ### Tables -/

/-- A row of an OI_ARRAY table. Version 1 has no FOV and FOVTYPE. -/
structure ElementIn (h : Hdu R) (revision : Int) (i : Nat) (e : Element R) : Prop where
  tel_name : Text h "TEL_NAME" (some 16) i e.tel_name
  sta_name : Text h "STA_NAME" (some 16) i e.sta_name
  sta_index : Ints h "STA_INDEX" i 1 [e.sta_index]
  diameter : Flts h "DIAMETER" i 1 [e.diameter]
  staxyz : Dbls h "STAXYZ" i 3 [e.staxyz.1, e.staxyz.2.1, e.staxyz.2.2]
  fov : 2 ≤ revision → Dbls h "FOV" i 1 [e.fov]
  fovtype : 2 ≤ revision → Text h "FOVTYPE" (some 6) i e.fovtype
  fov1 : revision < 2 → e.fov = R.nan
  fovtype1 : revision < 2 → e.fovtype = "FWHM"

/-- An OI_ARRAY table. -/
structure ArrayIn (h : Hdu R) (a : OiArray R) : Prop where
  revision : IntKey h "OI_REVN" a.revision
  arrname : NameKey h "ARRNAME" a.arrname
  frame : TextKey h "FRAME" a.frame
  arrayx : RealKey h "ARRAYX" a.arrayx
  arrayy : RealKey h "ARRAYY" a.arrayy
  arrayz : RealKey h "ARRAYZ" a.arrayz
  elem : Rows h a.elem (ElementIn h a.revision)

/-- An OI_WAVELENGTH table. -/
structure WavelengthIn (h : Hdu R) (w : OiWavelength R) : Prop where
  revision : IntKey h "OI_REVN" w.revision
  insname : NameKey h "INSNAME" w.insname
  rows : h.nrows ≠ 0
  nwave : w.nwave = h.nrows
  eff_wave : Flts h "EFF_WAVE" 1 h.nrows w.eff_wave
  eff_band : Flts h "EFF_BAND" 1 h.nrows w.eff_band

/-- An OI_CORR table. -/
structure CorrIn (h : Hdu R) (c : OiCorr R) : Prop where
  revision : IntKey h "OI_REVN" c.revision
  corrname : NameKey h "CORRNAME" c.corrname
  ndata : IntKey h "NDATA" c.ndata
  rows : h.nrows ≠ 0
  ncorr : c.ncorr = h.nrows
  iindx : Ints h "IINDX" 1 h.nrows c.iindx
  jindx : Ints h "JINDX" 1 h.nrows c.jindx
  corr : Dbls h "CORR" 1 h.nrows c.corr

/-- A row of an OI_TARGET table. CATEGORY is optional from version 2 on; the member is not
set without it. -/
structure TargetIn (h : Hdu R) (usecategory : Bool) (i : Nat) (t : Target R) : Prop where
  target_id : Ints h "TARGET_ID" i 1 [t.target_id]
  target : ∃ v, Text h "TARGET" none i v ∧ t.target = v.take 32
  raep0 : Dbls h "RAEP0" i 1 [t.raep0]
  decep0 : Dbls h "DECEP0" i 1 [t.decep0]
  equinox : Flts h "EQUINOX" i 1 [t.equinox]
  ra_err : Dbls h "RA_ERR" i 1 [t.ra_err]
  dec_err : Dbls h "DEC_ERR" i 1 [t.dec_err]
  sysvel : Dbls h "SYSVEL" i 1 [t.sysvel]
  veltyp : Text h "VELTYP" (some 8) i t.veltyp
  veldef : Text h "VELDEF" (some 8) i t.veldef
  pmra : Dbls h "PMRA" i 1 [t.pmra]
  pmdec : Dbls h "PMDEC" i 1 [t.pmdec]
  pmra_err : Dbls h "PMRA_ERR" i 1 [t.pmra_err]
  pmdec_err : Dbls h "PMDEC_ERR" i 1 [t.pmdec_err]
  parallax : Flts h "PARALLAX" i 1 [t.parallax]
  para_err : Flts h "PARA_ERR" i 1 [t.para_err]
  spectyp : ∃ v, Text h "SPECTYP" none i v ∧ t.spectyp = v.take 32
  category : usecategory = true → Text h "CATEGORY" (some 3) i t.category

/-- An OI_TARGET table. -/
structure TargetsIn (h : Hdu R) (t : OiTarget R) : Prop where
  revision : IntKey h "OI_REVN" t.revision
  usecategory : t.usecategory = (decide (2 ≤ t.revision) && hasColumn "CATEGORY" h)
  targ : Rows h t.targ (TargetIn h t.usecategory)

/-- A row of an OI_INSPOL table. The elements of the Jones matrices are not read as they are
stored (`C49_inspol_counterexample`): real numbers are read, each of which takes the place of
a complex number (`pun`). -/
structure InspolRecordIn (h : Hdu R) (nwave i : Nat) (r : OiInspolRecord R) : Prop where
  target_id : Ints h "TARGET_ID" i 1 [r.target_id]
  insname : Text h "INSNAME" (some 70) i r.insname
  mjd_obs : Dbls h "MJD_OBS" i 1 [r.mjd_obs]
  mjd_end : Dbls h "MJD_END" i 1 [r.mjd_end]
  jxx : ∃ xs, Dbls h "JXX" i nwave xs ∧ r.jxx = xs.map R.pun
  jyy : ∃ xs, Dbls h "JYY" i nwave xs ∧ r.jyy = xs.map R.pun
  jxy : ∃ xs, Dbls h "JXY" i nwave xs ∧ r.jxy = xs.map R.pun
  jyx : ∃ xs, Dbls h "JYX" i nwave xs ∧ r.jyx = xs.map R.pun
  sta_index : Ints h "STA_INDEX" i 1 [r.sta_index]

/-- An OI_INSPOL table. -/
structure InspolIn (h : Hdu R) (t : OiInspol R) : Prop where
  revision : IntKey h "OI_REVN" t.revision
  date_obs : TextKey h "DATE-OBS" t.date_obs
  npol : IntKey h "NPOL" t.npol
  arrname : TextKey h "ARRNAME" t.arrname
  orient : TextKey h "ORIENT" t.orient
  model : TextKey h "MODEL" t.model
  nwave : Repeat h "JXX" t.nwave
  waves : t.nwave ≠ 0
  record : Rows h t.record (InspolRecordIn h t.nwave)

/-- A row of an OI_VIS2 table. The member `corrindx_vis2data` is not set if the table names
no OI_CORR table. -/
structure Vis2RecordIn (h : Hdu R) (nwave : Nat) (correlated : Prop) (i : Nat) (r : OiVis2Record R) : Prop where
  target_id : Ints h "TARGET_ID" i 1 [r.target_id]
  time : Dbls h "TIME" i 1 [r.time]
  mjd : Dbls h "MJD" i 1 [r.mjd]
  int_time : Dbls h "INT_TIME" i 1 [r.int_time]
  vis2data : Dbls h "VIS2DATA" i nwave r.vis2data
  vis2err : Dbls h "VIS2ERR" i nwave r.vis2err
  corrindx : correlated → Ints h "CORRINDX_VIS2DATA" i 1 [r.corrindx_vis2data]
  ucoord : Dbls h "UCOORD" i 1 [r.ucoord]
  vcoord : Dbls h "VCOORD" i 1 [r.vcoord]
  sta_index : Ints h "STA_INDEX" i 2 [r.sta_index.1, r.sta_index.2]
  flag : Logs h "FLAG" i nwave r.flag

/-- CORRNAME, which only tables of version 2 have. -/
structure CorrnameIn (h : Hdu R) (revision : Int) (v : CStr) : Prop where
  two : 2 ≤ revision → OptText h "CORRNAME" v
  one : revision < 2 → v = []

/-- An OI_VIS2 table. -/
structure Vis2In (h : Hdu R) (t : OiVis2 R) : Prop where
  revision : IntKey h "OI_REVN" t.revision
  date_obs : TextKey h "DATE-OBS" t.date_obs
  arrname : OptText h "ARRNAME" t.arrname
  insname : TextKey h "INSNAME" t.insname
  corrname : CorrnameIn h t.revision t.corrname
  nwave : Repeat h "VIS2DATA" t.nwave
  waves : t.nwave ≠ 0
  record : Rows h t.record (Vis2RecordIn h t.nwave (2 ≤ t.revision ∧ Correlated h))

/-- A row of an OI_T3 table. -/
structure T3RecordIn (h : Hdu R) (nwave : Nat) (correlated : Prop) (i : Nat) (r : OiT3Record R) : Prop where
  target_id : Ints h "TARGET_ID" i 1 [r.target_id]
  time : Dbls h "TIME" i 1 [r.time]
  mjd : Dbls h "MJD" i 1 [r.mjd]
  int_time : Dbls h "INT_TIME" i 1 [r.int_time]
  t3amp : Dbls h "T3AMP" i nwave r.t3amp
  t3amperr : Dbls h "T3AMPERR" i nwave r.t3amperr
  corrindx_amp : correlated → Ints h "CORRINDX_T3AMP" i 1 [r.corrindx_t3amp]
  t3phi : Dbls h "T3PHI" i nwave r.t3phi
  t3phierr : Dbls h "T3PHIERR" i nwave r.t3phierr
  corrindx_phi : correlated → Ints h "CORRINDX_T3PHI" i 1 [r.corrindx_t3phi]
  u1coord : Dbls h "U1COORD" i 1 [r.u1coord]
  v1coord : Dbls h "V1COORD" i 1 [r.v1coord]
  u2coord : Dbls h "U2COORD" i 1 [r.u2coord]
  v2coord : Dbls h "V2COORD" i 1 [r.v2coord]
  sta_index : Ints h "STA_INDEX" i 3 [r.sta_index.1, r.sta_index.2.1, r.sta_index.2.2]
  flag : Logs h "FLAG" i nwave r.flag

/-- An OI_T3 table. -/
structure T3In (h : Hdu R) (t : OiT3 R) : Prop where
  revision : IntKey h "OI_REVN" t.revision
  date_obs : TextKey h "DATE-OBS" t.date_obs
  arrname : OptText h "ARRNAME" t.arrname
  insname : TextKey h "INSNAME" t.insname
  corrname : CorrnameIn h t.revision t.corrname
  nwave : Repeat h "T3AMP" t.nwave
  waves : t.nwave ≠ 0
  record : Rows h t.record (T3RecordIn h t.nwave (2 ≤ t.revision ∧ Correlated h))

/-- A row of an OI_FLUX table. STA_INDEX is optional. -/
structure FluxRecordIn (h : Hdu R) (nwave : Nat) (correlated : Prop) (i : Nat) (r : OiFluxRecord R) : Prop where
  target_id : Ints h "TARGET_ID" i 1 [r.target_id]
  mjd : Dbls h "MJD" i 1 [r.mjd]
  int_time : Dbls h "INT_TIME" i 1 [r.int_time]
  fluxdata : Dbls h "FLUXDATA" i nwave r.fluxdata
  fluxerr : Dbls h "FLUXERR" i nwave r.fluxerr
  corrindx : correlated → Ints h "CORRINDX_FLUXDATA" i 1 [r.corrindx_fluxdata]
  sta_index : hasColumn "STA_INDEX" h = true → Ints h "STA_INDEX" i 1 [r.sta_index]
  no_station : hasColumn "STA_INDEX" h = false → r.sta_index = -1
  flag : Logs h "FLAG" i nwave r.flag

/-- An OI_FLUX table. -/
structure FluxIn (h : Hdu R) (t : OiFlux R) : Prop where
  revision : IntKey h "OI_REVN" t.revision
  date_obs : TextKey h "DATE-OBS" t.date_obs
  arrname : OptText h "ARRNAME" t.arrname
  insname : TextKey h "INSNAME" t.insname
  corrname : OptText h "CORRNAME" t.corrname
  fov : OptReal h "FOV" t.fov
  fovtype : OptText h "FOVTYPE" t.fovtype
  calstat : ∃ v, TextKey h "CALSTAT" v ∧ t.calstat = v.headD '\x00'
  fluxunit : ColUnit h "FLUXDATA" t.fluxunit
  nwave : Repeat h "FLUXDATA" t.nwave
  waves : t.nwave ≠ 0
  record : Rows h t.record (FluxRecordIn h t.nwave (Correlated h))

/-- A row of an OI_VIS table: the columns which all versions have. -/
structure VisRecordIn (h : Hdu R) (nwave : Nat) (i : Nat) (r : OiVisRecord R) : Prop where
  target_id : Ints h "TARGET_ID" i 1 [r.target_id]
  time : Dbls h "TIME" i 1 [r.time]
  mjd : Dbls h "MJD" i 1 [r.mjd]
  int_time : Dbls h "INT_TIME" i 1 [r.int_time]
  visamp : Dbls h "VISAMP" i nwave r.visamp
  visamperr : Dbls h "VISAMPERR" i nwave r.visamperr
  visphi : Dbls h "VISPHI" i nwave r.visphi
  visphierr : Dbls h "VISPHIERR" i nwave r.visphierr
  ucoord : Dbls h "UCOORD" i 1 [r.ucoord]
  vcoord : Dbls h "VCOORD" i 1 [r.vcoord]
  sta_index : Ints h "STA_INDEX" i 2 [r.sta_index.1, r.sta_index.2]
  flag : Logs h "FLAG" i nwave r.flag

/-- A row of an OI_VIS table: the columns which only version 2 has. -/
structure VisExtrasIn (h : Hdu R) (nwave : Nat) (refmap complex : Bool) (i : Nat) (r : OiVisRecord R) : Prop where
  corrindx_amp : Correlated h → Ints h "CORRINDX_VISAMP" i 1 [r.corrindx_visamp]
  corrindx_phi : Correlated h → Ints h "CORRINDX_VISPHI" i 1 [r.corrindx_visphi]
  visrefmap : refmap = true → ∃ xs, r.visrefmap = some xs ∧ Logs h "VISREFMAP" i (nwave * nwave) xs
  rvis : complex = true → ∃ xs, r.rvis = some xs ∧ Dbls h "RVIS" i nwave xs
  rviserr : complex = true → ∃ xs, r.rviserr = some xs ∧ Dbls h "RVISERR" i nwave xs
  ivis : complex = true → ∃ xs, r.ivis = some xs ∧ Dbls h "IVIS" i nwave xs
  iviserr : complex = true → ∃ xs, r.iviserr = some xs ∧ Dbls h "IVISERR" i nwave xs
  corrindx_rvis : complex = true → Correlated h → Ints h "CORRINDX_RVIS" i 1 [r.corrindx_rvis]
  corrindx_ivis : complex = true → Correlated h → Ints h "CORRINDX_IVIS" i 1 [r.corrindx_ivis]

/-- The arrays which the table does not have are NULL. -/
structure NoExtras (refmap complex : Bool) (r : OiVisRecord R) : Prop where
  visrefmap : refmap = false → r.visrefmap = none
  rvis : complex = false → r.rvis = none
  rviserr : complex = false → r.rviserr = none
  ivis : complex = false → r.ivis = none
  iviserr : complex = false → r.iviserr = none

/-- An OI_VIS table. -/
structure VisIn (h : Hdu R) (t : OiVis R) : Prop where
  revision : IntKey h "OI_REVN" t.revision
  date_obs : TextKey h "DATE-OBS" t.date_obs
  arrname : OptText h "ARRNAME" t.arrname
  insname : TextKey h "INSNAME" t.insname
  ampunit : OptColUnit h "VISAMP" t.ampunit
  nwave : Repeat h "VISAMP" t.nwave
  waves : t.nwave ≠ 0
  record : Rows h t.record (VisRecordIn h t.nwave)
  corrname : t.revision ≠ 1 → OptText h "CORRNAME" t.corrname
  amptyp : t.revision ≠ 1 → OptText h "AMPTYP" t.amptyp
  phityp : t.revision ≠ 1 → OptText h "PHITYP" t.phityp
  amporder : t.revision ≠ 1 → OptInt h "AMPORDER" t.amporder
  phiorder : t.revision ≠ 1 → OptInt h "PHIORDER" t.phiorder
  usevisrefmap : t.revision ≠ 1 → t.usevisrefmap = hasColumn "VISREFMAP" h
  usecomplex : t.revision ≠ 1 → t.usecomplex = hasColumn "RVIS" h
  complexunit : t.revision ≠ 1 → t.usecomplex = true → ColUnit h "RVIS" t.complexunit
  extras : t.revision ≠ 1 → Rows h t.record (VisExtrasIn h t.nwave t.usevisrefmap t.usecomplex)
  absent : ∀ r ∈ t.record, NoExtras t.usevisrefmap t.usecomplex r
  version1 : t.revision = 1 → t.corrname = [] ∧ t.amptyp = [] ∧ t.phityp = [] ∧
    t.amporder = -1 ∧ t.phiorder = -1 ∧ t.usevisrefmap = false ∧ t.usecomplex = false

/-- The primary header. -/
structure HeaderIn (h : Hdu R) (t : OiHeader) : Prop where
  origin : OptText h "ORIGIN" t.origin
  date : OptText h "DATE" t.date
  date_obs : OptText h "DATE-OBS" t.date_obs
  content : OptText h "CONTENT" t.content
  telescop : OptText h "TELESCOP" t.telescop
  instrume : OptText h "INSTRUME" t.instrume
  observer : OptText h "OBSERVER" t.observer
  insmode : OptText h "INSMODE" t.insmode
  object : OptText h "OBJECT" t.object
  referenc : OptText h "REFERENC" t.referenc
  author : OptText h "AUTHOR" t.author
  prog_id : OptText h "PROG_ID" t.prog_id
  procsoft : OptText h "PROCSOFT" t.procsoft
  obstech : OptText h "OBSTECH" t.obstech

/-! ### Files -/

/-- The tables read are those which the HDUs at the given positions hold, one for one. -/
def HeldAt (In : Hdu R → α → Prop) (hdus : List (Hdu R)) (ps : List Nat) (l : List α) : Prop :=
  ps.length = l.length ∧ ∀ (i : Nat) p a, ps[i]? = some p → l[i]? = some a → ∃ h, hdus[p]? = some h ∧ In h a

/-- The tables read are those which the file holds under the given EXTNAME, in file order,
except for those in which something is missing. -/
def Held (In : Hdu R → α → Prop) (name : CStr) (hdus : List (Hdu R)) (l : List α) : Prop :=
  ∃ ps, ps.Sublist (positions name hdus) ∧ HeldAt In hdus ps l ∧
    ∀ p ∈ positions name hdus, (∃ h a, hdus[p]? = some h ∧ In h a) → p ∈ ps

/-- OI_VIS tables of version 2 which name an OI_CORR table have the columns which refer to it. -/
def VisIndexed (hdus : List (Hdu R)) : Prop :=
  ∀ h ∈ hdus, isTable "OI_VIS" h = true → ¬ IntKey h "OI_REVN" 1 → Correlated h →
    hasColumn "CORRINDX_VISAMP" h = true ∧ hasColumn "CORRINDX_VISPHI" h = true

/-- OI_FLUX tables have the mandatory columns and keywords, and, if they name an OI_CORR
table, the column which refers to it. -/
def FluxComplete (hdus : List (Hdu R)) : Prop :=
  ∀ h ∈ hdus, isTable "OI_FLUX" h = true →
    Complete "OI_FLUX" h ∧ (Correlated h → hasColumn "CORRINDX_FLUXDATA" h = true)

end Spec
end Verif
