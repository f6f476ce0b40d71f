import Verif.Model.DemoText
import Verif.Spec.Fits

/-! The text format of `oitable-demo`, as the files `/repo/testdata/testdata2.txt` and `testdata_opt.txt` show it: words
separated by white space. A description holds the words of a text; from it one can tell the words of the text, in order,
and the tables described. -/

namespace Verif.Spec
open Verif

variable {R : FP}

/-! ### Words and numerals -/

/-- The characters before the first blank, and the words after it. -/
def splitWords : CStr → CStr × List CStr
  | [] => ([], [])
  | c :: s =>
    let (w, ws) := splitWords s
    if isSpace c then ([], if w = [] then ws else w :: ws) else (c :: w, ws)

/-- The words of a text: the longest parts without white space. -/
def words (s : CStr) : List CStr :=
  let (w, ws) := splitWords s
  if w = [] then ws else w :: ws

/-- The number which the decimal digits stand for. -/
def natOf : CStr → Nat
  | [] => 0
  | c :: s => (c.toNat - '0'.toNat) * 10 ^ s.length + natOf s

/-- A numeral for an integer: digits, perhaps after a sign. -/
def IsInteger (w : CStr) : Prop :=
  ∃ sign digits, w = sign ++ digits ∧ sign ∈ [[], ['+'], ['-']] ∧ digits ≠ [] ∧ ∀ c ∈ digits, isDigit c = true

/-- The integer which the numeral stands for. -/
def intOf : CStr → Int
  | '-' :: s => -(natOf s : Int)
  | '+' :: s => natOf s
  | s => natOf s

/-- A decimal numeral: perhaps a sign, digits, perhaps a point and digits, with at least one digit in all, perhaps an
exponent. -/
def IsDecimal (w : CStr) : Prop :=
  ∃ sign digits fraction exponent, w = sign ++ digits ++ fraction ++ exponent ∧ sign ∈ [[], ['+'], ['-']] ∧
    (∀ c ∈ digits, isDigit c = true) ∧
    (fraction = [] ∧ digits ≠ [] ∨
      ∃ more, fraction = '.' :: more ∧ (∀ c ∈ more, isDigit c = true) ∧ (digits ≠ [] ∨ more ≠ [])) ∧
    (exponent = [] ∨ ∃ e int, exponent = e :: int ∧ e ∈ ['e', 'E'] ∧ IsInteger int)

/-! ### Items of a text -/

/-- An item of a text, which is one word. -/
inductive Tok where
  /-- a fixed word -/
  | kw (w : CStr)
  /-- a name of at most `max` characters -/
  | str (max : Nat) (w : CStr)
  /-- a number of type `int` -/
  | int (w : CStr)
  /-- a number of type `long` -/
  | long (w : CStr)
  /-- a number of type `double` -/
  | dbl (w : CStr)
  /-- a number of type `float` -/
  | flt (w : CStr)
  /-- an imaginary part: a numeral followed by the letter i -/
  | imag (w : CStr)
  /-- a single character -/
  | chr (c : Char)

/-- The word. -/
def Tok.word : Tok → CStr
  | .kw w => w
  | .str _ w => w
  | .int w => w
  | .long w => w
  | .dbl w => w
  | .flt w => w
  | .imag w => w ++ ['i']
  | .chr c => [c]

/-- The word is what it should be. -/
def Tok.OK : Tok → Prop
  | .kw _ => True
  | .str max w => w.length ≤ max
  | .int w => IsInteger w ∧ -2 ^ 31 ≤ intOf w ∧ intOf w < 2 ^ 31
  | .long w => IsInteger w ∧ -2 ^ 63 ≤ intOf w ∧ intOf w < 2 ^ 63
  | .dbl w => IsDecimal w
  | .flt w => IsDecimal w
  | .imag w => IsDecimal w
  | .chr _ => True

/-- An optional item, preceded by its name. -/
def option (name : CStr) (item : CStr → Tok) : Option CStr → List Tok
  | none => []
  | some w => [.kw name, item w]

/-! ### Descriptions of tables -/

structure ElementDoc where
  (tel_name sta_name x y z diameter fov fovtype : CStr)

def ElementDoc.toks (d : ElementDoc) : List Tok :=
  [.kw "tel_name", .str 16 d.tel_name, .kw "sta_name", .str 16 d.sta_name, .kw "staxyz", .dbl d.x, .dbl d.y, .dbl d.z,
   .kw "diameter", .flt d.diameter, .kw "fov", .dbl d.fov, .kw "fovtype", .str 6 d.fovtype]

/-- The table row; stations are numbered from 1. -/
def ElementDoc.row (N : Numerals R) (i : Nat) (d : ElementDoc) : Element R :=
  { tel_name := d.tel_name, sta_name := d.sta_name, sta_index := i + 1, diameter := N.flt d.diameter
    staxyz := (N.dbl d.x, N.dbl d.y, N.dbl d.z), fov := N.dbl d.fov, fovtype := d.fovtype }

structure ArrayDoc where
  (arrname frame arrayx arrayy arrayz nelement : CStr)
  elem : List ElementDoc

def ArrayDoc.toks (d : ArrayDoc) : List Tok :=
  [.kw "OI_ARRAY", .kw "arrname", .str 70 d.arrname, .kw "frame", .str 70 d.frame, .kw "arrayx", .dbl d.arrayx,
   .kw "arrayy", .dbl d.arrayy, .kw "arrayz", .dbl d.arrayz, .kw "nelement", .int d.nelement] ++
  d.elem.flatMap ElementDoc.toks

def ArrayDoc.table (N : Numerals R) (d : ArrayDoc) : OiArray R :=
  { revision := 2, arrname := d.arrname, frame := d.frame, arrayx := N.dbl d.arrayx, arrayy := N.dbl d.arrayy
    arrayz := N.dbl d.arrayz, elem := d.elem.mapIdx (ElementDoc.row N) }

structure TargetDoc where
  (target_id target raep0 decep0 equinox ra_err dec_err sysvel veltyp veldef pmra pmdec pmra_err pmdec_err parallax
    para_err spectyp : CStr)
  category : Option CStr

def TargetDoc.toks (d : TargetDoc) : List Tok :=
  [.kw "target_id", .int d.target_id, .kw "target", .str 16 d.target, .kw "raep0", .dbl d.raep0, .kw "decep0",
   .dbl d.decep0, .kw "equinox", .flt d.equinox, .kw "ra_err", .dbl d.ra_err, .kw "dec_err", .dbl d.dec_err,
   .kw "sysvel", .dbl d.sysvel, .kw "veltyp", .str 8 d.veltyp, .kw "veldef", .str 8 d.veldef, .kw "pmra", .dbl d.pmra,
   .kw "pmdec", .dbl d.pmdec, .kw "pmra_err", .dbl d.pmra_err, .kw "pmdec_err", .dbl d.pmdec_err, .kw "parallax",
   .flt d.parallax, .kw "para_err", .flt d.para_err, .kw "spectyp", .str 16 d.spectyp] ++
  option "category" (.str 3) d.category

def TargetDoc.row (N : Numerals R) (d : TargetDoc) : Target R :=
  { target_id := intOf d.target_id, target := d.target, raep0 := N.dbl d.raep0, decep0 := N.dbl d.decep0
    equinox := N.flt d.equinox, ra_err := N.dbl d.ra_err, dec_err := N.dbl d.dec_err, sysvel := N.dbl d.sysvel
    veltyp := d.veltyp, veldef := d.veldef, pmra := N.dbl d.pmra, pmdec := N.dbl d.pmdec, pmra_err := N.dbl d.pmra_err
    pmdec_err := N.dbl d.pmdec_err, parallax := N.flt d.parallax, para_err := N.flt d.para_err, spectyp := d.spectyp
    category := d.category.getD [] }

structure TargetsDoc where
  ntarget : CStr
  targ : List TargetDoc

def TargetsDoc.toks (d : TargetsDoc) : List Tok :=
  [.kw "OI_TARGET", .kw "ntarget", .int d.ntarget] ++ d.targ.flatMap TargetDoc.toks

/-- The category column is used if any target has a category. -/
def TargetsDoc.table (N : Numerals R) (d : TargetsDoc) : OiTarget R :=
  { revision := 2, targ := d.targ.map (TargetDoc.row N), usecategory := d.targ.any (·.category.isSome) }

structure WaveDoc where
  (insname nwave : CStr)
  (eff_wave eff_band : List CStr)

def WaveDoc.toks (d : WaveDoc) : List Tok :=
  [.kw "OI_WAVELENGTH", .kw "insname", .str 70 d.insname, .kw "nwave", .int d.nwave] ++
  [.kw "eff_wave"] ++ d.eff_wave.map .flt ++ [.kw "eff_band"] ++ d.eff_band.map .flt

def WaveDoc.table (N : Numerals R) (d : WaveDoc) : OiWavelength R :=
  { revision := 2, insname := d.insname, nwave := d.eff_wave.length, eff_wave := d.eff_wave.map N.flt
    eff_band := d.eff_band.map N.flt }

structure CorrDoc where
  (corrname ndata ncorr : CStr)
  (iindx jindx corr : List CStr)

def CorrDoc.toks (d : CorrDoc) : List Tok :=
  [.kw "OI_CORR", .kw "corrname", .str 70 d.corrname, .kw "ndata", .int d.ndata, .kw "ncorr", .int d.ncorr] ++
  [.kw "iindx"] ++ d.iindx.map .int ++ [.kw "jindx"] ++ d.jindx.map .int ++ [.kw "corr"] ++ d.corr.map .dbl

def CorrDoc.table (N : Numerals R) (d : CorrDoc) : OiCorr R :=
  { revision := 1, corrname := d.corrname, ndata := intOf d.ndata, ncorr := d.corr.length, iindx := d.iindx.map intOf
    jindx := d.jindx.map intOf, corr := d.corr.map N.dbl }

/-- Complex numbers, real and imaginary part. -/
def complexToks (l : List (CStr × CStr)) : List Tok := l.flatMap fun z => [.flt z.1, .imag z.2]

/-- The numbers for `n` channels: if there are fewer in the text, the last one is for the other channels too. -/
def complexes (N : Numerals R) (n : Nat) (l : List (CStr × CStr)) : List (R.Flt × R.Flt) :=
  (l ++ List.replicate (n - l.length) (l.getLastD ([], []))).map fun z => (N.flt z.1, N.flt z.2)

structure InspolRecordDoc where
  (target_id insname mjd_obs mjd_end : CStr)
  (jxx jyy jxy jyx : List (CStr × CStr))
  sta_index : CStr

def InspolRecordDoc.toks (d : InspolRecordDoc) : List Tok :=
  [.kw "target_id", .int d.target_id, .kw "insname", .str 70 d.insname, .kw "mjd_obs", .dbl d.mjd_obs, .kw "mjd_end",
   .dbl d.mjd_end] ++
  [.kw "jxx"] ++ complexToks d.jxx ++ [.kw "jyy"] ++ complexToks d.jyy ++ [.kw "jxy"] ++ complexToks d.jxy ++
  [.kw "jyx"] ++ complexToks d.jyx ++ [.kw "sta_index", .int d.sta_index]

def InspolRecordDoc.row (N : Numerals R) (n : Nat) (d : InspolRecordDoc) : OiInspolRecord R :=
  { target_id := intOf d.target_id, insname := d.insname, mjd_obs := N.dbl d.mjd_obs, mjd_end := N.dbl d.mjd_end
    jxx := complexes N n d.jxx, jyy := complexes N n d.jyy, jxy := complexes N n d.jxy, jyx := complexes N n d.jyx
    sta_index := intOf d.sta_index }

structure InspolDoc where
  (date_obs npol arrname orient model numrec : CStr)
  record : List InspolRecordDoc

def InspolDoc.toks (d : InspolDoc) : List Tok :=
  [.kw "OI_INSPOL", .kw "date-obs", .str 70 d.date_obs, .kw "npol", .int d.npol, .kw "arrname", .str 70 d.arrname,
   .kw "orient", .str 70 d.orient, .kw "model", .str 70 d.model, .kw "numrec", .long d.numrec] ++
  d.record.flatMap InspolRecordDoc.toks

def InspolDoc.table (N : Numerals R) (n : Nat) (d : InspolDoc) : OiInspol R :=
  { revision := 1, date_obs := d.date_obs, npol := intOf d.npol, arrname := d.arrname, orient := d.orient
    model := d.model, nwave := n, record := d.record.map (InspolRecordDoc.row N n) }

structure VisRecordDoc where
  (target_id time mjd int_time : CStr)
  (visamp visamperr : List CStr)
  corrindx_visamp : CStr
  (visphi visphierr : List CStr)
  (corrindx_visphi ucoord vcoord sta1 sta2 : CStr)

def VisRecordDoc.toks (d : VisRecordDoc) : List Tok :=
  [.kw "target_id", .int d.target_id, .kw "time", .dbl d.time, .kw "mjd", .dbl d.mjd, .kw "int_time", .dbl d.int_time] ++
  [.kw "visamp"] ++ d.visamp.map .dbl ++ [.kw "visamperr"] ++ d.visamperr.map .dbl ++
  [.kw "corrindx_visamp", .int d.corrindx_visamp] ++
  [.kw "visphi"] ++ d.visphi.map .dbl ++ [.kw "visphierr"] ++ d.visphierr.map .dbl ++
  [.kw "corrindx_visphi", .int d.corrindx_visphi, .kw "ucoord", .dbl d.ucoord, .kw "vcoord", .dbl d.vcoord,
   .kw "sta_index", .int d.sta1, .int d.sta2]

/-- Nothing is flagged. `any` is the number in columns which are not used. -/
def VisRecordDoc.row (N : Numerals R) (any : Int) (n : Nat) (d : VisRecordDoc) : OiVisRecord R :=
  { target_id := intOf d.target_id, time := N.dbl d.time, mjd := N.dbl d.mjd, int_time := N.dbl d.int_time
    visamp := d.visamp.map N.dbl, visamperr := d.visamperr.map N.dbl, corrindx_visamp := intOf d.corrindx_visamp
    visphi := d.visphi.map N.dbl, visphierr := d.visphierr.map N.dbl, corrindx_visphi := intOf d.corrindx_visphi
    visrefmap := none, rvis := none, rviserr := none, corrindx_rvis := any, ivis := none, iviserr := none
    corrindx_ivis := any, ucoord := N.dbl d.ucoord, vcoord := N.dbl d.vcoord
    sta_index := (intOf d.sta1, intOf d.sta2), flag := List.replicate n false }

structure VisDoc where
  (date_obs arrname insname corrname : CStr)
  (amptyp phityp amporder phiorder : Option CStr)
  numrec : CStr
  record : List VisRecordDoc

def VisDoc.toks (d : VisDoc) : List Tok :=
  [.kw "OI_VIS", .kw "date-obs", .str 70 d.date_obs, .kw "arrname", .str 70 d.arrname, .kw "insname", .str 70 d.insname,
   .kw "corrname", .str 70 d.corrname] ++
  option "amptyp" (.str 70) d.amptyp ++ option "phityp" (.str 70) d.phityp ++ option "amporder" .int d.amporder ++
  option "phiorder" .int d.phiorder ++ [.kw "numrec", .long d.numrec] ++ d.record.flatMap VisRecordDoc.toks

def VisDoc.table (N : Numerals R) (any : Int) (n : Nat) (d : VisDoc) : OiVis R :=
  { revision := 2, date_obs := d.date_obs, arrname := d.arrname, insname := d.insname, corrname := d.corrname
    amptyp := d.amptyp.getD [], phityp := d.phityp.getD [], amporder := (d.amporder.map intOf).getD (-1)
    phiorder := (d.phiorder.map intOf).getD (-1), usevisrefmap := false, usecomplex := false, complexunit := []
    ampunit := [], nwave := n, record := d.record.map (VisRecordDoc.row N any n) }

structure Vis2RecordDoc where
  (target_id time mjd int_time : CStr)
  (vis2data vis2err : List CStr)
  (corrindx_vis2data ucoord vcoord sta1 sta2 : CStr)

def Vis2RecordDoc.toks (d : Vis2RecordDoc) : List Tok :=
  [.kw "target_id", .int d.target_id, .kw "time", .dbl d.time, .kw "mjd", .dbl d.mjd, .kw "int_time", .dbl d.int_time] ++
  [.kw "vis2data"] ++ d.vis2data.map .dbl ++ [.kw "vis2err"] ++ d.vis2err.map .dbl ++
  [.kw "corrindx_vis2data", .int d.corrindx_vis2data, .kw "ucoord", .dbl d.ucoord, .kw "vcoord", .dbl d.vcoord,
   .kw "sta_index", .int d.sta1, .int d.sta2]

def Vis2RecordDoc.row (N : Numerals R) (n : Nat) (d : Vis2RecordDoc) : OiVis2Record R :=
  { target_id := intOf d.target_id, time := N.dbl d.time, mjd := N.dbl d.mjd, int_time := N.dbl d.int_time
    vis2data := d.vis2data.map N.dbl, vis2err := d.vis2err.map N.dbl, corrindx_vis2data := intOf d.corrindx_vis2data
    ucoord := N.dbl d.ucoord, vcoord := N.dbl d.vcoord, sta_index := (intOf d.sta1, intOf d.sta2)
    flag := List.replicate n false }

structure Vis2Doc where
  (date_obs arrname insname corrname numrec : CStr)
  record : List Vis2RecordDoc

def Vis2Doc.toks (d : Vis2Doc) : List Tok :=
  [.kw "OI_VIS2", .kw "date-obs", .str 70 d.date_obs, .kw "arrname", .str 70 d.arrname, .kw "insname",
   .str 70 d.insname, .kw "corrname", .str 70 d.corrname, .kw "numrec", .long d.numrec] ++
  d.record.flatMap Vis2RecordDoc.toks

def Vis2Doc.table (N : Numerals R) (n : Nat) (d : Vis2Doc) : OiVis2 R :=
  { revision := 2, date_obs := d.date_obs, arrname := d.arrname, insname := d.insname, corrname := d.corrname, nwave := n
    record := d.record.map (Vis2RecordDoc.row N n) }

structure T3RecordDoc where
  (target_id time mjd int_time : CStr)
  (t3amp t3amperr : List CStr)
  corrindx_t3amp : CStr
  (t3phi t3phierr : List CStr)
  (corrindx_t3phi u1coord v1coord u2coord v2coord sta1 sta2 sta3 : CStr)

def T3RecordDoc.toks (d : T3RecordDoc) : List Tok :=
  [.kw "target_id", .int d.target_id, .kw "time", .dbl d.time, .kw "mjd", .dbl d.mjd, .kw "int_time", .dbl d.int_time] ++
  [.kw "t3amp"] ++ d.t3amp.map .dbl ++ [.kw "t3amperr"] ++ d.t3amperr.map .dbl ++
  [.kw "corrindx_t3amp", .int d.corrindx_t3amp] ++
  [.kw "t3phi"] ++ d.t3phi.map .dbl ++ [.kw "t3phierr"] ++ d.t3phierr.map .dbl ++
  [.kw "corrindx_t3phi", .int d.corrindx_t3phi, .kw "u1coord", .dbl d.u1coord, .kw "v1coord", .dbl d.v1coord,
   .kw "u2coord", .dbl d.u2coord, .kw "v2coord", .dbl d.v2coord, .kw "sta_index", .int d.sta1, .int d.sta2, .int d.sta3]

def T3RecordDoc.row (N : Numerals R) (n : Nat) (d : T3RecordDoc) : OiT3Record R :=
  { target_id := intOf d.target_id, time := N.dbl d.time, mjd := N.dbl d.mjd, int_time := N.dbl d.int_time
    t3amp := d.t3amp.map N.dbl, t3amperr := d.t3amperr.map N.dbl, corrindx_t3amp := intOf d.corrindx_t3amp
    t3phi := d.t3phi.map N.dbl, t3phierr := d.t3phierr.map N.dbl, corrindx_t3phi := intOf d.corrindx_t3phi
    u1coord := N.dbl d.u1coord, v1coord := N.dbl d.v1coord, u2coord := N.dbl d.u2coord, v2coord := N.dbl d.v2coord
    sta_index := (intOf d.sta1, intOf d.sta2, intOf d.sta3), flag := List.replicate n false }

structure T3Doc where
  (date_obs arrname insname corrname numrec : CStr)
  record : List T3RecordDoc

def T3Doc.toks (d : T3Doc) : List Tok :=
  [.kw "OI_T3", .kw "date-obs", .str 70 d.date_obs, .kw "arrname", .str 70 d.arrname, .kw "insname", .str 70 d.insname,
   .kw "corrname", .str 70 d.corrname, .kw "numrec", .long d.numrec] ++
  d.record.flatMap T3RecordDoc.toks

def T3Doc.table (N : Numerals R) (n : Nat) (d : T3Doc) : OiT3 R :=
  { revision := 2, date_obs := d.date_obs, arrname := d.arrname, insname := d.insname, corrname := d.corrname, nwave := n
    record := d.record.map (T3RecordDoc.row N n) }

structure FluxRecordDoc where
  (target_id mjd int_time : CStr)
  (fluxdata fluxerr : List CStr)
  corrindx_fluxdata : CStr
  sta_index : Option CStr

def FluxRecordDoc.toks (d : FluxRecordDoc) : List Tok :=
  [.kw "target_id", .int d.target_id, .kw "mjd", .dbl d.mjd, .kw "int_time", .dbl d.int_time] ++
  [.kw "fluxdata"] ++ d.fluxdata.map .dbl ++ [.kw "fluxerr"] ++ d.fluxerr.map .dbl ++
  [.kw "corrindx_fluxdata", .int d.corrindx_fluxdata] ++ option "sta_index" .int d.sta_index

def FluxRecordDoc.row (N : Numerals R) (n : Nat) (d : FluxRecordDoc) : OiFluxRecord R :=
  { target_id := intOf d.target_id, mjd := N.dbl d.mjd, int_time := N.dbl d.int_time
    fluxdata := d.fluxdata.map N.dbl, fluxerr := d.fluxerr.map N.dbl, corrindx_fluxdata := intOf d.corrindx_fluxdata
    sta_index := (d.sta_index.map intOf).getD (-1), flag := List.replicate n false }

structure FluxDoc where
  date_obs : CStr
  arrname : Option CStr
  (insname corrname : CStr)
  (fov fovtype : Option CStr)
  calstat : Char
  numrec : CStr
  record : List FluxRecordDoc

def FluxDoc.toks (d : FluxDoc) : List Tok :=
  [.kw "OI_FLUX", .kw "date-obs", .str 70 d.date_obs] ++ option "arrname" (.str 70) d.arrname ++
  [.kw "insname", .str 70 d.insname, .kw "corrname", .str 70 d.corrname] ++ option "fov" .dbl d.fov ++
  option "fovtype" (.str 6) d.fovtype ++ [.kw "calstat", .chr d.calstat, .kw "numrec", .long d.numrec] ++
  d.record.flatMap FluxRecordDoc.toks

def FluxDoc.table (N : Numerals R) (n : Nat) (d : FluxDoc) : OiFlux R :=
  { revision := 1, date_obs := d.date_obs, arrname := d.arrname.getD [], insname := d.insname, corrname := d.corrname
    fov := (d.fov.map N.dbl).getD (R.lit 0), fovtype := d.fovtype.getD [], calstat := d.calstat, fluxunit := "Jy"
    nwave := n, record := d.record.map (FluxRecordDoc.row N n) }

/-! ### Descriptions of whole texts -/

structure DemoDoc where
  array : ArrayDoc
  targets : TargetsDoc
  wave : WaveDoc
  corr : CorrDoc
  inspol : InspolDoc
  vis : VisDoc
  vis2 : Vis2Doc
  t3 : T3Doc
  flux : FluxDoc

/-- The items of the text. -/
def DemoDoc.toks (d : DemoDoc) : List Tok :=
  d.array.toks ++ d.targets.toks ++ d.wave.toks ++ d.corr.toks ++ d.inspol.toks ++ d.vis.toks ++ d.vis2.toks ++
  d.t3.toks ++ d.flux.toks

/-- The tables described. -/
def DemoDoc.tables (N : Numerals R) (any : Int) (d : DemoDoc) : DemoInput R :=
  { array := d.array.table N, targets := d.targets.table N, wave := d.wave.table N, corr := d.corr.table N
    inspol := d.inspol.table N d.wave.eff_wave.length, vis := d.vis.table N any d.wave.eff_wave.length
    vis2 := d.vis2.table N d.wave.eff_wave.length, t3 := d.t3.table N d.wave.eff_wave.length
    flux := d.flux.table N d.wave.eff_wave.length }

/-- `w` is the number of items of the list, which is not empty. -/
def Counts {α : Type} (w : CStr) (l : List α) : Prop := l ≠ [] ∧ intOf w = l.length

/-- The numbers of rows and of channels in the text agree with what it lists. -/
structure DemoDoc.Consistent (d : DemoDoc) : Prop where
  nelement : Counts d.array.nelement d.array.elem
  ntarget : Counts d.targets.ntarget d.targets.targ
  nwave : Counts d.wave.nwave d.wave.eff_wave
  eff_band : d.wave.eff_band.length = d.wave.eff_wave.length
  ncorr : Counts d.corr.ncorr d.corr.corr
  iindx : d.corr.iindx.length = d.corr.corr.length
  jindx : d.corr.jindx.length = d.corr.corr.length
  inspol : Counts d.inspol.numrec d.inspol.record
  jones : ∀ r ∈ d.inspol.record, ∀ l ∈ [r.jxx, r.jyy, r.jxy, r.jyx], l ≠ [] ∧ l.length ≤ d.wave.eff_wave.length
  vis : Counts d.vis.numrec d.vis.record
  visData : ∀ r ∈ d.vis.record, ∀ l ∈ [r.visamp, r.visamperr, r.visphi, r.visphierr], l.length = d.wave.eff_wave.length
  vis2 : Counts d.vis2.numrec d.vis2.record
  vis2Data : ∀ r ∈ d.vis2.record, ∀ l ∈ [r.vis2data, r.vis2err], l.length = d.wave.eff_wave.length
  t3 : Counts d.t3.numrec d.t3.record
  t3Data : ∀ r ∈ d.t3.record, ∀ l ∈ [r.t3amp, r.t3amperr, r.t3phi, r.t3phierr], l.length = d.wave.eff_wave.length
  flux : Counts d.flux.numrec d.flux.record
  fluxData : ∀ r ∈ d.flux.record, ∀ l ∈ [r.fluxdata, r.fluxerr], l.length = d.wave.eff_wave.length

/-- What the text says can be stored in a FITS file: the columns hold 16-bit integers, formats of columns have at most four
digits, and numbers in keywords are finite. -/
structure DemoDoc.InRange (N : Numerals R) (d : DemoDoc) : Prop where
  arrayx : (R.keyD (N.dbl d.array.arrayx)).isSome
  arrayy : (R.keyD (N.dbl d.array.arrayy)).isSome
  arrayz : (R.keyD (N.dbl d.array.arrayz)).isSome
  nelement : d.array.elem.length ≤ 32767
  nwave : d.wave.eff_wave.length < 10000
  target : ∀ r ∈ d.targets.targ, Int16 (intOf r.target_id)
  inspol : ∀ r ∈ d.inspol.record, Int16 (intOf r.target_id) ∧ Int16 (intOf r.sta_index)
  vis : ∀ r ∈ d.vis.record, Int16 (intOf r.target_id) ∧ Int16 (intOf r.sta1) ∧ Int16 (intOf r.sta2)
  vis2 : ∀ r ∈ d.vis2.record, Int16 (intOf r.target_id) ∧ Int16 (intOf r.sta1) ∧ Int16 (intOf r.sta2)
  t3 : ∀ r ∈ d.t3.record,
    Int16 (intOf r.target_id) ∧ Int16 (intOf r.sta1) ∧ Int16 (intOf r.sta2) ∧ Int16 (intOf r.sta3)
  flux : ∀ r ∈ d.flux.record, Int16 (intOf r.target_id) ∧ ∀ w ∈ r.sta_index, Int16 (intOf w)
  fov : ∀ w ∈ d.flux.fov, (R.keyD (N.dbl w)).isSome

/-- An option which is left out is not taken for the next one, which begins with the same letters. -/
structure DemoDoc.Distinct (d : DemoDoc) : Prop where
  amptyp : d.vis.amptyp = none → d.vis.phityp = none → d.vis.amporder = none
  phityp : d.vis.phityp = none → d.vis.amporder = none → d.vis.phiorder = none
  fov : d.flux.fov = none → d.flux.fovtype = none

/-- The text has the words of the description, with any white space between them and after the last. -/
def DemoDoc.IsText (d : DemoDoc) (text : CStr) : Prop :=
  words text = d.toks.map Tok.word ∧ ∀ c ∈ text.head?, isSpace c = false

end Verif.Spec
