import Verif.Model.Fits
import Verif.Spec.WF

/-! What OIFITS tables look like in a file: columns, units and keywords of each
table of version 2 of the format, and the contents of the rows. Stated without
reference to the functions which write or read them. -/

namespace Verif
namespace Spec
variable {R : FP} {α : Type}

/-- A column whose rows hold the given elements. Elements beyond them are zero. -/
def col (name : CStr) (type : ColType) (rep : Nat) (unit tdim : Option CStr)
    (rows : List (List (Cell R))) : Col R :=
  ⟨name, type, rep, unit, tdim, fun r e => ((rows[r]?).bind (·[e]?)).getD (zeroCell type)⟩

/-- A column of strings of at most `w` characters. -/
def strCol (name : CStr) (w : Nat) (recs : List α) (f : α → CStr) : Col R :=
  col name .A w none none (recs.map fun r => [.str (colStr w (f r))])

/-- A column of `n` integers per row. -/
def intsCol (name : CStr) (type : ColType) (n : Nat) (recs : List α) (f : α → List Int) : Col R :=
  col name type n none none (recs.map fun r => (f r).map .int)

/-- A column of `n` double precision numbers per row. -/
def dblsCol (name : CStr) (n : Nat) (unit : Option CStr) (recs : List α) (f : α → List R.Dbl) : Col R :=
  col name .D n unit none (recs.map fun r => (f r).map .dbl)

/-- A column of `n` single precision numbers per row. -/
def fltsCol (name : CStr) (n : Nat) (unit : Option CStr) (recs : List α) (f : α → List R.Flt) : Col R :=
  col name .E n unit none (recs.map fun r => (f r).map .flt)

/-- A column of `n` complex numbers per row. -/
def cpxsCol (name : CStr) (n : Nat) (recs : List α) (f : α → List (R.Flt × R.Flt)) : Col R :=
  col name .C n none none (recs.map fun r => (f r).map .cpx)

/-- A column of `n` truth values per row. -/
def logsCol (name : CStr) (n : Nat) (tdim : Option CStr) (recs : List α) (f : α → List Bool) : Col R :=
  col name .L n none tdim (recs.map fun r => (f r).map .log)


/-- Keywords of a header. -/
abbrev Keys (R : FP) := List (CStr × KeyVal R)

/-- A string keyword which is left out if the string is empty. -/
def optKey (name v : CStr) : List (CStr × KeyVal R) :=
  if v = [] then [] else [(name, .str (keyStr v))]

/-- An integer keyword which is left out if the number is negative. -/
def optOrder (name : CStr) (v : Int) : List (CStr × KeyVal R) :=
  if v ≥ 0 then [(name, .int v)] else []

/-- Optional columns. -/
def optCols (b : Bool) (l : List (Col R)) : List (Col R) := if b then l else []

/-- A real keyword value as it is read back. -/
def asKey (x : R.Dbl) : R.Dbl := (R.keyD x).getD x

/-- Numbers a 16-bit integer column can hold. -/
def Int16 (n : Int) : Prop := -32768 ≤ n ∧ n ≤ 32767

instance (n : Int) : Decidable (Int16 n) := inferInstanceAs (Decidable (_ ∧ _))

/-! ### Tables in a file -/

/-- An OI_ARRAY table. -/
def hduArray (t : OiArray R) (extver : Int) : Hdu R :=
  ⟨.binary,
   [("EXTNAME", .str "OI_ARRAY"), ("OI_REVN", .int 2), ("ARRNAME", .str (keyStr t.arrname)),
    ("FRAME", .str (keyStr t.frame)), ("ARRAYX", .dbl (asKey t.arrayx)),
    ("ARRAYY", .dbl (asKey t.arrayy)), ("ARRAYZ", .dbl (asKey t.arrayz)), ("EXTVER", .int extver)],
   [strCol "TEL_NAME" 16 t.elem (·.tel_name),
    strCol "STA_NAME" 16 t.elem (·.sta_name),
    intsCol "STA_INDEX" .I 1 t.elem (fun e => [e.sta_index]),
    fltsCol "DIAMETER" 1 (some "m") t.elem (fun e => [e.diameter]),
    dblsCol "STAXYZ" 3 (some "m") t.elem (fun e => [e.staxyz.1, e.staxyz.2.1, e.staxyz.2.2]),
    dblsCol "FOV" 1 (some "arcsec") t.elem (fun e => [e.fov]),
    strCol "FOVTYPE" 6 t.elem (·.fovtype)],
   t.elem.length⟩

/-- An OI_TARGET table. -/
def hduTarget (t : OiTarget R) : Hdu R :=
  ⟨.binary,
   [("EXTNAME", .str "OI_TARGET"), ("OI_REVN", .int 2)],
   [intsCol "TARGET_ID" .I 1 t.targ (fun x => [x.target_id]),
    strCol "TARGET" 32 t.targ (·.target),
    dblsCol "RAEP0" 1 (some "deg") t.targ (fun x => [x.raep0]),
    dblsCol "DECEP0" 1 (some "deg") t.targ (fun x => [x.decep0]),
    fltsCol "EQUINOX" 1 (some "yr") t.targ (fun x => [x.equinox]),
    dblsCol "RA_ERR" 1 (some "deg") t.targ (fun x => [x.ra_err]),
    dblsCol "DEC_ERR" 1 (some "deg") t.targ (fun x => [x.dec_err]),
    dblsCol "SYSVEL" 1 (some "m/s") t.targ (fun x => [x.sysvel]),
    strCol "VELTYP" 8 t.targ (·.veltyp),
    strCol "VELDEF" 8 t.targ (·.veldef),
    dblsCol "PMRA" 1 (some "deg/yr") t.targ (fun x => [x.pmra]),
    dblsCol "PMDEC" 1 (some "deg/yr") t.targ (fun x => [x.pmdec]),
    dblsCol "PMRA_ERR" 1 (some "deg/yr") t.targ (fun x => [x.pmra_err]),
    dblsCol "PMDEC_ERR" 1 (some "deg/yr") t.targ (fun x => [x.pmdec_err]),
    fltsCol "PARALLAX" 1 (some "deg") t.targ (fun x => [x.parallax]),
    fltsCol "PARA_ERR" 1 (some "deg") t.targ (fun x => [x.para_err]),
    strCol "SPECTYP" 32 t.targ (·.spectyp)]
    ++ optCols t.usecategory [strCol "CATEGORY" 3 t.targ (·.category)],
   t.targ.length⟩

/-- An OI_WAVELENGTH table. -/
def hduWavelength (t : OiWavelength R) (extver : Int) : Hdu R :=
  ⟨.binary,
   [("EXTNAME", .str "OI_WAVELENGTH"), ("OI_REVN", .int 2), ("INSNAME", .str (keyStr t.insname)),
    ("EXTVER", .int extver)],
   [fltsCol "EFF_WAVE" 1 (some "m") t.eff_wave (fun x => [x]),
    fltsCol "EFF_BAND" 1 (some "m") t.eff_band (fun x => [x])],
   t.nwave⟩

/-- An OI_CORR table. -/
def hduCorr (t : OiCorr R) (extver : Int) : Hdu R :=
  ⟨.binary,
   [("EXTNAME", .str "OI_CORR"), ("OI_REVN", .int 1), ("CORRNAME", .str (keyStr t.corrname)),
    ("NDATA", .int t.ndata), ("EXTVER", .int extver)],
   [intsCol "IINDX" .J 1 t.iindx (fun x => [x]),
    intsCol "JINDX" .J 1 t.jindx (fun x => [x]),
    dblsCol "CORR" 1 none t.corr (fun x => [x])],
   t.ncorr⟩

/-- An OI_INSPOL table. -/
def hduInspol (t : OiInspol R) (extver : Int) : Hdu R :=
  ⟨.binary,
   [("EXTNAME", .str "OI_INSPOL"), ("OI_REVN", .int 1), ("DATE-OBS", .str (keyStr t.date_obs)),
    ("NPOL", .int t.npol), ("ARRNAME", .str (keyStr t.arrname)), ("ORIENT", .str (keyStr t.orient)),
    ("MODEL", .str (keyStr t.model)), ("EXTVER", .int extver)],
   [intsCol "TARGET_ID" .I 1 t.record (fun r => [r.target_id]),
    strCol "INSNAME" 70 t.record (·.insname),
    dblsCol "MJD_OBS" 1 (some "day") t.record (fun r => [r.mjd_obs]),
    dblsCol "MJD_END" 1 (some "day") t.record (fun r => [r.mjd_end]),
    cpxsCol "JXX" t.nwave t.record (·.jxx),
    cpxsCol "JYY" t.nwave t.record (·.jyy),
    cpxsCol "JXY" t.nwave t.record (·.jxy),
    cpxsCol "JYX" t.nwave t.record (·.jyx),
    intsCol "STA_INDEX" .I 1 t.record (fun r => [r.sta_index])],
   t.record.length⟩

/-- The columns of an OI_VIS table. Their order depends on the optional ones. -/
def visCols (t : OiVis R) : List (Col R) :=
  let ampunit := if t.amptyp = ("correlated flux" : CStr) then some (keyStr t.ampunit) else none
  let first : List (Col R) :=
    [intsCol "TARGET_ID" .I 1 t.record (fun r => [r.target_id]),
     dblsCol "TIME" 1 (some "s") t.record (fun _ => [R.lit 0.0]),
     dblsCol "MJD" 1 (some "day") t.record (fun r => [r.mjd]),
     dblsCol "INT_TIME" 1 (some "s") t.record (fun r => [r.int_time]),
     dblsCol "VISAMP" t.nwave ampunit t.record (·.visamp),
     dblsCol "VISAMPERR" t.nwave ampunit t.record (·.visamperr)]
  let visphi : Col R := dblsCol "VISPHI" t.nwave (some "deg") t.record (·.visphi)
  let visphierr : Col R := dblsCol "VISPHIERR" t.nwave (some "deg") t.record (·.visphierr)
  let coords : List (Col R) :=
    [dblsCol "UCOORD" 1 (some "m") t.record (fun r => [r.ucoord]),
     dblsCol "VCOORD" 1 (some "m") t.record (fun r => [r.vcoord])]
  let last : List (Col R) :=
    [intsCol "STA_INDEX" .I 2 t.record (fun r => [r.sta_index.1, r.sta_index.2]),
     logsCol "FLAG" t.nwave none t.record (·.flag)]
  let refmap : List (Col R) := optCols t.usevisrefmap
    [logsCol "VISREFMAP" (t.nwave * t.nwave)
      (some (keyStr (("(" : CStr) ++ fmtInt t.nwave ++ ("," : CStr) ++ fmtInt t.nwave ++ (")" : CStr))))
      t.record (fun r => r.visrefmap.getD [])]
  let real : List (Col R) :=
    [dblsCol "RVIS" t.nwave (some (keyStr t.complexunit)) t.record (fun r => r.rvis.getD []),
     dblsCol "RVISERR" t.nwave (some (keyStr t.complexunit)) t.record (fun r => r.rviserr.getD [])]
  let imag : List (Col R) :=
    [dblsCol "IVIS" t.nwave (some (keyStr t.complexunit)) t.record (fun r => r.ivis.getD []),
     dblsCol "IVISERR" t.nwave (some (keyStr t.complexunit)) t.record (fun r => r.iviserr.getD [])]
  if t.corrname = [] then
    first ++ [visphi, visphierr] ++ optCols t.usecomplex (real ++ imag) ++ coords ++ refmap ++ last
  else
    first ++ [intsCol "CORRINDX_VISAMP" .J 1 t.record (fun r => [r.corrindx_visamp]), visphi]
      ++ optCols t.usecomplex (real ++ [intsCol "CORRINDX_RVIS" .J 1 t.record (fun r => [r.corrindx_rvis])]
        ++ imag ++ [intsCol "CORRINDX_IVIS" .J 1 t.record (fun r => [r.corrindx_ivis])])
      ++ [visphierr, intsCol "CORRINDX_VISPHI" .J 1 t.record (fun r => [r.corrindx_visphi])]
      ++ refmap ++ coords ++ last

/-- An OI_VIS table. -/
def hduVis (t : OiVis R) (extver : Int) : Hdu R :=
  ⟨.binary,
   ([("EXTNAME", .str "OI_VIS"), ("OI_REVN", .int 2), ("DATE-OBS", .str (keyStr t.date_obs))] : Keys R)
    ++ optKey "ARRNAME" t.arrname
    ++ ([("INSNAME", .str (keyStr t.insname)), ("EXTVER", .int extver)] : Keys R)
    ++ optKey "CORRNAME" t.corrname ++ optKey "AMPTYP" t.amptyp ++ optKey "PHITYP" t.phityp
    ++ optOrder "AMPORDER" t.amporder ++ optOrder "PHIORDER" t.phiorder,
   visCols t,
   t.record.length⟩

/-- An OI_VIS2 table. -/
def hduVis2 (t : OiVis2 R) (extver : Int) : Hdu R :=
  ⟨.binary,
   ([("EXTNAME", .str "OI_VIS2"), ("OI_REVN", .int 2), ("DATE-OBS", .str (keyStr t.date_obs))] : Keys R)
    ++ optKey "ARRNAME" t.arrname
    ++ ([("INSNAME", .str (keyStr t.insname)), ("EXTVER", .int extver)] : Keys R)
    ++ optKey "CORRNAME" t.corrname,
   [intsCol "TARGET_ID" .I 1 t.record (fun r => [r.target_id]),
    dblsCol "TIME" 1 (some "s") t.record (fun _ => [R.lit 0.0]),
    dblsCol "MJD" 1 (some "day") t.record (fun r => [r.mjd]),
    dblsCol "INT_TIME" 1 (some "s") t.record (fun r => [r.int_time]),
    dblsCol "VIS2DATA" t.nwave none t.record (·.vis2data),
    dblsCol "VIS2ERR" t.nwave none t.record (·.vis2err)]
    ++ optCols (t.corrname ≠ []) [intsCol "CORRINDX_VIS2DATA" .J 1 t.record (fun r => [r.corrindx_vis2data])]
    ++ [dblsCol "UCOORD" 1 (some "m") t.record (fun r => [r.ucoord]),
        dblsCol "VCOORD" 1 (some "m") t.record (fun r => [r.vcoord]),
        intsCol "STA_INDEX" .I 2 t.record (fun r => [r.sta_index.1, r.sta_index.2]),
        logsCol "FLAG" t.nwave none t.record (·.flag)],
   t.record.length⟩

/-- An OI_T3 table. -/
def hduT3 (t : OiT3 R) (extver : Int) : Hdu R :=
  ⟨.binary,
   ([("EXTNAME", .str "OI_T3"), ("OI_REVN", .int 2), ("DATE-OBS", .str (keyStr t.date_obs))] : Keys R)
    ++ optKey "ARRNAME" t.arrname
    ++ ([("INSNAME", .str (keyStr t.insname)), ("EXTVER", .int extver)] : Keys R)
    ++ optKey "CORRNAME" t.corrname,
   [intsCol "TARGET_ID" .I 1 t.record (fun r => [r.target_id]),
    dblsCol "TIME" 1 (some "s") t.record (fun _ => [R.lit 0.0]),
    dblsCol "MJD" 1 (some "day") t.record (fun r => [r.mjd]),
    dblsCol "INT_TIME" 1 (some "s") t.record (fun r => [r.int_time]),
    dblsCol "T3AMP" t.nwave none t.record (·.t3amp),
    dblsCol "T3AMPERR" t.nwave none t.record (·.t3amperr)]
    ++ optCols (t.corrname ≠ []) [intsCol "CORRINDX_T3AMP" .J 1 t.record (fun r => [r.corrindx_t3amp])]
    ++ [dblsCol "T3PHI" t.nwave (some "deg") t.record (·.t3phi),
        dblsCol "T3PHIERR" t.nwave (some "deg") t.record (·.t3phierr)]
    ++ optCols (t.corrname ≠ []) [intsCol "CORRINDX_T3PHI" .J 1 t.record (fun r => [r.corrindx_t3phi])]
    ++ [dblsCol "U1COORD" 1 (some "m") t.record (fun r => [r.u1coord]),
        dblsCol "V1COORD" 1 (some "m") t.record (fun r => [r.v1coord]),
        dblsCol "U2COORD" 1 (some "m") t.record (fun r => [r.u2coord]),
        dblsCol "V2COORD" 1 (some "m") t.record (fun r => [r.v2coord]),
        intsCol "STA_INDEX" .I 3 t.record
          (fun r => [r.sta_index.1, r.sta_index.2.1, r.sta_index.2.2]),
        logsCol "FLAG" t.nwave none t.record (·.flag)],
   t.record.length⟩

/-- An OI_FLUX table. -/
def hduFlux (t : OiFlux R) (extver : Int) : Hdu R :=
  ⟨.binary,
   ([("EXTNAME", .str "OI_FLUX"), ("OI_REVN", .int 1), ("DATE-OBS", .str (keyStr t.date_obs))] : Keys R)
    ++ optKey "ARRNAME" t.arrname
    ++ ([("INSNAME", .str (keyStr t.insname)),
        ("CALSTAT", .str (keyStr (if t.calstat = '\x00' then [] else [t.calstat]))),
        ("EXTVER", .int extver)] : Keys R)
    ++ (if t.fovtype = [] then []
        else ([("FOV", .dbl (asKey t.fov)), ("FOVTYPE", .str (keyStr t.fovtype))] : Keys R))
    ++ optKey "CORRNAME" t.corrname,
   [intsCol "TARGET_ID" .I 1 t.record (fun r => [r.target_id]),
    dblsCol "MJD" 1 (some "day") t.record (fun r => [r.mjd]),
    dblsCol "INT_TIME" 1 (some "s") t.record (fun r => [r.int_time]),
    dblsCol "FLUXDATA" t.nwave (some (keyStr t.fluxunit)) t.record (·.fluxdata)]
    ++ (if t.corrname = [] then
          [dblsCol "FLUXERR" t.nwave (some (keyStr t.fluxunit)) t.record (·.fluxerr)]
          ++ optCols (t.arrname ≠ []) [intsCol "STA_INDEX" .I 1 t.record (fun r => [r.sta_index])]
        else
          [intsCol "CORRINDX_FLUXDATA" .J 1 t.record (fun r => [r.corrindx_fluxdata])]
          ++ optCols (t.arrname ≠ []) [intsCol "STA_INDEX" .I 1 t.record (fun r => [r.sta_index])]
          ++ [dblsCol "FLUXERR" t.nwave (some (keyStr t.fluxunit)) t.record (·.fluxerr)])
    ++ [logsCol "FLAG" t.nwave none t.record (·.flag)],
   t.record.length⟩

/-- The primary HDU. `today` is the date of writing. -/
def hduPrimary (today : CStr) (t : OiHeader) : Hdu R :=
  ⟨.image,
   ([("ORIGIN", .str (keyStr t.origin)), ("DATE", .str (keyStr today)),
    ("DATE-OBS", .str (keyStr t.date_obs)), ("TELESCOP", .str (keyStr t.telescop)),
    ("INSTRUME", .str (keyStr t.instrume)), ("OBSERVER", .str (keyStr t.observer)),
    ("CONTENT", .str "OIFITS2"), ("INSMODE", .str (keyStr t.insmode)),
    ("OBJECT", .str (keyStr t.object))] : Keys R)
    ++ optKey "REFERENC" t.referenc ++ optKey "AUTHOR" t.author ++ optKey "PROG_ID" t.prog_id
    ++ optKey "PROCSOFT" t.procsoft ++ optKey "OBSTECH" t.obstech,
   [], 0⟩

/-- The HDUs of a file holding the dataset: primary HDU, target table, then the tables
of each type, numbered from 1. -/
def fileOf (today : CStr) (oi : OiFits R) : List (Hdu R) :=
  hduPrimary today oi.header :: hduTarget oi.targets ::
    ((oi.arrayList.mapIdx fun k t => hduArray t (k + 1))
    ++ (oi.wavelengthList.mapIdx fun k t => hduWavelength t (k + 1))
    ++ (oi.corrList.mapIdx fun k t => hduCorr t (k + 1))
    ++ (oi.inspolList.mapIdx fun k t => hduInspol t (k + 1))
    ++ (oi.visList.mapIdx fun k t => hduVis t (k + 1))
    ++ (oi.vis2List.mapIdx fun k t => hduVis2 t (k + 1))
    ++ (oi.t3List.mapIdx fun k t => hduT3 t (k + 1))
    ++ (oi.fluxList.mapIdx fun k t => hduFlux t (k + 1)))

end Spec

variable {R : FP}
open Spec

/-! ### Tables which can be written

Well-formed tables whose numbers fit the columns and keywords. -/

/-- An OI_ARRAY table which the format can hold. -/
structure OiArray.Storable (t : OiArray R) : Prop where
  wf : t.WF
  arrayx : (R.keyD t.arrayx).isSome
  arrayy : (R.keyD t.arrayy).isSome
  arrayz : (R.keyD t.arrayz).isSome
  sta_index : ∀ e ∈ t.elem, Int16 e.sta_index

/-- An OI_TARGET table which the format can hold. -/
structure OiTarget.Storable (t : OiTarget R) : Prop where
  rows : t.targ ≠ []
  target_id : ∀ x ∈ t.targ, Int16 x.target_id

/-- An OI_INSPOL table which the format can hold. -/
structure OiInspol.Storable (t : OiInspol R) : Prop where
  wf : t.WF
  nwave : t.nwave < 10000
  target_id : ∀ r ∈ t.record, Int16 r.target_id
  sta_index : ∀ r ∈ t.record, Int16 r.sta_index

/-- An OI_VIS table which the format can hold. -/
structure OiVis.Storable (t : OiVis R) : Prop where
  wf : t.WF
  nwave : t.nwave < 10000
  target_id : ∀ r ∈ t.record, Int16 r.target_id
  sta_index : ∀ r ∈ t.record, Int16 r.sta_index.1 ∧ Int16 r.sta_index.2

/-- An OI_VIS2 table which the format can hold. -/
structure OiVis2.Storable (t : OiVis2 R) : Prop where
  wf : t.WF
  nwave : t.nwave < 10000
  target_id : ∀ r ∈ t.record, Int16 r.target_id
  sta_index : ∀ r ∈ t.record, Int16 r.sta_index.1 ∧ Int16 r.sta_index.2

/-- An OI_T3 table which the format can hold. -/
structure OiT3.Storable (t : OiT3 R) : Prop where
  wf : t.WF
  nwave : t.nwave < 10000
  target_id : ∀ r ∈ t.record, Int16 r.target_id
  sta_index : ∀ r ∈ t.record, Int16 r.sta_index.1 ∧ Int16 r.sta_index.2.1 ∧ Int16 r.sta_index.2.2

/-- An OI_FLUX table which the format can hold. -/
structure OiFlux.Storable (t : OiFlux R) : Prop where
  wf : t.WF
  nwave : t.nwave < 10000
  fov : t.fovtype ≠ [] → (R.keyD t.fov).isSome
  target_id : ∀ r ∈ t.record, Int16 r.target_id
  sta_index : t.arrname ≠ [] → ∀ r ∈ t.record, Int16 r.sta_index

/-- A dataset which can be written to a file. -/
structure OiFits.Storable (oi : OiFits R) : Prop where
  targets : oi.targets.Storable
  array : ∀ t ∈ oi.arrayList, t.Storable
  wavelength : ∀ t ∈ oi.wavelengthList, t.WF
  corr : ∀ t ∈ oi.corrList, t.WF
  inspol : ∀ t ∈ oi.inspolList, t.Storable
  vis : ∀ t ∈ oi.visList, t.Storable
  vis2 : ∀ t ∈ oi.vis2List, t.Storable
  t3 : ∀ t ∈ oi.t3List, t.Storable
  flux : ∀ t ∈ oi.fluxList, t.Storable

end Verif
