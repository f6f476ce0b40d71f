import Verif.Core.Outcome
import Verif.Core.CStr
import Verif.Core.FP

/-! Data structures of `/repo/src/oifitslib/exchange.h` and `oifile.h`.

A C array together with its length field becomes a list when the allocation
functions tie both together (`nelement`/`elem`, `ntarget`/`targ`,
`numrec`/`record`). The channel arrays keep `nwave` as a field of its own,
because their lengths are not fixed by the type. `BOOL` is `Bool`. Fixed-size
`char` arrays are strings of any length; truncation is modelled where the code
copies. -/

namespace Verif

/-- exchange.h:76-95 `oi_header`. -/
structure OiHeader where
  origin : CStr
  date : CStr
  date_obs : CStr
  content : CStr
  telescop : CStr
  instrume : CStr
  observer : CStr
  insmode : CStr
  object : CStr
  referenc : CStr
  author : CStr
  prog_id : CStr
  procsoft : CStr
  obstech : CStr
deriving DecidableEq

/-- exchange.h:98-108 `element`. `staxyz[3]` is a triple. -/
structure Element (R : FP) where
  tel_name : CStr
  sta_name : CStr
  sta_index : Int
  diameter : R.Flt
  staxyz : R.Dbl × R.Dbl × R.Dbl
  fov : R.Dbl
  fovtype : CStr
deriving DecidableEq

/-- exchange.h:111-120 `oi_array`. `nelement` is the length of `elem`. -/
structure OiArray (R : FP) where
  revision : Int
  arrname : CStr
  frame : CStr
  arrayx : R.Dbl
  arrayy : R.Dbl
  arrayz : R.Dbl
  elem : List (Element R)
deriving DecidableEq

/-- exchange.h:126-141 `target`. -/
structure Target (R : FP) where
  target_id : Int
  target : CStr
  raep0 : R.Dbl
  decep0 : R.Dbl
  equinox : R.Flt
  ra_err : R.Dbl
  dec_err : R.Dbl
  sysvel : R.Dbl
  veltyp : CStr
  veldef : CStr
  pmra : R.Dbl
  pmdec : R.Dbl
  pmra_err : R.Dbl
  pmdec_err : R.Dbl
  parallax : R.Flt
  para_err : R.Flt
  spectyp : CStr
  category : CStr
deriving DecidableEq

/-- exchange.h:144-151 `oi_target`. `ntarget` is the length of `targ`. -/
structure OiTarget (R : FP) where
  revision : Int
  targ : List (Target R)
  usecategory : Bool
deriving DecidableEq

/-- exchange.h:154-162 `oi_wavelength`. -/
structure OiWavelength (R : FP) where
  revision : Int
  insname : CStr
  nwave : Nat
  eff_wave : List R.Flt
  eff_band : List R.Flt
deriving DecidableEq

/-- exchange.h:165-175 `oi_corr`. -/
structure OiCorr (R : FP) where
  revision : Int
  corrname : CStr
  ndata : Int
  ncorr : Nat
  iindx : List Int
  jindx : List Int
  corr : List R.Dbl
deriving DecidableEq

/-- exchange.h:178-190 `oi_inspol_record`. A `float complex` is a pair. -/
structure OiInspolRecord (R : FP) where
  target_id : Int
  insname : CStr
  mjd_obs : R.Dbl
  mjd_end : R.Dbl
  jxx : List (R.Flt × R.Flt)
  jyy : List (R.Flt × R.Flt)
  jxy : List (R.Flt × R.Flt)
  jyx : List (R.Flt × R.Flt)
  sta_index : Int
deriving DecidableEq

/-- exchange.h:193-205 `oi_inspol`. `numrec` is the length of `record`. -/
structure OiInspol (R : FP) where
  revision : Int
  date_obs : CStr
  npol : Int
  arrname : CStr
  orient : CStr
  model : CStr
  nwave : Nat
  record : List (OiInspolRecord R)
deriving DecidableEq

/-- exchange.h:209-228 `oi_vis_record`. The optional arrays are `none` when the
pointer is NULL. -/
structure OiVisRecord (R : FP) where
  target_id : Int
  time : R.Dbl
  mjd : R.Dbl
  int_time : R.Dbl
  visamp : List R.Dbl
  visamperr : List R.Dbl
  corrindx_visamp : Int
  visphi : List R.Dbl
  visphierr : List R.Dbl
  corrindx_visphi : Int
  visrefmap : Option (List Bool)
  rvis : Option (List R.Dbl)
  rviserr : Option (List R.Dbl)
  corrindx_rvis : Int
  ivis : Option (List R.Dbl)
  iviserr : Option (List R.Dbl)
  corrindx_ivis : Int
  ucoord : R.Dbl
  vcoord : R.Dbl
  sta_index : Int × Int
  flag : List Bool
deriving DecidableEq

/-- exchange.h:231-250 `oi_vis`. -/
structure OiVis (R : FP) where
  revision : Int
  date_obs : CStr
  arrname : CStr
  insname : CStr
  corrname : CStr
  amptyp : CStr
  phityp : CStr
  amporder : Int
  phiorder : Int
  usevisrefmap : Bool
  usecomplex : Bool
  complexunit : CStr
  ampunit : CStr
  nwave : Nat
  record : List (OiVisRecord R)
deriving DecidableEq

/-- exchange.h:254-266 `oi_vis2_record`. -/
structure OiVis2Record (R : FP) where
  target_id : Int
  time : R.Dbl
  mjd : R.Dbl
  int_time : R.Dbl
  vis2data : List R.Dbl
  vis2err : List R.Dbl
  corrindx_vis2data : Int
  ucoord : R.Dbl
  vcoord : R.Dbl
  sta_index : Int × Int
  flag : List Bool
deriving DecidableEq

/-- exchange.h:269-280 `oi_vis2`. -/
structure OiVis2 (R : FP) where
  revision : Int
  date_obs : CStr
  arrname : CStr
  insname : CStr
  corrname : CStr
  nwave : Nat
  record : List (OiVis2Record R)
deriving DecidableEq

/-- exchange.h:283-297 `oi_t3_record`. -/
structure OiT3Record (R : FP) where
  target_id : Int
  time : R.Dbl
  mjd : R.Dbl
  int_time : R.Dbl
  t3amp : List R.Dbl
  t3amperr : List R.Dbl
  corrindx_t3amp : Int
  t3phi : List R.Dbl
  t3phierr : List R.Dbl
  corrindx_t3phi : Int
  u1coord : R.Dbl
  v1coord : R.Dbl
  u2coord : R.Dbl
  v2coord : R.Dbl
  sta_index : Int × Int × Int
  flag : List Bool
deriving DecidableEq

/-- exchange.h:300-311 `oi_t3`. -/
structure OiT3 (R : FP) where
  revision : Int
  date_obs : CStr
  arrname : CStr
  insname : CStr
  corrname : CStr
  nwave : Nat
  record : List (OiT3Record R)
deriving DecidableEq

/-- exchange.h:314-326 `oi_flux_record`. -/
structure OiFluxRecord (R : FP) where
  target_id : Int
  mjd : R.Dbl
  int_time : R.Dbl
  fluxdata : List R.Dbl
  fluxerr : List R.Dbl
  corrindx_fluxdata : Int
  sta_index : Int
  flag : List Bool
deriving DecidableEq

/-- exchange.h:329-344 `oi_flux`. -/
structure OiFlux (R : FP) where
  revision : Int
  date_obs : CStr
  arrname : CStr
  insname : CStr
  corrname : CStr
  fov : R.Dbl
  fovtype : CStr
  calstat : Char
  fluxunit : CStr
  nwave : Nat
  record : List (OiFluxRecord R)
deriving DecidableEq

/-- oifile.h:70-95 `oi_fits`. The hash tables hold pointers to the tables in the
lists; here they hold the tables themselves, which the code does not modify
once hashed. -/
structure OiFits (R : FP) where
  numArray : Int
  numWavelength : Int
  numCorr : Int
  numInspol : Int
  numVis : Int
  numVis2 : Int
  numT3 : Int
  numFlux : Int
  header : OiHeader
  targets : OiTarget R
  arrayList : List (OiArray R)
  wavelengthList : List (OiWavelength R)
  corrList : List (OiCorr R)
  inspolList : List (OiInspol R)
  visList : List (OiVis R)
  vis2List : List (OiVis2 R)
  t3List : List (OiT3 R)
  fluxList : List (OiFlux R)
  arrayHash : HMap (OiArray R)
  wavelengthHash : HMap (OiWavelength R)
  corrHash : HMap (OiCorr R)
deriving DecidableEq

/-- exchange.h:47-62: revision numbers of the tables of OIFITS version 1 and 2. -/
def OI_REVN_V1_TARGET : Int := 1
/-- exchange.h:48. -/
def OI_REVN_V1_ARRAY : Int := 1
/-- exchange.h:49. -/
def OI_REVN_V1_WAVELENGTH : Int := 1
/-- exchange.h:50. -/
def OI_REVN_V1_VIS : Int := 1
/-- exchange.h:51. -/
def OI_REVN_V1_VIS2 : Int := 1
/-- exchange.h:52. -/
def OI_REVN_V1_T3 : Int := 1
/-- exchange.h:54. -/
def OI_REVN_V2_TARGET : Int := 2
/-- exchange.h:55. -/
def OI_REVN_V2_ARRAY : Int := 2
/-- exchange.h:56. -/
def OI_REVN_V2_WAVELENGTH : Int := 2
/-- exchange.h:57. -/
def OI_REVN_V2_VIS : Int := 2
/-- exchange.h:58. -/
def OI_REVN_V2_VIS2 : Int := 2
/-- exchange.h:59. -/
def OI_REVN_V2_T3 : Int := 2
/-- exchange.h:60. -/
def OI_REVN_V2_FLUX : Int := 1
/-- exchange.h:61. -/
def OI_REVN_V2_CORR : Int := 1
/-- exchange.h:62. -/
def OI_REVN_V2_INSPOL : Int := 1

end Verif
