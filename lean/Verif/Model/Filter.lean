import Verif.Model.FilterSpec

/-! Model of `/repo/src/oifitslib/oifilter.c`: `apply_oi_filter` and the functions it
calls. Warnings are not modelled. Output arrays are lists of the entries written
so far; `k` counts them, as in the code, and writing past the size given to
`chkmalloc` is undefined behaviour. -/

namespace Verif
open Outcome

variable {R : FP}

/-- `chkmalloc(n * size)`: refuses a request for no bytes (chkmalloc.c:31-36). -/
def chkmallocN (n : Nat) : Outcome Unit := if n = 0 then .abort else .ok ()

/-- Writing element `k` of an array of `size` elements. -/
def checkWrite (k size : Nat) : Outcome Unit := if k < size then .ok () else .ub

/-- oifilter.c:904, 1068, 1099, 1140, 1283, 1331, 1508, 1583, 1699, 1735: The loop `for (j = 0; j < n; j++) if (useWave[j]) { body }`. -/
def useLoop {σ : Type} (n : Nat) (useWave : List Bool) (body : Nat → σ → Outcome σ) (s : σ) :
    Outcome σ :=
  loopN n (fun j s => do
    let u ← index useWave j
    if u then body j s else return s) s

/-- oifilter.c:992, 1232, 1422 (`any_..._chan_ok`). A loop with body `p` that returns TRUE as soon as `p` holds, FALSE at the end. -/
def anyLoop (p : Nat → Outcome Bool) : List Nat → Outcome Bool
  | [] => return false
  | j :: js => do
    let b ← p j
    if b then return true else anyLoop p js

/-- The counting loop at oifilter.c:1138-1140 (also 1329-1331, 1581-1583, 1734-1736). -/
def countUse (n : Nat) (useWave : List Bool) : Outcome Nat :=
  useLoop n useWave (fun _ k => return k + 1) 0

/-- The loop over records (e.g. oifilter.c:1146-1168): the kept ones, converted. -/
def filterRecs {ρ : Type} (keep : ρ → Outcome Bool) (conv : ρ → Outcome ρ) :
    List ρ → Outcome (List ρ)
  | [] => return []
  | r :: rs => do
    let b ← keep r
    if b then do
      let r' ← conv r
      let rs' ← filterRecs keep conv rs
      return r' :: rs'
    else filterRecs keep conv rs

/-- The loop over tables (e.g. oifilter.c:957-985): the accepted tables whose
instrument has accepted channels, filtered, unless that leaves them empty. -/
def filterTabs {τ : Type} (accept : τ → Bool) (useWave : τ → Option (List Bool))
    (filt : τ → List Bool → Outcome τ) (nonempty : τ → Bool) : List τ → Outcome (List τ)
  | [] => return []
  | t :: ts =>
    if !accept t then filterTabs accept useWave filt nonempty ts
    else match useWave t with
      | none => filterTabs accept useWave filt nonempty ts
      | some u => do
        let t' ← filt t u
        let ts' ← filterTabs accept useWave filt nonempty ts
        if nonempty t' then return t' :: ts' else return ts'

/-! ### Header, targets, arrays, correlations -/

/-- oifilter.c:603-609 `filter_oi_header`. -/
def filter_oi_header (h : OiHeader) : OiHeader := h

/-- The loop at oifilter.c:628-636: each matching record replaces the output table. -/
def filterTargetLoop (id : Int) (out : OiTarget R) : List (Target R) → OiTarget R
  | [] => out
  | t :: ts =>
    if t.target_id = id then
      filterTargetLoop id { out with targ := [{ t with target_id := 1 }] } ts
    else filterTargetLoop id out ts

/-- oifilter.c:618-645 `filter_oi_target`; `out` is the table initialised by
`init_oi_fits`. -/
def filter_oi_target (inp : OiTarget R) (f : FilterSpec R) (out : OiTarget R) :
    Outcome (OiTarget R) :=
  if f.target_id ≥ 0 then
    return filterTargetLoop f.target_id { out with revision := inp.revision, targ := [] } inp.targ
  else do
    let targ ← memdup inp.targ inp.targ.length
    return { inp with targ := targ }

/-- oifilter.c:656-677 `filter_all_oi_array`. -/
def filter_all_oi_array (inp : OiFits R) (f : FilterSpec R) (out : OiFits R) :
    Outcome (OiFits R) :=
  inp.arrayList.foldlM (fun out t =>
    if globMatch f.arrname t.arrname then do
      let t' ← dup_oi_array t
      return { out with
        arrayList := out.arrayList ++ [t']
        numArray := out.numArray + 1
        arrayHash := out.arrayHash.insert t'.arrname t' }
    else return out) out

/-- oifilter.c:786-807 `filter_all_oi_corr`. -/
def filter_all_oi_corr (inp : OiFits R) (f : FilterSpec R) (out : OiFits R) :
    Outcome (OiFits R) :=
  inp.corrList.foldlM (fun out t =>
    if globMatch f.corrname t.corrname then do
      let t' ← dup_oi_corr t
      return { out with
        corrList := out.corrList ++ [t']
        numCorr := out.numCorr + 1
        corrHash := out.corrHash.insert t'.corrname t' }
    else return out) out

/-! ### Wavelengths -/

/-- oifilter.c:741-775 `filter_oi_wavelength`: the output table and `useWave`. -/
def filter_oi_wavelength (w : OiWavelength R) (range : R.Flt × R.Flt) :
    Outcome (OiWavelength R × List Bool) := do
  chkmallocN w.nwave
  let (eff_wave, eff_band, useWave) ← loopN w.nwave (fun i (s : List R.Flt × List R.Flt × List Bool) => do
    let x ← index w.eff_wave i
    if outsideF range x then return (s.1, s.2.1, s.2.2 ++ [false]) else do
    let b ← index w.eff_band i
    return (s.1 ++ [x], s.2.1 ++ [b], s.2.2 ++ [true])) ([], [], [])
  return ({ revision := w.revision, insname := strlcpy w.insname FLEN_VALUE,
            nwave := eff_wave.length, eff_wave := eff_wave, eff_band := eff_band }, useWave)

/-- oifilter.c:694-729 `useWaveHash`. The accepted channels by INSNAME; `none` stands for NULL. -/
abbrev UseWave := HMap (Option (List Bool))

/-- oifilter.c:885, 964, 1205, 1395: `g_hash_table_lookup(useWaveHash, insname)`: NULL also if there is no entry. -/
def UseWave.get (h : UseWave) (insname : CStr) : Option (List Bool) :=
  match h.lookup insname with
  | some u => u
  | none => none

/-- oifilter.c:690-730 `filter_all_oi_wavelength`. -/
def filter_all_oi_wavelength (inp : OiFits R) (f : FilterSpec R) (out : OiFits R) :
    Outcome (OiFits R × UseWave) :=
  inp.wavelengthList.foldlM (fun (s : OiFits R × UseWave) w =>
    if globMatch f.insname w.insname then do
      chkmallocN w.nwave
      let (w', useWave) ← filter_oi_wavelength w f.wave_range
      if w'.nwave > 0 then
        return ({ s.1 with
          wavelengthList := s.1.wavelengthList ++ [w']
          numWavelength := s.1.numWavelength + 1
          wavelengthHash := s.1.wavelengthHash.insert w'.insname w' },
          s.2.insert w.insname (some useWave))
      else return (s.1, s.2.insert w.insname none)
    else return s) (out, HMap.empty)

/-! ### OI_INSPOL -/

/-- Tests at oifilter.c:875-886 on a record: the accepted channels of its
instrument, if it is kept. -/
def inspolUse (f : FilterSpec R) (useWaveHash : UseWave) (r : OiInspolRecord R) :
    Option (List Bool) :=
  if f.target_id ≥ 0 ∧ r.target_id ≠ f.target_id then none
  else if !globMatch f.insname r.insname then none
  else if R.lt r.mjd_end f.mjd_range.1 || R.lt f.mjd_range.2 r.mjd_obs then none
  else useWaveHash.get r.insname

/-- oifilter.c:892-899. The output arrays of one OI_INSPOL record being filled. -/
structure InspolBuf (R : FP) where
  k : Nat
  jxx : List (R.Flt × R.Flt)
  jyy : List (R.Flt × R.Flt)
  jxy : List (R.Flt × R.Flt)
  jyx : List (R.Flt × R.Flt)

/-- oifilter.c:886-912: allocation of arrays of `nwaveOut` elements and the loop
filling them. Elements not written remain indeterminate; they are left out. -/
def filterInspolRecord (f : FilterSpec R) (nwaveIn nwaveOut : Nat) (useWave : List Bool)
    (r : OiInspolRecord R) : Outcome (OiInspolRecord R) := do
  chkmallocN nwaveOut
  let s ← useLoop nwaveIn useWave (fun j (s : InspolBuf R) => do
    checkWrite s.k nwaveOut
    let xx ← index r.jxx j
    let yy ← index r.jyy j
    let xy ← index r.jxy j
    let yx ← index r.jyx j
    return ⟨s.k + 1, s.jxx ++ [xx], s.jyy ++ [yy], s.jxy ++ [xy], s.jyx ++ [yx]⟩)
    ⟨0, [], [], [], []⟩
  return { r with target_id := if f.target_id ≥ 0 then 1 else r.target_id
                  jxx := s.jxx, jyy := s.jyy, jxy := s.jxy, jyx := s.jyx }

/-- The loop at oifilter.c:873-928 over the records, with the output table's `nwave`
(the input's, until the first output record has fewer channels) and records. -/
def filterInspolLoop (f : FilterSpec R) (useWaveHash : UseWave) (nwaveIn : Nat) :
    Nat → List (OiInspolRecord R) → List (OiInspolRecord R) →
    Outcome (Nat × List (OiInspolRecord R))
  | nwaveOut, out, [] => return (nwaveOut, out)
  | nwaveOut, out, r :: rs =>
    match inspolUse f useWaveHash r with
    | none => filterInspolLoop f useWaveHash nwaveIn nwaveOut out rs
    | some useWave => do
      let r' ← filterInspolRecord f nwaveIn nwaveOut useWave r
      filterInspolLoop f useWaveHash nwaveIn
        (if out.isEmpty && r'.jxx.length < nwaveOut then r'.jxx.length else nwaveOut)
        (out ++ [r']) rs

/-- oifilter.c:859-931 `filter_oi_inspol`. -/
def filter_oi_inspol (t : OiInspol R) (f : FilterSpec R) (useWaveHash : UseWave) :
    Outcome (OiInspol R) := do
  chkmallocN t.record.length
  let (nwave, record) ← filterInspolLoop f useWaveHash t.nwave t.nwave [] t.record
  return { t with nwave := nwave, record := record }

/-- oifilter.c:818-848 `filter_all_oi_inspol`. -/
def filter_all_oi_inspol (inp : OiFits R) (f : FilterSpec R) (useWaveHash : UseWave)
    (out : OiFits R) : Outcome (OiFits R) := do
  let ts ← filterTabs (fun t => globMatch f.arrname t.arrname) (fun _ => some [])
    (fun t _ => filter_oi_inspol t f useWaveHash)
    (fun t => decide (t.nwave > 0) && !t.record.isEmpty) inp.inspolList
  return { out with inspolList := out.inspolList ++ ts, numInspol := out.numInspol + ts.length }

/-! ### Tests on data records -/

/-- oifilter.c:875, 1148, 1339, 1591, 1743: `if (pFilter->target_id >= 0 && record.target_id != pFilter->target_id) continue;` -/
def targetSkip (f : FilterSpec R) (id : Int) : Bool := decide (f.target_id ≥ 0 ∧ id ≠ f.target_id)

/-- oifilter.c:891, 1039, 1275, 1494, 1692: `if (pFilter->target_id >= 0) pOutRec->target_id = 1;` -/
def newTargetId (f : FilterSpec R) (id : Int) : Int := if f.target_id ≥ 0 then 1 else id

/-- oifilter.c:1006-1011, 1077-1086, 1246-1251, 1290-1299: `if (pWave != NULL) { uvrad = bas / pWave->eff_wave[j]; ... }`: is the UV radius
out of range? -/
def uvradOutside (f : FilterSpec R) (pWave : Option (OiWavelength R)) (bas : R.Dbl) (j : Nat) :
    Outcome Bool :=
  match pWave with
  | none => return false
  | some w => do
    let x ← index w.eff_wave j
    return outsideD f.uvrad_range (R.div bas (R.toD x))

/-- oifilter.c:1159, 1350, 1610: `if (!pFilter->accept_flagged && !any_..._chan_ok(...)) continue;` -/
def flaggedSkip (f : FilterSpec R) (anyOk : Outcome Bool) : Outcome Bool :=
  if f.accept_flagged then return false else do
  let b ← anyOk
  return !b

/-! ### OI_VIS -/

/-- The body of the loop at oifilter.c:1003-1019. -/
def visChanOk (f : FilterSpec R) (pWave : Option (OiWavelength R)) (useWave : List Bool)
    (r : OiVisRecord R) (j : Nat) : Outcome Bool := do
  let u ← index useWave j
  if !u then return false else do
  let flag ← index r.flag j
  if flag then return false else do
  let badUv ← uvradOutside f pWave (hypot2 r.ucoord r.vcoord) j
  if badUv then return false else do
  let amp ← index r.visamp j
  let amperr ← index r.visamperr j
  let phierr ← index r.visphierr j
  return !(outsideF f.snr_range (R.toF (R.div amp amperr)) ||
    outsideF f.snr_range (R.toF (R.div RAD2DEG phierr)))

/-- oifilter.c:992-1021 `any_vis_chan_ok`. -/
def any_vis_chan_ok (f : FilterSpec R) (pWave : Option (OiWavelength R)) (useWave : List Bool)
    (nwave : Nat) (r : OiVisRecord R) : Outcome Bool :=
  anyLoop (visChanOk f pWave useWave r) (List.range nwave)

/-- oifilter.c:1073-1093: the new flag of channel `j`. -/
def visNewFlag (f : FilterSpec R) (pWave : Option (OiWavelength R)) (r : OiVisRecord R) (j : Nat) :
    Outcome Bool := do
  let flag ← index r.flag j
  if flag then return true else do
  let badUv ← uvradOutside f pWave (hypot2 r.ucoord r.vcoord) j
  let amp ← index r.visamp j
  let amperr ← index r.visamperr j
  let phierr ← index r.visphierr j
  return badUv || (outsideF f.snr_range (R.toF (R.div amp amperr)) ||
    outsideF f.snr_range (R.toF (R.div RAD2DEG phierr)))

/-- Reading element `i` through a pointer that may be NULL. -/
def indexOpt {α : Type} (l : Option (List α)) (i : Nat) : Outcome α := do
  let l ← deref l
  index l i

/-- oifilter.c:1097-1106: row `k` of the new VISREFMAP, appended to the rows
before. The elements `[m + k * nwaveOut]` are written in the order of their index;
a write elsewhere would not be one in order and counts as undefined here. -/
def visRefmapRow (useWave : List Bool) (nwaveIn nwaveOut : Nat) (r : OiVisRecord R) (j k : Nat)
    (buf : List Bool) : Outcome (List Bool) := do
  let (_, buf) ← useLoop nwaveIn useWave (fun l (s : Nat × List Bool) => do
    let x ← indexOpt r.visrefmap (l + j * nwaveIn)
    if s.1 + k * nwaveOut < nwaveOut * nwaveOut ∧ s.1 + k * nwaveOut = s.2.length then
      return (s.1 + 1, s.2 ++ [x])
    else .ub) (0, buf)
  return buf

/-- oifilter.c:1068-1096. `if (used) dst[k] = src[j];` -/
def copyIf {α : Type} (used : Bool) (src : Option (List α)) (j : Nat) (buf : List α) :
    Outcome (List α) :=
  if used then do
    let x ← indexOpt src j
    return buf ++ [x]
  else return buf

/-- oifilter.c:1045-1056. An array allocated and filled if used, else NULL. -/
def arrayIf {α : Type} (used : Bool) (buf : List α) : Option (List α) :=
  if used then some buf else none

/-- oifilter.c:1040-1055. The output arrays of one OI_VIS record being filled. -/
structure VisBuf (R : FP) where
  k : Nat
  visamp : List R.Dbl
  visamperr : List R.Dbl
  visphi : List R.Dbl
  visphierr : List R.Dbl
  flag : List Bool
  visrefmap : List Bool
  rvis : List R.Dbl
  rviserr : List R.Dbl
  ivis : List R.Dbl
  iviserr : List R.Dbl

/-- `if (usevisrefmap) { ... }` at oifilter.c:1095-1107. -/
def visRefmapIf (usevisrefmap : Bool) (useWave : List Bool) (nwaveIn nwaveOut : Nat)
    (r : OiVisRecord R) (j k : Nat) (buf : List Bool) : Outcome (List Bool) :=
  if usevisrefmap then visRefmapRow useWave nwaveIn nwaveOut r j k buf else return buf

/-- The body of the loop at oifilter.c:1067-1116, for a channel that is used. -/
def filterVisChan (f : FilterSpec R) (pWave : Option (OiWavelength R)) (useWave : List Bool)
    (nwaveIn nwaveOut : Nat) (usevisrefmap usecomplex : Bool) (r : OiVisRecord R) (j : Nat)
    (s : VisBuf R) : Outcome (VisBuf R) := do
  checkWrite s.k nwaveOut
  let amp ← index r.visamp j
  let amperr ← index r.visamperr j
  let phi ← index r.visphi j
  let phierr ← index r.visphierr j
  let flag ← visNewFlag f pWave r j
  let visrefmap ← visRefmapIf usevisrefmap useWave nwaveIn nwaveOut r j s.k s.visrefmap
  let rvis ← copyIf usecomplex r.rvis j s.rvis
  let rviserr ← copyIf usecomplex r.rviserr j s.rviserr
  let ivis ← copyIf usecomplex r.ivis j s.ivis
  let iviserr ← copyIf usecomplex r.iviserr j s.iviserr
  return {
    k := s.k + 1
    visamp := s.visamp ++ [amp]
    visamperr := s.visamperr ++ [amperr]
    visphi := s.visphi ++ [phi]
    visphierr := s.visphierr ++ [phierr]
    flag := s.flag ++ [flag]
    visrefmap := visrefmap
    rvis := rvis
    rviserr := rviserr
    ivis := ivis
    iviserr := iviserr }

/-- oifilter.c:1026-1118 `filter_oi_vis_record`. `someUnflagged` is set iff some
output flag is not. -/
def filter_oi_vis_record (f : FilterSpec R) (pWave : Option (OiWavelength R)) (useWave : List Bool)
    (nwaveIn nwaveOut : Nat) (usevisrefmap usecomplex : Bool) (r : OiVisRecord R) :
    Outcome (OiVisRecord R) := do
  chkmallocN nwaveOut
  let s ← useLoop nwaveIn useWave
    (filterVisChan f pWave useWave nwaveIn nwaveOut usevisrefmap usecomplex r)
    ⟨0, [], [], [], [], [], [], [], [], [], []⟩
  guardAssert (f.accept_flagged || s.flag.any (!·))
  return { r with
    target_id := newTargetId f r.target_id
    visamp := s.visamp
    visamperr := s.visamperr
    visphi := s.visphi
    visphierr := s.visphierr
    flag := s.flag
    visrefmap := arrayIf usevisrefmap s.visrefmap
    rvis := arrayIf usecomplex s.rvis
    rviserr := arrayIf usecomplex s.rviserr
    ivis := arrayIf usecomplex s.ivis
    iviserr := arrayIf usecomplex s.iviserr }

/-- The tests at oifilter.c:1148-1163: is the record kept? -/
def visKeep (f : FilterSpec R) (pWave : Option (OiWavelength R)) (useWave : List Bool) (nwave : Nat)
    (r : OiVisRecord R) : Outcome Bool :=
  if targetSkip f r.target_id then return false
  else if outsideD f.mjd_range r.mjd then return false
  else if outsideD f.bas_range (hypot2 r.ucoord r.vcoord) then return false
  else do
    let skip ← flaggedSkip f (any_vis_chan_ok f pWave useWave nwave r)
    return !skip

/-- oifilter.c:1129-1171 `filter_oi_vis`. -/
def filter_oi_vis (t : OiVis R) (f : FilterSpec R) (pWave : Option (OiWavelength R))
    (useWave : List Bool) : Outcome (OiVis R) := do
  let nwaveOut ← countUse t.nwave useWave
  chkmallocN t.record.length
  let record ← filterRecs (visKeep f pWave useWave t.nwave)
    (filter_oi_vis_record f pWave useWave t.nwave nwaveOut t.usevisrefmap t.usecomplex) t.record
  return { t with nwave := nwaveOut, record := record }

/-- oifilter.c:942-987 `filter_all_oi_vis`. -/
def filter_all_oi_vis (inp : OiFits R) (f : FilterSpec R) (useWaveHash : UseWave)
    (out : OiFits R) : Outcome (OiFits R) :=
  if !f.accept_vis then return out else do
  let ts ← filterTabs
    (fun t => globMatch f.insname t.insname && globMatch f.arrname t.arrname &&
      globMatch f.corrname t.corrname)
    (fun t => useWaveHash.get t.insname)
    (fun t useWave => filter_oi_vis t f (oi_fits_lookup_wavelength inp t.insname) useWave)
    (fun t => decide (t.nwave > 0) && !t.record.isEmpty) inp.visList
  return { out with visList := out.visList ++ ts, numVis := out.numVis + ts.length }

/-! ### OI_VIS2 -/

/-- The body of the loop at oifilter.c:1243-1256. -/
def vis2ChanOk (f : FilterSpec R) (pWave : Option (OiWavelength R)) (useWave : List Bool)
    (r : OiVis2Record R) (j : Nat) : Outcome Bool := do
  let u ← index useWave j
  if !u then return false else do
  let flag ← index r.flag j
  if flag then return false else do
  let badUv ← uvradOutside f pWave (hypot2 r.ucoord r.vcoord) j
  if badUv then return false else do
  let x ← index r.vis2data j
  let err ← index r.vis2err j
  return !outsideF f.snr_range (R.toF (R.div x err))

/-- oifilter.c:1232-1258 `any_vis2_chan_ok`. -/
def any_vis2_chan_ok (f : FilterSpec R) (pWave : Option (OiWavelength R)) (useWave : List Bool)
    (nwave : Nat) (r : OiVis2Record R) : Outcome Bool :=
  anyLoop (vis2ChanOk f pWave useWave r) (List.range nwave)

/-- oifilter.c:1287-1304: the new flag of channel `j`. -/
def vis2NewFlag (f : FilterSpec R) (pWave : Option (OiWavelength R)) (r : OiVis2Record R)
    (j : Nat) : Outcome Bool := do
  let flag ← index r.flag j
  if flag then return true else do
  let badUv ← uvradOutside f pWave (hypot2 r.ucoord r.vcoord) j
  let x ← index r.vis2data j
  let err ← index r.vis2err j
  return badUv || outsideF f.snr_range (R.toF (R.div x err))

/-- oifilter.c:1276-1278. The output arrays of one OI_VIS2 record being filled. -/
structure Vis2Buf (R : FP) where
  k : Nat
  vis2data : List R.Dbl
  vis2err : List R.Dbl
  flag : List Bool

/-- The body of the loop at oifilter.c:1281-1307, for a channel that is used. -/
def filterVis2Chan (f : FilterSpec R) (pWave : Option (OiWavelength R)) (nwaveOut : Nat)
    (r : OiVis2Record R) (j : Nat) (s : Vis2Buf R) : Outcome (Vis2Buf R) := do
  checkWrite s.k nwaveOut
  let x ← index r.vis2data j
  let err ← index r.vis2err j
  let flag ← vis2NewFlag f pWave r j
  return {
    k := s.k + 1
    vis2data := s.vis2data ++ [x]
    vis2err := s.vis2err ++ [err]
    flag := s.flag ++ [flag] }

/-- oifilter.c:1263-1309 `filter_oi_vis2_record`. -/
def filter_oi_vis2_record (f : FilterSpec R) (pWave : Option (OiWavelength R))
    (useWave : List Bool) (nwaveIn nwaveOut : Nat) (r : OiVis2Record R) :
    Outcome (OiVis2Record R) := do
  chkmallocN nwaveOut
  let s ← useLoop nwaveIn useWave (filterVis2Chan f pWave nwaveOut r) ⟨0, [], [], []⟩
  guardAssert (f.accept_flagged || s.flag.any (!·))
  return { r with
    target_id := newTargetId f r.target_id
    vis2data := s.vis2data
    vis2err := s.vis2err
    flag := s.flag }

/-- The tests at oifilter.c:1339-1354: is the record kept? -/
def vis2Keep (f : FilterSpec R) (pWave : Option (OiWavelength R)) (useWave : List Bool) (nwave : Nat)
    (r : OiVis2Record R) : Outcome Bool :=
  if targetSkip f r.target_id then return false
  else if outsideD f.mjd_range r.mjd then return false
  else if outsideD f.bas_range (hypot2 r.ucoord r.vcoord) then return false
  else do
    let skip ← flaggedSkip f (any_vis2_chan_ok f pWave useWave nwave r)
    return !skip

/-- oifilter.c:1320-1362 `filter_oi_vis2`. -/
def filter_oi_vis2 (t : OiVis2 R) (f : FilterSpec R) (pWave : Option (OiWavelength R))
    (useWave : List Bool) : Outcome (OiVis2 R) := do
  let nwaveOut ← countUse t.nwave useWave
  chkmallocN t.record.length
  let record ← filterRecs (vis2Keep f pWave useWave t.nwave)
    (filter_oi_vis2_record f pWave useWave t.nwave nwaveOut) t.record
  return { t with nwave := nwaveOut, record := record }

/-- oifilter.c:1182-1227 `filter_all_oi_vis2`. -/
def filter_all_oi_vis2 (inp : OiFits R) (f : FilterSpec R) (useWaveHash : UseWave)
    (out : OiFits R) : Outcome (OiFits R) :=
  if !f.accept_vis2 then return out else do
  let ts ← filterTabs
    (fun t => globMatch f.insname t.insname && globMatch f.arrname t.arrname &&
      globMatch f.corrname t.corrname)
    (fun t => useWaveHash.get t.insname)
    (fun t useWave => filter_oi_vis2 t f (oi_fits_lookup_wavelength inp t.insname) useWave)
    (fun t => decide (t.nwave > 0) && !t.record.isEmpty) inp.vis2List
  return { out with vis2List := out.vis2List ++ ts, numVis2 := out.numVis2 + ts.length }

/-! ### OI_T3 -/

/-- oifilter.c:1441-1454: is one of the three UV radii out of range? -/
def t3UvOutside (f : FilterSpec R) (pWave : Option (OiWavelength R)) (r : OiT3Record R) (j : Nat) :
    Outcome Bool := do
  let ab ← uvradOutside f pWave (hypot2 r.u1coord r.v1coord) j
  let bc ← uvradOutside f pWave (hypot2 r.u2coord r.v2coord) j
  let ac ← uvradOutside f pWave
    (hypot2 (R.add r.u1coord r.u2coord) (R.add r.v1coord r.v2coord)) j
  return ab || bc || ac

/-- oifilter.c:1456-1461: `if (accept_t3amp)`, is the amplitude SNR out of range? -/
def t3AmpOutside (f : FilterSpec R) (r : OiT3Record R) (j : Nat) : Outcome Bool :=
  if f.accept_t3amp then do
    let amp ← index r.t3amp j
    let amperr ← index r.t3amperr j
    return outsideF f.snr_range (R.toF (R.div amp amperr))
  else return false

/-- oifilter.c:1462-1467: `if (accept_t3phi)`, is the phase SNR out of range? -/
def t3PhiOutside (f : FilterSpec R) (r : OiT3Record R) (j : Nat) : Outcome Bool :=
  if f.accept_t3phi then do
    let phierr ← index r.t3phierr j
    return outsideF f.snr_range (R.toF (R.div RAD2DEG phierr))
  else return false

/-- The body of the loop at oifilter.c:1437-1468. -/
def t3ChanOk (f : FilterSpec R) (pWave : Option (OiWavelength R)) (useWave : List Bool)
    (r : OiT3Record R) (j : Nat) : Outcome Bool := do
  let u ← index useWave j
  if !u then return false else do
  let flag ← index r.flag j
  if flag then return false else do
  let badUv ← t3UvOutside f pWave r j
  if badUv then return false else do
  let badAmp ← t3AmpOutside f r j
  if badAmp then return false else do
  let badPhi ← t3PhiOutside f r j
  return !badPhi

/-- oifilter.c:1422-1470 `any_t3_chan_ok`: TRUE without test if `pWave` is NULL. -/
def any_t3_chan_ok (f : FilterSpec R) (pWave : Option (OiWavelength R)) (useWave : List Bool)
    (nwave : Nat) (r : OiT3Record R) : Outcome Bool :=
  match pWave with
  | none => return true
  | some w => anyLoop (t3ChanOk f (some w) useWave r) (List.range nwave)

/-- oifilter.c:1528-1555: the new flag of channel `j`. -/
def t3NewFlag (f : FilterSpec R) (pWave : Option (OiWavelength R)) (r : OiT3Record R) (j : Nat) :
    Outcome Bool := do
  let flag ← index r.flag j
  if flag then return true else do
  let ab ← uvradOutside f pWave (hypot2 r.u1coord r.v1coord) j
  let bc ← uvradOutside f pWave (hypot2 r.u2coord r.v2coord) j
  let ac ← uvradOutside f pWave
    (hypot2 (R.add r.u1coord r.u2coord) (R.add r.v1coord r.v2coord)) j
  let amp ← index r.t3amp j
  let amperr ← index r.t3amperr j
  let phierr ← index r.t3phierr j
  return ab || bc || ac ||
    (if f.accept_t3amp && outsideF f.snr_range (R.toF (R.div amp amperr)) then true
     else f.accept_t3phi && outsideF f.snr_range (R.toF (R.div RAD2DEG phierr)))

/-- oifilter.c:1495-1499. The output arrays of one OI_T3 record being filled. -/
structure T3Buf (R : FP) where
  k : Nat
  t3amp : List R.Dbl
  t3amperr : List R.Dbl
  t3phi : List R.Dbl
  t3phierr : List R.Dbl
  flag : List Bool

/-- The body of the loop at oifilter.c:1508-1558, for a channel that is used. -/
def filterT3Chan (f : FilterSpec R) (pWave : Option (OiWavelength R)) (nwaveOut : Nat)
    (r : OiT3Record R) (j : Nat) (s : T3Buf R) : Outcome (T3Buf R) := do
  checkWrite s.k nwaveOut
  let amp ← index r.t3amp j
  let amperr ← index r.t3amperr j
  let phi ← index r.t3phi j
  let phierr ← index r.t3phierr j
  let flag ← t3NewFlag f pWave r j
  return {
    k := s.k + 1
    t3amp := s.t3amp ++ [if f.accept_t3amp then amp else R.nan]
    t3amperr := s.t3amperr ++ [amperr]
    t3phi := s.t3phi ++ [if f.accept_t3phi then phi else R.nan]
    t3phierr := s.t3phierr ++ [phierr]
    flag := s.flag ++ [flag] }

/-- oifilter.c:1475-1561 `filter_oi_t3_record`. -/
def filter_oi_t3_record (f : FilterSpec R) (pWave : Option (OiWavelength R)) (useWave : List Bool)
    (nwaveIn nwaveOut : Nat) (r : OiT3Record R) : Outcome (OiT3Record R) := do
  chkmallocN nwaveOut
  let s ← useLoop nwaveIn useWave (filterT3Chan f pWave nwaveOut r) ⟨0, [], [], [], [], []⟩
  guardAssert (f.accept_flagged || s.flag.any (!·))
  return { r with
    target_id := newTargetId f r.target_id
    t3amp := s.t3amp
    t3amperr := s.t3amperr
    t3phi := s.t3phi
    t3phierr := s.t3phierr
    flag := s.flag }

/-- The tests at oifilter.c:1591-1614: is the record kept? -/
def t3Keep (f : FilterSpec R) (pWave : Option (OiWavelength R)) (useWave : List Bool) (nwave : Nat)
    (r : OiT3Record R) : Outcome Bool :=
  if targetSkip f r.target_id then return false
  else if outsideD f.mjd_range r.mjd then return false
  else if outsideD f.bas_range (hypot2 r.u1coord r.v1coord) then return false
  else if outsideD f.bas_range (hypot2 r.u2coord r.v2coord) then return false
  else if outsideD f.bas_range (hypot2 (R.add r.u1coord r.u2coord) (R.add r.v1coord r.v2coord))
  then return false
  else do
    let skip ← flaggedSkip f (any_t3_chan_ok f pWave useWave nwave r)
    return !skip

/-- oifilter.c:1572-1622 `filter_oi_t3`. -/
def filter_oi_t3 (t : OiT3 R) (f : FilterSpec R) (pWave : Option (OiWavelength R))
    (useWave : List Bool) : Outcome (OiT3 R) := do
  let nwaveOut ← countUse t.nwave useWave
  chkmallocN t.record.length
  let record ← filterRecs (t3Keep f pWave useWave t.nwave)
    (filter_oi_t3_record f pWave useWave t.nwave nwaveOut) t.record
  return { t with nwave := nwaveOut, record := record }

/-- oifilter.c:1373-1417 `filter_all_oi_t3`. -/
def filter_all_oi_t3 (inp : OiFits R) (f : FilterSpec R) (useWaveHash : UseWave)
    (out : OiFits R) : Outcome (OiFits R) :=
  if !f.accept_t3amp && !f.accept_t3phi then return out else do
  let ts ← filterTabs
    (fun t => globMatch f.insname t.insname && globMatch f.arrname t.arrname &&
      globMatch f.corrname t.corrname)
    (fun t => useWaveHash.get t.insname)
    (fun t useWave => filter_oi_t3 t f (oi_fits_lookup_wavelength inp t.insname) useWave)
    (fun t => decide (t.nwave > 0) && !t.record.isEmpty) inp.t3List
  return { out with t3List := out.t3List ++ ts, numT3 := out.numT3 + ts.length }

/-! ### OI_FLUX -/

/-- oifilter.c:1693-1695. The output arrays of one OI_FLUX record being filled. -/
structure FluxBuf (R : FP) where
  k : Nat
  fluxdata : List R.Dbl
  fluxerr : List R.Dbl
  flag : List Bool

/-- The body of the loop at oifilter.c:1697-1715, for a channel that is used. -/
def filterFluxChan (f : FilterSpec R) (nwaveOut : Nat) (r : OiFluxRecord R) (j : Nat)
    (s : FluxBuf R) : Outcome (FluxBuf R) := do
  checkWrite s.k nwaveOut
  let x ← index r.fluxdata j
  let err ← index r.fluxerr j
  let flag ← index r.flag j
  return {
    k := s.k + 1
    fluxdata := s.fluxdata ++ [if outsideF f.snr_range (R.toF (R.div x err)) then R.nan else x]
    fluxerr := s.fluxerr ++ [err]
    flag := s.flag ++ [flag] }

/-- oifilter.c:1678-1716 `filter_oi_flux_record`. -/
def filter_oi_flux_record (f : FilterSpec R) (useWave : List Bool) (nwaveIn nwaveOut : Nat)
    (r : OiFluxRecord R) : Outcome (OiFluxRecord R) := do
  chkmallocN nwaveOut
  let s ← useLoop nwaveIn useWave (filterFluxChan f nwaveOut r) ⟨0, [], [], []⟩
  return { r with
    target_id := newTargetId f r.target_id
    fluxdata := s.fluxdata
    fluxerr := s.fluxerr
    flag := s.flag }

/-- The tests at oifilter.c:1744-1749: is the record kept? -/
def fluxKeep (f : FilterSpec R) (r : OiFluxRecord R) : Outcome Bool :=
  if targetSkip f r.target_id then return false
  else if outsideD f.mjd_range r.mjd then return false
  else return true

/-- oifilter.c:1726-1756 `filter_oi_flux`. -/
def filter_oi_flux (t : OiFlux R) (f : FilterSpec R) (useWave : List Bool) :
    Outcome (OiFlux R) := do
  let nwaveOut ← countUse t.nwave useWave
  chkmallocN t.record.length
  let record ← filterRecs (fluxKeep f) (filter_oi_flux_record f useWave t.nwave nwaveOut) t.record
  return { t with nwave := nwaveOut, record := record }

/-- oifilter.c:1633-1673 `filter_all_oi_flux`. -/
def filter_all_oi_flux (inp : OiFits R) (f : FilterSpec R) (useWaveHash : UseWave)
    (out : OiFits R) : Outcome (OiFits R) :=
  if !f.accept_flux then return out else do
  let ts ← filterTabs
    (fun t => globMatch f.insname t.insname && globMatch f.arrname t.arrname &&
      globMatch f.corrname t.corrname)
    (fun t => useWaveHash.get t.insname)
    (fun t useWave => filter_oi_flux t f useWave)
    (fun t => decide (t.nwave > 0) && !t.record.isEmpty) inp.fluxList
  return { out with fluxList := out.fluxList ++ ts, numFlux := out.numFlux + ts.length }

/-! ### Removing orphans -/

/-- The loop collecting names (e.g. oifilter.c:149-157), with each name not empty and
not yet there prepended. -/
def addNames (nonemptyOnly : Bool) (l : List CStr) (names : List CStr) : List CStr :=
  names.foldl (fun l n =>
    if (!nonemptyOnly || !n.isEmpty) && !l.contains n then n :: l else l) l

/-- oifilter.c:137-190 `get_arrname_list`. -/
def get_arrname_list (oi : OiFits R) : List CStr :=
  let l := addNames true [] (oi.visList.map OiVis.arrname)
  let l := addNames true l (oi.vis2List.map OiVis2.arrname)
  let l := addNames true l (oi.t3List.map OiT3.arrname)
  let l := addNames true l (oi.fluxList.map OiFlux.arrname)
  l.reverse

/-- oifilter.c:197-246 `get_insname_list`. -/
def get_insname_list (oi : OiFits R) : List CStr :=
  let l := addNames false [] (oi.visList.map OiVis.insname)
  let l := addNames false l (oi.vis2List.map OiVis2.insname)
  let l := addNames false l (oi.t3List.map OiT3.insname)
  let l := addNames false l (oi.fluxList.map OiFlux.insname)
  l.reverse

/-- oifilter.c:253-307 `get_corrname_list`. -/
def get_corrname_list (oi : OiFits R) : List CStr :=
  let l := addNames true [] (oi.visList.map OiVis.corrname)
  let l := addNames true l (oi.vis2List.map OiVis2.corrname)
  let l := addNames true l (oi.t3List.map OiT3.corrname)
  let l := addNames true l (oi.fluxList.map OiFlux.corrname)
  l.reverse

/-- oifilter.c:314-440 (`prune_...`). Search for the first table with a name not in the list, and remove it: the
table and the remaining list. -/
def removeFirst {τ : Type} (name : τ → CStr) (names : List CStr) : List τ → Option (τ × List τ)
  | [] => none
  | t :: ts =>
    if names.contains (name t) then
      match removeFirst name names ts with
      | some (x, rest) => some (x, t :: rest)
      | none => none
    else some (t, ts)

/-- oifile.h (`oi_fits`). A list of tables with its hash table and counter. -/
structure Tabs (τ : Type) where
  list : List τ
  hash : HMap τ
  num : Int

/-- oifilter.c:314-339 `prune_oi_array`, 346-371 `prune_oi_wavelength`, 378-403
`prune_oi_corr`: FALSE is `none`. -/
def pruneOne {τ : Type} (name : τ → CStr) (names : List CStr) (s : Tabs τ) : Option (Tabs τ) :=
  match removeFirst name names s.list with
  | none => none
  | some (t, rest) => some ⟨rest, s.hash.remove (name t), s.num - 1⟩

theorem removeFirst_length {τ : Type} {name : τ → CStr} {names : List CStr} {l rest : List τ}
    {t : τ} (h : removeFirst name names l = some (t, rest)) : rest.length < l.length := by
  induction l generalizing rest with
  | nil => cases h
  | cons x l ih =>
    unfold removeFirst at h
    split at h
    · split at h
      · rename_i hr
        cases h
        have := ih hr
        simp only [List.length_cons]; omega
      · cases h
    · cases h; simp

/-- oifilter.c:1802-1813: `while (prune_...(pOutput, list));` -/
def pruneAll {τ : Type} (name : τ → CStr) (names : List CStr) (s : Tabs τ) : Tabs τ :=
  match h : pruneOne name names s with
  | none => s
  | some s' => pruneAll name names s'
termination_by s.list.length
decreasing_by
  unfold pruneOne at h
  split at h
  · cases h
  · rename_i hr
    cases h
    exact removeFirst_length hr

/-- oifilter.c:1798-1814: removal of the tables no data table refers to. OI_INSPOL
tables have no hash table (prune_oi_inspol, oifilter.c:410-434). -/
def pruneOrphans (out : OiFits R) : OiFits R :=
  let arrnames := get_arrname_list out
  let a := pruneAll OiArray.arrname arrnames ⟨out.arrayList, out.arrayHash, out.numArray⟩
  let p := pruneAll OiInspol.arrname arrnames ⟨out.inspolList, HMap.empty, out.numInspol⟩
  let w := pruneAll OiWavelength.insname (get_insname_list out)
    ⟨out.wavelengthList, out.wavelengthHash, out.numWavelength⟩
  let c := pruneAll OiCorr.corrname (get_corrname_list out)
    ⟨out.corrList, out.corrHash, out.numCorr⟩
  { out with
    arrayList := a.list
    arrayHash := a.hash
    numArray := a.num
    inspolList := p.list
    numInspol := p.num
    wavelengthList := w.list
    wavelengthHash := w.hash
    numWavelength := w.num
    corrList := c.list
    corrHash := c.hash
    numCorr := c.num }

/-- oifilter.c:1765-1828 `apply_oi_filter`. The compiled patterns are not modelled
(see `FilterSpec`). -/
def apply_oi_filter (inp : OiFits R) (f : FilterSpec R) : Outcome (OiFits R) := do
  let out := init_oi_fits R
  let out := { out with header := filter_oi_header inp.header }
  let targets ← filter_oi_target inp.targets f out.targets
  let out := { out with targets := targets }
  let out ← filter_all_oi_array inp f out
  let out ← filter_all_oi_corr inp f out
  let (out, useWaveHash) ← filter_all_oi_wavelength inp f out
  let out ← filter_all_oi_inspol inp f useWaveHash out
  let out ← filter_all_oi_vis inp f useWaveHash out
  let out ← filter_all_oi_vis2 inp f useWaveHash out
  let out ← filter_all_oi_t3 inp f useWaveHash out
  let out ← filter_all_oi_flux inp f useWaveHash out
  return pruneOrphans out

end Verif
