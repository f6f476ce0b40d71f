import Verif.Model.File
import Verif.Model.FilterSpec

/-! Texts for the user: the summary of a dataset and the description of a filter. Both
are built in the one string buffer `pGStr` of the library (oifile.c:37), which is
explicit here. `oicheck.c` uses the same buffer; see `format_check_result`. -/

namespace Verif
open Outcome
variable {R : FP}

/-- A function which uses the buffer `pGStr`; `none` is NULL. -/
abbrev TextM (α : Type) := StateT (Option CStr) Outcome α

/-- oicheck.c:104, oifile.c:1149, oifilter.c:525: `if (pGStr == NULL) pGStr = g_string_sized_new(n)`. -/
def needBuffer : TextM Unit := fun b =>
  match b with
  | none => .ok ((), some [])
  | some s => .ok ((), some s)

/-- `g_string_printf(pGStr, ...)` (GLib): replaces the contents. -/
def gPrintf (text : CStr) : TextM Unit := fun b =>
  match b with
  | none => .ub
  | some _ => .ok ((), some text)

/-- `g_string_append_printf(pGStr, ...)` (GLib). -/
def gAppend (text : CStr) : TextM Unit := fun b =>
  match b with
  | none => .ub
  | some s => .ok ((), some (s ++ text))

/-- `pGStr->str`. The caller gets a pointer into the buffer, which is only valid until
the next call; this is the text at the time of return. -/
def bufferText : TextM CStr := fun b =>
  match b with
  | none => .ub
  | some s => .ok (s, some s)

/-- As in oifile.c:148, 167, 189, 209, 1129. `%-2d` conversion of `printf`. -/
def fmtIntL2 (i : Int) : CStr := fmtInt i ++ List.replicate (2 - (fmtInt i).length) ' '

/-- oifile.c:137-215, 1121-1140: `while (link != NULL) { ...; nn++; link = link->next; }`. -/
def numberedList {α : Type} (line : Int → α → TextM Unit) : Int → List α → TextM Unit
  | _, [] => pure ()
  | nn, x :: link => do
    line nn x
    numberedList line (nn + 1) link

/-- oifile.c:137-152 `format_array_list_summary`. -/
def format_array_list_summary (arrayList : List (OiArray R)) : TextM Unit :=
  numberedList (fun nn t =>
    gAppend (("    #" : CStr) ++ fmtIntL2 nn ++ (" ARRNAME='" : CStr) ++ t.arrname ++ ("'  " : CStr)
      ++ fmtInt t.elem.length ++ (" elements\n" : CStr))) 1 arrayList

/-- oifile.c:155-174 `format_wavelength_list_summary`. -/
def format_wavelength_list_summary (waveList : List (OiWavelength R)) : TextM Unit :=
  numberedList (fun nn t => do
    let lo ← get_min_wavelength t
    let hi ← get_max_wavelength t
    gAppend (("    #" : CStr) ++ fmtIntL2 nn ++ (" INSNAME='" : CStr) ++ t.insname ++ ("'  " : CStr)
      ++ fmtInt t.nwave ++ (" channels  " : CStr)
      ++ R.fmt "%7.1f" (R.mul (R.lit 1000000000) (R.toD lo)) ++ ("-" : CStr)
      ++ R.fmt "%7.1f" (R.mul (R.lit 1000000000) (R.toD hi)) ++ ("nm\n" : CStr))) 1 waveList

/-- oifile.c:177-194 `format_corr_list_summary`. -/
def format_corr_list_summary (corrList : List (OiCorr R)) : TextM Unit :=
  numberedList (fun nn t =>
    gAppend (("    #" : CStr) ++ fmtIntL2 nn ++ (" CORRNAME='" : CStr) ++ t.corrname ++ ("'  " : CStr)
      ++ fmtInt t.ncorr ++ ("/" : CStr) ++ fmtInt t.ndata ++ (" non-zero correlations\n" : CStr))) 1 corrList

/-- oifile.c:197-213 `format_inspol_list_summary`. -/
def format_inspol_list_summary (inspolList : List (OiInspol R)) : TextM Unit :=
  numberedList (fun nn t =>
    gAppend (("    #" : CStr) ++ fmtIntL2 nn ++ (" ARRNAME='" : CStr) ++ t.arrname ++ ("'\n" : CStr))) 1 inspolList

/-- The text of oifile.c:1121-1138 `FORMAT_OI_LIST_SUMMARY` for one table. -/
def dataSummary (nn : Int) (date_obs insname arrname corrname : CStr) (numrec nwave : Int) : TextM Unit :=
  gAppend (("    #" : CStr) ++ fmtIntL2 nn ++ (" DATE-OBS=" : CStr) ++ date_obs
    ++ ("\n    INSNAME='" : CStr) ++ insname ++ ("'  ARRNAME='" : CStr) ++ arrname
    ++ ("'  CORRNAME='" : CStr) ++ corrname ++ ("'\n     " : CStr) ++ fmtIntW 5 numrec
    ++ (" records x " : CStr) ++ fmtIntW 3 nwave ++ (" wavebands\n" : CStr))

/-- oifile.c:1155-1163: `g_string_append_printf(pGStr, "  NAME= '%s'\n", value)`. -/
def appendKey (name value : CStr) : TextM Unit :=
  gAppend (("  " : CStr) ++ name ++ ("= '" : CStr) ++ value ++ ("'\n" : CStr))

/-- oifile.c:1164-1179: `g_string_append_printf(pGStr, "  %d NAME tables:\n", n)`. -/
def appendCount (n : Int) (name : CStr) : TextM Unit :=
  gAppend (("  " : CStr) ++ fmtInt n ++ (" " : CStr) ++ name ++ (" tables:\n" : CStr))

/-- oifile.c:1147-1183 `format_oi_fits_summary`. -/
def format_oi_fits_summary (oi : OiFits R) : TextM CStr := do
  needBuffer
  if is_oi_fits_two oi then gPrintf ("OIFITS version 2 data:\n" : CStr)
  else gPrintf ("OIFITS version 1 data:\n" : CStr)
  appendKey "ORIGIN  " oi.header.origin
  appendKey "DATE    " oi.header.date
  appendKey "DATE-OBS" oi.header.date_obs
  appendKey "TELESCOP" oi.header.telescop
  appendKey "INSTRUME" oi.header.instrume
  appendKey "OBSERVER" oi.header.observer
  appendKey "OBJECT  " oi.header.object
  appendKey "INSMODE " oi.header.insmode
  gAppend (("  OBSTECH = '" : CStr) ++ oi.header.obstech ++ ("'\n\n" : CStr))
  appendCount oi.numArray "OI_ARRAY"
  format_array_list_summary oi.arrayList
  appendCount oi.numWavelength "OI_WAVELENGTH"
  format_wavelength_list_summary oi.wavelengthList
  appendCount oi.numCorr "OI_CORR"
  format_corr_list_summary oi.corrList
  appendCount oi.numInspol "OI_INSPOL"
  format_inspol_list_summary oi.inspolList
  appendCount oi.numVis "OI_VIS"
  numberedList (fun nn t => dataSummary nn t.date_obs t.insname t.arrname t.corrname t.record.length t.nwave) 1 oi.visList
  appendCount oi.numVis2 "OI_VIS2"
  numberedList (fun nn t => dataSummary nn t.date_obs t.insname t.arrname t.corrname t.record.length t.nwave) 1 oi.vis2List
  appendCount oi.numT3 "OI_T3"
  numberedList (fun nn t => dataSummary nn t.date_obs t.insname t.arrname t.corrname t.record.length t.nwave) 1 oi.t3List
  appendCount oi.numFlux "OI_FLUX"
  numberedList (fun nn t => dataSummary nn t.date_obs t.insname t.arrname t.corrname t.record.length t.nwave) 1 oi.fluxList
  bufferText

/-- One of the alternative lines of oifilter.c:546-569. -/
def acceptLine (accepted : Bool) (yes no : CStr) : TextM Unit :=
  if accepted then gAppend (("  " : CStr) ++ yes ++ ("\n" : CStr))
  else gAppend (("  [" : CStr) ++ no ++ (" not accepted]\n" : CStr))

/-- oifilter.c:523-572 `format_oi_filter`. -/
def format_oi_filter (f : FilterSpec R) : TextM CStr := do
  needBuffer
  gPrintf ("Filter accepts:\n" : CStr)
  gAppend (("  ARRNAME='" : CStr) ++ f.arrname ++ ("'\n" : CStr))
  gAppend (("  INSNAME='" : CStr) ++ f.insname ++ ("'\n" : CStr))
  gAppend (("  CORRNAME='" : CStr) ++ f.corrname ++ ("'\n" : CStr))
  if f.target_id ≥ 0 then gAppend (("  TARGET_ID=" : CStr) ++ fmtInt f.target_id ++ ("\n" : CStr))
  else gAppend ("  [Any TARGET_ID]\n" : CStr)
  gAppend (("  MJD: " : CStr) ++ R.fmt "%.2lf" f.mjd_range.1 ++ (" - " : CStr) ++ R.fmt "%.2lf" f.mjd_range.2
    ++ ("\n" : CStr))
  gAppend (("  Wavelength: " : CStr) ++ R.fmt "%.1f" (R.mul (R.lit 1000000000) (R.toD f.wave_range.1)) ++ (" - " : CStr)
    ++ R.fmt "%.1f" (R.mul (R.lit 1000000000) (R.toD f.wave_range.2)) ++ ("nm\n" : CStr))
  gAppend (("  Baseline: " : CStr) ++ R.fmt "%.1lf" f.bas_range.1 ++ (" - " : CStr) ++ R.fmt "%.1lf" f.bas_range.2
    ++ ("m\n" : CStr))
  gAppend (("  UV Radius: " : CStr) ++ R.fmt "%.1lg" f.uvrad_range.1 ++ (" - " : CStr) ++ R.fmt "%.1lg" f.uvrad_range.2
    ++ (" waves\n" : CStr))
  gAppend (("  SNR: " : CStr) ++ R.fmt "%.1f" (R.toD f.snr_range.1) ++ (" - " : CStr)
    ++ R.fmt "%.1f" (R.toD f.snr_range.2) ++ ("\n" : CStr))
  acceptLine f.accept_vis "OI_VIS (complex visibilities)" "OI_VIS"
  acceptLine f.accept_vis2 "OI_VIS2 (squared visibilities)" "OI_VIS2"
  acceptLine f.accept_t3amp "OI_T3 T3AMP (triple amplitudes)" "OI_T3 T3AMP"
  acceptLine f.accept_t3phi "OI_T3 T3PHI (closure phases)" "OI_T3 T3PHI"
  acceptLine f.accept_flux "OI_FLUX (incoherent spectra)" "OI_FLUX"
  acceptLine f.accept_flagged "All-flagged records" "All-flagged records"
  bufferText

end Verif
