import Verif.Spec.Fits

/-! What a table is after it has been written to a file and read back. Each definition
lists the fields which may change; all others come back as they were.

* The revision number becomes the one of version 2 of the format.
* Strings lose trailing blanks, and what does not fit on a header card (`keyStr`) or in
  the column (`colStr`).
* Numbers in keywords keep 15 significant digits (`asKey`).
* TIME comes back as 0, as version 2 prescribes.
* What the file has no place for comes back undefined (`junk`) or with its default. -/

namespace Verif
variable {R : FP} {α : Type}
open Spec

/-- Writing adds one HDU at the end of the file (after an empty primary HDU, if the file
was empty) and leaves the others as they are; reading the next table, with the HDU before
the new one current, then gives `x` and makes the new HDU current. -/
def Spec.Restores (write : FitsM R Unit) (read : FitsM R α) (x : α) (s : FState R) : Prop :=
  ∃ s', write s = .ok ((), s') ∧ s'.status = .ok ∧
    s.hdus <+: s'.hdus ∧ s'.hdus.length = max 1 s.hdus.length + 1 ∧
    read { s' with cur := s'.hdus.length - 2 } = .ok (x, s')

/-- An OI_ARRAY table as read back. -/
def OiArray.asRead (t : OiArray R) : OiArray R :=
  { t with
    revision := 2
    arrname := keyStr t.arrname
    frame := keyStr t.frame
    arrayx := asKey t.arrayx
    arrayy := asKey t.arrayy
    arrayz := asKey t.arrayz
    elem := t.elem.map fun e =>
      { e with
        tel_name := colStr 16 e.tel_name
        sta_name := colStr 16 e.sta_name
        fovtype := colStr 6 e.fovtype } }

/-- An OI_TARGET table as read back. The category is only stored if it is used. -/
def OiTarget.asRead (junk : CStr) (t : OiTarget R) : OiTarget R :=
  { t with
    revision := 2
    targ := t.targ.map fun x =>
      { x with
        target := colStr 32 x.target
        veltyp := colStr 8 x.veltyp
        veldef := colStr 8 x.veldef
        spectyp := colStr 32 x.spectyp
        category := if t.usecategory then colStr 3 x.category else junk } }

/-- An OI_WAVELENGTH table as read back. -/
def OiWavelength.asRead (t : OiWavelength R) : OiWavelength R :=
  { t with revision := 2, insname := keyStr t.insname }

/-- An OI_CORR table as read back. -/
def OiCorr.asRead (t : OiCorr R) : OiCorr R :=
  { t with revision := 1, corrname := keyStr t.corrname }

/-- A row of complex numbers as `read_next_oi_inspol` delivers it: the first of the real
and imaginary parts taken in turn, each converted to double precision and these eight
bytes stored over a complex number. -/
def Spec.jonesAsRead (z : List (R.Flt × R.Flt)) : List (R.Flt × R.Flt) :=
  ((z.flatMap fun w => [w.1, w.2]).take z.length).map fun x => R.pun (R.toD x)

/-- An OI_INSPOL table as read back. -/
def OiInspol.asRead (t : OiInspol R) : OiInspol R :=
  { t with
    revision := 1
    date_obs := keyStr t.date_obs
    arrname := keyStr t.arrname
    orient := keyStr t.orient
    model := keyStr t.model
    record := t.record.map fun r =>
      { r with
        insname := colStr 70 r.insname
        jxx := jonesAsRead r.jxx
        jyy := jonesAsRead r.jyy
        jxy := jonesAsRead r.jxy
        jyx := jonesAsRead r.jyx } }

/-- An OI_VIS table as read back. Indices into a correlation matrix are only stored if
the table refers to one, the unit of VISAMP only for correlated fluxes. -/
def OiVis.asRead (junk : Int) (t : OiVis R) : OiVis R :=
  { t with
    revision := 2
    date_obs := keyStr t.date_obs
    arrname := keyStr t.arrname
    insname := keyStr t.insname
    corrname := keyStr t.corrname
    amptyp := keyStr t.amptyp
    phityp := keyStr t.phityp
    amporder := if t.amporder ≥ 0 then t.amporder else -1
    phiorder := if t.phiorder ≥ 0 then t.phiorder else -1
    ampunit := if t.amptyp = ("correlated flux" : CStr) then keyStr t.ampunit else []
    complexunit := if t.usecomplex then keyStr t.complexunit else []
    record := t.record.map fun r =>
      { r with
        time := R.lit 0.0
        corrindx_visamp := if t.corrname = [] then junk else r.corrindx_visamp
        corrindx_visphi := if t.corrname = [] then junk else r.corrindx_visphi
        corrindx_rvis := if t.usecomplex ∧ t.corrname ≠ [] then r.corrindx_rvis else junk
        corrindx_ivis := if t.usecomplex ∧ t.corrname ≠ [] then r.corrindx_ivis else junk } }

/-- An OI_VIS2 table as read back. -/
def OiVis2.asRead (junk : Int) (t : OiVis2 R) : OiVis2 R :=
  { t with
    revision := 2
    date_obs := keyStr t.date_obs
    arrname := keyStr t.arrname
    insname := keyStr t.insname
    corrname := keyStr t.corrname
    record := t.record.map fun r =>
      { r with
        time := R.lit 0.0
        corrindx_vis2data := if t.corrname = [] then junk else r.corrindx_vis2data } }

/-- An OI_T3 table as read back. -/
def OiT3.asRead (junk : Int) (t : OiT3 R) : OiT3 R :=
  { t with
    revision := 2
    date_obs := keyStr t.date_obs
    arrname := keyStr t.arrname
    insname := keyStr t.insname
    corrname := keyStr t.corrname
    record := t.record.map fun r =>
      { r with
        time := R.lit 0.0
        corrindx_t3amp := if t.corrname = [] then junk else r.corrindx_t3amp
        corrindx_t3phi := if t.corrname = [] then junk else r.corrindx_t3phi } }

/-- An OI_FLUX table as read back. The field of view is only stored together with its
type, stations only if the table refers to an array. -/
def OiFlux.asRead (junk : Int) (t : OiFlux R) : OiFlux R :=
  { t with
    revision := 1
    date_obs := keyStr t.date_obs
    arrname := keyStr t.arrname
    insname := keyStr t.insname
    corrname := keyStr t.corrname
    fov := if t.fovtype = [] then R.nan else asKey t.fov
    fovtype := keyStr t.fovtype
    calstat := if t.calstat = ' ' then '\x00' else t.calstat
    fluxunit := keyStr t.fluxunit
    record := t.record.map fun r =>
      { r with
        corrindx_fluxdata := if t.corrname = [] then junk else r.corrindx_fluxdata
        sta_index := if t.arrname = [] then -1 else r.sta_index } }

/-- The header of a dataset as read back; `today` is the date of writing. -/
def OiHeader.asRead (today : CStr) (t : OiHeader) : OiHeader where
  origin := keyStr t.origin
  date := keyStr today
  date_obs := keyStr t.date_obs
  content := "OIFITS2"
  telescop := keyStr t.telescop
  instrume := keyStr t.instrume
  observer := keyStr t.observer
  insmode := keyStr t.insmode
  object := keyStr t.object
  referenc := keyStr t.referenc
  author := keyStr t.author
  prog_id := keyStr t.prog_id
  procsoft := keyStr t.procsoft
  obstech := keyStr t.obstech

end Verif
