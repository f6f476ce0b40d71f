import Verif.Model.Write

/-! Model of programs which make a file by calls of the functions for single tables (`write_fits.c`), and of the part of
`demo_write` in `/repo/src/oifitslib/oitable-demo.c` which does so. The text file from which `demo_write`
takes the tables is modelled in `DemoText`. Not modelled: prompting for file names, freeing of tables. -/

namespace Verif
open Outcome

variable {R : FP}

/-- A call of one of the functions of write_fits.c which write a part of a file (exchange.h:351-363). -/
inductive WriteCall (R : FP) where
  | header (t : OiHeader)
  | target (t : OiTarget R)
  | array (t : OiArray R) (extver : Int)
  | wavelength (t : OiWavelength R) (extver : Int)
  | corr (t : OiCorr R) (extver : Int)
  | inspol (t : OiInspol R) (extver : Int)
  | vis (t : OiVis R) (extver : Int)
  | vis2 (t : OiVis2 R) (extver : Int)
  | t3 (t : OiT3 R) (extver : Int)
  | flux (t : OiFlux R) (extver : Int)

/-- What the call does (write_fits.c:100-164, 176-242, 253-339, 351-388, 400-439, 451-528, 644-733, 747-840, 854-960,
972-1081). `today` is the date of the run. -/
def WriteCall.run (today : CStr) : WriteCall R → FitsM R Unit
  | .header t => write_oi_header today t
  | .target t => write_oi_target t
  | .array t v => write_oi_array t v
  | .wavelength t v => write_oi_wavelength t v
  | .corr t v => write_oi_corr t v
  | .inspol t v => write_oi_inspol t v
  | .vis t v => write_oi_vis t v
  | .vis2 t v => write_oi_vis2 t v
  | .t3 t v => write_oi_t3 t v
  | .flux t v => write_oi_flux t v

/-- Calls one after the other with the same file and status variable. -/
def runWrites (today : CStr) : List (WriteCall R) → FitsM R Unit
  | [] => pure ()
  | c :: cs => do
    c.run today
    runWrites today cs

/-- oitable-demo.c:418-448 with any calls: the file is created, the calls are made, and if the status shows an error the
file is deleted. The HDUs of the file, if it is there in the end, and the status. `exists_` says that there
is a file of that name already, which `fits_create_file` does not overwrite (`FILE_NOT_CREATED`). -/
def makeFile (today : CStr) (exists_ : Bool) (calls : List (WriteCall R)) : Outcome (Option (List (Hdu R)) × Status) :=
  if exists_ then .ok (none, .other 105)
  else do
    let (_, s) ← runWrites today calls ⟨[], 0, .ok⟩
    if s.status ≠ .ok then return (none, s.status)
    else return (some s.hdus, .ok)

/-- The tables which `demo_write` takes from the text file (oitable-demo.c:69-78). -/
structure DemoInput (R : FP) where
  array : OiArray R
  targets : OiTarget R
  wave : OiWavelength R
  corr : OiCorr R
  inspol : OiInspol R
  vis : OiVis R
  vis2 : OiVis2 R
  t3 : OiT3 R
  flux : OiFlux R

/-- oitable-demo.c:400-412: the keywords. Those which are not set (`date`, `content`) are not written either. Reading
`targets.targ[0]` of a table without rows is undefined. -/
def demoHeader (date content : CStr) (d : DemoInput R) : Outcome OiHeader :=
  match d.targets.targ with
  | [] => .ub
  | t :: _ => .ok
    { origin := "ESO", date := date, date_obs := d.vis.date_obs, content := content, telescop := d.array.arrname
      instrume := d.wave.insname, observer := "Astronomer", insmode := "Low_JHK", object := t.target
      referenc := [], author := [], prog_id := [], procsoft := [], obstech := [] }

/-- oitable-demo.c:426-435: the calls, in the order of the program. -/
def demoCalls (header : OiHeader) (d : DemoInput R) : List (WriteCall R) :=
  [.header header, .target d.targets, .vis d.vis 1, .vis2 d.vis2 1, .t3 d.t3 1, .flux d.flux 1, .array d.array 1,
   .wavelength d.wave 1, .corr d.corr 1, .inspol d.inspol 1]

/-- oitable-demo.c:400-448, the end of `demo_write`. `date` and `content` stand for memory which is not initialised. -/
def demo_write (today : CStr) (exists_ : Bool) (date content : CStr) (d : DemoInput R) :
    Outcome (Option (List (Hdu R)) × Status) := do
  let header ← demoHeader date content d
  makeFile today exists_ (demoCalls header d)

end Verif
