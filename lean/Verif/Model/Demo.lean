import Verif.Model.Read

/-! Model of `demo_read` in `/repo/src/oifitslib/oitable-demo.c`, the example program for the functions
which read single tables. The names of files are in `DemoMain.lean`. Not modelled: freeing of tables, checksums. -/

namespace Verif
open Outcome

variable {R : FP}

/-- A line which `demo_read` prints for a table (oitable-demo.c:510-511, 543-544, 575-576, 607-608, 639):
the kind of table and the names it is said to refer to. For OI_INSPOL there is only ARRNAME; the
other names are empty here. -/
structure DemoLine where
  table : CStr
  arrname : CStr
  insname : CStr
  corrname : CStr
deriving DecidableEq

/-- A call which uses the second connection to the file (oitable-demo.c:503). The status variable is
shared, the position is not. The tables are searched for from the start of the file, so that the position which
the second connection has does not matter; it is taken to be that of the first HDU. -/
def onSecond {α : Type} (m : FitsM R α) : FitsM R Unit := fun s => do
  let (_, s2) ← m ⟨s.hdus, 0, s.status⟩
  .ok ((), { s with status := s2.status })

/-- oitable-demo.c:512-524, 545-556, 577-588, 609-620: read the tables to which a table of data refers. -/
def demoRefs (u : Undef R) (arrname insname corrname : CStr) : FitsM R Unit := do
  (if arrname.length > 0 then onSecond (read_oi_array u arrname u.array) else pure ())
  (if corrname.length > 0 then onSecond (read_oi_corr u corrname u.corr) else pure ())
  onSecond (read_oi_wavelength u insname u.wave)

/-- The loops `while (TRUE) { if (read_next_oi_X(...)) break; ... }` (oitable-demo.c:507-533 etc.): the tables and
the lines printed. What the reading functions leave unset in the struct is taken to be undefined each time (the
program uses the same struct again). `fuel` bounds the number of iterations as in `readAll`. -/
def demoLoop {τ : Type} (read : FitsM R τ) (line : τ → Outcome DemoLine) (refs : τ → FitsM R Unit) :
    Nat → FitsM R (List τ × List DemoLine)
  | 0 => FitsM.lift .ub
  | fuel + 1 => do
    let t ← read
    let st ← getStatus
    if st ≠ .ok then return ([], [])
    else do
      let l ← FitsM.lift (line t)
      refs t
      let rest ← demoLoop read line refs fuel
      return (t :: rest.1, l :: rest.2)

/-- Such a loop and the test of the status after it (oitable-demo.c:534-535 etc.): the tables, the lines printed,
and whether the program goes on. -/
def demoTables {τ : Type} (read : FitsM R τ) (line : τ → Outcome DemoLine) (refs : τ → FitsM R Unit) :
    FitsM R (List τ × List DemoLine × Bool) := do
  let nhdu ← fits_get_num_hdus
  let x ← demoLoop read line refs (nhdu + 1)
  let st ← getStatus
  if st = .END_OF_FILE then do
    setStatus .ok
    return (x.1, x.2, true)
  else return (x.1, x.2, false)

/-- oitable-demo.c:543-544: the line for an OI_VIS2 table has the CORRNAME of the last OI_VIS table. If there is none,
memory which has not been initialised is printed. -/
def demoVis2Line (lastVis : Option (OiVis R)) (t : OiVis2 R) : Outcome DemoLine :=
  match lastVis with
  | some v => .ok ⟨"OI_VIS2", t.arrname, t.insname, v.corrname⟩
  | none => .ub

/-- oitable-demo.c:498-649: `demo_read` once the file has been opened: the lines printed, and whether the
program ends with success. -/
def demoBody (u : Undef R) : FitsM R (List DemoLine × Bool) := do
  let _ ← read_oi_header u.header
  let _ ← read_oi_target u u.target
  let st ← getStatus
  if st ≠ .ok then return ([], false)
  else do
    let vis ← demoTables (read_next_oi_vis u u.vis) (fun t => .ok ⟨"OI_VIS", t.arrname, t.insname, t.corrname⟩)
      (fun t => demoRefs u t.arrname t.insname t.corrname)
    if vis.2.2 = false then return (vis.2.1, false)
    else do
      let _ ← fits_movabs_hdu 1
      let vis2 ← demoTables (read_next_oi_vis2 u u.vis2) (demoVis2Line vis.1.getLast?)
        (fun t => demoRefs u t.arrname t.insname t.corrname)
      if vis2.2.2 = false then return (vis.2.1 ++ vis2.2.1, false)
      else do
        let _ ← fits_movabs_hdu 1
        let t3 ← demoTables (read_next_oi_t3 u u.t3) (fun t => .ok ⟨"OI_T3", t.arrname, t.insname, t.corrname⟩)
          (fun t => demoRefs u t.arrname t.insname t.corrname)
        if t3.2.2 = false then return (vis.2.1 ++ vis2.2.1 ++ t3.2.1, false)
        else do
          let _ ← fits_movabs_hdu 1
          let flux ← demoTables (read_next_oi_flux u u.flux)
            (fun t => .ok ⟨"OI_FLUX", t.arrname, t.insname, t.corrname⟩)
            (fun t => demoRefs u t.arrname t.insname t.corrname)
          if flux.2.2 = false then return (vis.2.1 ++ vis2.2.1 ++ t3.2.1 ++ flux.2.1, false)
          else do
            let _ ← fits_movabs_hdu 1
            let inspol ← demoTables (read_next_oi_inspol u u.inspol) (fun t => .ok ⟨"OI_INSPOL", t.arrname, [], []⟩)
              (fun t => onSecond (read_oi_array u t.arrname u.array))
            return (vis.2.1 ++ vis2.2.1 ++ t3.2.1 ++ flux.2.1 ++ inspol.2.1, inspol.2.2)

/-- oitable-demo.c:471-658 `demo_read` of a file with the given HDUs. -/
def demo_read (u : Undef R) (file : Option (List (Hdu R))) : Outcome (List DemoLine × Bool) :=
  match file with
  | none => .ok ([], false)
  | some hdus => do
    let (x, _) ← demoBody u ⟨hdus, 0, .ok⟩
    return x

end Verif
