import Verif.Model.Memory

/-!
# Ownership of memory in oitable-demo

What `/repo/src/oifitslib/oitable-demo.c` does with blocks of memory. As in `Memory.lean`, what a file
holds and which calls fail are parameters. The structs themselves are local variables and have
no block. Simplifications: the use of the columns between allocation and freeing, by `fscanf` and the
functions which write tables, is not shown (for the bounds see `DemoText.lean` and `Write.lean`); when the
program ends with `exit` nothing is freed, and the result is `false`.
-/

namespace Verif.Mem

/-- oitable-demo.c:69-458 `demo_write`. The sizes which the text gives for the tables of `demo_write`, and whether the file is written. -/
structure DemoSizes where
  nelement : Nat
  ntarget : Nat
  nwave : Nat
  ncorr : Nat
  inspols : Nat
  viss : Nat
  vis2s : Nat
  t3s : Nat
  fluxs : Nat
  written : Bool
deriving DecidableEq, Repr

/-- oitable-demo.c:69-458 `demo_write`: the allocations (:101, 117, 147, 164, 190, 235, 288, 322, 369), and the calls
which free the tables (:447-456). -/
def demo_write (s : DemoSizes) : Mem Bool := do
  let array ← alloc_oi_array ⟨none, [], none, 0⟩ s.nelement
  let targets ← alloc_oi_target ⟨none, 0⟩ s.ntarget
  let wave ← alloc_oi_wavelength ⟨none, [], none, none, 0⟩ s.nwave
  let corr ← alloc_oi_corr ⟨none, [], none, none, none, 0⟩ s.ncorr
  let inspol ← alloc_oi_inspol ⟨none, [], none, 0, 0, []⟩ s.inspols s.nwave
  let vis ← alloc_oi_vis ⟨none, [], [], [], none, 0, 0, false, false, []⟩ s.viss s.nwave
  let vis2 ← alloc_oi_vis2 ⟨none, [], [], [], none, 0, 0, []⟩ s.vis2s s.nwave
  let t3 ← alloc_oi_t3 ⟨none, [], [], [], none, 0, 0, []⟩ s.t3s s.nwave
  let flux ← alloc_oi_flux ⟨none, [], [], [], none, 0, 0, []⟩ s.fluxs s.nwave
  touch targets.targ
  if s.written = false then return false
  else do
    free_oi_target targets
    free_oi_vis vis
    free_oi_vis2 vis2
    free_oi_t3 t3
    free_oi_flux flux
    free_oi_array array
    free_oi_wavelength wave
    free_oi_corr corr
    free_oi_inspol inspol
    return true

/-- oitable-demo.c:471-658 `demo_read`. What becomes of a table of data, and of the tables which are then read as it refers to them. -/
structure DemoTable where
  data : Attempt DataShape
  array : Attempt NamedShape
  corr : Attempt NamedShape
  wave : Attempt NamedShape
deriving DecidableEq, Repr

/-- oitable-demo.c:512-518, 545-550, 577-582, 609-614. ARRNAME and CORRNAME of a table of data. -/
def tableNames : Attempt DataShape → CStr × CStr
  | .good a => (a.arrname, a.corrname)
  | _ => ([], [])

/-- oitable-demo.c:471-658. A call which reads a table: `none` if it fails, which sets the status. -/
def demoRead {α τ : Type} (alloc : α → Mem τ) : Attempt α → Mem (Option τ)
  | .good a => do
    let t ← alloc a
    return some t
  | .early => return none
  | .late a => do
    let _ ← alloc a
    return none

/-- oitable-demo.c:512-522, 545-554, 577-586, 609-618. A call which is made if the name it looks for is not empty. Nothing happens if the status is
not zero. `none` if the status is not zero afterwards; the table is `none` if there is no call. -/
def demoOptRead {α τ : Type} (alloc : α → Mem τ) (name : CStr) (a : Attempt α) : Mem (Option (Option τ)) :=
  if name.length > 0 then do
    let t ← demoRead alloc a
    return t.map some
  else return some none

/-- oitable-demo.c:529-530, 561-562, 593-594, 625-626. The call which frees such a table. It depends on the name again, not on whether there is a table. -/
def demoOptFree {τ : Type} (free : τ → Mem Unit) (name : CStr) (t : Option τ) : Mem Unit :=
  if name.length > 0 then
    match t with
    | some t => free t
    | none => undefined
  else return ()

/-- One round of the loops for OI_VIS, OI_VIS2, OI_T3 and OI_FLUX tables (oitable-demo.c:509-532, 542-564, 574-596, 606-628).
The result is whether the status is zero. -/
def demoRound {τ : Type} (read : DataShape → Ptr → Mem τ) (free : τ → Mem Unit) (x : DemoTable) : Mem Bool := do
  match ← demoRead (fun a => read a none) x.data with
  | none => return false
  | some t =>
    let arrname := (tableNames x.data).1
    let corrname := (tableNames x.data).2
    match ← demoOptRead (fun a => readArray a none) arrname x.array with
    | none => return false
    | some array =>
      match ← demoOptRead (fun a => readCorr a none) corrname x.corr with
      | none => return false
      | some corr =>
        match ← demoRead (fun a => readWave a none) x.wave with
        | none => return false
        | some wave =>
          free_oi_wavelength wave
          demoOptFree free_oi_array arrname array
          demoOptFree free_oi_corr corrname corr
          free t
          return true

/-- One round of the loop for OI_INSPOL tables (oitable-demo.c:636-648). -/
def demoInspolRound (x : DemoTable) : Mem Bool := do
  match ← demoRead (fun a => readInspol a none) x.data with
  | none => return false
  | some t =>
    match ← demoRead (fun a => readArray a none) x.array with
    | none => return false
    | some array =>
      free_oi_array array
      free_oi_inspol t
      return true

/-- oitable-demo.c:471-658. Such a loop: it ends when the status is not zero. The result is whether it has reached the end of the file. -/
def demoRounds {α : Type} (round : α → Mem Bool) : List α → Mem Bool
  | [] => return true
  | x :: xs => do
    if ← round x then demoRounds round xs else return false

/-- oitable-demo.c:471-658. What the file holds which `demo_read` reads. `targets` is `none` if the file cannot be opened. -/
structure DemoPlan where
  targets : Option (Attempt Nat)
  viss : List DemoTable
  vis2s : List DemoTable
  t3s : List DemoTable
  fluxs : List DemoTable
  inspols : List DemoTable
deriving DecidableEq, Repr

/-- oitable-demo.c:502-658: `demo_read` once OI_TARGET has been read. -/
def demoReadTables (p : DemoPlan) (targets : Target) : Mem Bool := do
  if ← demoRounds (demoRound readVis free_oi_vis) p.viss then
    if ← demoRounds (demoRound readVis2 free_oi_vis2) p.vis2s then
      if ← demoRounds (demoRound readT3 free_oi_t3) p.t3s then
        if ← demoRounds (demoRound readFlux free_oi_flux) p.fluxs then
          if ← demoRounds demoInspolRound p.inspols then do
            free_oi_target targets
            return true
          else return false
        else return false
      else return false
    else return false
  else return false

/-- oitable-demo.c:471-658 `demo_read`. -/
def demo_read (p : DemoPlan) : Mem Bool :=
  match p.targets with
  | none => return false
  | some a => do
    match ← demoRead (fun n => alloc_oi_target ⟨none, 0⟩ n) a with
    | none => return false
    | some targets => demoReadTables p targets

/-- oitable-demo.c:663-668 `main`: the result is whether the program ends with success. -/
def demo_main (s : DemoSizes) (p : DemoPlan) : Mem Bool := do
  if ← demo_write s then demo_read p else return false

end Verif.Mem
