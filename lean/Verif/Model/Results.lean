import Verif.Model.Cli

/-!
# Programs which use check results

Calls of the check functions, of `format_check_result`, `free_check_result`,
`format_oi_fits_summary` and `format_oi_filter` in any order, with any number of variables of
type `oi_check_result`. The memory modelled is what these functions share or hand out: the
string chunk of each result (oicheck.c:57), into which `description` and `location` point, and
the one buffer `pGStr` of the library (oifile.c:37), into which the texts returned point.

Simplifications: datasets are given and do not change; using a text after another one was made
in the buffer is undefined, although the memory would often still be there, with the other text.
-/

namespace Verif
open Outcome
variable {R : FP}

/-- The functions of oicheck.h:115-128. -/
inductive CheckName where
  | tables | header | keywords | visrefmap | uniqueTargets | targetsPresent | arrname
  | elementsPresent | corrPresent | flagging | t3amp | waveorder | time | flux
deriving DecidableEq, Repr

/-- oicheck.c:155-1194. The function of that name. -/
def CheckName.run : CheckName → OiFits R → Outcome CheckResult
  | .tables => check_tables
  | .header => check_header
  | .keywords => check_keywords
  | .visrefmap => check_visrefmap
  | .uniqueTargets => check_unique_targets
  | .targetsPresent => check_targets_present
  | .arrname => check_arrname
  | .elementsPresent => check_elements_present
  | .corrPresent => check_corr_present
  | .flagging => check_flagging
  | .t3amp => check_t3amp
  | .waveorder => check_waveorder
  | .time => check_time
  | .flux => check_flux

/-- A variable of type `oi_check_result` (oicheck.h:94-102) which has been set: its members, and
which string chunk `chunk` points to. -/
structure ResultVar where
  res : CheckResult
  chunk : Nat

/-- oicheck.c:48-140. The variables of a program (`none` if never set), the string chunks which are allocated,
the number of the next one, the buffer `pGStr`, and the number of the call which last wrote
in it. -/
structure ResultState where
  vars : Nat → Option ResultVar
  chunks : List Nat
  next : Nat
  buffer : Option CStr
  written : Option Nat

/-- At the start of a program. -/
def ResultState.start : ResultState := ⟨fun _ => none, [], 0, none, none⟩

/-- A call made by a program. Variables and datasets are known by number. -/
inductive ResultCall (R : FP) where
  /-- `check_xxx(&oi[i], &result[v])` -/
  | check (v : Nat) (c : CheckName) (i : Nat)
  /-- `format_check_result(&result[v])` -/
  | format (v : Nat)
  /-- `result[v].numBreach` and the text `result[v].description` are read -/
  | look (v : Nat)
  /-- `free_check_result(&result[v])` -/
  | free (v : Nat)
  /-- `format_oi_fits_summary(&oi[i])` -/
  | summary (i : Nat)
  /-- `format_oi_filter(&filter)` -/
  | filter (f : FilterSpec R)
  /-- the text which call number `k` returned is read -/
  | use (k : Nat)

/-- What a call returns. -/
inductive ResultValue where
  | level (n : Nat)
  | text (s : Option CStr)
  | members (numBreach : Nat) (description : Option CStr)
  | nothing
deriving DecidableEq

/-- oicheck.c:98-114 `format_check_result`, with the buffer it uses. `none` is NULL. -/
def format_check_result_buf (res : CheckResult) : TextM (Option CStr) := do
  if res.level = .none then return none
  else do
    needBuffer
    let desc ← StateT.lift (deref res.description)
    gPrintf (("*** " : CStr) ++ oi_breach_level_desc res.level ++ (":\n" : CStr) ++ desc ++
      (", " : CStr) ++ fmtInt res.numBreach ++ (" occurrences:-\n" : CStr))
    let n := if res.numBreach < MAX_REPORT then res.numBreach else MAX_REPORT
    (List.range n).forM fun i => do
      let p ← StateT.lift (index res.location i)
      let s ← StateT.lift (deref p)
      gAppend (("    " : CStr) ++ s ++ ("\n" : CStr))
    let s ← bufferText
    return some s

/-- oicheck.c:48-140, 155-1194. Call number `n` of a program. A variable which was never set has an arbitrary value, so its
use is undefined, as is that of a string chunk which has been freed. -/
def resultCall (oi : List (OiFits R)) (n : Nat) (s : ResultState) :
    ResultCall R → Outcome (ResultValue × ResultState)
  -- oicheck.c:48-58: a new chunk, whatever the variable was
  | .check v c i => do
    let d ← index oi i
    let res ← c.run d
    return (.level res.level.toNat,
      { s with vars := fun w => if w = v then some ⟨res, s.next⟩ else s.vars w,
               chunks := s.next :: s.chunks, next := s.next + 1 })
  | .format v =>
    match s.vars v with
    | none => .ub
    | some x =>
      if x.res.level ≠ .none ∧ x.chunk ∉ s.chunks then .ub
      else do
        let (t, b) ← format_check_result_buf x.res s.buffer
        return (.text t, { s with buffer := b, written := if t.isSome then some n else s.written })
  | .look v =>
    match s.vars v with
    | none => .ub
    | some x =>
      if x.res.description ≠ none ∧ x.chunk ∉ s.chunks then .ub
      else return (.members x.res.numBreach x.res.description, s)
  -- oicheck.c:86-89
  | .free v =>
    match s.vars v with
    | none => .ub
    | some x =>
      if x.chunk ∈ s.chunks then return (.nothing, { s with chunks := s.chunks.erase x.chunk })
      else .ub
  | .summary i => do
    let d ← index oi i
    let (t, b) ← format_oi_fits_summary d s.buffer
    return (.text (some t), { s with buffer := b, written := some n })
  | .filter f => do
    let (t, b) ← format_oi_filter f s.buffer
    return (.text (some t), { s with buffer := b, written := some n })
  | .use k =>
    if s.written = some k then return (.text s.buffer, s) else .ub

/-- The calls of a program, from number `n` on, and what they return. -/
def resultCalls (oi : List (OiFits R)) : Nat → ResultState → List (ResultCall R) →
    Outcome (List ResultValue × ResultState)
  | _, s, [] => .ok ([], s)
  | n, s, c :: cs => do
    let (v, s) ← resultCall oi n s c
    let (vs, s) ← resultCalls oi (n + 1) s cs
    return (v :: vs, s)

/-! ### The Python module oicheck -/

/-- oicheck.i. A step of a Python program which uses the modules oifits, oifilter and oicheck. Datasets and
results are known by number; results are numbered as they are made. -/
inductive PyCheckCall (R : FP) where
  /-- `level, result = check_xxx(o)` -/
  | check (c : CheckName) (i : Nat)
  /-- `str(result)` -/
  | str (r : Nat)
  /-- `result.numBreach, result.description` -/
  | members (r : Nat)
  /-- `del result`, for the last reference -/
  | del (r : Nat)
  /-- `str(o)` -/
  | strFits (i : Nat)
  /-- `str(f)` -/
  | strFilter (f : FilterSpec R)

/-- A Python program so far: the state of the library, the number of calls made of it, and the
number of results made. -/
structure PyCheckState where
  lib : ResultState
  calls : Nat
  results : Nat

/-- A step which calls the library once. -/
def PyCheckState.call (oi : List (OiFits R)) (s : PyCheckState) (c : ResultCall R) :
    Outcome (ResultValue × PyCheckState) := do
  let (v, lib) ← resultCall oi s.calls s.lib c
  return (v, { s with lib := lib, calls := s.calls + 1 })

/-- A text returned is copied at once (SWIG, for `const char *`); NULL would give `None`. -/
def PyCheckState.copy (oi : List (OiFits R)) (s : PyCheckState) : Outcome (ResultValue × PyCheckState) :=
  s.call oi (.use (s.calls - 1))

/-- oicheck.i. What a step does and yields. One which names a dataset or result that the program does not
have raises an exception (`none`). -/
def pyCheckCall (oi : List (OiFits R)) (s : PyCheckState) :
    PyCheckCall R → Outcome (Option ResultValue × PyCheckState)
  -- oifits_typemaps.i:181-205: a struct is allocated for each result; the object made for it does
  -- not own it (`SWIG_NewPointerObj(.., 0)`)
  | .check c i =>
    if i < oi.length then do
      let (v, s') ← s.call oi (.check s.results c i)
      return (some v, { s' with results := s.results + 1 })
    else return (none, s)
  -- oicheck.i:100-107
  | .str r =>
    if r < s.results then do
      let (v, s) ← s.call oi (.format r)
      match v with
      | .text none => return (some (.text (some "Check passed\n")), s)
      | _ => do
        let (v, s) ← s.copy oi
        return (some v, s)
    else return (none, s)
  | .members r =>
    if r < s.results then do
      let (v, s) ← s.call oi (.look r)
      return (some v, s)
    else return (none, s)
  -- the destructor (oicheck.i:95-98) does not run, since the object does not own the struct
  | .del _ => return (some .nothing, s)
  -- oifits.i:208-211
  | .strFits i =>
    if i < oi.length then do
      let (_, s) ← s.call oi (.summary i)
      let (v, s) ← s.copy oi
      return (some v, s)
    else return (none, s)
  -- oifilter.i:153-156
  | .strFilter f => do
    let (_, s) ← s.call oi (.filter f)
    let (v, s) ← s.copy oi
    return (some v, s)

/-- A Python program: its steps, and what they yield. -/
def pyCheckCalls (oi : List (OiFits R)) : PyCheckState → List (PyCheckCall R) →
    Outcome (List (Option ResultValue) × PyCheckState)
  | s, [] => .ok ([], s)
  | s, c :: cs => do
    let (v, s) ← pyCheckCall oi s c
    let (vs, s) ← pyCheckCalls oi s cs
    return (v :: vs, s)

/-- At the start of a Python program. -/
def PyCheckState.start : PyCheckState := ⟨.start, 0, 0⟩

end Verif
