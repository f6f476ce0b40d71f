import Verif.Model.Memory

/-!
# Programs written in Python

The Python modules are C code which SWIG generates from src/python-oifits/*.i. This is a model
of what that code does with memory: which blocks belong to a Python object, what the object's
destructor frees, and what is read when an attribute of an object is read. It is built on the
model of the library in `Verif.Model.Memory`, and has the simplifications of that file.

Simplifications of this file:
* the rules of SWIG are taken from its documentation: an object made by a constructor owns
  what it points to, and its destructor runs when the last reference to it goes; an object
  returned by any other method, for which the .i files have no `%newobject`, and an object
  made by `SWIG_NewPointerObj(.., 0)`, owns nothing and its destructor does nothing; an
  object which stands for a table or a record keeps only a pointer;
* assigning to `arrayList`, `wavelengthList` or `corrList`, and assigning to attributes which
  count something (`numrec`, `numTargets` and so on), are not modelled;
* an element of a column is not checked against its length, since the model knows no sizes.
-/

namespace Verif.Mem

/-- oifits.i:129-144. The lists of tables which refer to others. -/
inductive DataKind where
  | inspol | vis | vis2 | t3 | flux
deriving DecidableEq, Repr

/-- oifits.i:129-144. The lists of tables of an OiFits object. -/
inductive TableKind where
  | array | wave | corr
  | data (k : DataKind)
deriving DecidableEq, Repr

/-- A Python object which stands for a table, or for a column of one: the C pointer it keeps
(`self`), the pointers to columns which attributes of it yield (`inner`), and the records it
points to, with the pointers in each. The number of the OiFits object it was taken from is kept
for the specification; the C code does not know it. -/
structure PyRef where
  obj : Nat
  self : Ptr
  inner : List Ptr
  record : Ptr
  recs : List (List Ptr)
deriving DecidableEq, Repr

/-- exchange.h:98-120, oifits.i:162, 172. Attributes of oi_array: `elem[j]` is an element, which points to nothing. -/
def Array.pyRef (i : Nat) (t : Array) : PyRef :=
  ⟨i, t.self, [], t.elem, List.replicate t.nelement []⟩

/-- exchange.h:154-162, oifits.i:162. Attributes of oi_wavelength. -/
def Wave.pyRef (i : Nat) (t : Wave) : PyRef := ⟨i, t.self, [t.eff_wave, t.eff_band], none, []⟩

/-- exchange.h:165-175, oifits.i:162. Attributes of oi_corr. -/
def Corr.pyRef (i : Nat) (t : Corr) : PyRef := ⟨i, t.self, [t.iindx, t.jindx, t.corr], none, []⟩

/-- exchange.h:178-205, oifits.i:162, 174. Attributes of oi_inspol and its records. -/
def Inspol.pyRef (i : Nat) (t : Inspol) : PyRef :=
  ⟨i, t.self, [], t.record, t.recs.map fun r => [r.jxx, r.jyy, r.jxy, r.jyx]⟩

/-- exchange.h:209-250, oifits.i:162, 175. Attributes of oi_vis and its records: of the optional columns those in use. -/
def Vis.pyRef (i : Nat) (t : Vis) : PyRef :=
  ⟨i, t.self, [], t.record, t.recs.map fun r =>
    [r.visamp, r.visamperr, r.visphi, r.visphierr, r.flag] ++
    (if t.usevisrefmap then [r.visrefmap] else []) ++
    (if t.usecomplex then [r.rvis, r.rviserr, r.ivis, r.iviserr] else [])⟩

/-- exchange.h:254-280, oifits.i:162, 176. Attributes of oi_vis2 and its records. -/
def Vis2.pyRef (i : Nat) (t : Vis2) : PyRef :=
  ⟨i, t.self, [], t.record, t.recs.map fun r => [r.vis2data, r.vis2err, r.flag]⟩

/-- exchange.h:283-311, oifits.i:162, 177. Attributes of oi_t3 and its records. -/
def T3.pyRef (i : Nat) (t : T3) : PyRef :=
  ⟨i, t.self, [], t.record, t.recs.map fun r => [r.t3amp, r.t3amperr, r.t3phi, r.t3phierr, r.flag]⟩

/-- exchange.h:314-344, oifits.i:162, 178. Attributes of oi_flux and its records. -/
def Flux.pyRef (i : Nat) (t : Flux) : PyRef :=
  ⟨i, t.self, [], t.record, t.recs.map fun r => [r.fluxdata, r.fluxerr, r.flag]⟩

/-- oifits_typemaps.i:263-274 `%map_out_glist`: the Python list which an attribute such as
`visList` yields, of objects which own nothing. -/
def OiFits.pyList (i : Nat) (d : OiFits) : TableKind → List PyRef
  | .array => d.arrayList.map (Array.pyRef i)
  | .wave => d.wavelengthList.map (Wave.pyRef i)
  | .corr => d.corrList.map (Corr.pyRef i)
  | .data .inspol => d.inspolList.map (Inspol.pyRef i)
  | .data .vis => d.visList.map (Vis.pyRef i)
  | .data .vis2 => d.vis2List.map (Vis2.pyRef i)
  | .data .t3 => d.t3List.map (T3.pyRef i)
  | .data .flux => d.fluxList.map (Flux.pyRef i)

/-- As `o.visList = []` does (oifits_typemaps.i:234-, `%map_in_glist`). The dataset without the tables of one list. -/
def OiFits.clearList (d : OiFits) : DataKind → OiFits
  | .inspol => { d with inspolList := [] }
  | .vis => { d with visList := [] }
  | .vis2 => { d with vis2List := [] }
  | .t3 => { d with t3List := [] }
  | .flux => { d with fluxList := [] }

/-- oifits.i:152, 182-254. A Python object of class OiFits: the block of its oi_fits struct, whether the object owns
it, whether the program still has the object, and those of its lists whose nodes have been
freed. -/
structure PyObj where
  self : Ptr
  own : Bool
  held : Bool
  freedLists : List DataKind
deriving DecidableEq, Repr

/-- What a Python program has: its OiFits objects, in the order in which they were made, with
their data (`none` if there is none, or it has been freed), and the tables it has taken out
of them. -/
structure PyState where
  objs : List PyObj
  ds : List (Option OiFits)
  refs : List PyRef
deriving DecidableEq, Repr

/-- A further object. -/
def PyState.push (s : PyState) (o : PyObj) (d : Option OiFits) : PyState :=
  { s with objs := s.objs ++ [o], ds := s.ds ++ [d] }

/-- An object which the program still has, and its data. -/
def PyState.obj (s : PyState) (i : Nat) : Option (PyObj × OiFits) :=
  match s.objs[i]?, s.ds[i]? with
  | some o, some (some d) => if o.held then some (o, d) else none
  | _, _ => none

/-- oifits.i:182-254, oifilter.i:138-165, oimerge.i. A step of a Python program. Objects and tables are known by the order in which they were
made. -/
inductive PyCall where
  /-- `OiFits(filename)` -/
  | openFile (p : ReadPlan)
  /-- `OiFits()` -/
  | new
  /-- `Filter.apply(o)` -/
  | apply (i : Nat) (f : FilterPlan)
  /-- `merge(o1, o2, ..)` -/
  | merge (is : List Nat) (p : MergePlan)
  /-- the last reference to the object goes, by `del` or otherwise -/
  | del (i : Nat)
  /-- `o.visList[j]`, for any of the lists -/
  | table (i : Nat) (k : TableKind) (j : Nat)
  /-- an attribute of a table or column, such as `t.insname` or `t.eff_wave[0]` -/
  | attr (r : Nat)
  /-- attributes of a record, such as `t.record[j].flag[0]` -/
  | record (r : Nat) (j : Nat)
  /-- `o.get_target(targetId)` -/
  | target (i : Nat)
  /-- `o.get_element(arrname, staIndex)` -/
  | element (i : Nat) (arrname : CStr)
  /-- `o.get_nelement(arrname)` -/
  | nelement (i : Nat) (arrname : CStr)
  /-- `o.get_nwave(insname)` -/
  | nwave (i : Nat) (insname : CStr)
  /-- `o.get_eff_wave(insname)`, which yields the column -/
  | effWave (i : Nat) (insname : CStr)
  /-- `o.vis2List = [..]`, for those lists -/
  | assign (i : Nat) (k : DataKind) (rs : List Nat)

/-- C code which goes through all lists of an oi_fits struct reads the nodes of each. -/
def useLists (o : PyObj) : Mem Unit :=
  if o.freedLists = [] then touch o.self else undefined

/-- oifits.i:182-254, oifilter.i:138-165, oimerge.i. The effect of one step. A step which names an object, table or list element that the
program does not have raises a Python exception and changes nothing. -/
def pyCall (s : PyState) : PyCall → Mem PyState
  -- oifits.i:185-201, constructor: IOError if the file cannot be read
  | .openFile p => do
    let self ← chkmalloc 1
    let r ← read_oi_fits p
    match r with
    | none => do
      free self
      return s.push ⟨none, false, false, []⟩ none
    | some d => return s.push ⟨self, true, true, []⟩ (some d)
  | .new => do
    let self ← chkmalloc 1
    let d ← init_oi_fits
    return s.push ⟨self, true, true, []⟩ (some d)
  -- oifilter.i:158-163
  | .apply i f =>
    match s.obj i with
    | some (o, d) => do
      let self ← chkmalloc 1
      useLists o
      let d' ← apply_oi_filter d f
      return s.push ⟨self, false, true, []⟩ (some d')
    | none => return s
  -- oimerge.i:68-87, oifits_typemaps.i:181-205 and 234-258
  | .merge is p =>
    match is.mapM s.obj with
    | some ins => do
      let self ← chkmalloc 1
      memFor (fun x => useLists x.1) ins
      let d ← merge_oi_fits_list (ins.map (·.2)) p
      return s.push ⟨self, false, true, []⟩ (some d)
    | none => return s
  -- oifits.i:203-206, destructor: the struct itself is not freed
  | .del i =>
    match s.obj i with
    | some (o, d) =>
      if o.own then do
        useLists o
        free_oi_fits d
        return { s with objs := s.objs.set i { o with held := false }, ds := s.ds.set i none }
      else return { s with objs := s.objs.set i { o with held := false } }
    | none => return s
  -- oifits_typemaps.i:263-274
  | .table i k j =>
    match s.obj i with
    | some (o, d) => do
      touch o.self
      if o.freedLists.any (fun x => decide (k = .data x)) then undefined
      match (d.pyList i k)[j]? with
      | some r => return { s with refs := s.refs ++ [r] }
      | none => return s
    | none => return s
  | .attr r =>
    match s.refs[r]? with
    | some t => do
      touch t.self
      memFor touch t.inner
      return s
    | none => return s
  -- oifits.i:91-100 `%add_array_access`: no check of the index
  | .record r j =>
    match s.refs[r]? with
    | some t => do
      touch t.self
      let x ← recAt t.record t.recs j
      memFor touch x
      return s
    | none => return s
  -- oifits.i:222-225
  | .target i =>
    match s.obj i with
    | some (o, d) => do
      touch o.self
      if 0 < d.targets.ntarget then touch d.targets.targ
      return s
    | none => return s
  -- oifits.i:232-235
  | .element i n =>
    match s.obj i with
    | some (o, d) => do
      touch o.self
      use_lookup_array d n
      return s
    | none => return s
  -- oifits.i:227-230: what the search returns is not compared with NULL
  | .nelement i n =>
    match s.obj i with
    | some (o, d) => do
      touch o.self
      let p ← hashLookup d.arrayHash n
      touch p
      return s
    | none => return s
  -- oifits.i:237-240
  | .nwave i n =>
    match s.obj i with
    | some (o, d) => do
      touch o.self
      let p ← hashLookup d.wavelengthHash n
      touch p
      return s
    | none => return s
  -- oifits.i:242-252 `get_eff_wave`, `get_eff_band`
  | .effWave i n =>
    match s.obj i with
    | some (o, d) => do
      touch o.self
      let p ← hashLookup d.wavelengthHash n
      touch p
      match d.wavelengthList.find? (fun t => t.self == p) with
      | some t => return { s with refs := s.refs ++ [⟨i, t.eff_wave, [], none, []⟩] }
      | none => undefined
    | none => return s
  -- oifits_typemaps.i:234-258 `%map_in_glist`: a GList is made of the sequence, the attribute
  -- is set to it, and then `freearg` frees its nodes; those of the old list are not freed
  | .assign i k rs =>
    match s.obj i, rs.mapM (fun r => s.refs[r]?) with
    | some (o, d), some _ => do
      touch o.self
      let freed := o.freedLists.filter (fun x => decide (x ≠ k))
      return { s with
        objs := s.objs.set i { o with freedLists := if rs = [] then freed else k :: freed },
        ds := s.ds.set i (some (d.clearList k)) }
    | _, _ => return s

/-- A Python program: its steps, one after the other. -/
def pyRun (s : PyState) (cs : List PyCall) : Mem PyState := memFold pyCall s cs

/-- The state of a Python program at its start. -/
def pyStart : PyState := ⟨[], [], []⟩

end Verif.Mem
