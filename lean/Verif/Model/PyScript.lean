import Verif.Model.Cli
import Verif.Model.PyTuple
import Verif.Model.Results

/-!
# What Python scripts compute

The Python modules oifits, oifilter, oimerge and oicheck (src/python-oifits/*.i) as a user sees
them: the values which calls return, the exceptions they raise, and the files they leave. What
these modules do with memory is in `Verif.Model.Python`; here objects are values.

Simplifications:
* the code which SWIG generates is taken from its documentation: an argument of class `oi_fits *`
  accepts None, as NULL, and raises TypeError for an object of another class; an argument of
  type int raises TypeError if it is no int and OverflowError if it does not fit; assigning to
  an attribute which the interface file does not declare makes a Python attribute which the
  library does not see;
* a method is called for an object of its class, that is, `self` is not None;
* attributes of OiFits objects are only read (their assignment is in `Verif.Model.Python` and
  `Verif.Model.PyTuple`);
* `get_eff_wave` and `get_eff_band` return an array of SWIG's library carrays.i, which does not
  know its length; here the value is the list of its first `nwave` elements.
-/

namespace Verif.Py
open Outcome

variable {R : FP}

/-- Exceptions, as in `Exc`, and those raised for a file (IOError) and an int (OverflowError). -/
inductive Raised where
  | type | value | system | overflow | io
deriving DecidableEq, Repr

/-- An exception of the tuple conversions. -/
def Exc.raised : Exc → Raised
  | .type => .type
  | .value => .value
  | .system => .system

/-- An object passed where an OiFits is expected: the `i`-th which the script has made, None, or
an object of another class. -/
inductive Obj where
  | data (i : Nat)
  | none
  | other
deriving DecidableEq, Repr

/-- oimerge.i. What a script passes to mergelist(): a sequence, or something else. -/
inductive ObjList where
  | seq (l : List Obj)
  | notSeq

/-- Assignments to attributes of a Filter object (oifilter.i:120-135), with the value assigned.
`uvrad_range` is a member of `oi_filter_spec` (oifilter.h:73-98) which the interface file does
not declare. -/
inductive FilterAttr (R : FP) where
  | arrname (s : CStr)
  | insname (s : CStr)
  | corrname (s : CStr)
  | target_id (n : Val R)
  | mjd_range (a : Arg R)
  | wave_range (a : Arg R)
  | bas_range (a : Arg R)
  | uvrad_range (a : Arg R)
  | snr_range (a : Arg R)
  | accept_vis (n : Val R)
  | accept_vis2 (n : Val R)
  | accept_t3amp (n : Val R)
  | accept_t3phi (n : Val R)
  | accept_flux (n : Val R)
  | accept_flagged (n : Val R)

/-- oifits.i:182-254, oifilter.i:138-165, oimerge.i. A call a script makes. New OiFits objects are numbered in the order they are made, and so
are Filter objects. -/
inductive Call (R : FP) where
  /-- `oifits.OiFits()`, `oifits.OiFits(filename)` -/
  | oifits (filename : Option CStr)
  /-- `o.write(filename)` -/
  | write (i : Nat) (filename : CStr)
  /-- `str(o)` -/
  | str (i : Nat)
  /-- `o.numTargets` -/
  | numTargets (i : Nat)
  /-- `o.get_target(id)` -/
  | getTarget (i : Nat) (id : Int)
  /-- `o.get_nelement(arrname)` -/
  | getNelement (i : Nat) (arrname : CStr)
  /-- `o.get_element(arrname, staIndex)` -/
  | getElement (i : Nat) (arrname : CStr) (staIndex : Int)
  /-- `o.get_nwave(insname)` -/
  | getNwave (i : Nat) (insname : CStr)
  /-- `o.get_eff_wave(insname)` -/
  | getEffWave (i : Nat) (insname : CStr)
  /-- `o.get_eff_band(insname)` -/
  | getEffBand (i : Nat) (insname : CStr)
  /-- `oifilter.Filter()` -/
  | filter
  /-- `f.attr = value` -/
  | set (k : Nat) (a : FilterAttr R)
  /-- `str(f)` -/
  | filterStr (k : Nat)
  /-- `f.apply(o)` -/
  | apply (k : Nat) (o : Obj)
  /-- `oimerge.mergelist(l)` -/
  | mergelist (l : ObjList)
  /-- `level, result = oicheck.check_...(o)`, the `n`-th of `checkList`, and `str(result)` -/
  | check (n : Nat) (o : Obj)

/-- oimerge.i:69-71 `merge(*args)`. -/
def Call.merge (args : List Obj) : Call R := .mergelist (.seq args)

/-- What a call returns. -/
inductive Value (R : FP) where
  | nothing
  | data (i : Nat)
  | filter (k : Nat)
  | text (s : CStr)
  | int (n : Int)
  | target (t : Option (Target R))
  | element (e : Option (Element R))
  | waves (l : List R.Flt)
  | checked (level : Level) (text : CStr)

/-- How a call ends. `crash` is the end of the interpreter. -/
inductive Ended (R : FP) where
  | value (v : Value R)
  | raised (e : Raised)
  | crash (e : Exit)

/-- What is there while a script runs. -/
structure Session (R : FP) where
  files : Files R
  buffer : Option CStr
  data : List (OiFits R)
  filters : List (FilterSpec R)

/-- The start of a script. -/
def Session.start (files : Files R) : Session R := ⟨files, none, [], []⟩

/-- Call functions of the library, and go on with their result. -/
def inC {α : Type} (m : Prog R α) (s : Session R) (next : α → Session R → Session R × Ended R) :
    Session R × Ended R :=
  match m ⟨[], s.files, s.buffer⟩ with
  | .ok (a, w) => next a { s with files := w.files, buffer := w.buffer }
  | .error e => ({ s with files := e.files }, .crash e.exit)

/-- oifits.i:208-211, oifilter.i:153-156. A method which makes a text in `pGStr`. -/
def textOf {α : Type} (m : TextM α) : Prog R α := fun w =>
  match m w.buffer with
  | .ok (s, b) => .ok (s, { w with buffer := b })
  | .abort => .error ⟨.abort, w.out, w.files⟩
  | .ub => .error ⟨.ub, w.out, w.files⟩

/-- oifits.i:185-201. A new OiFits object. -/
def newData (oi : OiFits R) (s : Session R) : Session R × Ended R :=
  ({ s with data := s.data ++ [oi] }, .value (.data s.data.length))

/-- The end of the constructor of OiFits, oifits.i:191-200, with the typemap for the status
(oifits_typemaps.i:208-229) which raises IOError. With status 0, an object which
`read_oi_fits` had not filled would be garbage. -/
def constructed (r : Option (OiFits R) × Status) (s : Session R) : Session R × Ended R :=
  if r.2 ≠ .ok then (s, .raised .io)
  else match r.1 with
    | some oi => newData oi s
    | none => (s, .crash .ub)

/-- oifits.i:184-201, the constructor of OiFits. -/
def newOiFits (u : Undef R) (filename : Option CStr) (s : Session R) : Session R × Ended R :=
  match filename with
  | none => newData (init_oi_fits R) s
  | some name => inC (readFile u name) s constructed

/-- oifits.i:213-217 `write`. -/
def pyWrite (today : CStr) (oi : OiFits R) (filename : CStr) (s : Session R) : Session R × Ended R :=
  inC (writeFile today filename oi) s fun st s =>
    if st ≠ .ok then (s, .raised .io) else (s, .value .nothing)

/-- oifilter.i:108, 120-135. Assign a string to a member `char [FLEN_VALUE]` (SWIG's `SWIG_AsCharArray`): a string which
does not fit raises TypeError. One of exactly FLEN_VALUE characters is copied without the
terminating null; what reads it later is undefined, and here it is undefined at once. -/
def setChars (s : CStr) (store : CStr → FilterSpec R) : Outcome (Except Raised (FilterSpec R)) :=
  if s.length < FLEN_VALUE then .ok (.ok (store s))
  else if s.length = FLEN_VALUE then .ub
  else .ok (.error .type)

/-- oifilter.i:120-135. Assign to a member of type int (SWIG's `SWIG_AsVal_int`). -/
def setInt (v : Val R) (store : Int → FilterSpec R) : Outcome (Except Raised (FilterSpec R)) :=
  match v with
  | .int n => if -(2 ^ 31) ≤ n ∧ n < 2 ^ 31 then .ok (.ok (store n)) else .ok (.error .overflow)
  | _ => .ok (.error .type)

/-- Assign to a member which is an array of two, with the typemaps of oifits_typemaps.i. (The
elements are floats, whose conversion cannot set OverflowError.) -/
def setPair {α : Type} (item : Val R → Option (α × Bool)) (old : α × α) (a : Arg R)
    (store : α × α → FilterSpec R) : Outcome (Except Raised (FilterSpec R)) :=
  match assign item [old.1, old.2] a with
  | ⟨_, some e, _⟩ => .ok (.error e.raised)
  | ⟨[x, y], none, _⟩ => .ok (.ok (store (x, y)))
  | ⟨_, none, _⟩ => .ok (.ok (store old))

/-- The setters of Filter, oifilter.i:106-135. -/
def setAttr (f : FilterSpec R) : FilterAttr R → Outcome (Except Raised (FilterSpec R))
  | .arrname s => setChars s fun x => { f with arrname := x }
  | .insname s => setChars s fun x => { f with insname := x }
  | .corrname s => setChars s fun x => { f with corrname := x }
  | .target_id n => setInt n fun x => { f with target_id := x }
  | .mjd_range a => setPair doubleItem f.mjd_range a fun x => { f with mjd_range := x }
  | .wave_range a => setPair floatItem f.wave_range a fun x => { f with wave_range := x }
  | .bas_range a => setPair doubleItem f.bas_range a fun x => { f with bas_range := x }
  | .uvrad_range _ => .ok (.ok f)
  | .snr_range a => setPair floatItem f.snr_range a fun x => { f with snr_range := x }
  | .accept_vis n => setInt n fun x => { f with accept_vis := x ≠ 0 }
  | .accept_vis2 n => setInt n fun x => { f with accept_vis2 := x ≠ 0 }
  | .accept_t3amp n => setInt n fun x => { f with accept_t3amp := x ≠ 0 }
  | .accept_t3phi n => setInt n fun x => { f with accept_t3phi := x ≠ 0 }
  | .accept_flux n => setInt n fun x => { f with accept_flux := x ≠ 0 }
  | .accept_flagged n => setInt n fun x => { f with accept_flagged := x ≠ 0 }

/-- An argument of type `oi_fits *`. -/
def withData (o : Obj) (s : Session R) (next : OiFits R → Session R × Ended R) : Session R × Ended R :=
  match o with
  | .other => (s, .raised .type)
  | .none => (s, .crash .ub)
  | .data i =>
    match s.data[i]? with
    | some oi => next oi
    | none => (s, .raised .type)

/-- oifits_typemaps.i:232-253, the typemap for a list of objects, used for `inList`
(oimerge.i:64): NULL without an exception if one of them is of another class, for which the
interpreter raises SystemError; a NULL pointer in the list is read when datasets are merged. -/
def objects (data : List (OiFits R)) : List Obj → Except (Ended R) (List (OiFits R))
  | [] => .ok []
  | .other :: _ => .error (.raised .system)
  | .none :: l =>
    match objects data l with
    | .error e@(.raised _) => .error e
    | _ => .error (.crash .ub)
  | .data i :: l =>
    match data[i]? with
    | none => .error (.raised .system)
    | some oi =>
      match objects data l with
      | .error e => .error e
      | .ok ois => .ok (oi :: ois)

/-- oimerge.i:75-79 `mergelist`, with the typemap for the output (oifits_typemaps.i:179-205). -/
def mergelist (l : ObjList) (s : Session R) : Session R × Ended R :=
  match l with
  | .notSeq => (s, .raised .type)
  | .seq l =>
    match objects s.data l with
    | .error e => (s, e)
    | .ok ois => inC (call (merge_oi_fits_list ois)) s newData

/-- oicheck.i:65-107: a check, and `str` of its result. -/
def pyCheck (n : Nat) (oi : OiFits R) (s : Session R) : Session R × Ended R :=
  match checkList[n]? with
  | none => (s, .raised .type)
  | some check =>
    inC (call (check oi)) s fun r s =>
      inC (textOf (format_check_result_buf r)) s fun t s =>
        (s, .value (.checked r.level (t.getD ("Check passed\n" : CStr))))

/-- oifits.i:182-254, oifilter.i:138-165, oimerge.i. One call. -/
def step (u : Undef R) (today : CStr) (s : Session R) : Call R → Session R × Ended R
  | .oifits filename => newOiFits u filename s
  | .write i filename => withData (.data i) s fun oi => pyWrite today oi filename s
  -- oifits.i:208-211
  | .str i => withData (.data i) s fun oi => inC (textOf (format_oi_fits_summary oi)) s fun t s => (s, .value (.text t))
  -- oifits.i:258-261
  | .numTargets i => withData (.data i) s fun oi => (s, .value (.int oi.targets.targ.length))
  -- oifits.i:222-225
  | .getTarget i id => withData (.data i) s fun oi => (s, .value (.target (oi_fits_lookup_target oi id)))
  -- oifits.i:227-230
  | .getNelement i arrname => withData (.data i) s fun oi =>
    inC (call (deref (oi_fits_lookup_array oi arrname))) s fun t s => (s, .value (.int t.elem.length))
  -- oifits.i:232-235
  | .getElement i arrname staIndex => withData (.data i) s fun oi =>
    (s, .value (.element (oi_fits_lookup_element oi arrname staIndex)))
  -- oifits.i:237-240
  | .getNwave i insname => withData (.data i) s fun oi =>
    inC (call (deref (oi_fits_lookup_wavelength oi insname))) s fun t s => (s, .value (.int t.nwave))
  -- oifits.i:242-246
  | .getEffWave i insname => withData (.data i) s fun oi =>
    inC (call (deref (oi_fits_lookup_wavelength oi insname))) s fun t s => (s, .value (.waves t.eff_wave))
  -- oifits.i:248-252
  | .getEffBand i insname => withData (.data i) s fun oi =>
    inC (call (deref (oi_fits_lookup_wavelength oi insname))) s fun t s => (s, .value (.waves t.eff_band))
  -- oifilter.i:140-146
  | .filter => ({ s with filters := s.filters ++ [init_oi_filter R] }, .value (.filter s.filters.length))
  | .set k a =>
    match s.filters[k]? with
    | none => (s, .raised .type)
    | some f => inC (call (setAttr f a)) s fun r s =>
      match r with
      | .ok g => ({ s with filters := s.filters.set k g }, .value .nothing)
      | .error e => (s, .raised e)
  -- oifilter.i:153-156
  | .filterStr k =>
    match s.filters[k]? with
    | none => (s, .raised .type)
    | some f => inC (textOf (format_oi_filter f)) s fun t s => (s, .value (.text t))
  -- oifilter.i:158-163
  | .apply k o =>
    match s.filters[k]? with
    | none => (s, .raised .type)
    | some f => withData o s fun oi => inC (call (apply_oi_filter oi f)) s newData
  | .mergelist l => mergelist l s
  | .check n o => withData o s fun oi => pyCheck n oi s

/-- A script which stops at the first exception: what it leaves, what its calls returned, and
how it ended if it did not reach its end. -/
def run (u : Undef R) (today : CStr) (s : Session R) : List (Call R) → Session R × List (Value R) × Option (Ended R)
  | [] => (s, [], none)
  | c :: cs =>
    match step u today s c with
    | (s, .value v) =>
      let (s, vs, e) := run u today s cs
      (s, v :: vs, e)
    | (s, e) => (s, [], some e)

end Verif.Py
