import Verif.Model.PyScript
import Verif.Spec.Cli

/-! What Python scripts are expected to do. -/

namespace Verif.Spec
open Py
variable {R : FP} {α β : Type}

/-! ### Scripts which do what the programs do -/

/-- Read a dataset, make a filter and assign to its attributes, apply it, write the result:
```
o = oifits.OiFits(infile); f = oifilter.Filter(); f.attr = value; ...; f.apply(o).write(outfile)
```
-/
def filterScript (infile : CStr) (attrs : List (FilterAttr R)) (outfile : CStr) : List (Call R) :=
  [.oifits (some infile), .filter] ++ attrs.map (.set 0) ++ [.apply 0 (.data 0), .write 1 outfile]

/-- Read datasets, merge them, write the result:
`oimerge.merge(oifits.OiFits(infile), ...).write(outfile)`. -/
def mergeScript (infiles : List CStr) (outfile : CStr) : List (Call R) :=
  infiles.map (fun name => .oifits (some name)) ++
    [.merge ((List.range infiles.length).map .data), .write infiles.length outfile]

/-- Read a dataset, look at its summary, make all checks. -/
def checkScript (file : CStr) : List (Call R) :=
  [.oifits (some file), .str 0] ++ (List.range 14).map fun n => .check n (.data 0)

/-- What a value shown by `checkScript` adds to what the user reads: results of checks which
found nothing are left out. -/
def asShown : Value R → CStr
  | .text t => t
  | .checked level t => if level = .none then [] else t
  | _ => []

/-- The value is the result of a check which found nothing. -/
def Passed : Value R → Prop
  | .checked level t => level = .none ∧ t = ("Check passed\n" : CStr)
  | _ => False

/-- A C int. -/
def FitsInt (n : Int) : Prop := -2147483648 ≤ n ∧ n ≤ 2147483647

/-- The options which Python's Filter class has an attribute for, with ints that are C ints. -/
def Expressible : FilterOpt R → Prop
  | .uvrad_min _ => False
  | .uvrad_max _ => False
  | .target_id n => FitsInt n
  | _ => True

/-! ### Attributes of a filter -/

/-- The assignments a script makes to attributes of filter `k`. -/
def assigned (k : Nat) (cs : List (Call R)) : List (FilterAttr R) :=
  cs.filterMap fun
    | .set k' a => if k' = k then some a else none
    | _ => none

/-- The attribute is assigned `x`, and not assigned again later. -/
def LastSet (attr : α → FilterAttr R) (as : List (FilterAttr R)) (x : α) : Prop :=
  ∃ before after, as = before ++ attr x :: after ∧ ∀ y, attr y ∉ after

/-- The attribute has the value assigned last, or the default. -/
def AttrIs (attr : α → FilterAttr R) (as : List (FilterAttr R)) (means : α → β → Prop) (value default : β) : Prop :=
  (∀ x, LastSet attr as x → means x value) ∧ ((∀ x, attr x ∉ as) → value = default)

/-- A Python int. -/
def IsInt (v : Val R) (n : Int) : Prop := v = .int n ∧ FitsInt n

/-- A Python int which is not 0, or is. -/
def IsTruth (v : Val R) (b : Bool) : Prop := ∃ n, v = .int n ∧ FitsInt n ∧ (b = true ↔ n ≠ 0)

/-- A sequence of two Python floats. -/
def IsPair (a : Arg R) (p : R.Dbl × R.Dbl) : Prop := a = .seq [.float p.1, .float p.2]

/-- A sequence of two Python floats, as C floats. -/
def IsFloats (a : Arg R) (p : R.Flt × R.Flt) : Prop := ∃ x y, IsPair a (x, y) ∧ p = (R.toF x, R.toF y)

/-- What the criteria of a filter are after assignments to its attributes. -/
structure AttrsAre (as : List (FilterAttr R)) (f : FilterSpec R) : Prop where
  arrname : AttrIs .arrname as (fun s v => v = s) f.arrname "*"
  insname : AttrIs .insname as (fun s v => v = s) f.insname "*"
  corrname : AttrIs .corrname as (fun s v => v = s) f.corrname "*"
  target_id : AttrIs .target_id as IsInt f.target_id (-1)
  mjd_range : AttrIs .mjd_range as IsPair f.mjd_range (R.lit 0, R.lit 10000000)
  wave_range : AttrIs .wave_range as IsFloats f.wave_range (R.toF (R.lit 0), R.toF (R.lit (mkRat 1 10000)))
  bas_range : AttrIs .bas_range as IsPair f.bas_range (R.lit 0, R.lit 10000)
  snr_range : AttrIs .snr_range as IsFloats f.snr_range (R.toF (R.lit (-5)), R.toF (R.lit 10000000000))
  accept_vis : AttrIs .accept_vis as IsTruth f.accept_vis true
  accept_vis2 : AttrIs .accept_vis2 as IsTruth f.accept_vis2 true
  accept_t3amp : AttrIs .accept_t3amp as IsTruth f.accept_t3amp true
  accept_t3phi : AttrIs .accept_t3phi as IsTruth f.accept_t3phi true
  accept_flux : AttrIs .accept_flux as IsTruth f.accept_flux true
  accept_flagged : AttrIs .accept_flagged as IsTruth f.accept_flagged true

/-- The value may be assigned to the attribute: a string of at most 70 characters, an int, or a
sequence of two floats. -/
def Acceptable : FilterAttr R → Prop
  | .arrname s | .insname s | .corrname s => s.length ≤ 70
  | .target_id v | .accept_vis v | .accept_vis2 v | .accept_t3amp v | .accept_t3phi v | .accept_flux v
  | .accept_flagged v => ∃ n, IsInt v n
  | .mjd_range a | .wave_range a | .bas_range a | .snr_range a => ∃ p, IsPair a p
  | .uvrad_range _ => True

/-- A string of 71 characters, which fits the C array but leaves no room for its end. -/
def LeavesNoRoom : FilterAttr R → Prop
  | .arrname s | .insname s | .corrname s => s.length = 71
  | _ => False

/-- The exception raised for a value which may not be assigned to the attribute: TypeError for a
longer string, for anything but an int, and for anything but a sequence; OverflowError for an int
which is not a C int; ValueError for a sequence of anything but two floats. -/
def RaisesFor (e : Raised) : FilterAttr R → Prop
  | .arrname s | .insname s | .corrname s => 71 < s.length ∧ e = .type
  | .target_id v | .accept_vis v | .accept_vis2 v | .accept_t3amp v | .accept_t3phi v | .accept_flux v
  | .accept_flagged v => (∃ n, v = .int n ∧ ¬ FitsInt n ∧ e = .overflow) ∨ ((∀ n, v ≠ .int n) ∧ e = .type)
  | .mjd_range a | .wave_range a | .bas_range a | .snr_range a =>
    (a = .notSeq ∧ e = .type) ∨ ((∃ l, a = .seq l) ∧ (∀ p, ¬ IsPair a p) ∧ e = .value)
  | .uvrad_range _ => False

/-! ### What calls change -/

/-- The file a call may change. -/
def fileWritten : Call R → Option CStr
  | .write _ ('!' :: name) => some name
  | .write _ name => some name
  | _ => none

/-- The filter a call may change. -/
def filterChanged : Call R → Option Nat
  | .set k _ => some k
  | _ => none

/-- An OI_VIS, OI_VIS2, OI_T3 or OI_FLUX table has this ARRNAME. -/
def NamesArray (oi : OiFits R) (n : CStr) : Prop :=
  n ≠ [] ∧ ((∃ t ∈ oi.visList, t.arrname = n) ∨ (∃ t ∈ oi.vis2List, t.arrname = n) ∨
    (∃ t ∈ oi.t3List, t.arrname = n) ∨ ∃ t ∈ oi.fluxList, t.arrname = n)

/-- An OI_VIS, OI_VIS2, OI_T3 or OI_FLUX table has this INSNAME. -/
def NamesInstrument (oi : OiFits R) (n : CStr) : Prop :=
  (∃ t ∈ oi.visList, t.insname = n) ∨ (∃ t ∈ oi.vis2List, t.insname = n) ∨
    (∃ t ∈ oi.t3List, t.insname = n) ∨ ∃ t ∈ oi.fluxList, t.insname = n

/-- The script ended without an exception. -/
def Finished (r : Session R × List (Value R) × Option (Ended R)) : Prop := r.2.2.isNone

end Verif.Spec
