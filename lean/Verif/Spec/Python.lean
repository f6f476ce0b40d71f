import Verif.Model.Python
import Verif.Spec.Memory

/-! What a Python program must and must not do for its memory to be safe. -/

namespace Verif.Mem

/-- The data of the object are still there. -/
def PyState.alive (s : PyState) (i : Nat) : Bool :=
  match s.ds[i]? with
  | some (some _) => true
  | _ => false

/-- The search for a name finds a table. -/
def Hash.knows (H : Hash) (name : CStr) : Bool :=
  match H.entries.find? (fun e => e.name == name) with
  | some e => e.value.isSome
  | none => false

/-- The rules: a table or column is used only while the data of the object it was taken from
are still there; an index of a record is less than the number of records; the methods which
return a number or a column are asked only for names that can be found; and nothing but an
empty list is assigned to a list of tables. -/
def PyCall.careful (s : PyState) : PyCall → Bool
  | .attr r =>
    match s.refs[r]? with
    | some t => s.alive t.obj
    | none => true
  | .record r j =>
    match s.refs[r]? with
    | some t => s.alive t.obj && decide (j < t.recs.length)
    | none => true
  | .nelement i n =>
    match s.obj i with
    | some (_, d) => d.arrayHash.knows n
    | none => true
  | .nwave i n | .effWave i n =>
    match s.obj i with
    | some (_, d) => d.wavelengthHash.knows n
    | none => true
  | .assign _ _ rs => rs.isEmpty
  | _ => true

/-- The program keeps to the rules at every step it reaches. -/
def carefulRun (s : PyState) : List PyCall → Heap → Bool
  | [], _ => true
  | c :: cs, h =>
    c.careful s &&
    match pyCall s c h with
    | .ok (s', h') => carefulRun s' cs h'
    | _ => true

/-- The blocks of the structs of all objects ever made. -/
def structBlocks (objs : List PyObj) : Multiset Nat := allOf (fun o => blk o.self) objs

/-- A step which gives up no table halfway, and replaces no list. -/
def PyCall.Clean : PyCall → Prop
  | .openFile p => p.Clean
  | .apply _ f => f.Clean
  | .assign _ _ _ => False
  | _ => True

end Verif.Mem
