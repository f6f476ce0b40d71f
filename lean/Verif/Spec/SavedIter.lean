import Verif.Spec.MergeIter
import Verif.Spec.EndToEnd
import Verif.Spec.FilterFile
import Verif.Spec.FilterMerge

/-! Specification of iterating over what has been saved in a file. -/

namespace Verif.Spec
variable {R : FP}

/-- Programs which iterate over the two datasets, with filter `f` over the first and `f'` over the second, see the same
data in the same order. -/
structure SameData (f f' : FilterSpec R) (oi oi' : OiFits R) : Prop where
  vis : ∃ l l', Iterates visKind oi f l ∧ Iterates visKind oi' f' l' ∧ l.map (visContent oi) = l'.map (visContent oi')
  vis2 : ∃ l l', Iterates vis2Kind oi f l ∧ Iterates vis2Kind oi' f' l' ∧ l.map (vis2Content oi) = l'.map (vis2Content oi')
  t3 : ∃ l l', Iterates t3Kind oi f l ∧ Iterates t3Kind oi' f' l' ∧ l.map (t3Content oi) = l'.map (t3Content oi')

/-- The same data, perhaps in another order. -/
structure SameDataPerm (f f' : FilterSpec R) (oi oi' : OiFits R) : Prop where
  vis : ∃ l l', Iterates visKind oi f l ∧ Iterates visKind oi' f' l' ∧
    (l.map (visContent oi)).Perm (l'.map (visContent oi'))
  vis2 : ∃ l l', Iterates vis2Kind oi f l ∧ Iterates vis2Kind oi' f' l' ∧
    (l.map (vis2Content oi)).Perm (l'.map (vis2Content oi'))
  t3 : ∃ l l', Iterates t3Kind oi f l ∧ Iterates t3Kind oi' f' l' ∧
    (l.map (t3Content oi)).Perm (l'.map (t3Content oi'))

/-- What the data refer to is there and can be told apart in a file: names of tables and targets are short enough for
a file, and the instrument of each table of data is there, once. -/
structure References (oi : OiFits R) : Prop where
  names : NamesHeld oi
  targets : ∀ t ∈ oi.targets.targ, ColText 32 t.target
  there : InstrumentsThere oi
  unique : (oi.wavelengthList.map OiWavelength.insname).Nodup

/-- What a string takes on a header card, where a quote takes two characters. -/
def onCard (s : CStr) : Nat := (s.map fun c => if c = '\'' then 2 else 1).sum

/-- Datasets which can be merged and saved keeping track of what belongs to what: names are short enough, with room for
an underscore and four digits which merging may append, none is used twice in a dataset, no name of an instrument looks like
one which merging makes, there are fewer than ten thousand tables of a kind, and instruments which merging takes for the
same have the same wavelengths. -/
structure Joinable (ins : List (OiFits R)) : Prop where
  unique : ∀ oi ∈ ins, UniqueNames oi
  held : ∀ oi ∈ ins, NamesHeld oi
  short : ∀ oi ∈ ins, (∀ t ∈ oi.arrayList, onCard t.arrname ≤ 63) ∧ (∀ t ∈ oi.wavelengthList, onCard t.insname ≤ 63) ∧
    ∀ t ∈ oi.corrList, onCard t.corrname ≤ 63
  few : (ins.flatMap OiFits.arrayList).length < 10000 ∧ (ins.flatMap OiFits.corrList).length < 10000
  plain : PlainNames ("ins" : CStr) (allNames OiFits.wavelengthList OiWavelength.insname ins)
  there : ∀ oi ∈ ins, InstrumentsThere oi
  exact : WavesExact ins
  targets : ∀ oi ∈ ins, ∀ t ∈ oi.targets.targ, ColText 32 t.target

/-- A program which iterates over `x` with filter `f` sees what it sees when it iterates over one dataset of the list
after the other. -/
structure DataOfAll (f : FilterSpec R) (ins : List (OiFits R)) (x : OiFits R) : Prop where
  vis : ∃ l, ∃ each : OiFits R → List (Datum (OiVis R) (OiVisRecord R)), Iterates visKind x f l ∧
    (∀ oi ∈ ins, Iterates visKind oi f (each oi)) ∧
    l.map (visContent x) = ins.flatMap fun oi => (each oi).map (visContent oi)
  vis2 : ∃ l, ∃ each : OiFits R → List (Datum (OiVis2 R) (OiVis2Record R)), Iterates vis2Kind x f l ∧
    (∀ oi ∈ ins, Iterates vis2Kind oi f (each oi)) ∧
    l.map (vis2Content x) = ins.flatMap fun oi => (each oi).map (vis2Content oi)
  t3 : ∃ l, ∃ each : OiFits R → List (Datum (OiT3 R) (OiT3Record R)), Iterates t3Kind x f l ∧
    (∀ oi ∈ ins, Iterates t3Kind oi f (each oi)) ∧
    l.map (t3Content x) = ins.flatMap fun oi => (each oi).map (t3Content oi)

/-- The filter looks at neither names nor targets. -/
structure Nameless (f : FilterSpec R) : Prop where
  names : ∀ n, Glob f.arrname n ∧ Glob f.insname n ∧ Glob f.corrname n
  target : f.target_id < 0

/-- Programs which iterate over the two datasets with filter `f` see the same in the same order, but perhaps for
amplitudes or phases of triple products which `f` does not accept. -/
structure SameAccepted (f : FilterSpec R) (oi oi' : OiFits R) : Prop where
  vis : ∃ l l', Iterates visKind oi f l ∧ Iterates visKind oi' f l' ∧ l.map (visDatum oi) = l'.map (visDatum oi')
  vis2 : ∃ l l', Iterates vis2Kind oi f l ∧ Iterates vis2Kind oi' f l' ∧ l.map (vis2Datum oi) = l'.map (vis2Datum oi')
  t3 : ∃ l l', Iterates t3Kind oi f l ∧ Iterates t3Kind oi' f l' ∧ l.map (t3Datum f oi) = l'.map (t3Datum f oi')

end Verif.Spec
