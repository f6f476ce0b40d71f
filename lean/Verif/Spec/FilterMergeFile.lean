import Verif.Spec.SavedIter
import Verif.Spec.Again
import Verif.Spec.EndToEnd
import Verif.Spec.FilterMerge

/-! What C109 speaks of: programs run one after the other, files which can be filtered and merged in either order, and what
programs which iterate see. -/

namespace Verif.Spec
variable {R : FP}

/-- Programs run one after the other: how each ends, and the files which are then there. -/
def runAll : List (Prog R Unit) → Files R → List Exit × Files R
  | [], fs => ([], fs)
  | p :: ps, fs => ((p.run fs).exit :: (runAll ps (p.run fs).files).1, (runAll ps (p.run fs).files).2)

/-- oifits-filter with the same options for each pair of names of an input and an output file. -/
def filterRuns (u : Undef R) (today prog : CStr) (removable : CStr → Bool) (opts : List (FilterOpt R))
    (jobs : List (CStr × CStr)) : List (Prog R Unit) :=
  jobs.map fun j => oifits_filter u today removable (.args opts false [prog, j.1, j.2])

/-- Datasets which files hold and which can be filtered and merged, keeping track of what belongs to what: each can be
stored again, the records name targets and instruments which are there, names can be told apart after merging, and there
are no OI_INSPOL tables. Wavelengths which merging takes for the same are the same. -/
structure Usable (ois : List (OiFits R)) : Prop where
  storable : ∀ oi ∈ ois, oi.Storable
  settled : ∀ oi ∈ ois, oi.Settled
  channels : ∀ oi ∈ ois, ChannelsAgree oi
  instruments : ∀ oi ∈ ois, AllInstruments oi
  resolve : ∀ oi ∈ ois, TargetsResolve oi
  inspol : ∀ oi ∈ ois, oi.inspolList = []
  dates : GoodDates ois
  date : ∀ oi ∈ ois, CardText oi.header.date_obs
  few : (distinct ((allTargets ois).map (·.target))).length < 100
  joinable : Joinable ois
  exact : WavelengthsExact ois

/-- A program which iterates over `x` with filter `f` sees what it sees when it iterates over one dataset of the list
after the other, but perhaps for amplitudes or phases of triple products which `f` does not accept. -/
structure AcceptedOfAll (f : FilterSpec R) (ins : List (OiFits R)) (x : OiFits R) : Prop where
  vis : ∃ l, ∃ each : OiFits R → List (Datum (OiVis R) (OiVisRecord R)), Iterates visKind x f l ∧
    (∀ oi ∈ ins, Iterates visKind oi f (each oi)) ∧
    l.map (visDatum x) = ins.flatMap fun oi => (each oi).map (visDatum oi)
  vis2 : ∃ l, ∃ each : OiFits R → List (Datum (OiVis2 R) (OiVis2Record R)), Iterates vis2Kind x f l ∧
    (∀ oi ∈ ins, Iterates vis2Kind oi f (each oi)) ∧
    l.map (vis2Datum x) = ins.flatMap fun oi => (each oi).map (vis2Datum oi)
  t3 : ∃ l, ∃ each : OiFits R → List (Datum (OiT3 R) (OiT3Record R)), Iterates t3Kind x f l ∧
    (∀ oi ∈ ins, Iterates t3Kind oi f (each oi)) ∧
    l.map (t3Datum f x) = ins.flatMap fun oi => (each oi).map (t3Datum f oi)

end Verif.Spec
