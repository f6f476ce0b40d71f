import Verif.Props.Date
import Verif.Props.File
import Verif.Props.Check
import Verif.Props.Iter
import Verif.Props.Filter
import Verif.Props.FilterUnknown
import Verif.Props.Merge
import Verif.Props.RoundTrip
import Verif.Props.WriteFile
import Verif.Props.ReadFile
import Verif.Props.Again
import Verif.Props.Cli
import Verif.Props.EndToEnd
import Verif.Props.Conform
import Verif.Props.ConformKept
import Verif.Props.ConformMerge
import Verif.Props.ConformUpgrade
import Verif.Props.Cut
import Verif.Props.Held
import Verif.Props.Memory
import Verif.Props.DemoMemory
import Verif.Props.FilterTwo
import Verif.Props.FilterInspol
import Verif.Props.Demo
import Verif.Props.Order
import Verif.Props.Calls
import Verif.Props.Python
import Verif.Props.PyTuple
import Verif.Props.Results
import Verif.Props.DemoText
import Verif.Props.DemoMain
import Verif.Props.MergeSteps
import Verif.Props.MergeFile
import Verif.Props.MergeIter
import Verif.Props.MergeOrder
import Verif.Props.Narrower
import Verif.Props.FilterMerge
import Verif.Props.FilterFile
import Verif.Props.Unset
import Verif.Spec.FilterAll
import Verif.Proof.FilterAll
import Verif.Props.FilterAll
import Verif.Spec.SavedIter
import Verif.Proof.SavedIter
import Verif.Props.SavedIter
import Verif.Proof.DemoFail
import Verif.Proof.SavedFilter
import Verif.Model.PyScript
import Verif.Spec.PyScript
import Verif.Proof.PyScript
import Verif.Props.PyScript
import Verif.Proof.PyState
import Verif.Props.PyState
import Verif.Spec.FilterMergeFile
import Verif.Proof.FilterMergeFile
import Verif.Props.FilterMergeFile
import Verif.Model.Fault
import Verif.Spec.Fault
import Verif.Proof.Fault
import Verif.Props.Fault
import Verif.Model.Machine
import Verif.Spec.Machine
import Verif.Proof.Machine
import Verif.Props.Machine
import Verif.Model.ReadFault
import Verif.Spec.ReadFault
import Verif.Proof.ReadFault
import Verif.Props.ReadFault
import Verif.Model.CliReadFault
import Verif.Spec.CliReadFault
import Verif.Proof.CliReadFault
import Verif.Props.CliReadFault
import Verif.Model.CliFaults
import Verif.Proof.CliFaults
import Verif.Props.CliFaults
import Verif.Model.Sizes
import Verif.Spec.Sizes
import Verif.Proof.Sizes
import Verif.Proof.SizesFilter
import Verif.Props.Sizes
