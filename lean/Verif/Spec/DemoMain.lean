import Verif.Model.DemoMain
import Verif.Spec.Demo
import Verif.Spec.DemoText
import Verif.Spec.RoundTrip

/-! What a user expects of `oitable-demo`. -/

namespace Verif.Spec
open Verif

variable {R : FP}

/-- The name is entered on a line of its own. -/
def entered (name : CStr) : CStr := name ++ ['\n']

/-- A name which can be entered: at most 1023 characters, on one line. -/
structure Enterable (name : CStr) : Prop where
  short : name.length ≤ 1023
  one : '\n' ∉ name

/-- The names in the text by which tables refer to others are the names of tables in the text. They are compared as
they are kept in FITS keywords (the first 68 characters). -/
structure DemoDoc.NamesMatch (d : DemoDoc) : Prop where
  array : ∀ w ∈ [d.vis.arrname, d.vis2.arrname, d.t3.arrname, d.inspol.arrname] ++ d.flux.arrname.toList,
    keyStr w = keyStr d.array.arrname
  wave : ∀ w ∈ [d.vis.insname, d.vis2.insname, d.t3.insname, d.flux.insname], keyStr w = keyStr d.wave.insname
  corr : ∀ w ∈ [d.vis.corrname, d.vis2.corrname, d.t3.corrname, d.flux.corrname], keyStr w = keyStr d.corr.corrname

/-- The tables of data of the text, with the names in the text. -/
def DemoDoc.listing (d : DemoDoc) : List DemoLine :=
  [⟨"OI_VIS", keyStr d.vis.arrname, keyStr d.vis.insname, keyStr d.vis.corrname⟩,
   ⟨"OI_VIS2", keyStr d.vis2.arrname, keyStr d.vis2.insname, keyStr d.vis2.corrname⟩,
   ⟨"OI_T3", keyStr d.t3.arrname, keyStr d.t3.insname, keyStr d.t3.corrname⟩,
   ⟨"OI_FLUX", keyStr (d.flux.arrname.getD []), keyStr d.flux.insname, keyStr d.flux.corrname⟩,
   ⟨"OI_INSPOL", keyStr d.inspol.arrname, [], []⟩]

/-- What is printed instead: the CORRNAME of the OI_VIS table is also shown for the OI_VIS2 table (see C84). -/
def DemoDoc.printed (d : DemoDoc) : List DemoLine :=
  d.listing.modify 1 fun l => { l with corrname := keyStr d.vis.corrname }

/-- The names by which one table refers to others: ARRNAME, INSNAME and CORRNAME. -/
structure DocRefs where
  array : List CStr
  wave : List CStr
  corr : List CStr

/-- The names by which the tables of data in the text refer to others, in the order in which the tables are listed. -/
def DemoDoc.refs (d : DemoDoc) : List DocRefs :=
  [⟨[d.vis.arrname], [d.vis.insname], [d.vis.corrname]⟩, ⟨[d.vis2.arrname], [d.vis2.insname], [d.vis2.corrname]⟩,
   ⟨[d.t3.arrname], [d.t3.insname], [d.t3.corrname]⟩, ⟨d.flux.arrname.toList, [d.flux.insname], [d.flux.corrname]⟩,
   ⟨[d.inspol.arrname], [], []⟩]

/-- The names by which a table refers to others match. -/
def DemoDoc.RefsMatch (d : DemoDoc) (r : DocRefs) : Prop :=
  (∀ w ∈ r.array, keyStr w = keyStr d.array.arrname) ∧ (∀ w ∈ r.wave, keyStr w = keyStr d.wave.insname) ∧
    ∀ w ∈ r.corr, keyStr w = keyStr d.corr.corrname

/-- The file, read by any program which uses the library, holds what the text describes, one table of each type. -/
def DemoDoc.Holds (N : Numerals R) (any : Int) (d : DemoDoc) (hdus : List (Hdu R)) : Prop :=
  ∀ u, ∃ oi, read_oi_fits u (some hdus) .ok = .ok (some oi, .ok) ∧
    oi.targets = (d.targets.table N).asRead u.str ∧ oi.arrayList = [(d.array.table N).asRead] ∧
    oi.wavelengthList = [(d.wave.table N).asRead] ∧ oi.corrList = [(d.corr.table N).asRead] ∧
    oi.inspolList = [(d.inspol.table N d.wave.eff_wave.length).asRead] ∧
    oi.visList = [(d.vis.table N any d.wave.eff_wave.length).asRead u.int] ∧
    oi.vis2List = [(d.vis2.table N d.wave.eff_wave.length).asRead u.int] ∧
    oi.t3List = [(d.t3.table N d.wave.eff_wave.length).asRead u.int] ∧
    oi.fluxList = [(d.flux.table N d.wave.eff_wave.length).asRead u.int] ∧
    oi.header.date_obs = keyStr d.vis.date_obs

end Verif.Spec
