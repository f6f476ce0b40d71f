import Verif.Spec.Held
import Verif.Model.Demo

/-! What `demo_read` of oitable-demo.c is expected to do. -/

namespace Verif.Spec

variable {R : FP} {α τ : Type}

/-- The first table of this type and name is in the file and can be read. -/
def Resolves (name keyword value : CStr) (read : FitsM R α) (hdus : List (Hdu R)) : Prop :=
  ∃ i, FirstAt (isTableOf name keyword value) hdus i ∧ (readable read hdus i).isSome = true

/-- The tables to which a table of data refers can be read. -/
structure RefsRead (u : Undef R) (hdus : List (Hdu R)) (arrname insname corrname : CStr) : Prop where
  array : arrname ≠ [] → Resolves "OI_ARRAY" "ARRNAME" arrname (read_next_oi_array u u.array) hdus
  corr : corrname ≠ [] → Resolves "OI_CORR" "CORRNAME" corrname (read_next_oi_corr u u.corr) hdus
  wave : Resolves "OI_WAVELENGTH" "INSNAME" insname (read_next_oi_wavelength u u.wave) hdus

/-- All tables at the given positions can be read, and those to which they refer too. -/
def AllRead (read : FitsM R τ) (refs : τ → Prop) (hdus : List (Hdu R)) (ps : List Nat) (l : List τ) : Prop :=
  ps.map (readable read hdus) = l.map some ∧ ∀ t ∈ l, refs t

/-- The header and the target table can be read; the target table is at position `p`. -/
def HeadRead (hdus : List (Hdu R)) (p : Nat) : Prop :=
  (∃ h hd, hdus[0]? = some h ∧ HeaderIn h hd) ∧ hdus.findIdx? (isTable "OI_TARGET") = some p ∧
    ∃ h tg, hdus[p]? = some h ∧ TargetsIn h tg

/-- A file as the program expects it: extensions are binary tables, and names are strings. -/
structure PlainFile (hdus : List (Hdu R)) : Prop where
  primary : hdus ≠ []
  tables : ∀ h ∈ hdus.drop 1, h.type = .binary
  names : ∀ h ∈ hdus, StringName h
  arrnames : ∀ h ∈ hdus, StringKey "ARRNAME" h
  insnames : ∀ h ∈ hdus, StringKey "INSNAME" h
  corrnames : ∀ h ∈ hdus, StringKey "CORRNAME" h

/-- The lines which list tables of data under their own names. -/
def visLine (t : OiVis R) : DemoLine := ⟨"OI_VIS", t.arrname, t.insname, t.corrname⟩
def vis2Line (t : OiVis2 R) : DemoLine := ⟨"OI_VIS2", t.arrname, t.insname, t.corrname⟩
def t3Line (t : OiT3 R) : DemoLine := ⟨"OI_T3", t.arrname, t.insname, t.corrname⟩
def fluxLine (t : OiFlux R) : DemoLine := ⟨"OI_FLUX", t.arrname, t.insname, t.corrname⟩
def inspolLine (t : OiInspol R) : DemoLine := ⟨"OI_INSPOL", t.arrname, [], []⟩

/-- The tables of data which the program lists. -/
structure DemoTables (R : FP) where
  vis : List (OiVis R)
  vis2 : List (OiVis2 R)
  t3 : List (OiT3 R)
  flux : List (OiFlux R)
  inspol : List (OiInspol R)

/-- Tables of data at the given positions of the file can be read, with all tables to which they refer. `vis` is the
list of positions of OI_VIS tables. -/
structure DemoReads (u : Undef R) (hdus : List (Hdu R)) (vis : List Nat) (d : DemoTables R) : Prop where
  vis : AllRead (read_next_oi_vis u u.vis) (fun t => RefsRead u hdus t.arrname t.insname t.corrname) hdus vis d.vis
  vis2 : AllRead (read_next_oi_vis2 u u.vis2) (fun t => RefsRead u hdus t.arrname t.insname t.corrname) hdus
    (positions "OI_VIS2" hdus) d.vis2
  t3 : AllRead (read_next_oi_t3 u u.t3) (fun t => RefsRead u hdus t.arrname t.insname t.corrname) hdus
    (positions "OI_T3" hdus) d.t3
  flux : AllRead (read_next_oi_flux u u.flux) (fun t => RefsRead u hdus t.arrname t.insname t.corrname) hdus
    (positions "OI_FLUX" hdus) d.flux
  inspol : AllRead (read_next_oi_inspol u u.inspol)
    (fun t => Resolves "OI_ARRAY" "ARRNAME" t.arrname (read_next_oi_array u u.array) hdus) hdus
    (positions "OI_INSPOL" hdus) d.inspol

/-- What the program should print. -/
def DemoTables.lines (d : DemoTables R) : List DemoLine :=
  d.vis.map visLine ++ d.vis2.map vis2Line ++ d.t3.map t3Line ++ d.flux.map fluxLine ++ d.inspol.map inspolLine

/-- What it does print: OI_VIS2 tables with the CORRNAME of the last OI_VIS table. -/
def DemoTables.printed (d : DemoTables R) : List DemoLine :=
  d.vis.map visLine ++
    d.vis2.map (fun t => { vis2Line t with corrname := (d.vis.getLast?.map (·.corrname)).getD [] }) ++
    d.t3.map t3Line ++ d.flux.map fluxLine ++ d.inspol.map inspolLine

/-- What a user expects: all tables of data in the file are listed under their own names, with success if and only if
all of them, and all tables to which they refer, can be read. -/
def DemoListsAll (u : Undef R) (hdus : List (Hdu R)) (lines : List DemoLine) : Prop :=
  ∃ p d, HeadRead hdus p ∧ DemoReads u hdus (positions "OI_VIS" hdus) d ∧ lines = d.lines

/-- The tables of data of a dataset. -/
def DemoTables.of (oi : OiFits R) : DemoTables R :=
  ⟨oi.visList, oi.vis2List, oi.t3List, oi.fluxList, oi.inspolList⟩

end Verif.Spec
