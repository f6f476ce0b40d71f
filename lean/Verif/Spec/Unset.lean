import Verif.Spec.Held
import Verif.Model.Cli

/-! What a file does not say. Some members of the structs a file is read into are not set
because the file has nothing for them: they keep what happened to be in memory. -/

namespace Verif
variable {R : FP}

/-- The table with a fixed value for the members which a file need not have: categories are
not set without the column CATEGORY. -/
def OiTarget.blank (t : OiTarget R) : OiTarget R :=
  { t with targ := t.targ.map fun x => { x with category := if t.usecategory then x.category else [] } }

/-- The same for OI_VIS: indices into a correlation matrix are not set if the table names
none, and the unit of complex visibilities is not if it has none. -/
def OiVis.blank (t : OiVis R) : OiVis R :=
  { t with
    complexunit := if t.usecomplex then t.complexunit else []
    record := t.record.map fun r =>
      { r with
        corrindx_visamp := if t.corrname = [] then 0 else r.corrindx_visamp
        corrindx_visphi := if t.corrname = [] then 0 else r.corrindx_visphi
        corrindx_rvis := if t.usecomplex ∧ t.corrname ≠ [] then r.corrindx_rvis else 0
        corrindx_ivis := if t.usecomplex ∧ t.corrname ≠ [] then r.corrindx_ivis else 0 } }

/-- The same for OI_VIS2. -/
def OiVis2.blank (t : OiVis2 R) : OiVis2 R :=
  { t with record := t.record.map fun r =>
      { r with corrindx_vis2data := if t.corrname = [] then 0 else r.corrindx_vis2data } }

/-- The same for OI_T3. -/
def OiT3.blank (t : OiT3 R) : OiT3 R :=
  { t with record := t.record.map fun r =>
      { r with
        corrindx_t3amp := if t.corrname = [] then 0 else r.corrindx_t3amp
        corrindx_t3phi := if t.corrname = [] then 0 else r.corrindx_t3phi } }

/-- The same for OI_FLUX. -/
def OiFlux.blank (t : OiFlux R) : OiFlux R :=
  { t with record := t.record.map fun r =>
      { r with corrindx_fluxdata := if t.corrname = [] then 0 else r.corrindx_fluxdata } }

/-- The same for a dataset. -/
def OiFits.blank (oi : OiFits R) : OiFits R :=
  { oi with
    targets := oi.targets.blank
    visList := oi.visList.map OiVis.blank
    vis2List := oi.vis2List.map OiVis2.blank
    t3List := oi.t3List.map OiT3.blank
    fluxList := oi.fluxList.map OiFlux.blank }

namespace Spec

/-- The file has what its tables need: no table is empty, and OI_VIS and OI_FLUX tables have the
mandatory columns and keywords whose absence is not noticed when they are read. -/
structure Filled (hdus : List (Hdu R)) : Prop where
  primary : hdus ≠ []
  names : ∀ h ∈ hdus, StringName h
  tables : NoEmptyTables hdus
  vis : VisIndexed hdus
  flux : FluxComplete hdus

/-- If there is a FITS file of this name, it has what its tables need. -/
def FilledAt (fs : Files R) (name : CStr) : Prop := ∀ hdus, fs name = some (.fits hdus) → Filled hdus

end Spec
end Verif
