import Verif.Spec.RoundTrip

/-! Tables which a file holds without any loss: their strings have no trailing blanks
and fit, their numbers survive being written to a keyword, and what the file has no place
for has the value it is given on reading. Such tables come back unchanged. -/

namespace Verif
variable {R : FP}

namespace Spec

/-- The string fits on a header card, where a quote takes two characters, and does not
end with a blank. -/
structure CardText (s : CStr) : Prop where
  fits : (s.map fun c => if c = '\'' then 2 else 1).sum ≤ 68
  last : s.getLast? ≠ some ' '

/-- The string fits in a column of `w` characters, and does not end with a blank. -/
structure ColText (w : Nat) (s : CStr) : Prop where
  fits : s.length ≤ w
  last : s.getLast? ≠ some ' '

/-- The number has no more digits than are written to a keyword. -/
def CardNum (x : R.Dbl) : Prop := R.keyD x = some x

instance (s : CStr) : Decidable (CardText s) :=
  decidable_of_iff (_ ∧ _) ⟨fun h => ⟨h.1, h.2⟩, fun h => ⟨h.1, h.2⟩⟩
instance (w : Nat) (s : CStr) : Decidable (ColText w s) :=
  decidable_of_iff (_ ∧ _) ⟨fun h => ⟨h.1, h.2⟩, fun h => ⟨h.1, h.2⟩⟩

end Spec
open Spec

/-- Nothing is lost when the table is stored. -/
structure OiArray.Exact (t : OiArray R) : Prop where
  revision : t.revision = 2
  arrname : CardText t.arrname
  frame : CardText t.frame
  arrayx : CardNum t.arrayx
  arrayy : CardNum t.arrayy
  arrayz : CardNum t.arrayz
  elem : ∀ e ∈ t.elem, ColText 16 e.tel_name ∧ ColText 16 e.sta_name ∧ ColText 6 e.fovtype

@[inherit_doc OiArray.Exact]
structure OiTarget.Exact (junk : CStr) (t : OiTarget R) : Prop where
  revision : t.revision = 2
  targ : ∀ x ∈ t.targ, ColText 32 x.target ∧ ColText 8 x.veltyp ∧ ColText 8 x.veldef ∧ ColText 32 x.spectyp
  category : ∀ x ∈ t.targ, if t.usecategory then ColText 3 x.category else x.category = junk

@[inherit_doc OiArray.Exact]
structure OiWavelength.Exact (t : OiWavelength R) : Prop where
  revision : t.revision = 2
  insname : CardText t.insname

@[inherit_doc OiArray.Exact]
structure OiCorr.Exact (t : OiCorr R) : Prop where
  revision : t.revision = 1
  corrname : CardText t.corrname

@[inherit_doc OiArray.Exact]
structure OiVis.Exact (junk : Int) (t : OiVis R) : Prop where
  revision : t.revision = 2
  date_obs : CardText t.date_obs
  arrname : CardText t.arrname
  insname : CardText t.insname
  corrname : CardText t.corrname
  amptyp : CardText t.amptyp
  phityp : CardText t.phityp
  amporder : -1 ≤ t.amporder
  phiorder : -1 ≤ t.phiorder
  ampunit : if t.amptyp = ("correlated flux" : CStr) then CardText t.ampunit else t.ampunit = []
  complexunit : if t.usecomplex then CardText t.complexunit else t.complexunit = []
  time : ∀ r ∈ t.record, r.time = R.lit 0.0
  corrindx : t.corrname = [] → ∀ r ∈ t.record, r.corrindx_visamp = junk ∧ r.corrindx_visphi = junk
  corrindx' : ¬(t.usecomplex ∧ t.corrname ≠ []) → ∀ r ∈ t.record, r.corrindx_rvis = junk ∧ r.corrindx_ivis = junk

@[inherit_doc OiArray.Exact]
structure OiVis2.Exact (junk : Int) (t : OiVis2 R) : Prop where
  revision : t.revision = 2
  date_obs : CardText t.date_obs
  arrname : CardText t.arrname
  insname : CardText t.insname
  corrname : CardText t.corrname
  time : ∀ r ∈ t.record, r.time = R.lit 0.0
  corrindx : t.corrname = [] → ∀ r ∈ t.record, r.corrindx_vis2data = junk

@[inherit_doc OiArray.Exact]
structure OiT3.Exact (junk : Int) (t : OiT3 R) : Prop where
  revision : t.revision = 2
  date_obs : CardText t.date_obs
  arrname : CardText t.arrname
  insname : CardText t.insname
  corrname : CardText t.corrname
  time : ∀ r ∈ t.record, r.time = R.lit 0.0
  corrindx : t.corrname = [] → ∀ r ∈ t.record, r.corrindx_t3amp = junk ∧ r.corrindx_t3phi = junk

@[inherit_doc OiArray.Exact]
structure OiFlux.Exact (junk : Int) (t : OiFlux R) : Prop where
  revision : t.revision = 1
  date_obs : CardText t.date_obs
  arrname : CardText t.arrname
  insname : CardText t.insname
  corrname : CardText t.corrname
  fov : if t.fovtype = [] then t.fov = R.nan else CardNum t.fov
  fovtype : CardText t.fovtype
  calstat : t.calstat ≠ ' '
  fluxunit : CardText t.fluxunit
  corrindx : t.corrname = [] → ∀ r ∈ t.record, r.corrindx_fluxdata = junk
  sta_index : t.arrname = [] → ∀ r ∈ t.record, r.sta_index = -1

@[inherit_doc OiArray.Exact]
structure OiHeader.Exact (today : CStr) (t : OiHeader) : Prop where
  date : t.date = today
  content : t.content = ("OIFITS2" : CStr)
  card : ∀ s ∈ [t.origin, t.date, t.date_obs, t.telescop, t.instrume, t.observer, t.insmode, t.object,
    t.referenc, t.author, t.prog_id, t.procsoft, t.obstech], CardText s

/-- All tables are `Exact`. There is no such OI_INSPOL table. `today` is the date of
writing; `int` and `str` are what is found in memory which is not initialised. -/
structure OiFits.Exact (today : CStr) (int : Int) (str : CStr) (oi : OiFits R) : Prop where
  header : oi.header.Exact today
  targets : oi.targets.Exact str
  array : ∀ t ∈ oi.arrayList, t.Exact
  wavelength : ∀ t ∈ oi.wavelengthList, t.Exact
  corr : ∀ t ∈ oi.corrList, t.Exact
  inspol : oi.inspolList = []
  vis : ∀ t ∈ oi.visList, t.Exact int
  vis2 : ∀ t ∈ oi.vis2List, t.Exact int
  t3 : ∀ t ∈ oi.t3List, t.Exact int
  flux : ∀ t ∈ oi.fluxList, t.Exact int

end Verif
