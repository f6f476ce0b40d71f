import Verif.Spec.MergeIter

/-! Specification of filtering a merged dataset and of merging filtered ones. -/

namespace Verif.Spec
variable {R : FP}

/-- What a complex visibility datum says apart from its flag: the name of the target, when and where it
was observed, the wavelength, and the data. -/
def visDatum (oi : OiFits R) (d : Datum (OiVis R) (OiVisRecord R)) :=
  (targetName oi d.record.target_id, d.record.mjd, d.record.int_time, d.record.ucoord, d.record.vcoord,
    d.record.sta_index, effWave oi d.table.insname d.iwave,
    d.record.visamp[d.iwave]?, d.record.visamperr[d.iwave]?,
    d.record.visphi[d.iwave]?, d.record.visphierr[d.iwave]?)

/-- The same for a squared visibility. -/
def vis2Datum (oi : OiFits R) (d : Datum (OiVis2 R) (OiVis2Record R)) :=
  (targetName oi d.record.target_id, d.record.mjd, d.record.int_time, d.record.ucoord, d.record.vcoord,
    d.record.sta_index, effWave oi d.table.insname d.iwave,
    d.record.vis2data[d.iwave]?, d.record.vis2err[d.iwave]?)

/-- The same for a triple product; amplitude and phase if the filter accepts them. -/
def t3Datum (f : FilterSpec R) (oi : OiFits R) (d : Datum (OiT3 R) (OiT3Record R)) :=
  (targetName oi d.record.target_id, d.record.mjd, d.record.int_time, d.record.u1coord, d.record.v1coord,
    d.record.u2coord, d.record.v2coord, d.record.sta_index, effWave oi d.table.insname d.iwave,
    (if f.accept_t3amp then d.record.t3amp[d.iwave]? else none), d.record.t3amperr[d.iwave]?,
    (if f.accept_t3phi then d.record.t3phi[d.iwave]? else none), d.record.t3phierr[d.iwave]?)

/-- INSNAME of each table with data names an OI_WAVELENGTH table of the dataset. -/
structure AllInstruments (oi : OiFits R) : Prop where
  vis : ∀ t ∈ oi.visList, ∃ w ∈ oi.wavelengthList, w.insname = t.insname
  vis2 : ∀ t ∈ oi.vis2List, ∃ w ∈ oi.wavelengthList, w.insname = t.insname
  t3 : ∀ t ∈ oi.t3List, ∃ w ∈ oi.wavelengthList, w.insname = t.insname
  flux : ∀ t ∈ oi.fluxList, ∃ w ∈ oi.wavelengthList, w.insname = t.insname

/-- `x` is a wavelength of one of the datasets. -/
def IsWavelength (ins : List (OiFits R)) (x : R.Flt) : Prop :=
  ∃ oi ∈ ins, ∃ w ∈ oi.wavelengthList, x ∈ w.eff_wave

/-- Wavelengths which are the same within the tolerance of merging are the same. -/
def WavelengthsExact (ins : List (OiFits R)) : Prop :=
  ∀ x y, IsWavelength ins x → IsWavelength ins y → NearWave y x → y = x

/-- The filter looks at neither names nor targets, and does not accept flagged data. -/
structure PlainFilter (f : FilterSpec R) : Prop where
  names : ∀ n, Glob f.arrname n ∧ Glob f.insname n ∧ Glob f.corrname n
  target : f.target_id < 0
  unflagged : f.accept_flagged = false

/-- Datasets which can be filtered with `f` and merged, keeping track of what belongs to what. -/
structure Together (f : FilterSpec R) (ins : List (OiFits R)) : Prop where
  filterable : ∀ oi ∈ ins, Filterable f oi
  unique : ∀ oi ∈ ins, UniqueNames oi
  fit : ∀ oi ∈ ins, NamesFit oi
  plain : PlainNames ("ins" : CStr) (allNames OiFits.wavelengthList OiWavelength.insname ins)
  instruments : ∀ oi ∈ ins, AllInstruments oi
  exact : WavelengthsExact ins

end Verif.Spec
