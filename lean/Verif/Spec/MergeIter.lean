import Verif.Spec.Merge
import Verif.Spec.Filter

/-! Specification of iterating over a merged dataset. -/

namespace Verif.Spec
variable {R : FP} {τ ρ : Type}

/-- The data which an iterator over `oi` with filter `f` gives, one by one, are those of `l`;
then it says that there are no more. -/
def Iterates (K : IterKind R τ ρ) (oi : OiFits R) (f : FilterSpec R) (l : List (Datum τ ρ)) : Prop :=
  ∀ n, ∃ it, calls K n (iter_init K oi (some f)) = .ok (it, yields l n)

/-- The name of the target with TARGET_ID `id`. -/
def targetName (oi : OiFits R) (id : Int) : Option CStr :=
  (oi.targets.targ.find? fun t => t.target_id == id).map Target.target

/-- What a complex visibility datum says: the name of the target, when and where it was observed,
the wavelength, and the data. -/
def visContent (oi : OiFits R) (d : Datum (OiVis R) (OiVisRecord R)) :=
  (targetName oi d.record.target_id, d.record.mjd, d.record.int_time, d.record.ucoord, d.record.vcoord,
    d.record.sta_index, effWave oi d.table.insname d.iwave,
    d.record.visamp[d.iwave]?, d.record.visamperr[d.iwave]?,
    d.record.visphi[d.iwave]?, d.record.visphierr[d.iwave]?, d.record.flag[d.iwave]?)

/-- The same for a squared visibility. -/
def vis2Content (oi : OiFits R) (d : Datum (OiVis2 R) (OiVis2Record R)) :=
  (targetName oi d.record.target_id, d.record.mjd, d.record.int_time, d.record.ucoord, d.record.vcoord,
    d.record.sta_index, effWave oi d.table.insname d.iwave,
    d.record.vis2data[d.iwave]?, d.record.vis2err[d.iwave]?, d.record.flag[d.iwave]?)

/-- The same for a triple product. -/
def t3Content (oi : OiFits R) (d : Datum (OiT3 R) (OiT3Record R)) :=
  (targetName oi d.record.target_id, d.record.mjd, d.record.int_time, d.record.u1coord, d.record.v1coord,
    d.record.u2coord, d.record.v2coord, d.record.sta_index, effWave oi d.table.insname d.iwave,
    d.record.t3amp[d.iwave]?, d.record.t3amperr[d.iwave]?,
    d.record.t3phi[d.iwave]?, d.record.t3phierr[d.iwave]?, d.record.flag[d.iwave]?)

/-- Filter `f` for the merged dataset and the filters `g` for its inputs ask for the same: names are
not looked at, and either targets are not looked at or a target of the same name is asked for. -/
structure SameCriteria (ins : List (OiFits R)) (out : OiFits R) (f : FilterSpec R) (g : OiFits R → FilterSpec R) :
    Prop where
  names : ∀ n, Glob f.arrname n ∧ Glob f.insname n ∧ Glob f.corrname n
  same : ∀ oi ∈ ins, g oi = { f with target_id := (g oi).target_id }
  target : (f.target_id < 0 ∧ ∀ oi ∈ ins, (g oi).target_id < 0) ∨
    (0 ≤ f.target_id ∧ (∀ oi ∈ ins, 0 ≤ (g oi).target_id) ∧ ∃ n, DenotesTarget out f.target_id n ∧
      ∀ oi ∈ ins, ∀ id m, DenotesTarget oi id m → (id = (g oi).target_id ↔ m = n))

/-- OI_WAVELENGTH tables of the inputs which have the same channels within the tolerance of merging
have exactly the same wavelengths. -/
def WavesExact (ins : List (OiFits R)) : Prop :=
  ∀ oi ∈ ins, ∀ w ∈ oi.wavelengthList, ∀ oi' ∈ ins, ∀ w' ∈ oi'.wavelengthList,
    SameWaves w w' → w'.eff_wave = w.eff_wave

/-- INSNAME `n` names an OI_WAVELENGTH table of the dataset with at least `nwave` channels, and lookups
give that table. -/
def InstrumentThere (oi : OiFits R) (n : CStr) (nwave : Nat) : Prop :=
  ∃ w ∈ oi.wavelengthList, w.insname = n ∧ nwave ≤ w.eff_wave.length ∧ oi_fits_lookup_wavelength oi n = some w

/-- The instruments of all data are there. -/
structure InstrumentsThere (oi : OiFits R) : Prop where
  vis : ∀ t ∈ oi.visList, InstrumentThere oi t.insname t.nwave
  vis2 : ∀ t ∈ oi.vis2List, InstrumentThere oi t.insname t.nwave
  t3 : ∀ t ∈ oi.t3List, InstrumentThere oi t.insname t.nwave

end Verif.Spec
