import Verif.Model.Iter
import Verif.Spec.FilterSpec

/-! Specification of iteration over data: which data satisfy a filter, and in
which order they come. -/

namespace Verif.Spec
open Outcome
variable {R : FP} {τ ρ : Type}

/-- All data of a list of tables, in the order of tables, records and channels.
EXTVER counts tables from 1, records and channels are counted from 0. -/
def dataOf (record : τ → List ρ) (nwave : τ → Nat) (tables : List τ) : List (Datum τ ρ) :=
  (tables.zipIdx 1).flatMap fun (t, e) =>
    (record t).zipIdx.flatMap fun (r, i) =>
      (List.range (nwave t)).map fun j => ⟨e, t, i, r, j⟩

/-- All complex visibility data of the dataset. -/
def visData (oi : OiFits R) := dataOf OiVis.record OiVis.nwave oi.visList
/-- All squared visibility data of the dataset. -/
def vis2Data (oi : OiFits R) := dataOf OiVis2.record OiVis2.nwave oi.vis2List
/-- All triple product data of the dataset. -/
def t3Data (oi : OiFits R) := dataOf OiT3.record OiT3.nwave oi.t3List

/-- Effective wavelength of channel `j` of the instrument `insname`. -/
def effWave (oi : OiFits R) (insname : CStr) (j : Nat) : Option R.Flt :=
  match oi_fits_lookup_wavelength oi insname with
  | some w => w.eff_wave[j]?
  | none => none

/-- The table passes the three name patterns. -/
def NamesOk (f : FilterSpec R) (arrname insname corrname : CStr) : Prop :=
  Glob f.arrname arrname ∧ Glob f.insname insname ∧ Glob f.corrname corrname

/-- The record is of the target asked for, if any. -/
def TargetOk (f : FilterSpec R) (id : Int) : Prop := f.target_id < 0 ∨ id = f.target_id

/-- Entry `j` of the flags is not set, or flagged data are accepted. -/
def FlagOk (f : FilterSpec R) (flag : List Bool) (j : Nat) : Prop :=
  f.accept_flagged = true ∨ flag[j]? = some false

/-- Entry `j` of the data has a signal-to-noise ratio in range. -/
def SnrAmpOk (f : FilterSpec R) (x err : List R.Dbl) (j : Nat) : Prop :=
  ∃ a e, x[j]? = some a ∧ err[j]? = some e ∧ InF f.snr_range (snrAmp a e)

/-- Entry `j` of the phases has a signal-to-noise ratio in range. -/
def SnrPhiOk (f : FilterSpec R) (err : List R.Dbl) (j : Nat) : Prop :=
  ∃ e, err[j]? = some e ∧ InF f.snr_range (snrPhi e)

/-- A complex visibility datum satisfies the filter. -/
structure VisSelected (f : FilterSpec R) (oi : OiFits R) (d : Datum (OiVis R) (OiVisRecord R)) :
    Prop where
  enabled : f.accept_vis = true
  names : NamesOk f d.table.arrname d.table.insname d.table.corrname
  target : TargetOk f d.record.target_id
  mjd : InD f.mjd_range d.record.mjd
  bas : InD f.bas_range (baseline d.record.ucoord d.record.vcoord)
  wave : ∃ w, effWave oi d.table.insname d.iwave = some w ∧ InF f.wave_range w ∧
    InD f.uvrad_range (R.div (baseline d.record.ucoord d.record.vcoord) (R.toD w))
  snrAmp : SnrAmpOk f d.record.visamp d.record.visamperr d.iwave
  snrPhi : SnrPhiOk f d.record.visphierr d.iwave
  flag : FlagOk f d.record.flag d.iwave

/-- A squared visibility datum satisfies the filter. -/
structure Vis2Selected (f : FilterSpec R) (oi : OiFits R)
    (d : Datum (OiVis2 R) (OiVis2Record R)) : Prop where
  enabled : f.accept_vis2 = true
  names : NamesOk f d.table.arrname d.table.insname d.table.corrname
  target : TargetOk f d.record.target_id
  mjd : InD f.mjd_range d.record.mjd
  bas : InD f.bas_range (baseline d.record.ucoord d.record.vcoord)
  wave : ∃ w, effWave oi d.table.insname d.iwave = some w ∧ InF f.wave_range w ∧
    InD f.uvrad_range (R.div (baseline d.record.ucoord d.record.vcoord) (R.toD w))
  snr : SnrAmpOk f d.record.vis2data d.record.vis2err d.iwave
  flag : FlagOk f d.record.flag d.iwave

/-- A triple product datum satisfies the filter. The signal-to-noise ratio matters
only for those of amplitude and phase that are accepted. -/
structure T3Selected (f : FilterSpec R) (oi : OiFits R) (d : Datum (OiT3 R) (OiT3Record R)) :
    Prop where
  enabled : f.accept_t3amp = true ∨ f.accept_t3phi = true
  names : NamesOk f d.table.arrname d.table.insname d.table.corrname
  target : TargetOk f d.record.target_id
  mjd : InD f.mjd_range d.record.mjd
  basAB : InD f.bas_range (baseline d.record.u1coord d.record.v1coord)
  basBC : InD f.bas_range (baseline d.record.u2coord d.record.v2coord)
  basAC : InD f.bas_range (baseline (R.add d.record.u1coord d.record.u2coord)
    (R.add d.record.v1coord d.record.v2coord))
  wave : ∃ w, effWave oi d.table.insname d.iwave = some w ∧ InF f.wave_range w ∧
    InD f.uvrad_range (R.div (baseline d.record.u1coord d.record.v1coord) (R.toD w)) ∧
    InD f.uvrad_range (R.div (baseline d.record.u2coord d.record.v2coord) (R.toD w)) ∧
    InD f.uvrad_range (R.div (baseline (R.add d.record.u1coord d.record.u2coord)
      (R.add d.record.v1coord d.record.v2coord)) (R.toD w))
  snrAmp : f.accept_t3amp = true → SnrAmpOk f d.record.t3amp d.record.t3amperr d.iwave
  snrPhi : f.accept_t3phi = true → SnrPhiOk f d.record.t3phierr d.iwave
  flag : FlagOk f d.record.flag d.iwave

open Classical in
/-- The sublist of the data with a property. -/
noncomputable def select (P : Datum τ ρ → Prop) (l : List (Datum τ ρ)) : List (Datum τ ρ) :=
  l.filter fun d => decide (P d)

/-- The name of the instrument of each table the patterns accept denotes a
wavelength table with at least as many channels as the table. -/
def WavesFound (oi : OiFits R) (f : FilterSpec R) (nwave : τ → Nat)
    (arrname insname corrname : τ → CStr) (tables : List τ) : Prop :=
  ∀ t ∈ tables, NamesOk f (arrname t) (insname t) (corrname t) →
    ∃ w, oi_fits_lookup_wavelength oi (insname t) = some w ∧ nwave t ≤ w.eff_wave.length

/-- The results of the first `n` calls of `oi_..._iter_next`, and the iterator
afterwards. -/
def calls (K : IterKind R τ ρ) : Nat → Iter R τ → Outcome (Iter R τ × List (Option (Datum τ ρ)))
  | 0, it => .ok (it, [])
  | n + 1, it => do
    let (it', d) ← iter_next K it
    let (it'', ds) ← calls K n it'
    return (it'', d :: ds)

/-- The first `n` results of a source that yields the elements of `l` and then
nothing any more. -/
def yields {α : Type} (l : List α) (n : Nat) : List (Option α) :=
  (List.range n).map fun i => l[i]?

/-- The filter an iterator uses if it is given none. -/
def filterOr (f : Option (FilterSpec R)) : FilterSpec R :=
  match f with
  | some f => f
  | none => init_oi_filter R

/-- The filter with the same criteria that rejects flagged data. -/
def noFlagged (f : FilterSpec R) : FilterSpec R := { f with accept_flagged := false }

end Verif.Spec
