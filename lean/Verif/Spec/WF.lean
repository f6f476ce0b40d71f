import Verif.Model.Types

/-! Well-formed tables: what the allocation functions (alloc_fits.c) and the
reading functions establish. Independent of the modelled functions. -/

namespace Verif
variable {R : FP}

/-- All channel arrays of the record have `n` entries. -/
structure OiVis2Record.WF (n : Nat) (r : OiVis2Record R) : Prop where
  vis2data : r.vis2data.length = n
  vis2err : r.vis2err.length = n
  flag : r.flag.length = n

/-- All channel arrays of the record have `n` entries. -/
structure OiT3Record.WF (n : Nat) (r : OiT3Record R) : Prop where
  t3amp : r.t3amp.length = n
  t3amperr : r.t3amperr.length = n
  t3phi : r.t3phi.length = n
  t3phierr : r.t3phierr.length = n
  flag : r.flag.length = n

/-- All channel arrays of the record have `n` entries. -/
structure OiFluxRecord.WF (n : Nat) (r : OiFluxRecord R) : Prop where
  fluxdata : r.fluxdata.length = n
  fluxerr : r.fluxerr.length = n
  flag : r.flag.length = n

/-- All channel arrays of the record have `n` entries. -/
structure OiInspolRecord.WF (n : Nat) (r : OiInspolRecord R) : Prop where
  jxx : r.jxx.length = n
  jyy : r.jyy.length = n
  jxy : r.jxy.length = n
  jyx : r.jyx.length = n

/-- An optional array is there iff it is used, and then has `n` entries. -/
def OptArray {α : Type} (used : Bool) (n : Nat) (a : Option (List α)) : Prop :=
  match used, a with
  | true, some l => l.length = n
  | false, none => True
  | _, _ => False

instance {α : Type} (used : Bool) (n : Nat) (a : Option (List α)) :
    Decidable (OptArray used n a) := by
  cases used <;> cases a <;> unfold OptArray <;> infer_instance

/-- All channel arrays of the record have `n` entries, and the optional ones are
there iff used. -/
structure OiVisRecord.WF (n : Nat) (refmap complex : Bool) (r : OiVisRecord R) : Prop where
  visamp : r.visamp.length = n
  visamperr : r.visamperr.length = n
  visphi : r.visphi.length = n
  visphierr : r.visphierr.length = n
  visrefmap : OptArray refmap (n * n) r.visrefmap
  rvis : OptArray complex n r.rvis
  rviserr : OptArray complex n r.rviserr
  ivis : OptArray complex n r.ivis
  iviserr : OptArray complex n r.iviserr
  flag : r.flag.length = n

/-- A table as allocated by `alloc_oi_vis` (alloc_fits.c): at least one record and
one channel. -/
structure OiVis.WF (t : OiVis R) : Prop where
  rows : t.record ≠ []
  chans : t.nwave ≠ 0
  recs : ∀ r ∈ t.record, r.WF t.nwave t.usevisrefmap t.usecomplex

/-- A table as allocated by `alloc_oi_vis2`. -/
structure OiVis2.WF (t : OiVis2 R) : Prop where
  rows : t.record ≠ []
  chans : t.nwave ≠ 0
  recs : ∀ r ∈ t.record, r.WF t.nwave

/-- A table as allocated by `alloc_oi_t3`. -/
structure OiT3.WF (t : OiT3 R) : Prop where
  rows : t.record ≠ []
  chans : t.nwave ≠ 0
  recs : ∀ r ∈ t.record, r.WF t.nwave

/-- A table as allocated by `alloc_oi_flux`. -/
structure OiFlux.WF (t : OiFlux R) : Prop where
  rows : t.record ≠ []
  chans : t.nwave ≠ 0
  recs : ∀ r ∈ t.record, r.WF t.nwave

/-- A table as allocated by `alloc_oi_inspol`. -/
structure OiInspol.WF (t : OiInspol R) : Prop where
  rows : t.record ≠ []
  chans : t.nwave ≠ 0
  recs : ∀ r ∈ t.record, r.WF t.nwave

/-- A table as allocated by `alloc_oi_wavelength`. -/
structure OiWavelength.WF (t : OiWavelength R) : Prop where
  chans : t.nwave ≠ 0
  eff_wave : t.eff_wave.length = t.nwave
  eff_band : t.eff_band.length = t.nwave

/-- A table as allocated by `alloc_oi_corr`. -/
structure OiCorr.WF (t : OiCorr R) : Prop where
  rows : t.ncorr ≠ 0
  iindx : t.iindx.length = t.ncorr
  jindx : t.jindx.length = t.ncorr
  corr : t.corr.length = t.ncorr

/-- A table as allocated by `alloc_oi_array`. -/
structure OiArray.WF (t : OiArray R) : Prop where
  rows : t.elem ≠ []

/-- The counters of the dataset are the lengths of the lists. -/
structure OiFits.CountsAgree (oi : OiFits R) : Prop where
  array : oi.numArray = oi.arrayList.length
  wavelength : oi.numWavelength = oi.wavelengthList.length
  corr : oi.numCorr = oi.corrList.length
  inspol : oi.numInspol = oi.inspolList.length
  vis : oi.numVis = oi.visList.length
  vis2 : oi.numVis2 = oi.vis2List.length
  t3 : oi.numT3 = oi.t3List.length
  flux : oi.numFlux = oi.fluxList.length

/-- All tables of the dataset are as allocated, and the counters are right. -/
structure OiFits.WF (oi : OiFits R) : Prop where
  counts : oi.CountsAgree
  array : ∀ t ∈ oi.arrayList, t.WF
  wavelength : ∀ t ∈ oi.wavelengthList, t.WF
  corr : ∀ t ∈ oi.corrList, t.WF
  inspol : ∀ t ∈ oi.inspolList, t.WF
  vis : ∀ t ∈ oi.visList, t.WF
  vis2 : ∀ t ∈ oi.vis2List, t.WF
  t3 : ∀ t ∈ oi.t3List, t.WF
  flux : ∀ t ∈ oi.fluxList, t.WF

end Verif
