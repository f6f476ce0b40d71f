import Verif.Proof.FilterIter
import Verif.Proof.FilterAll
import Verif.Proof.Glob
import Verif.Spec.ExampleFilter
import Verif.Props.Iter

/-! Properties of filtering: C28–C37, C57, and C47/C48 for filtered datasets. -/

namespace Verif
open Outcome Spec

set_option synthInstance.maxSize 20000

variable {R : FP} {f : FilterSpec R} {oi out : OiFits R}

/-! ### C28: which records are kept -/

/-- C28. The data tables of a filtered dataset are exactly those the specification
says: for each accepted table in order, the subsequence of its records that satisfy the
criteria, converted. The header is copied. -/
theorem C28_records (hf : Filterable f oi) (h : apply_oi_filter oi f = .ok out) :
    out.header = oi.header ∧ out.visList = visTables f oi ∧ out.vis2List = vis2Tables f oi ∧
      out.t3List = t3Tables f oi ∧ out.fluxList = fluxTables f oi :=
  have ho := apply_oi_filter_spec hf h
  ⟨ho.header, ho.vis, ho.vis2, ho.t3, ho.flux⟩

open Classical in
/-- C28, for one table: an OI_VIS2 record is in the output table iff it comes from a
record of the input table which satisfies all criteria. -/
theorem C28_vis2_record_iff (hf : Filterable f oi) (h : apply_oi_filter oi f = .ok out)
    (r' : OiVis2Record R) :
    (∃ t' ∈ out.vis2List, r' ∈ t'.record) ↔
      f.accept_vis2 = true ∧ ∃ t ∈ oi.vis2List, NamesOk f t.arrname t.insname t.corrname ∧
        ∃ w ∈ oi.wavelengthList, w.insname = t.insname ∧ (∃ j, j < w.nwave ∧ WaveOk f w j) ∧
        ∃ r ∈ t.record, Vis2Kept f w r ∧ r' = vis2RecOut f w r := by
  rw [(apply_oi_filter_spec hf h).vis2]
  constructor
  · rintro ⟨t', ht', hr'⟩
    obtain ⟨ha, t, ht, w, hw, hr, rfl⟩ := mem_vis2Tables.mp ht'
    obtain ⟨r, h1, h2, rfl⟩ := mem_kept.mp hr'
    obtain ⟨hm, hn⟩ := instTable_mem hw
    exact ⟨ha, t, ht, hr.names, w, hm, hn, hr.chan, r, h1, h2, rfl⟩
  · rintro ⟨ha, t, ht, hn, w, hm, hwn, hc, r, hr, hk, rfl⟩
    have hw : instTable oi t.insname = some w := by
      unfold instTable
      rw [← hwn]
      exact find_unique hf.unique hm
    exact ⟨_, mem_vis2Tables.mpr ⟨ha, t, ht, w, hw, ⟨hn, hc, r, hr, hk⟩, rfl⟩,
      mem_kept.mpr ⟨r, hr, hk, rfl⟩⟩

/-- C28. Filtering completes (does not abort or go out of bounds), if the OI_INSPOL
tables are uniform. -/
theorem C28_completes (hf : Filterable f oi) (hun : ∀ t ∈ oi.inspolList, InspolUniform f oi t) :
    ∃ out, apply_oi_filter oi f = .ok out :=
  let ⟨out, h, _⟩ := apply_oi_filter_ok hf hun
  ⟨out, h⟩

-- The example dataset meets the hypotheses with any filter.
example (f : FilterSpec FP.ratFP) : Filterable f Ex.oi := Ex.filterable f
example (f : FilterSpec FP.ratFP) : ∀ t ∈ Ex.oi.inspolList, InspolUniform f Ex.oi t :=
  Ex.inspolUniform f
-- One of two OI_VIS records, and one of three in each OI_VIS2 table, remain:
-- one channel and one target of two, and no records with all data flagged.
example : (fun o => (o.visList.map fun t => t.record.length,
      o.vis2List.map fun t => t.record.map fun r => (r.target_id, r.vis2data, r.flag))) <$>
    apply_oi_filter Ex.oi Ex.someFilter =
      .ok ([1], [[(1, [Ex.num (mkRat 1 2)], [false])], [(1, [Ex.num (mkRat 1 2)], [false])]]) := by
  decide +kernel

/-! ### C29: which channels are kept -/

open Classical in
/-- C29. The channels kept are those in the wavelength range, in increasing order. -/
theorem C29_channels (w : OiWavelength R) :
    (∀ j, j ∈ keptChans f w ↔ j < w.nwave ∧ WaveOk f w j) ∧ (keptChans f w).Pairwise (· < ·) :=
  ⟨fun _ => mem_keptChans, List.pairwise_lt_range.sublist List.filter_sublist⟩

/-- The output wavelength table of a data table with `n` channels is the input one
at the channels in range. -/
structure WaveAligned (f : FilterSpec R) (oi out : OiFits R) (insname : CStr)
    (w : OiWavelength R) (n : Nat) : Prop where
  inp : w ∈ oi.wavelengthList ∧ w.insname = insname
  out : ∃ w' ∈ out.wavelengthList, w'.insname = insname ∧
    oi_fits_lookup_wavelength out insname = some w' ∧ w'.nwave = n ∧ n = (keptChans f w).length ∧
    AtChans (keptChans f w) w.eff_wave w'.eff_wave ∧
    AtChans (keptChans f w) w.eff_band w'.eff_band

theorem waveAligned (hf : Filterable f oi) {n : CStr} {w : OiWavelength R}
    (hi : instTable oi n = some w)
    (h : waveOut f w ∈ out.wavelengthList ∧ instTable out n = some (waveOut f w) ∧
      oi_fits_lookup_wavelength out n = some (waveOut f w)) :
    WaveAligned f oi out n w (keptChans f w).length :=
  have hw := instTable_wf hf.wf hi
  ⟨instTable_mem hi, waveOut f w, h.1, (instTable_mem hi).2, h.2.2, rfl, rfl,
    atChans_pick (hw.eff_wave.symm ▸ keptChans_lt), atChans_pick (hw.eff_band.symm ▸ keptChans_lt)⟩

open Classical in
/-- C29 for OI_VIS. Each output table comes from an input table, and each of its
records from one of that table's: all arrays are those of the input at the channels
in range (VISREFMAP at the rows and columns), like the wavelength table. -/
theorem C29_vis (hf : Filterable f oi) (h : apply_oi_filter oi f = .ok out) :
    ∀ t' ∈ out.visList, ∃ t ∈ oi.visList, ∃ w, t'.insname = t.insname ∧
      WaveAligned f oi out t.insname w t'.nwave ∧
      ∀ r' ∈ t'.record, ∃ r ∈ t.record, VisAt t.nwave (keptChans f w) r r' := by
  have ho := apply_oi_filter_spec hf h
  intro t' ht'
  rw [ho.vis] at ht'
  obtain ⟨ha, t, ht, w, hw, hr, rfl⟩ := mem_visTables.mp ht'
  refine ⟨t, ht, w, rfl, waveAligned hf hw (vis_inst hf ho ht hw hr ha), ?_⟩
  intro r' hr'
  obtain ⟨r, h1, h2, rfl⟩ := mem_kept.mp hr'
  have hn := (hf.vis t ht w hw).2
  have hrw := (hf.wf.vis t ht).recs r h1
  rw [← hn] at hrw ⊢
  exact ⟨r, h1, visAt hrw⟩

open Classical in
/-- C29 for OI_VIS2. -/
theorem C29_vis2 (hf : Filterable f oi) (h : apply_oi_filter oi f = .ok out) :
    ∀ t' ∈ out.vis2List, ∃ t ∈ oi.vis2List, ∃ w, t'.insname = t.insname ∧
      WaveAligned f oi out t.insname w t'.nwave ∧
      ∀ r' ∈ t'.record, ∃ r ∈ t.record, Vis2At (keptChans f w) r r' := by
  have ho := apply_oi_filter_spec hf h
  intro t' ht'
  rw [ho.vis2] at ht'
  obtain ⟨ha, t, ht, w, hw, hr, rfl⟩ := mem_vis2Tables.mp ht'
  refine ⟨t, ht, w, rfl, waveAligned hf hw (vis2_inst hf ho ht hw hr ha), ?_⟩
  intro r' hr'
  obtain ⟨r, h1, h2, rfl⟩ := mem_kept.mp hr'
  exact ⟨r, h1, vis2At ((hf.vis2 t ht w hw).2 ▸ (hf.wf.vis2 t ht).recs r h1)⟩

open Classical in
/-- C29 for OI_T3. -/
theorem C29_t3 (hf : Filterable f oi) (h : apply_oi_filter oi f = .ok out) :
    ∀ t' ∈ out.t3List, ∃ t ∈ oi.t3List, ∃ w, t'.insname = t.insname ∧
      WaveAligned f oi out t.insname w t'.nwave ∧
      ∀ r' ∈ t'.record, ∃ r ∈ t.record, T3At f (keptChans f w) r r' := by
  have ho := apply_oi_filter_spec hf h
  intro t' ht'
  rw [ho.t3] at ht'
  obtain ⟨ha, t, ht, w, hw, hr, rfl⟩ := mem_t3Tables.mp ht'
  refine ⟨t, ht, w, rfl, waveAligned hf hw (t3_inst hf ho ht hw hr ha), ?_⟩
  intro r' hr'
  obtain ⟨r, h1, h2, rfl⟩ := mem_kept.mp hr'
  exact ⟨r, h1, t3At ((hf.t3 t ht w hw).2 ▸ (hf.wf.t3 t ht).recs r h1)⟩

open Classical in
/-- C29 for OI_FLUX. -/
theorem C29_flux (hf : Filterable f oi) (h : apply_oi_filter oi f = .ok out) :
    ∀ t' ∈ out.fluxList, ∃ t ∈ oi.fluxList, ∃ w, t'.insname = t.insname ∧
      WaveAligned f oi out t.insname w t'.nwave ∧
      ∀ r' ∈ t'.record, ∃ r ∈ t.record, FluxAt f (keptChans f w) r r' := by
  have ho := apply_oi_filter_spec hf h
  intro t' ht'
  rw [ho.flux] at ht'
  obtain ⟨ha, t, ht, w, hw, hr, rfl⟩ := mem_fluxTables.mp ht'
  refine ⟨t, ht, w, rfl, waveAligned hf hw (flux_inst hf ho ht hw hr ha), ?_⟩
  intro r' hr'
  obtain ⟨r, h1, h2, rfl⟩ := mem_kept.mp hr'
  exact ⟨r, h1, fluxAt (hf.flux t ht w hw ▸ (hf.wf.flux t ht).recs r h1)⟩

-- Keeping only the second channel keeps the lower right entry of VISREFMAP, and the
-- second wavelength.
example : (fun o => (o.visList.map fun t => t.record.map fun r => (r.visamp, r.visrefmap),
      o.wavelengthList.map (·.eff_wave))) <$>
    apply_oi_filter Ex.oi { Ex.someFilter with
      accept_flagged := true
      wave_range := (Ex.numF (mkRat 15 10000000), Ex.numF 1) } =
      .ok ([[([Ex.num (mkRat 1 3)], some [false])]], [[Ex.numF (mkRat 2 1000000)]]) := by
  decide +kernel

/-! ### C30: flags -/

theorem flag_at {flag : List Bool} {ks : List Nat} {P : Nat → Prop} {_ : DecidablePred P}
    (h : flag = ks.map fun j => decide (P j)) {k j : Nat} (hk : ks[k]? = some j) :
    flag[k]? = some (decide (P j)) := by
  rw [h, List.getElem?_map, hk, Option.map_some]

open Classical in
/-- C30 for OI_VIS. An output datum is flagged iff its input datum was flagged or is
out of range. (Data values and errors are unchanged: `C29_vis`.) -/
theorem C30_vis (hf : Filterable f oi) (h : apply_oi_filter oi f = .ok out) :
    ∀ t' ∈ out.visList, ∃ t ∈ oi.visList, ∃ w ∈ oi.wavelengthList, w.insname = t.insname ∧
      ∀ r' ∈ t'.record, ∃ r ∈ t.record, VisAt t.nwave (keptChans f w) r r' ∧
        ∀ k j : Nat, (keptChans f w)[k]? = some j →
          ∃ b, r'.flag[k]? = some b ∧ (b = true ↔ r.flag[j]? = some true ∨ ¬ VisInRange f w r j) := by
  have ho := apply_oi_filter_spec hf h
  intro t' ht'
  rw [ho.vis] at ht'
  obtain ⟨ha, t, ht, w, hw, hr, rfl⟩ := mem_visTables.mp ht'
  refine ⟨t, ht, w, (instTable_mem hw).1, (instTable_mem hw).2, ?_⟩
  intro r' hr'
  obtain ⟨r, h1, h2, rfl⟩ := mem_kept.mp hr'
  have hn := (hf.vis t ht w hw).2
  have hrw := (hf.wf.vis t ht).recs r h1
  rw [← hn] at hrw ⊢
  exact ⟨r, h1, visAt hrw, fun k j hk => ⟨_, flag_at rfl hk, decide_eq_true_iff⟩⟩

open Classical in
/-- C30 for OI_VIS2. -/
theorem C30_vis2 (hf : Filterable f oi) (h : apply_oi_filter oi f = .ok out) :
    ∀ t' ∈ out.vis2List, ∃ t ∈ oi.vis2List, ∃ w ∈ oi.wavelengthList, w.insname = t.insname ∧
      ∀ r' ∈ t'.record, ∃ r ∈ t.record, Vis2At (keptChans f w) r r' ∧
        ∀ k j : Nat, (keptChans f w)[k]? = some j →
          ∃ b, r'.flag[k]? = some b ∧
            (b = true ↔ r.flag[j]? = some true ∨ ¬ Vis2InRange f w r j) := by
  have ho := apply_oi_filter_spec hf h
  intro t' ht'
  rw [ho.vis2] at ht'
  obtain ⟨ha, t, ht, w, hw, hr, rfl⟩ := mem_vis2Tables.mp ht'
  refine ⟨t, ht, w, (instTable_mem hw).1, (instTable_mem hw).2, ?_⟩
  intro r' hr'
  obtain ⟨r, h1, h2, rfl⟩ := mem_kept.mp hr'
  exact ⟨r, h1, vis2At ((hf.vis2 t ht w hw).2 ▸ (hf.wf.vis2 t ht).recs r h1),
    fun k j hk => ⟨_, flag_at rfl hk, decide_eq_true_iff⟩⟩

open Classical in
/-- C30 for OI_T3. -/
theorem C30_t3 (hf : Filterable f oi) (h : apply_oi_filter oi f = .ok out) :
    ∀ t' ∈ out.t3List, ∃ t ∈ oi.t3List, ∃ w ∈ oi.wavelengthList, w.insname = t.insname ∧
      ∀ r' ∈ t'.record, ∃ r ∈ t.record, T3At f (keptChans f w) r r' ∧
        ∀ k j : Nat, (keptChans f w)[k]? = some j →
          ∃ b, r'.flag[k]? = some b ∧ (b = true ↔ r.flag[j]? = some true ∨ ¬ T3InRange f w r j) := by
  have ho := apply_oi_filter_spec hf h
  intro t' ht'
  rw [ho.t3] at ht'
  obtain ⟨ha, t, ht, w, hw, hr, rfl⟩ := mem_t3Tables.mp ht'
  refine ⟨t, ht, w, (instTable_mem hw).1, (instTable_mem hw).2, ?_⟩
  intro r' hr'
  obtain ⟨r, h1, h2, rfl⟩ := mem_kept.mp hr'
  exact ⟨r, h1, t3At ((hf.t3 t ht w hw).2 ▸ (hf.wf.t3 t ht).recs r h1),
    fun k j hk => ⟨_, flag_at rfl hk, decide_eq_true_iff⟩⟩

/-- C30 for OI_FLUX: flags are those of the input, and a value out of range becomes
NaN rather than being flagged. -/
theorem C30_flux (hf : Filterable f oi) (h : apply_oi_filter oi f = .ok out) :
    ∀ t' ∈ out.fluxList, ∃ t ∈ oi.fluxList, ∃ w ∈ oi.wavelengthList, w.insname = t.insname ∧
      ∀ r' ∈ t'.record, ∃ r ∈ t.record, AtChans (keptChans f w) r.flag r'.flag ∧
        ∀ k j : Nat, (keptChans f w)[k]? = some j →
          (SnrAmpOk f r.fluxdata r.fluxerr j → r'.fluxdata[k]? = r.fluxdata[j]?) ∧
          (¬ SnrAmpOk f r.fluxdata r.fluxerr j → r'.fluxdata[k]? = some R.nan) := by
  intro t' ht'
  obtain ⟨t, ht, w, _, hw, hr⟩ := C29_flux hf h t' ht'
  refine ⟨t, ht, w, hw.inp.1, hw.inp.2, ?_⟩
  intro r' hr'
  obtain ⟨r, h1, h2⟩ := hr r' hr'
  exact ⟨r, h1, h2.flag, fun k j hk => ⟨h2.fluxdata k j hk, h2.rejected k j hk⟩⟩

-- A minimum signal-to-noise ratio of 6 flags the first datum (ratio 5) of each
-- record, and not the second (20/3); the flux (ratio 5) becomes NaN and stays unflagged.
example : (fun o => (o.vis2List.map fun t => t.record.map (·.flag),
      o.fluxList.map fun t => t.record.map fun r => (r.fluxdata, r.flag))) <$>
    apply_oi_filter Ex.oi { init_oi_filter _ with snr_range := (Ex.numF 6, Ex.numF 100) } =
      .ok ([[[true, false], [true, true], [true, false]],
        [[true, false], [true, true], [true, false]]],
        [[([none, Ex.num 6], [false, false])]]) := by decide +kernel

/-! ### C31: records with all data flagged -/

open Classical in
/-- C31. If flagged records are not accepted, each record of the output has a datum
that is not flagged. -/
theorem C31_unflagged (hf : Filterable f oi) (h : apply_oi_filter oi f = .ok out)
    (ha : f.accept_flagged = false) :
    (∀ t ∈ out.visList, ∀ r ∈ t.record, false ∈ r.flag) ∧
    (∀ t ∈ out.vis2List, ∀ r ∈ t.record, false ∈ r.flag) ∧
    (∀ t ∈ out.t3List, ∀ r ∈ t.record, false ∈ r.flag) := by
  have ho := apply_oi_filter_spec hf h
  refine ⟨?_, ?_, ?_⟩
  · intro t' ht' r' hr'
    rw [ho.vis] at ht'
    obtain ⟨_, t, ht, w, hw, hr, rfl⟩ := mem_visTables.mp ht'
    obtain ⟨r, h1, h2, rfl⟩ := mem_kept.mp hr'
    obtain ⟨j, hj, hj1, hj2⟩ := h2.unflagged.resolve_left (by simp [ha])
    exact List.mem_map.mpr ⟨j, hj, by simp [hj1, hj2]⟩
  · intro t' ht' r' hr'
    rw [ho.vis2] at ht'
    obtain ⟨_, t, ht, w, hw, hr, rfl⟩ := mem_vis2Tables.mp ht'
    obtain ⟨r, h1, h2, rfl⟩ := mem_kept.mp hr'
    obtain ⟨j, hj, hj1, hj2⟩ := h2.unflagged.resolve_left (by simp [ha])
    exact List.mem_map.mpr ⟨j, hj, by simp [hj1, hj2]⟩
  · intro t' ht' r' hr'
    rw [ho.t3] at ht'
    obtain ⟨_, t, ht, w, hw, hr, rfl⟩ := mem_t3Tables.mp ht'
    obtain ⟨r, h1, h2, rfl⟩ := mem_kept.mp hr'
    obtain ⟨j, hj, hj1, hj2⟩ := h2.unflagged.resolve_left (by simp [ha])
    exact List.mem_map.mpr ⟨j, hj, by simp [hj1, hj2]⟩

/-- C31. The assertion of that does not fail: filtering does not abort. -/
theorem C31_no_abort (hf : Filterable f oi) (hun : ∀ t ∈ oi.inspolList, InspolUniform f oi t) :
    apply_oi_filter oi f ≠ .abort := by
  obtain ⟨out, h, _⟩ := apply_oi_filter_ok hf hun
  rw [h]
  exact fun hc => by cases hc

-- non-trivial: the second OI_VIS2 record of the input has all data flagged
example : ∃ t ∈ Ex.oi.vis2List, ∃ r ∈ t.record, false ∉ r.flag :=
  ⟨Ex.vis2, by simp [Ex.oi], Ex.vis2Rec 2 56975 [true, true], by simp [Ex.vis2], by decide⟩
example : Ex.someFilter.accept_flagged = false := rfl

/-- The example dataset with all of the OI_T3 data flagged and the OI_WAVELENGTH
table not in the hash table. -/
def Ex.unhashed : OiFits FP.ratFP :=
  { Ex.oi with
    wavelengthHash := HMap.empty
    t3List := [{ Ex.t3 with record := [Ex.t3Rec 1 [true, true]] }] }

/-- The condition that lookup finds the table of each instrument is needed: if not, the
assertion fails on a record with all data flagged (any_t3_chan_ok accepts it). -/
theorem C31_unhashed_aborts :
    apply_oi_filter Ex.unhashed { init_oi_filter _ with accept_flagged := false } = .abort := by
  decide +kernel

/-! ### C32: no orphans, no new dangling references -/

theorem insReferenced_iff {oi : OiFits R} {n : CStr} :
    InsReferenced oi n ↔ ∃ d ∈ dataNames oi, d.2.1 = n := by
  simp only [InsReferenced, dataNames, List.mem_append, List.mem_map]
  constructor
  · rintro (⟨t, h, rfl⟩ | ⟨t, h, rfl⟩ | ⟨t, h, rfl⟩ | ⟨t, h, rfl⟩)
    · exact ⟨_, Or.inl (Or.inl (Or.inl ⟨t, h, rfl⟩)), rfl⟩
    · exact ⟨_, Or.inl (Or.inl (Or.inr ⟨t, h, rfl⟩)), rfl⟩
    · exact ⟨_, Or.inl (Or.inr ⟨t, h, rfl⟩), rfl⟩
    · exact ⟨_, Or.inr ⟨t, h, rfl⟩, rfl⟩
  · rintro ⟨d, ((⟨t, h, rfl⟩ | ⟨t, h, rfl⟩) | ⟨t, h, rfl⟩) | ⟨t, h, rfl⟩, rfl⟩
    · exact Or.inl ⟨t, h, rfl⟩
    · exact Or.inr (Or.inl ⟨t, h, rfl⟩)
    · exact Or.inr (Or.inr (Or.inl ⟨t, h, rfl⟩))
    · exact Or.inr (Or.inr (Or.inr ⟨t, h, rfl⟩))

theorem arrReferenced_iff {oi : OiFits R} {n : CStr} :
    ArrReferenced oi n ↔ n ≠ [] ∧ ∃ d ∈ dataNames oi, d.1 = n := by
  simp only [ArrReferenced, dataNames, List.mem_append, List.mem_map]
  refine and_congr_right fun _ => ?_
  constructor
  · rintro (⟨t, h, rfl⟩ | ⟨t, h, rfl⟩ | ⟨t, h, rfl⟩ | ⟨t, h, rfl⟩)
    · exact ⟨_, Or.inl (Or.inl (Or.inl ⟨t, h, rfl⟩)), rfl⟩
    · exact ⟨_, Or.inl (Or.inl (Or.inr ⟨t, h, rfl⟩)), rfl⟩
    · exact ⟨_, Or.inl (Or.inr ⟨t, h, rfl⟩), rfl⟩
    · exact ⟨_, Or.inr ⟨t, h, rfl⟩, rfl⟩
  · rintro ⟨d, ((⟨t, h, rfl⟩ | ⟨t, h, rfl⟩) | ⟨t, h, rfl⟩) | ⟨t, h, rfl⟩, rfl⟩
    · exact Or.inl ⟨t, h, rfl⟩
    · exact Or.inr (Or.inl ⟨t, h, rfl⟩)
    · exact Or.inr (Or.inr (Or.inl ⟨t, h, rfl⟩))
    · exact Or.inr (Or.inr (Or.inr ⟨t, h, rfl⟩))

theorem corrReferenced_iff {oi : OiFits R} {n : CStr} :
    CorrReferenced oi n ↔ n ≠ [] ∧ ∃ d ∈ dataNames oi, d.2.2 = n := by
  simp only [CorrReferenced, dataNames, List.mem_append, List.mem_map]
  refine and_congr_right fun _ => ?_
  constructor
  · rintro (⟨t, h, rfl⟩ | ⟨t, h, rfl⟩ | ⟨t, h, rfl⟩ | ⟨t, h, rfl⟩)
    · exact ⟨_, Or.inl (Or.inl (Or.inl ⟨t, h, rfl⟩)), rfl⟩
    · exact ⟨_, Or.inl (Or.inl (Or.inr ⟨t, h, rfl⟩)), rfl⟩
    · exact ⟨_, Or.inl (Or.inr ⟨t, h, rfl⟩), rfl⟩
    · exact ⟨_, Or.inr ⟨t, h, rfl⟩, rfl⟩
  · rintro ⟨d, ((⟨t, h, rfl⟩ | ⟨t, h, rfl⟩) | ⟨t, h, rfl⟩) | ⟨t, h, rfl⟩, rfl⟩
    · exact Or.inl ⟨t, h, rfl⟩
    · exact Or.inr (Or.inl ⟨t, h, rfl⟩)
    · exact Or.inr (Or.inr (Or.inl ⟨t, h, rfl⟩))
    · exact Or.inr (Or.inr (Or.inr ⟨t, h, rfl⟩))

open Classical in
/-- C32. Each OI_ARRAY, OI_WAVELENGTH, OI_CORR and OI_INSPOL table of the output is
of an array, instrument or correlation matrix that some data table refers to. -/
theorem C32_no_orphans (hf : Filterable f oi) (h : apply_oi_filter oi f = .ok out) :
    (∀ t ∈ out.arrayList, ∃ d ∈ dataNames out, d.1 = t.arrname) ∧
    (∀ t ∈ out.wavelengthList, ∃ d ∈ dataNames out, d.2.1 = t.insname) ∧
    (∀ t ∈ out.corrList, ∃ d ∈ dataNames out, d.2.2 = t.corrname) ∧
    (∀ t ∈ out.inspolList, ∃ d ∈ dataNames out, d.1 = t.arrname) := by
  have ho := apply_oi_filter_spec hf h
  refine ⟨?_, ?_, ?_, ?_⟩
  · intro t ht
    rw [ho.array] at ht
    have := (List.mem_filter.mp ht).2
    simp only [decide_eq_true_eq] at this
    exact (arrReferenced_iff.mp this.2).2
  · intro t ht
    rw [ho.wavelength] at ht
    obtain ⟨w, _, hw, rfl⟩ := mem_kept.mp ht
    exact insReferenced_iff.mp hw.2
  · intro t ht
    rw [ho.corr] at ht
    have := (List.mem_filter.mp ht).2
    simp only [decide_eq_true_eq] at this
    exact (corrReferenced_iff.mp this.2).2
  · intro t ht
    exact (arrReferenced_iff.mp (ho.inspol t ht)).2

theorem dataNames_cases (hf : Filterable f oi) (ho : Filtered f oi out) {d : CStr × CStr × CStr}
    (hd : d ∈ dataNames out) : d ∈ dataNames oi ∧ NamesOk f d.1 d.2.1 d.2.2 ∧
      ∃ w, oi_fits_lookup_wavelength out d.2.1 = some w ∧ w ∈ out.wavelengthList ∧
        w.insname = d.2.1 := by
  simp only [dataNames, List.mem_append, List.mem_map] at hd ⊢
  rcases hd with ((⟨t', ht', rfl⟩ | ⟨t', ht', rfl⟩) | ⟨t', ht', rfl⟩) | ⟨t', ht', rfl⟩
  · rw [ho.vis] at ht'
    obtain ⟨ha, t, ht, w, hw, hr, rfl⟩ := mem_visTables.mp ht'
    obtain ⟨h1, h2, h3⟩ := vis_inst hf ho ht hw hr ha
    exact ⟨Or.inl (Or.inl (Or.inl ⟨t, ht, rfl⟩)), hr.names, _, h3, h1, (instTable_mem hw).2⟩
  · rw [ho.vis2] at ht'
    obtain ⟨ha, t, ht, w, hw, hr, rfl⟩ := mem_vis2Tables.mp ht'
    obtain ⟨h1, h2, h3⟩ := vis2_inst hf ho ht hw hr ha
    exact ⟨Or.inl (Or.inl (Or.inr ⟨t, ht, rfl⟩)), hr.names, _, h3, h1, (instTable_mem hw).2⟩
  · rw [ho.t3] at ht'
    obtain ⟨ha, t, ht, w, hw, hr, rfl⟩ := mem_t3Tables.mp ht'
    obtain ⟨h1, h2, h3⟩ := t3_inst hf ho ht hw hr ha
    exact ⟨Or.inl (Or.inr ⟨t, ht, rfl⟩), hr.names, _, h3, h1, (instTable_mem hw).2⟩
  · rw [ho.flux] at ht'
    obtain ⟨ha, t, ht, w, hw, hr, rfl⟩ := mem_fluxTables.mp ht'
    obtain ⟨h1, h2, h3⟩ := flux_inst hf ho ht hw hr ha
    exact ⟨Or.inr ⟨t, ht, rfl⟩, hr.names, _, h3, h1, (instTable_mem hw).2⟩

/-- C32. Each INSNAME of a data table of the output resolves, and ARRNAME and CORRNAME
resolve if the input had tables of these names. -/
theorem C32_references (hf : Filterable f oi) (h : apply_oi_filter oi f = .ok out) :
    ∀ d ∈ dataNames out,
      (∃ w ∈ out.wavelengthList, w.insname = d.2.1 ∧
        oi_fits_lookup_wavelength out d.2.1 = some w) ∧
      (d.1 ≠ [] → (∃ t ∈ oi.arrayList, t.arrname = d.1) →
        ∃ t ∈ out.arrayList, t.arrname = d.1 ∧ oi_fits_lookup_array out d.1 = some t) ∧
      (d.2.2 ≠ [] → (∃ t ∈ oi.corrList, t.corrname = d.2.2) →
        ∃ t ∈ out.corrList, t.corrname = d.2.2 ∧ oi_fits_lookup_corr out d.2.2 = some t) := by
  have ho := apply_oi_filter_spec hf h
  intro d hd
  obtain ⟨_, hn, w, h1, h2, h3⟩ := dataNames_cases hf ho hd
  refine ⟨⟨w, h2, h3, h1⟩, ?_, ?_⟩
  · rintro hne ⟨t, ht, htn⟩
    have : t ∈ out.arrayList := by
      rw [ho.array, List.mem_filter]
      refine ⟨ht, ?_⟩
      simp only [decide_eq_true_eq]
      exact ⟨htn ▸ hn.1, arrReferenced_iff.mpr ⟨htn ▸ hne, d, hd, htn.symm⟩⟩
    obtain ⟨t', e, hm, hmn⟩ := lastNamed_isSome (name := OiArray.arrname) this
    rw [htn] at e hmn
    exact ⟨t', hm, hmn, (ho.arrayLookup _).trans e⟩
  · rintro hne ⟨t, ht, htn⟩
    have : t ∈ out.corrList := by
      rw [ho.corr, List.mem_filter]
      refine ⟨ht, ?_⟩
      simp only [decide_eq_true_eq]
      exact ⟨htn ▸ hn.2.2, corrReferenced_iff.mpr ⟨htn ▸ hne, d, hd, htn.symm⟩⟩
    obtain ⟨t', e, hm, hmn⟩ := lastNamed_isSome (name := OiCorr.corrname) this
    rw [htn] at e hmn
    exact ⟨t', hm, hmn, (ho.corrLookup _).trans e⟩

-- non-trivial: names of both kinds remain in the filtered example
example : (fun o => (o.corrList.length, o.arrayList.length, dataNames o)) <$>
    apply_oi_filter Ex.oi Ex.someFilter =
    .ok (1, 1, [("VLTI", "INS1", "CORR1"), ("VLTI", "INS1", ""), ("VLTI", "INS1", ""),
      ("VLTI", "INS1", ""), ("VLTI", "INS1", "")]) := by decide +kernel
-- ... and orphans are removed: without OI_VIS data the OI_CORR table goes
example : (fun o => o.corrList.length) <$>
    apply_oi_filter Ex.oi { Ex.someFilter with accept_vis := false } = .ok 0 := by decide +kernel

/-- The example dataset with a second instrument, known only to OI_INSPOL. -/
def Ex.unobserved : OiFits FP.ratFP :=
  { Ex.oi with
    numWavelength := 2
    wavelengthList := [Ex.wave, { Ex.wave with insname := "INS2" }]
    inspolList := [{ Ex.inspol with
      record := Ex.inspol.record ++ (Ex.inspol.record.map fun r => { r with insname := "INS2" }) }]
    wavelengthHash := Ex.oi.wavelengthHash.insert "INS2" { Ex.wave with insname := "INS2" } }

/-- References from OI_INSPOL records are not considered: filtering may remove the
OI_WAVELENGTH table an OI_INSPOL record of the output refers to. -/
theorem C32_inspol_dangling :
    (oi_fits_lookup_wavelength Ex.unobserved "INS2").isSome ∧
    (fun o => (o.inspolList.map fun t => t.record.map fun r =>
      (r.insname, (oi_fits_lookup_wavelength o r.insname).isSome))) <$>
      apply_oi_filter Ex.unobserved (init_oi_filter _) =
      .ok [[("INS1", true), ("INS2", false)]] := by decide +kernel

/-! ### C33: target filter -/

open Classical in
/-- C33. With a target filter: at most one target, which is the one asked for,
renumbered; one if the input has that target; and all data have its new number. -/
theorem C33_one_target (hf : Filterable f oi) (h : apply_oi_filter oi f = .ok out)
    (ht : 0 ≤ f.target_id) :
    out.targets.targ.length ≤ 1 ∧
    (∀ x ∈ out.targets.targ, ∃ y ∈ oi.targets.targ, y.target_id = f.target_id ∧
      x = { y with target_id := 1 }) ∧
    ((∃ y ∈ oi.targets.targ, y.target_id = f.target_id) → out.targets.targ ≠ []) ∧
    (∀ i ∈ dataTargets out, i = 1) := by
  have ho := apply_oi_filter_spec hf h
  have htg : out.targets.targ = (match oi.targets.targ.reverse.find?
      fun x => x.target_id == f.target_id with
        | some x => [{ x with target_id := 1 }]
        | none => []) := by
    rw [ho.targets, targetsOut, if_neg (by omega)]
    rfl
  have hid : ∀ i, targetIdOut f i = 1 := fun i => by rw [targetIdOut, if_pos ht]
  refine ⟨?_, ?_, ?_, ?_⟩
  · rw [htg]; split <;> simp
  · intro x hx
    rw [htg] at hx
    cases hfind : oi.targets.targ.reverse.find? fun x => x.target_id == f.target_id with
    | none => rw [hfind] at hx; cases hx
    | some y =>
      rw [hfind] at hx
      refine ⟨y, by simpa using List.mem_of_find?_eq_some hfind,
        by simpa using List.find?_some hfind, by simpa using hx⟩
  · rintro ⟨y, hy, hyi⟩
    rw [htg]
    cases hfind : oi.targets.targ.reverse.find? fun x => x.target_id == f.target_id with
    | none =>
      rw [List.find?_eq_none] at hfind
      have := hfind y (by simpa using hy)
      simp [hyi] at this
    | some y => simp
  · intro i hi
    simp only [dataTargets, List.mem_append, List.mem_flatMap, List.mem_map] at hi
    rcases hi with ((⟨t', ht', r', hr', rfl⟩ | ⟨t', ht', r', hr', rfl⟩) | ⟨t', ht', r', hr', rfl⟩) |
      ⟨t', ht', r', hr', rfl⟩
    · rw [ho.vis] at ht'
      obtain ⟨_, t, ht, w, hw, hr, rfl⟩ := mem_visTables.mp ht'
      obtain ⟨r, h1, h2, rfl⟩ := mem_kept.mp hr'
      exact hid _
    · rw [ho.vis2] at ht'
      obtain ⟨_, t, ht, w, hw, hr, rfl⟩ := mem_vis2Tables.mp ht'
      obtain ⟨r, h1, h2, rfl⟩ := mem_kept.mp hr'
      exact hid _
    · rw [ho.t3] at ht'
      obtain ⟨_, t, ht, w, hw, hr, rfl⟩ := mem_t3Tables.mp ht'
      obtain ⟨r, h1, h2, rfl⟩ := mem_kept.mp hr'
      exact hid _
    · rw [ho.flux] at ht'
      obtain ⟨_, t, ht, w, hw, hr, rfl⟩ := mem_fluxTables.mp ht'
      obtain ⟨r, h1, h2, rfl⟩ := mem_kept.mp hr'
      exact hid _

/-- C33. Without a target filter the targets are unchanged. -/
theorem C33_all_targets (hf : Filterable f oi) (h : apply_oi_filter oi f = .ok out)
    (ht : f.target_id < 0) : out.targets = oi.targets := by
  rw [(apply_oi_filter_spec hf h).targets, targetsOut, if_pos ht]

-- Selecting the second target of the example
example : (fun o => (o.targets.targ.map (fun t => (t.target_id, t.target)), dataTargets o)) <$>
    apply_oi_filter Ex.oi { init_oi_filter _ with target_id := 2 } =
    .ok ([(1, "Star B")], [1, 1, 1]) := by decide +kernel

/-- A target filter forgets that the input has target categories. -/
theorem C33_category_dropped : Ex.oi.targets.usecategory = true ∧
    (fun o => o.targets.usecategory) <$>
      apply_oi_filter Ex.oi { init_oi_filter _ with target_id := 2 } = .ok false := by
  decide +kernel

/-! ### C34: the initial filter -/

/-- C34. The filter from `init_oi_filter` has the ranges the specification says. -/
theorem C34_init (R : FP) : init_oi_filter R = nominalFilter R := by
  unfold init_oi_filter nominalFilter
  norm_num [Rat.mkRat_eq_div]

open Classical in
/-- C34. Applied to data within these ranges it changes no header, targets or data, keeps the
tables the data refer to, and removes no other tables than orphans. -/
theorem C34_accepts_all (hf : Filterable (init_oi_filter R) oi)
    (hin : WithinRanges (nominalFilter R) oi)
    (h : apply_oi_filter oi (init_oi_filter R) = .ok out) :
    out.header = oi.header ∧ out.targets = oi.targets ∧ out.visList = oi.visList ∧
    out.vis2List = oi.vis2List ∧ out.t3List = oi.t3List ∧ out.fluxList = oi.fluxList ∧
    (out.arrayList = oi.arrayList.filter fun t => decide (ArrReferenced oi t.arrname)) ∧
    (out.corrList = oi.corrList.filter fun t => decide (CorrReferenced oi t.corrname)) ∧
    (out.wavelengthList = oi.wavelengthList.filter fun t => decide (InsReferenced oi t.insname)) := by
  have ho := apply_oi_filter_spec hf h
  rw [← C34_init] at hin
  have hnames : ∀ a i c, NamesOk (init_oi_filter R) a i c :=
    fun a i c => ⟨glob_star a, glob_star i, glob_star c⟩
  have ha : AllMeet (init_oi_filter R) oi := {
    target := by show (-1 : Int) < 0; decide
    ranges := hin
    vis := fun _ _ => ⟨rfl, hnames _ _ _, .inl rfl⟩
    vis2 := fun _ _ => ⟨rfl, hnames _ _ _, .inl rfl⟩
    t3 := fun _ _ => ⟨rfl, rfl, hnames _ _ _, .inl rfl⟩
    flux := fun _ _ => ⟨rfl, hnames _ _ _⟩ }
  obtain ⟨h1, h2, h3, h4, h5, h6, h7, h8, h9⟩ := filtered_all ha hf ho
  exact ⟨h1, h2, h3, h4, h5, h6, h7, h8, h9⟩

-- The example dataset is within the ranges and unchanged.
example : WithinRanges (nominalFilter FP.ratFP) Ex.oi := Ex.withinRanges
example : (fun o => (o.visList == Ex.oi.visList, o.vis2List == Ex.oi.vis2List,
      o.t3List == Ex.oi.t3List, o.fluxList == Ex.oi.fluxList)) <$>
    apply_oi_filter Ex.oi (init_oi_filter _) = .ok (true, true, true, true) := by decide +kernel

/-- "Accept all data" is not true without the condition on the ranges: a negative
squared visibility of high significance is flagged. -/
theorem C34_negative_flagged :
    (fun o => o.vis2List.map fun t => t.record.map fun r => r.flag) <$>
      apply_oi_filter { Ex.oi with numVis2 := 1, vis2List := [{ Ex.vis2 with
        record := [{ Ex.vis2Rec 1 56974 [false, false] with
          vis2data := [Ex.num (-1), Ex.num 1] }] }] } (init_oi_filter _) =
      .ok [[[true, false]]] := by decide +kernel

/-! ### C35: filtering again -/

/-- C35 (part). Applying the filter again to the result gives the same contents, if the
OI_INSPOL tables are uniform, and their records that are kept are of instruments that data
remain of. Without the latter it is false: see below. -/
theorem C35_idempotent_partial (hf : Filterable f oi)
    (hun : ∀ t ∈ oi.inspolList, InspolUniform f oi t) (ht : f.target_id < 0)
    (h : apply_oi_filter oi f = .ok out) (hobs : InspolObserved f oi out) :
    ∃ out', apply_oi_filter out f = .ok out' ∧ SameContents out' out := by
  obtain ⟨o, h', ho, hi⟩ := apply_oi_filter_ok hf hun
  rw [h] at h'; cases h'
  exact filter_again hf hun ht ho hi hobs

/-- C35. In particular without OI_INSPOL tables. -/
theorem C35_idempotent_no_inspol (hf : Filterable f oi) (hno : oi.inspolList = [])
    (ht : f.target_id < 0) (h : apply_oi_filter oi f = .ok out) :
    ∃ out', apply_oi_filter out f = .ok out' ∧ SameContents out' out :=
  C35_idempotent_partial hf (by rw [hno]; simp) ht h (by rw [InspolObserved, hno]; simp)

-- Filtering the example twice
example : (fun o => o.inspolList.length) <$>
    (apply_oi_filter Ex.oi { Ex.someFilter with target_id := -1 } >>= fun o =>
      apply_oi_filter o { Ex.someFilter with target_id := -1 }) = .ok 1 := by decide +kernel

/-- The condition on OI_INSPOL is needed: a record of an instrument without data is kept
the first time and removed the second time. -/
theorem C35_inspol_counterexample :
    (fun o => o.inspolList.map (·.record.length)) <$>
      apply_oi_filter Ex.unobserved (init_oi_filter _) = .ok [2] ∧
    (fun o => o.inspolList.map (·.record.length)) <$>
      (apply_oi_filter Ex.unobserved (init_oi_filter _) >>= fun o =>
        apply_oi_filter o (init_oi_filter _)) = .ok [1] := by decide +kernel

/-- With a target filter, filtering again may leave nothing, because the target has been
renumbered. -/
theorem C35_target_counterexample :
    (fun o => (o.targets.targ.length, o.visList.length)) <$>
      apply_oi_filter Ex.oi { init_oi_filter _ with target_id := 2 } = .ok (1, 1) ∧
    (fun o => (o.targets.targ.length, o.visList.length)) <$>
      (apply_oi_filter Ex.oi { init_oi_filter _ with target_id := 2 } >>= fun o =>
        apply_oi_filter o { init_oi_filter _ with target_id := 2 }) = .ok (0, 0) := by
  decide +kernel

/-! ### C36: OI_INSPOL tables -/

open Classical in
/-- C36 (part). If each OI_INSPOL table is uniform, filtering stays in bounds and gives the
tables of the specification: of each table accepted by its ARRNAME, the records of the target and
time range asked for with an accepted channel, with the Jones matrices of these channels. What is
missing: for tables that are not uniform it is false, see below. -/
theorem C36_inspol_partial (hf : Filterable f oi)
    (hun : ∀ t ∈ oi.inspolList, InspolUniform f oi t) :
    ∃ out, apply_oi_filter oi f = .ok out ∧
      (out.inspolList = (oi.inspolList.filter fun t => decide
        (InspolRemains f oi t ∧ ∃ d ∈ dataNames out, d.1 = t.arrname ∧ d.1 ≠ [])).map
          (inspolOut f oi)) ∧
      ∀ t ∈ out.inspolList, ∀ r ∈ t.record,
        t.nwave = (instChans f oi r.insname).length ∧
        r.jxx.length = t.nwave ∧ r.jyy.length = t.nwave ∧
        r.jxy.length = t.nwave ∧ r.jyx.length = t.nwave := by
  obtain ⟨out, h, ho, hi⟩ := apply_oi_filter_ok hf hun
  refine ⟨out, h, ?_, ?_⟩
  · rw [hi]
    congr 1
    apply List.filter_congr
    intro t _
    simp only [decide_eq_decide, arrReferenced_iff]
    constructor
    · rintro ⟨h1, h2, d, h3, h4⟩
      exact ⟨h1, d, h3, h4, h4 ▸ h2⟩
    · rintro ⟨h1, d, h3, h4, h5⟩
      exact ⟨h1, h4 ▸ h5, d, h3, h4⟩
  · intro t' ht' r' hr'
    have hwf := ((out_wf hf hun ho hi).inspol t' ht').recs r' hr'
    obtain ⟨t, htm, hr, _, rfl⟩ := inspol_mem hi ht'
    obtain ⟨r, h1, rfl⟩ := List.mem_map.mp hr'
    exact ⟨(inspolOut_nwave (hun t htm) h1 :), hwf.jxx, hwf.jyy, hwf.jxy, hwf.jyx⟩

example : (fun o => o.inspolList.map fun t => (t.nwave, t.record.map (·.jxx))) <$>
    apply_oi_filter Ex.oi Ex.someFilter = .ok [(1, [[(Ex.numF 1, Ex.numF 0)]])] := by
  decide +kernel

/-- An OI_INSPOL table with records of two instruments, of whose two channels one and
both are in the wavelength range of `Ex.someFilter`. -/
def Ex.twoInstruments : OiFits FP.ratFP :=
  { Ex.unobserved with
    wavelengthList := [Ex.wave, { Ex.wave with
      insname := "INS2", eff_wave := [Ex.numF (mkRat 1 1000000), Ex.numF (mkRat 1 1000000)] }] }

/-- C36 is false in general: the second record is written out of bounds. -/
theorem C36_inspol_overflow : apply_oi_filter Ex.twoInstruments Ex.someFilter = .ub := by
  decide +kernel

/-! ### C37: name patterns -/

/-- C37. Pattern matching, as assumed of GLib: `*` matches any string and `?` any one character,
and the whole name must match. -/
theorem C37_pattern (p s : CStr) : globMatch p s = true ↔ Glob p s := globMatch_iff p s

open Classical in
/-- C37. All tables of a filtered dataset match the patterns, and of the input
data tables those that do not match are left out. -/
theorem C37_names (hf : Filterable f oi) (h : apply_oi_filter oi f = .ok out) :
    (∀ t ∈ out.arrayList, Glob f.arrname t.arrname) ∧
    (∀ t ∈ out.wavelengthList, Glob f.insname t.insname) ∧
    (∀ t ∈ out.corrList, Glob f.corrname t.corrname) ∧
    (∀ d ∈ dataNames out, Glob f.arrname d.1 ∧ Glob f.insname d.2.1 ∧ Glob f.corrname d.2.2) := by
  have ho := apply_oi_filter_spec hf h
  refine ⟨?_, ?_, ?_, fun d hd => (dataNames_cases hf ho hd).2.1⟩
  · intro t ht
    rw [ho.array] at ht
    have := (List.mem_filter.mp ht).2
    simp only [decide_eq_true_eq] at this
    exact this.1
  · intro t ht
    rw [ho.wavelength] at ht
    obtain ⟨w, _, hw, rfl⟩ := mem_kept.mp ht
    exact hw.1.name
  · intro t ht
    rw [ho.corr] at ht
    have := (List.mem_filter.mp ht).2
    simp only [decide_eq_true_eq] at this
    exact this.1

/-- C37. A pattern without wildcards matches itself only; the pattern `*` all names. -/
theorem C37_literal (p s : CStr) (h1 : '*' ∉ p) (h2 : '?' ∉ p) :
    (Glob p s ↔ s = p) ∧ Glob "*".toList s := by
  refine ⟨?_, glob_star s⟩
  constructor
  · intro h
    induction h with
    | nil => rfl
    | star => simp at h1
    | any => simp at h2
    | char c _ _ _ ih => rw [ih (fun hc => h1 (by simp [hc])) (fun hc => h2 (by simp [hc]))]
  · rintro rfl
    induction s with
    | nil => exact Glob.nil
    | cons c s ih =>
      simp only [List.mem_cons, not_or] at h1 h2
      exact Glob.char c (fun hc => h1.1 hc.symm) (fun hc => h2.1 hc.symm) (ih h1.2 h2.2)

example : globMatch "I?S*" "INS1" = true ∧ globMatch "I?S" "INS1" = false := by decide +kernel
-- a pattern that excludes the OI_VIS2, OI_T3 and OI_FLUX tables (with no CORRNAME)
example : (fun o => dataNames o) <$>
    apply_oi_filter Ex.oi { init_oi_filter _ with corrname := "C*1" } =
    .ok [("VLTI", "INS1", "CORR1")] := by decide +kernel

/-! ### C47, C48: counts and lookups -/

/-- C47 for filtered datasets. -/
theorem C47_filter (hf : Filterable f oi) (h : apply_oi_filter oi f = .ok out) :
    out.CountsAgree := (apply_oi_filter_spec hf h).counts

/-- C48 for filtered datasets: lookups find exactly the tables in the lists (the
last one, if several have the name). -/
theorem C48_filter (hf : Filterable f oi) (h : apply_oi_filter oi f = .ok out) (n : CStr) :
    oi_fits_lookup_array out n = lastNamed OiArray.arrname out.arrayList n ∧
    oi_fits_lookup_wavelength out n = lastNamed OiWavelength.insname out.wavelengthList n ∧
    oi_fits_lookup_corr out n = lastNamed OiCorr.corrname out.corrList n :=
  have ho := apply_oi_filter_spec hf h
  ⟨ho.arrayLookup n, ho.waveLookup n, ho.corrLookup n⟩

/-! ### C57: iterating with a filter and filtering -/

theorem yields_map {α β : Type} (g : α → β) (l : List α) (n : Nat) :
    yields (l.map g) n = (yields l n).map (Option.map g) := by
  simp [yields]

/-- C57 for OI_VIS, with any filter: the data which are unflagged in the dataset after
filtering are those which iteration yields with the same criteria, flagged data being
rejected, in the same order. -/
theorem C57_vis_any (hf : Filterable f oi) (h : apply_oi_filter oi f = .ok out)
    (hins : ∀ t ∈ oi.visList, ∃ w ∈ oi.wavelengthList, w.insname = t.insname) (n : Nat) :
    ∃ it rs, calls visKind n (iter_init visKind oi (some { f with accept_flagged := false })) =
        .ok (it, rs) ∧
      rs.map (Option.map (visValue oi)) =
        yields ((select VisUnflagged (visData out)).map (visValue out)) n := by
  have hi : ∀ t ∈ oi.visList, ∃ w, instTable oi t.insname = some w := by
    intro t ht
    obtain ⟨w, hw, e⟩ := hins t ht
    exact ⟨w, e ▸ find_unique hf.unique hw⟩
  obtain ⟨it, hit⟩ := C24_vis_iter oi (some (noFlagged f)) n hf.wf.vis (by
    intro t ht _
    obtain ⟨w, hw⟩ := hi t ht
    obtain ⟨h1, h2⟩ := hf.vis t ht w hw
    exact ⟨w, h1, by rw [(instTable_wf hf.wf hw).eff_wave, h2]⟩)
  refine ⟨it, _, hit, ?_⟩
  rw [vis_iter_unflagged hf (apply_oi_filter_spec hf h), ← yields_map]
  · rfl
  · intro t ht
    obtain ⟨w, hw⟩ := hi t ht
    rw [(hf.vis t ht w hw).1, hw]

/-- C57 for OI_VIS. Iterating with a filter which rejects flagged data yields the same data
in the same order as are unflagged in the dataset after filtering. -/
theorem C57_vis (hf : Filterable f oi) (h : apply_oi_filter oi f = .ok out)
    (hfl : f.accept_flagged = false)
    (hins : ∀ t ∈ oi.visList, ∃ w ∈ oi.wavelengthList, w.insname = t.insname) (n : Nat) :
    ∃ it rs, calls visKind n (iter_init visKind oi (some f)) = .ok (it, rs) ∧
      rs.map (Option.map (visValue oi)) =
        yields ((select VisUnflagged (visData out)).map (visValue out)) n := by
  obtain ⟨it, rs, h1, h2⟩ := C57_vis_any hf h hins n
  rw [show ({ f with accept_flagged := false } : FilterSpec R) = f from noFlagged_eq hfl] at h1
  exact ⟨it, rs, h1, h2⟩

/-- C57 for OI_VIS2, with any filter: the data which are unflagged in the dataset after
filtering are those which iteration yields with the same criteria, flagged data being
rejected, in the same order. -/
theorem C57_vis2_any (hf : Filterable f oi) (h : apply_oi_filter oi f = .ok out)
    (hins : ∀ t ∈ oi.vis2List, ∃ w ∈ oi.wavelengthList, w.insname = t.insname) (n : Nat) :
    ∃ it rs, calls vis2Kind n (iter_init vis2Kind oi (some { f with accept_flagged := false })) =
        .ok (it, rs) ∧
      rs.map (Option.map (vis2Value oi)) =
        yields ((select Vis2Unflagged (vis2Data out)).map (vis2Value out)) n := by
  have hi : ∀ t ∈ oi.vis2List, ∃ w, instTable oi t.insname = some w := by
    intro t ht
    obtain ⟨w, hw, e⟩ := hins t ht
    exact ⟨w, e ▸ find_unique hf.unique hw⟩
  obtain ⟨it, hit⟩ := C24_vis2_iter oi (some (noFlagged f)) n hf.wf.vis2 (by
    intro t ht _
    obtain ⟨w, hw⟩ := hi t ht
    obtain ⟨h1, h2⟩ := hf.vis2 t ht w hw
    exact ⟨w, h1, by rw [(instTable_wf hf.wf hw).eff_wave, h2]⟩)
  refine ⟨it, _, hit, ?_⟩
  rw [vis2_iter_unflagged hf (apply_oi_filter_spec hf h), ← yields_map]
  · rfl
  · intro t ht
    obtain ⟨w, hw⟩ := hi t ht
    rw [(hf.vis2 t ht w hw).1, hw]

/-- C57 for OI_VIS2. Iterating with a filter which rejects flagged data yields the same data
in the same order as are unflagged in the dataset after filtering. -/
theorem C57_vis2 (hf : Filterable f oi) (h : apply_oi_filter oi f = .ok out)
    (hfl : f.accept_flagged = false)
    (hins : ∀ t ∈ oi.vis2List, ∃ w ∈ oi.wavelengthList, w.insname = t.insname) (n : Nat) :
    ∃ it rs, calls vis2Kind n (iter_init vis2Kind oi (some f)) = .ok (it, rs) ∧
      rs.map (Option.map (vis2Value oi)) =
        yields ((select Vis2Unflagged (vis2Data out)).map (vis2Value out)) n := by
  obtain ⟨it, rs, h1, h2⟩ := C57_vis2_any hf h hins n
  rw [show ({ f with accept_flagged := false } : FilterSpec R) = f from noFlagged_eq hfl] at h1
  exact ⟨it, rs, h1, h2⟩

/-- C57 for OI_T3, with any filter: the data which are unflagged in the dataset after
filtering are those which iteration yields with the same criteria, flagged data being
rejected, in the same order. -/
theorem C57_t3_any (hf : Filterable f oi) (h : apply_oi_filter oi f = .ok out)
    (hins : ∀ t ∈ oi.t3List, ∃ w ∈ oi.wavelengthList, w.insname = t.insname) (n : Nat) :
    ∃ it rs, calls t3Kind n (iter_init t3Kind oi (some { f with accept_flagged := false })) =
        .ok (it, rs) ∧
      rs.map (Option.map (t3Value f oi)) =
        yields ((select T3Unflagged (t3Data out)).map (t3Value f out)) n := by
  have hi : ∀ t ∈ oi.t3List, ∃ w, instTable oi t.insname = some w := by
    intro t ht
    obtain ⟨w, hw, e⟩ := hins t ht
    exact ⟨w, e ▸ find_unique hf.unique hw⟩
  obtain ⟨it, hit⟩ := C24_t3_iter oi (some (noFlagged f)) n hf.wf.t3 (by
    intro t ht _
    obtain ⟨w, hw⟩ := hi t ht
    obtain ⟨h1, h2⟩ := hf.t3 t ht w hw
    exact ⟨w, h1, by rw [(instTable_wf hf.wf hw).eff_wave, h2]⟩)
  refine ⟨it, _, hit, ?_⟩
  rw [t3_iter_unflagged hf (apply_oi_filter_spec hf h), ← yields_map]
  · rfl
  · intro t ht
    obtain ⟨w, hw⟩ := hi t ht
    rw [(hf.t3 t ht w hw).1, hw]

/-- C57 for OI_T3. Iterating with a filter which rejects flagged data yields the same data
in the same order as are unflagged in the dataset after filtering. -/
theorem C57_t3 (hf : Filterable f oi) (h : apply_oi_filter oi f = .ok out)
    (hfl : f.accept_flagged = false)
    (hins : ∀ t ∈ oi.t3List, ∃ w ∈ oi.wavelengthList, w.insname = t.insname) (n : Nat) :
    ∃ it rs, calls t3Kind n (iter_init t3Kind oi (some f)) = .ok (it, rs) ∧
      rs.map (Option.map (t3Value f oi)) =
        yields ((select T3Unflagged (t3Data out)).map (t3Value f out)) n := by
  obtain ⟨it, rs, h1, h2⟩ := C57_t3_any hf h hins n
  rw [show ({ f with accept_flagged := false } : FilterSpec R) = f from noFlagged_eq hfl] at h1
  exact ⟨it, rs, h1, h2⟩

-- The hypotheses are met, and there are data that are selected and ones that are not.
example : ∀ t ∈ Ex.oi.vis2List, ∃ w ∈ Ex.oi.wavelengthList, w.insname = t.insname := by
  intro t ht
  simp only [Ex.oi, List.mem_cons, List.not_mem_nil, or_false, or_self] at ht
  subst ht
  exact ⟨Ex.wave, by simp [Ex.oi], rfl⟩
example : (fun x => x.2.map (Option.map (vis2Value Ex.oi))) <$>
    calls vis2Kind 3 (iter_init vis2Kind Ex.oi (some Ex.someFilter)) =
    .ok [some ("VLTI", "INS1", Ex.num 56974, Ex.num 30, Ex.num 40, (1, 2),
        some (Ex.numF (mkRat 1 1000000)), some (Ex.num (mkRat 1 2)), some (Ex.num (mkRat 1 10))),
      some ("VLTI", "INS1", Ex.num 56974, Ex.num 30, Ex.num 40, (1, 2),
        some (Ex.numF (mkRat 1 1000000)), some (Ex.num (mkRat 1 2)), some (Ex.num (mkRat 1 10))),
      none] := by decide +kernel

end Verif
