import Verif.Proof.FilterUnknown
import Verif.Spec.ExampleFilter

/-! C30 for tables whose wavelengths are not known: the functions which filter one table
accept NULL for the wavelength table (oifilter.c:968-972 passes it on with a warning). -/

namespace Verif
open Outcome Spec

variable {R : FP} {f : FilterSpec R}

open Classical in
/-- C30 for an OI_VIS2 table whose wavelengths are not known. The limits on UV radius are not
applied: the records kept, and the flags, depend on the other criteria alone. -/
theorem C30_vis2_unknown {t t' : OiVis2 R} {u : List Bool} (ht : t.WF) (hu : u.length = t.nwave)
    (h : filter_oi_vis2 t f none u = .ok t') :
    List.Forall₂ (fun r r' => AtChans (maskChans t.nwave u) r.vis2data r'.vis2data ∧
        AtChans (maskChans t.nwave u) r.vis2err r'.vis2err ∧
        FlagsFrom (maskChans t.nwave u) (Vis2Snr f r) r.flag r'.flag)
      (t.record.filter fun r => decide (PointOk f r.target_id r.mjd [baseline r.ucoord r.vcoord] ∧
        SomeGood f (maskChans t.nwave u) (Vis2Snr f r) r.flag)) t'.record := by
  unfold filter_oi_vis2 at h
  rw [countUse_ok (by omega), bind_ok] at h
  cases hm : chkmallocN t.record.length with
  | abort => rw [hm] at h; cases h
  | ub => rw [hm] at h; cases h
  | ok _ =>
    rw [hm, bind_ok] at h
    cases hr : filterRecs (vis2Keep f none u t.nwave)
        (filter_oi_vis2_record f none u t.nwave (usedIdx t.nwave u).length) t.record with
    | abort => rw [hr] at h; cases h
    | ub => rw [hr] at h; cases h
    | ok recs =>
      rw [hr, bind_ok] at h
      cases h
      refine filterRecs_inv (fun r hx => ?_) (fun r hx _ r' hc => ?_) hr
      · refine (keep_point (G := ∃ j ∈ usedIdx t.nwave u, r.flag[j]? = some false ∧ Vis2Snr f r j)
          (fun _ => ?_)).trans (congrArg Outcome.ok (decide_eq_decide.mpr Iff.rfl))
        unfold any_vis2_chan_ok
        rw [anyLoop_ok (fun j hj => vis2ChanOk_unknown (ht.recs r hx) hu (List.mem_range.mp hj)),
          any_used (P := fun j => r.flag[j]? = some false ∧ Vis2Snr f r j)]
        exact congrArg Outcome.ok (decide_eq_decide.mpr Iff.rfl)
      · obtain ⟨h1, h2, h3⟩ := filter_oi_vis2_record_unknown (ht.recs r hx) hu hc
        have hw := ht.recs r hx
        rw [h1, h2, h3]
        exact ⟨atChans_pick fun j hj => hw.vis2data ▸ (mem_usedIdx.mp hj).1,
          atChans_pick fun j hj => hw.vis2err ▸ (mem_usedIdx.mp hj).1, flagsFrom_map⟩

open Classical in
/-- C30 for an OI_VIS table whose wavelengths are not known. -/
theorem C30_vis_unknown {t t' : OiVis R} {u : List Bool} (ht : t.WF) (hu : u.length = t.nwave)
    (h : filter_oi_vis t f none u = .ok t') :
    List.Forall₂ (fun r r' => AtChans (maskChans t.nwave u) r.visamp r'.visamp ∧
        AtChans (maskChans t.nwave u) r.visamperr r'.visamperr ∧
        AtChans (maskChans t.nwave u) r.visphi r'.visphi ∧
        AtChans (maskChans t.nwave u) r.visphierr r'.visphierr ∧
        FlagsFrom (maskChans t.nwave u) (VisSnr f r) r.flag r'.flag)
      (t.record.filter fun r => decide (PointOk f r.target_id r.mjd [baseline r.ucoord r.vcoord] ∧
        SomeGood f (maskChans t.nwave u) (VisSnr f r) r.flag)) t'.record := by
  unfold filter_oi_vis at h
  rw [countUse_ok (by omega), bind_ok] at h
  cases hm : chkmallocN t.record.length with
  | abort => rw [hm] at h; cases h
  | ub => rw [hm] at h; cases h
  | ok _ =>
    rw [hm, bind_ok] at h
    cases hr : filterRecs (visKeep f none u t.nwave)
        (filter_oi_vis_record f none u t.nwave (usedIdx t.nwave u).length t.usevisrefmap
          t.usecomplex) t.record with
    | abort => rw [hr] at h; cases h
    | ub => rw [hr] at h; cases h
    | ok recs =>
      rw [hr, bind_ok] at h
      cases h
      refine filterRecs_inv (fun r hx => ?_) (fun r hx _ r' hc => ?_) hr
      · refine (keep_point (G := ∃ j ∈ usedIdx t.nwave u, r.flag[j]? = some false ∧ VisSnr f r j)
          (fun _ => ?_)).trans (congrArg Outcome.ok (decide_eq_decide.mpr Iff.rfl))
        unfold any_vis_chan_ok
        rw [anyLoop_ok (fun j hj => visChanOk_unknown (ht.recs r hx) hu (List.mem_range.mp hj)),
          any_used (P := fun j => r.flag[j]? = some false ∧ VisSnr f r j)]
        exact congrArg Outcome.ok (decide_eq_decide.mpr Iff.rfl)
      · obtain ⟨h1, h2, h3, h4, h5⟩ := filter_oi_vis_record_unknown (ht.recs r hx) hu hc
        have hw := ht.recs r hx
        rw [h1, h2, h3, h4, h5]
        exact ⟨atChans_pick fun j hj => hw.visamp ▸ (mem_usedIdx.mp hj).1,
          atChans_pick fun j hj => hw.visamperr ▸ (mem_usedIdx.mp hj).1,
          atChans_pick fun j hj => hw.visphi ▸ (mem_usedIdx.mp hj).1,
          atChans_pick fun j hj => hw.visphierr ▸ (mem_usedIdx.mp hj).1, flagsFrom_map⟩

open Classical in
/-- C30 for an OI_T3 table whose wavelengths are not known. Records are kept even if all their
data are flagged, but filtering succeeds only if flagged records are accepted or there is no
such record. -/
theorem C30_t3_unknown {t t' : OiT3 R} {u : List Bool} (ht : t.WF) (hu : u.length = t.nwave)
    (h : filter_oi_t3 t f none u = .ok t') :
    List.Forall₂ (fun r r' => AtChansOrNaN f.accept_t3amp (maskChans t.nwave u) r.t3amp r'.t3amp ∧
        AtChans (maskChans t.nwave u) r.t3amperr r'.t3amperr ∧
        AtChansOrNaN f.accept_t3phi (maskChans t.nwave u) r.t3phi r'.t3phi ∧
        AtChans (maskChans t.nwave u) r.t3phierr r'.t3phierr ∧
        FlagsFrom (maskChans t.nwave u) (T3Snr f r) r.flag r'.flag ∧
        SomeGood f (maskChans t.nwave u) (T3Snr f r) r.flag)
      (t.record.filter fun r => decide (PointOk f r.target_id r.mjd [baseline r.u1coord r.v1coord,
        baseline r.u2coord r.v2coord,
        baseline (R.add r.u1coord r.u2coord) (R.add r.v1coord r.v2coord)])) t'.record := by
  unfold filter_oi_t3 at h
  rw [countUse_ok (by omega), bind_ok] at h
  cases hm : chkmallocN t.record.length with
  | abort => rw [hm] at h; cases h
  | ub => rw [hm] at h; cases h
  | ok _ =>
    rw [hm, bind_ok] at h
    cases hr : filterRecs (t3Keep f none u t.nwave)
        (filter_oi_t3_record f none u t.nwave (usedIdx t.nwave u).length) t.record with
    | abort => rw [hr] at h; cases h
    | ub => rw [hr] at h; cases h
    | ok recs =>
      rw [hr, bind_ok] at h
      cases h
      refine filterRecs_inv (fun r hx => t3Keep_unknown) (fun r hx _ r' hc => ?_) hr
      have hw := ht.recs r hx
      unfold filter_oi_t3_record at hc
      rw [filterT3_loop_unknown hw hu] at hc
      cases hn : chkmallocN (usedIdx t.nwave u).length with
      | abort => rw [hn] at hc; cases hc
      | ub => rw [hn] at hc; cases hc
      | ok _ =>
        rw [hn, bind_ok, bind_ok] at hc
        have hg : SomeGood f (maskChans t.nwave u) (T3Snr f r) r.flag := by
          by_contra hno
          have hb : (f.accept_flagged || ((usedIdx t.nwave u).map fun j =>
              decide (r.flag[j]? = some true ∨ ¬ T3Snr f r j)).any (!·)) = false := by
            unfold SomeGood at hno
            push Not at hno
            obtain ⟨ha, hno⟩ := hno
            rw [Bool.or_eq_false_iff]
            refine ⟨by simpa using ha, ?_⟩
            rw [List.any_eq_false]
            intro b hb
            obtain ⟨j, hj, rfl⟩ := List.mem_map.mp hb
            have e : j < r.flag.length := hw.flag ▸ (mem_usedIdx.mp hj).1
            have := hno j hj
            rw [List.getElem?_eq_getElem e] at this ⊢
            cases hf : r.flag[j] <;> simp_all
          dsimp only at hc
          rw [hb] at hc
          cases hc
        have hc := someGood_guard hc
        cases hc
        exact ⟨atChansOrNaN fun j hj => hw.t3amp ▸ (mem_usedIdx.mp hj).1,
          atChans_pick fun j hj => hw.t3amperr ▸ (mem_usedIdx.mp hj).1,
          atChansOrNaN fun j hj => hw.t3phi ▸ (mem_usedIdx.mp hj).1,
          atChans_pick fun j hj => hw.t3phierr ▸ (mem_usedIdx.mp hj).1, flagsFrom_map, hg⟩

-- With limits on UV radius which no datum of the example meets: nothing is flagged for that if
-- the wavelengths are not known, and everything is if they are. The second record is left out
-- as all of its data are flagged in the input.
example : (fun t => t.record.map fun r => (r.vis2data.length, r.flag)) <$>
    filter_oi_vis2 Ex.vis2 { init_oi_filter FP.ratFP with
      accept_flagged := false, uvrad_range := (Ex.num (-2), Ex.num (-1)) } none [true, true] =
      .ok [(2, [false, false]), (2, [true, false])] := by decide +kernel
example : (fun t => t.record.map fun r => (r.vis2data.length, r.flag)) <$>
    filter_oi_vis2 Ex.vis2 { init_oi_filter FP.ratFP with
      uvrad_range := (Ex.num (-2), Ex.num (-1)) } (some Ex.wave) [true, true] =
      .ok [(2, [true, true]), (2, [true, true]), (2, [true, true])] := by decide +kernel

end Verif
