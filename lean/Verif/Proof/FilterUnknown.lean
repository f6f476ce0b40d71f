import Verif.Spec.FilterUnknown
import Verif.Proof.FilterOut
import Verif.Proof.FilterRec

/-! Lemmas for C30 about tables whose wavelengths are not known. -/

namespace Verif
open Outcome Spec

variable {R : FP} {f : FilterSpec R}

theorem filterRecs_inv {ρ : Type} {keep : ρ → Outcome Bool} {conv : ρ → Outcome ρ} {P : ρ → Prop}
    [DecidablePred P] {Q : ρ → ρ → Prop} :
    ∀ {l out : List ρ}, (∀ r ∈ l, keep r = .ok (decide (P r))) →
      (∀ r ∈ l, P r → ∀ r', conv r = .ok r' → Q r r') → filterRecs keep conv l = .ok out →
      List.Forall₂ Q (l.filter fun r => decide (P r)) out
  | [], out, _, _, h => by
    simp only [filterRecs, pure_eq, Outcome.ok.injEq] at h
    subst h; exact .nil
  | r :: l, out, hk, hc, h => by
    unfold filterRecs at h
    rw [hk r (by simp), bind_ok] at h
    by_cases hp : P r
    · rw [decide_eq_true hp, if_pos rfl] at h
      cases hr : conv r with
      | ok r' =>
        rw [hr, bind_ok] at h
        cases ht : filterRecs keep conv l with
        | ok l' =>
          rw [ht, bind_ok] at h
          cases h
          rw [List.filter_cons, if_pos (by simp [hp])]
          exact .cons (hc r (by simp) hp r' hr) (filterRecs_inv
            (fun x hx => hk x (by simp [hx])) (fun x hx => hc x (by simp [hx])) ht)
        | abort => rw [ht] at h; cases h
        | ub => rw [ht] at h; cases h
      | abort => rw [hr] at h; cases h
      | ub => rw [hr] at h; cases h
    · rw [decide_eq_false hp] at h
      rw [List.filter_cons, if_neg (by simp [hp])]
      exact filterRecs_inv (fun x hx => hk x (by simp [hx])) (fun x hx => hc x (by simp [hx])) h

theorem flagsFrom_map {ks : List Nat} {P : Nat → Prop} {flag : List Bool}
    [DecidablePred fun j => flag[j]? = some true ∨ ¬ P j] :
    FlagsFrom ks P flag (ks.map fun j => decide (flag[j]? = some true ∨ ¬ P j)) :=
  ⟨by simp, fun k j hk => ⟨decide (flag[j]? = some true ∨ ¬ P j), by
    rw [List.getElem?_map, hk]; rfl, decide_eq_true_iff⟩⟩

theorem someGood_guard {f : FilterSpec R} {b : Bool} {γ : Type} {g : Outcome γ} {x : γ}
    (h : (do guardAssert (f.accept_flagged || b); g) = .ok x) : g = .ok x := by
  cases hb : (f.accept_flagged || b) with
  | true => rw [hb] at h; exact h
  | false => rw [hb] at h; cases h

open Classical in
/-- The tests on a record, from those on flags. -/
theorem keep_point {f : FilterSpec R} {target : Int} {mjd base : R.Dbl} {x : Outcome Bool} {G : Prop}
    (h : f.accept_flagged = false → x = .ok (decide G)) :
    (if targetSkip f target then return false
      else if outsideD f.mjd_range mjd then return false
      else if outsideD f.bas_range base then return false
      else do
        let skip ← flaggedSkip f x
        return !skip : Outcome Bool) =
      .ok (decide (PointOk f target mjd [base] ∧ (f.accept_flagged = true ∨ G))) := by
  rw [flaggedSkip_ok h, targetSkip_eq, outsideD_eq, outsideD_eq]
  unfold PointOk
  by_cases h1 : TargetOk f target <;> simp [h1]
  by_cases h2 : InD f.mjd_range mjd <;> simp [h2]
  by_cases h3 : InD f.bas_range base <;> simp [h3]

section vis2
variable {r r' : OiVis2Record R} {u : List Bool} {n : Nat}

open Classical in
theorem vis2ChanOk_unknown (hr : r.WF n) (hu : u.length = n) {j : Nat} (hj : j < n) :
    vis2ChanOk f none u r j =
      .ok (decide (u[j]? = some true ∧ (r.flag[j]? = some false ∧ Vis2Snr f r j))) := by
  have e1 : j < u.length := hu ▸ hj
  have e2 : j < r.flag.length := hr.flag ▸ hj
  have e3 : j < r.vis2data.length := hr.vis2data ▸ hj
  have e4 : j < r.vis2err.length := hr.vis2err ▸ hj
  unfold vis2ChanOk
  simp only [index_of_lt e1, index_of_lt e2, index_of_lt e3, index_of_lt e4, bind_ok,
    uvradOutside, pure_eq, snrAmp_out e3 e4, mask_some e1, flag_some e2, Vis2Snr]
  cases u[j] <;> cases r.flag[j] <;> simp

open Classical in
theorem vis2NewFlag_unknown (hr : r.WF n) {j : Nat} (hj : j < n) :
    vis2NewFlag f none r j = .ok (decide (r.flag[j]? = some true ∨ ¬ Vis2Snr f r j)) := by
  have e2 : j < r.flag.length := hr.flag ▸ hj
  have e3 : j < r.vis2data.length := hr.vis2data ▸ hj
  have e4 : j < r.vis2err.length := hr.vis2err ▸ hj
  unfold vis2NewFlag
  simp only [index_of_lt e2, index_of_lt e3, index_of_lt e4, bind_ok, uvradOutside, pure_eq,
    snrAmp_out e3 e4, flag_some e2, Vis2Snr]
  cases r.flag[j] <;> simp

open Classical in
theorem filter_oi_vis2_record_unknown (hr : r.WF n) (hu : u.length = n)
    (h : filter_oi_vis2_record f none u n (usedIdx n u).length r = .ok r') :
    r'.vis2data = pick (usedIdx n u) r.vis2data ∧ r'.vis2err = pick (usedIdx n u) r.vis2err ∧
      r'.flag = (usedIdx n u).map fun j => decide (r.flag[j]? = some true ∨ ¬ Vis2Snr f r j) := by
  unfold filter_oi_vis2_record at h
  have hloop := useLoop_ok (n := n) (u := u) (by omega)
    (body := filterVis2Chan f none (usedIdx n u).length r)
    (fun pre => ⟨pre.length, pick pre r.vis2data, pick pre r.vis2err,
      pre.map fun j => decide (r.flag[j]? = some true ∨ ¬ Vis2Snr f r j)⟩)
    (fun pre j post h => by
      have hj : j < n := (mem_usedIdx.mp (h ▸ List.mem_append_right pre (List.mem_cons_self ..))).1
      have e3 : j < r.vis2data.length := hr.vis2data ▸ hj
      have e4 : j < r.vis2err.length := hr.vis2err ▸ hj
      unfold filterVis2Chan
      simp only [checkWrite_ok h, bind_ok, index_of_lt e3, index_of_lt e4,
        vis2NewFlag_unknown hr hj, pick_snoc e3, pick_snoc e4, List.map_append, List.length_append]
      rfl)
  simp only [pick_nil, List.length_nil, List.map_nil] at hloop
  rw [hloop] at h
  cases hm : chkmallocN (usedIdx n u).length with
  | ok _ =>
    rw [hm, bind_ok, bind_ok] at h
    have h := someGood_guard h
    cases h
    exact ⟨rfl, rfl, rfl⟩
  | abort => rw [hm] at h; cases h
  | ub => rw [hm] at h; cases h

end vis2


section vis
variable {r r' : OiVisRecord R} {u : List Bool} {n : Nat} {refmap complex : Bool}

open Classical in
theorem visChanOk_unknown (hr : r.WF n refmap complex) (hu : u.length = n) {j : Nat} (hj : j < n) :
    visChanOk f none u r j =
      .ok (decide (u[j]? = some true ∧ (r.flag[j]? = some false ∧ VisSnr f r j))) := by
  have e1 : j < u.length := hu ▸ hj
  have e2 : j < r.flag.length := hr.flag ▸ hj
  have e3 : j < r.visamp.length := hr.visamp ▸ hj
  have e4 : j < r.visamperr.length := hr.visamperr ▸ hj
  have e6 : j < r.visphierr.length := hr.visphierr ▸ hj
  unfold visChanOk
  simp only [index_of_lt e1, index_of_lt e2, index_of_lt e3, index_of_lt e4, index_of_lt e6,
    bind_ok, uvradOutside, pure_eq, snrAmp_out e3 e4, snrPhi_out e6, mask_some e1, flag_some e2,
    VisSnr]
  cases u[j] <;> cases r.flag[j] <;> simp

open Classical in
theorem visNewFlag_unknown (hr : r.WF n refmap complex) {j : Nat} (hj : j < n) :
    visNewFlag f none r j = .ok (decide (r.flag[j]? = some true ∨ ¬ VisSnr f r j)) := by
  have e2 : j < r.flag.length := hr.flag ▸ hj
  have e3 : j < r.visamp.length := hr.visamp ▸ hj
  have e4 : j < r.visamperr.length := hr.visamperr ▸ hj
  have e6 : j < r.visphierr.length := hr.visphierr ▸ hj
  unfold visNewFlag
  simp only [index_of_lt e2, index_of_lt e3, index_of_lt e4, index_of_lt e6, bind_ok,
    uvradOutside, pure_eq, snrAmp_out e3 e4, snrPhi_out e6, flag_some e2, VisSnr]
  cases r.flag[j] <;> simp

open Classical in
theorem filter_oi_vis_record_unknown (hr : r.WF n refmap complex) (hu : u.length = n)
    (h : filter_oi_vis_record f none u n (usedIdx n u).length refmap complex r = .ok r') :
    r'.visamp = pick (usedIdx n u) r.visamp ∧ r'.visamperr = pick (usedIdx n u) r.visamperr ∧
      r'.visphi = pick (usedIdx n u) r.visphi ∧ r'.visphierr = pick (usedIdx n u) r.visphierr ∧
      r'.flag = (usedIdx n u).map fun j => decide (r.flag[j]? = some true ∨ ¬ VisSnr f r j) := by
  unfold filter_oi_vis_record at h
  have hloop := useLoop_ok (n := n) (u := u) (by omega)
    (body := filterVisChan f none u n (usedIdx n u).length refmap complex r)
    (fun pre => ⟨pre.length, pick pre r.visamp, pick pre r.visamperr, pick pre r.visphi,
      pick pre r.visphierr,
      pre.map fun j => decide (r.flag[j]? = some true ∨ ¬ VisSnr f r j),
      rowsOpt n (usedIdx n u) pre r.visrefmap, pickOpt pre r.rvis, pickOpt pre r.rviserr,
      pickOpt pre r.ivis, pickOpt pre r.iviserr⟩)
    (fun pre j post h => by
      have hj : j < n := (mem_usedIdx.mp (h ▸ List.mem_append_right pre (List.mem_cons_self ..))).1
      have e1 : j < r.visamp.length := hr.visamp ▸ hj
      have e2 : j < r.visamperr.length := hr.visamperr ▸ hj
      have e3 : j < r.visphi.length := hr.visphi ▸ hj
      have e4 : j < r.visphierr.length := hr.visphierr ▸ hj
      unfold filterVisChan
      simp only [checkWrite_ok h, bind_ok, index_of_lt e1, index_of_lt e2, index_of_lt e3,
        index_of_lt e4, visNewFlag_unknown hr hj, pick_snoc e1, pick_snoc e2, pick_snoc e3,
        pick_snoc e4, List.map_append, List.length_append, visRefmapIf_ok hr hu h,
        copyIf_ok hr.rvis hj, copyIf_ok hr.rviserr hj, copyIf_ok hr.ivis hj,
        copyIf_ok hr.iviserr hj]
      rfl)
  simp only [pick_nil, pickOpt_nil, rowsOpt_nil, List.length_nil, List.map_nil] at hloop
  rw [hloop] at h
  cases hm : chkmallocN (usedIdx n u).length with
  | ok _ =>
    rw [hm, bind_ok, bind_ok] at h
    have h := someGood_guard h
    cases h
    exact ⟨rfl, rfl, rfl, rfl, rfl⟩
  | abort => rw [hm] at h; cases h
  | ub => rw [hm] at h; cases h

end vis


section t3
variable {r r' : OiT3Record R} {u : List Bool} {n : Nat}

open Classical in
theorem t3NewFlag_unknown (hr : r.WF n) {j : Nat} (hj : j < n) :
    t3NewFlag f none r j = .ok (decide (r.flag[j]? = some true ∨ ¬ T3Snr f r j)) := by
  have e1 : j < r.t3amp.length := hr.t3amp ▸ hj
  have e2 : j < r.t3amperr.length := hr.t3amperr ▸ hj
  have e3 : j < r.t3phierr.length := hr.t3phierr ▸ hj
  have e4 : j < r.flag.length := hr.flag ▸ hj
  unfold t3NewFlag
  simp only [index_of_lt e1, index_of_lt e2, index_of_lt e3, index_of_lt e4, bind_ok,
    uvradOutside, pure_eq, snrAmp_out e1 e2, snrPhi_out e3, flag_some e4, T3Snr]
  by_cases hD : SnrAmpOk f r.t3amp r.t3amperr j <;>
  by_cases hE : SnrPhiOk f r.t3phierr j <;>
    cases r.flag[j] <;> cases f.accept_t3amp <;> cases f.accept_t3phi <;> simp [hD, hE]

open Classical in
/-- The loop over the channels of an OI_T3 record. -/
theorem filterT3_loop_unknown (hr : r.WF n) (hu : u.length = n) :
    useLoop n u (filterT3Chan f none (usedIdx n u).length r) ⟨0, [], [], [], [], []⟩ =
      .ok ⟨(usedIdx n u).length, pickOrNaN f.accept_t3amp (usedIdx n u) r.t3amp,
        pick (usedIdx n u) r.t3amperr, pickOrNaN f.accept_t3phi (usedIdx n u) r.t3phi,
        pick (usedIdx n u) r.t3phierr,
        (usedIdx n u).map fun j => decide (r.flag[j]? = some true ∨ ¬ T3Snr f r j)⟩ := by
  have hloop := useLoop_ok (n := n) (u := u) (by omega)
    (body := filterT3Chan f none (usedIdx n u).length r)
    (fun pre => ⟨pre.length, pickOrNaN f.accept_t3amp pre r.t3amp, pick pre r.t3amperr,
      pickOrNaN f.accept_t3phi pre r.t3phi, pick pre r.t3phierr,
      pre.map fun j => decide (r.flag[j]? = some true ∨ ¬ T3Snr f r j)⟩)
    (fun pre j post h => by
      have hj : j < n := (mem_usedIdx.mp (h ▸ List.mem_append_right pre (List.mem_cons_self ..))).1
      have e1 : j < r.t3amp.length := hr.t3amp ▸ hj
      have e2 : j < r.t3amperr.length := hr.t3amperr ▸ hj
      have e3 : j < r.t3phi.length := hr.t3phi ▸ hj
      have e4 : j < r.t3phierr.length := hr.t3phierr ▸ hj
      unfold filterT3Chan
      simp only [checkWrite_ok h, bind_ok, index_of_lt e1, index_of_lt e2, index_of_lt e3,
        index_of_lt e4, t3NewFlag_unknown hr hj, pickOrNaN_snoc e1, pick_snoc e2,
        pickOrNaN_snoc e3, pick_snoc e4, List.map_append, List.length_append]
      rfl)
  simpa only [pick_nil, pickOrNaN_nil, List.length_nil, List.map_nil] using hloop

open Classical in
/-- The tests on an OI_T3 record. -/
theorem t3Keep_unknown :
    t3Keep f none u n r = .ok (decide (PointOk f r.target_id r.mjd [baseline r.u1coord r.v1coord,
      baseline r.u2coord r.v2coord,
      baseline (R.add r.u1coord r.u2coord) (R.add r.v1coord r.v2coord)])) := by
  have hs : flaggedSkip f (any_t3_chan_ok f none u n r) = .ok false := by
    unfold flaggedSkip any_t3_chan_ok
    cases f.accept_flagged <;> rfl
  unfold t3Keep
  rw [hs, targetSkip_eq, outsideD_eq, outsideD_eq, outsideD_eq, outsideD_eq]
  have : PointOk f r.target_id r.mjd [baseline r.u1coord r.v1coord, baseline r.u2coord r.v2coord,
      baseline (R.add r.u1coord r.u2coord) (R.add r.v1coord r.v2coord)] ↔
      TargetOk f r.target_id ∧ InD f.mjd_range r.mjd ∧
      InD f.bas_range (hypot2 r.u1coord r.v1coord) ∧
      InD f.bas_range (hypot2 r.u2coord r.v2coord) ∧
      InD f.bas_range (hypot2 (R.add r.u1coord r.u2coord) (R.add r.v1coord r.v2coord)) := by
    simp [PointOk, baseline, hypot2]
  simp only [this]
  by_cases h1 : TargetOk f r.target_id <;> simp [h1]
  by_cases h2 : InD f.mjd_range r.mjd <;> simp [h2]
  by_cases h3 : InD f.bas_range (hypot2 r.u1coord r.v1coord) <;> simp [h3]
  by_cases h4 : InD f.bas_range (hypot2 r.u2coord r.v2coord) <;> simp [h4]
  by_cases h5 : InD f.bas_range (hypot2 (R.add r.u1coord r.u2coord) (R.add r.v1coord r.v2coord)) <;>
    simp [h5]

end t3

end Verif
