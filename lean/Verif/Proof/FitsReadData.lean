import Verif.Proof.FitsReadTab

/-! Reading back the data tables written. -/

namespace Verif
open Outcome

variable {R : FP} {α β γ : Type}

/-- One step of reading an array column. -/
macro "ra" c:term:max hl:term:max hp:term:max : tactic => `(tactic| first
  | refine (FitsM.bind_ok (readArr_dbls ‹At _ _› rfl $c (by assumption) rfl $hl $hp _) _).trans ?_
  | refine (FitsM.bind_ok (readArr_logs ‹At _ _› rfl $c (by assumption) rfl $hl $hp _) _).trans ?_
  | refine (FitsM.bind_ok (readArr_ints ‹At _ _› rfl $c (by decide) (by decide) (by assumption) rfl $hl $hp _) _).trans ?_)

theorem readCorrname_eq {s : FState R} {h : Hdu R} (hs : At s h) {v : CStr}
    (hk : h.keys.lookup ("CORRNAME" : CStr) = if v = [] then none else some (.str (keyStr v))) (old : CStr) :
    readCorrname 2 old s = .ok ((decide (v ≠ []), keyStr v), s) := by
  rw [readCorrname, if_pos (by decide)]
  rd hk
  by_cases hc : v = []
  · subst hc; rfl
  · simp [hc]

theorem readColUnit_some {s : FState R} {h : Hdu R} (hs : At s h) {k : Nat} {c : Col R}
    (hc : h.cols[k]? = some c) {v : CStr} (hu : c.unit = some v) (dst : CStr) :
    readColUnit (k + 1) dst s = .ok (v, s) :=
  cfRead_ok hs (by simp [hc, hu]) dst

theorem readColUnit_none {s : FState R} {h : Hdu R} (hs : At s h) {k : Nat} {c : Col R}
    (hc : h.cols[k]? = some c) (hu : c.unit = none) (dst : CStr) :
    readColUnit (k + 1) dst s = .ok (dst, { s with status := .KEY_NO_EXIST }) :=
  cfRead_error hs (by simp [hc, hu]) dst

theorem calstat_read (c : Char) :
    (keyStr (if c = '\x00' then [] else [c])).headD '\x00' = if c = ' ' then '\x00' else c := by
  by_cases h0 : c = '\x00'
  · subst h0; rfl
  · rw [if_neg h0]
    have hf : cardFit 68 [c] = [c] := by
      simp only [cardFit]
      by_cases hq : c = '\'' <;> simp [hq]
    rw [keyStr, hf, rtrim]
    by_cases hs : c = ' '
    · simp [hs]
    · simp [hs]

/-! ### OI_VIS2 -/

section
variable {s : FState R} {t : OiVis2 R} {v : Int}

theorem readVis2Record_eq (hs : At s (Spec.hduVis2 t v)) (ht : t.WF) (u : Undef R)
    {i : Nat} {r : OiVis2Record R} (hr : t.record[i]? = some r) :
    readVis2Record u t.nwave (decide (t.corrname ≠ [])) (i + 1) s = .ok ({ r with
        time := R.lit 0.0
        corrindx_vis2data := if t.corrname = [] then u.int else r.corrindx_vis2data }, s) := by
  have hp : 0 < t.nwave := Nat.pos_of_ne_zero ht.chans
  have hw := ht.recs r (List.mem_of_getElem? hr)
  have c1 : colAt (Spec.hduVis2 t v).cols "TARGET_ID" = some (Spec.intsCol "TARGET_ID" .I 1 t.record (fun r => [r.target_id])) := rfl
  have c2 : colAt (Spec.hduVis2 t v).cols "TIME" = some (Spec.dblsCol "TIME" 1 (some "s") t.record (fun _ => [R.lit 0.0])) := rfl
  have c3 : colAt (Spec.hduVis2 t v).cols "MJD" = some (Spec.dblsCol "MJD" 1 (some "day") t.record (fun r => [r.mjd])) := rfl
  have c4 : colAt (Spec.hduVis2 t v).cols "INT_TIME" = some (Spec.dblsCol "INT_TIME" 1 (some "s") t.record (fun r => [r.int_time])) := rfl
  have c5 : colAt (Spec.hduVis2 t v).cols "VIS2DATA" = some (Spec.dblsCol "VIS2DATA" t.nwave none t.record (·.vis2data)) := rfl
  have c6 : colAt (Spec.hduVis2 t v).cols "VIS2ERR" = some (Spec.dblsCol "VIS2ERR" t.nwave none t.record (·.vis2err)) := rfl
  have c7 : colAt (Spec.hduVis2 t v).cols "UCOORD" = some (Spec.dblsCol "UCOORD" 1 (some "m") t.record (fun r => [r.ucoord])) := by
    cases h : t.corrname <;> (simp only [Spec.hduVis2, h]; rfl)
  have c8 : colAt (Spec.hduVis2 t v).cols "VCOORD" = some (Spec.dblsCol "VCOORD" 1 (some "m") t.record (fun r => [r.vcoord])) := by
    cases h : t.corrname <;> (simp only [Spec.hduVis2, h]; rfl)
  have c9 : colAt (Spec.hduVis2 t v).cols "STA_INDEX" = some (Spec.intsCol "STA_INDEX" .I 2 t.record (fun r => [r.sta_index.1, r.sta_index.2])) := by
    cases h : t.corrname <;> (simp only [Spec.hduVis2, h]; rfl)
  have c10 : colAt (Spec.hduVis2 t v).cols "FLAG" = some (Spec.logsCol "FLAG" t.nwave none t.record (·.flag)) := by
    cases h : t.corrname <;> (simp only [Spec.hduVis2, h]; rfl)
  unfold readVis2Record
  rc c1; rc c2; rc c3; rc c4
  ra c5 hw.vis2data hp; ra c6 hw.vis2err hp
  rc c7; rc c8
  ra c9 rfl (by decide); ra c10 hw.flag hp
  by_cases hc : t.corrname = []
  · simp [readCorrindx, hc]
  · have c11 : colAt (Spec.hduVis2 t v).cols "CORRINDX_VIS2DATA"
        = some (Spec.intsCol "CORRINDX_VIS2DATA" .J 1 t.record (fun r => [r.corrindx_vis2data])) := by
      cases h : t.corrname
      · exact absurd h hc
      · simp only [Spec.hduVis2, h]; rfl
    simp only [ne_eq, hc, not_false_eq_true, decide_true, readCorrindx, if_true]
    rc c11
    simp

theorem read_next_oi_vis2_eq {s s' : FState R} (hok : s.status = .ok)
    (hmv : next_named_hdu "OI_VIS2" s = .ok ((), s')) (hs : At s' (Spec.hduVis2 t v))
    (ht : t.WF) (u : Undef R) (old : OiVis2 R) :
    read_next_oi_vis2 u old s = .ok (t.asRead u.int, s') := by
  have hb : (Spec.hduVis2 t v).type = .binary := rfl
  have hn : (Spec.hduVis2 t v).nrows = t.record.length := rfl
  have k1 : (Spec.hduVis2 t v).keys.lookup ("OI_REVN" : CStr) = some (.int 2) := rfl
  have k2 : (Spec.hduVis2 t v).keys.lookup ("DATE-OBS" : CStr) = some (.str (keyStr t.date_obs)) := rfl
  have k3 : (Spec.hduVis2 t v).keys.lookup ("ARRNAME" : CStr)
      = if t.arrname = [] then none else some (.str (keyStr t.arrname)) := by
    cases h : t.arrname <;> cases h' : t.corrname <;> (simp only [Spec.hduVis2, h, h']; rfl)
  have k4 : (Spec.hduVis2 t v).keys.lookup ("INSNAME" : CStr) = some (.str (keyStr t.insname)) := by
    cases h : t.arrname <;> (simp only [Spec.hduVis2, h]; rfl)
  have k5 : (Spec.hduVis2 t v).keys.lookup ("CORRNAME" : CStr)
      = if t.corrname = [] then none else some (.str (keyStr t.corrname)) := by
    cases h : t.arrname <;> cases h' : t.corrname <;> (simp only [Spec.hduVis2, h, h']; rfl)
  have c1 : colAt (Spec.hduVis2 t v).cols "VIS2DATA" = some (Spec.dblsCol "VIS2DATA" t.nwave none t.record (·.vis2data)) := rfl
  obtain ⟨k, hk, -, hty⟩ := coltype_of_colAt hs hb c1 (.A, 0)
  unfold read_next_oi_vis2
  rw [guardStatus_ok hok]; rb hmv
  rw [guardStatus_ok hs.ok]; rd k1
  rw [guardStatus_ok hs.ok]; rd k2; rd k3; rd k4; rb (readCorrname_eq hs k5 _)
  rb (get_num_rows hs hb _); rb hk; rb hty
  refine (guardStatus_ok hs.ok _ _).trans ?_
  rw [hn]
  have ha : allocRecords t.record.length (Spec.dblsCol (R := R) "VIS2DATA" t.nwave none t.record (·.vis2data)).rep = .ok () :=
    allocRecords_ok (by simpa using ht.rows) ht.chans
  rw [ha]; rb (FitsM.run_lift_ok () s')
  rb (forRows_map_one t.record _ _ fun i e he => readVis2Record_eq hs ht u he)
  rfl

end

/-! ### OI_T3 -/

section
variable {s : FState R} {t : OiT3 R} {v : Int}

theorem readT3Record_eq (hs : At s (Spec.hduT3 t v)) (ht : t.WF) (u : Undef R)
    {i : Nat} {r : OiT3Record R} (hr : t.record[i]? = some r) :
    readT3Record u t.nwave (decide (t.corrname ≠ [])) (i + 1) s = .ok ({ r with
        time := R.lit 0.0
        corrindx_t3amp := if t.corrname = [] then u.int else r.corrindx_t3amp
        corrindx_t3phi := if t.corrname = [] then u.int else r.corrindx_t3phi }, s) := by
  have hp : 0 < t.nwave := Nat.pos_of_ne_zero ht.chans
  have hw := ht.recs r (List.mem_of_getElem? hr)
  have c1 : colAt (Spec.hduT3 t v).cols "TARGET_ID" = some (Spec.intsCol "TARGET_ID" .I 1 t.record (fun r => [r.target_id])) := rfl
  have c2 : colAt (Spec.hduT3 t v).cols "TIME" = some (Spec.dblsCol "TIME" 1 (some "s") t.record (fun _ => [R.lit 0.0])) := rfl
  have c3 : colAt (Spec.hduT3 t v).cols "MJD" = some (Spec.dblsCol "MJD" 1 (some "day") t.record (fun r => [r.mjd])) := rfl
  have c4 : colAt (Spec.hduT3 t v).cols "INT_TIME" = some (Spec.dblsCol "INT_TIME" 1 (some "s") t.record (fun r => [r.int_time])) := rfl
  have c5 : colAt (Spec.hduT3 t v).cols "T3AMP" = some (Spec.dblsCol "T3AMP" t.nwave none t.record (·.t3amp)) := rfl
  have c6 : colAt (Spec.hduT3 t v).cols "T3AMPERR" = some (Spec.dblsCol "T3AMPERR" t.nwave none t.record (·.t3amperr)) := rfl
  have c7 : colAt (Spec.hduT3 t v).cols "T3PHI" = some (Spec.dblsCol "T3PHI" t.nwave (some "deg") t.record (·.t3phi)) := by
    cases h : t.corrname <;> (simp only [Spec.hduT3, h]; rfl)
  have c8 : colAt (Spec.hduT3 t v).cols "T3PHIERR" = some (Spec.dblsCol "T3PHIERR" t.nwave (some "deg") t.record (·.t3phierr)) := by
    cases h : t.corrname <;> (simp only [Spec.hduT3, h]; rfl)
  have c9 : colAt (Spec.hduT3 t v).cols "U1COORD" = some (Spec.dblsCol "U1COORD" 1 (some "m") t.record (fun r => [r.u1coord])) := by
    cases h : t.corrname <;> (simp only [Spec.hduT3, h]; rfl)
  have c10 : colAt (Spec.hduT3 t v).cols "V1COORD" = some (Spec.dblsCol "V1COORD" 1 (some "m") t.record (fun r => [r.v1coord])) := by
    cases h : t.corrname <;> (simp only [Spec.hduT3, h]; rfl)
  have c11 : colAt (Spec.hduT3 t v).cols "U2COORD" = some (Spec.dblsCol "U2COORD" 1 (some "m") t.record (fun r => [r.u2coord])) := by
    cases h : t.corrname <;> (simp only [Spec.hduT3, h]; rfl)
  have c12 : colAt (Spec.hduT3 t v).cols "V2COORD" = some (Spec.dblsCol "V2COORD" 1 (some "m") t.record (fun r => [r.v2coord])) := by
    cases h : t.corrname <;> (simp only [Spec.hduT3, h]; rfl)
  have c13 : colAt (Spec.hduT3 t v).cols "STA_INDEX" = some (Spec.intsCol "STA_INDEX" .I 3 t.record (fun r => [r.sta_index.1, r.sta_index.2.1, r.sta_index.2.2])) := by
    cases h : t.corrname <;> (simp only [Spec.hduT3, h]; rfl)
  have c14 : colAt (Spec.hduT3 t v).cols "FLAG" = some (Spec.logsCol "FLAG" t.nwave none t.record (·.flag)) := by
    cases h : t.corrname <;> (simp only [Spec.hduT3, h]; rfl)
  unfold readT3Record
  rc c1; rc c2; rc c3; rc c4
  ra c5 hw.t3amp hp; ra c6 hw.t3amperr hp; ra c7 hw.t3phi hp; ra c8 hw.t3phierr hp
  rc c9; rc c10; rc c11; rc c12
  ra c13 rfl (by decide); ra c14 hw.flag hp
  by_cases hc : t.corrname = []
  · simp [readCorrindx, hc]
  · have c15 : colAt (Spec.hduT3 t v).cols "CORRINDX_T3AMP"
        = some (Spec.intsCol "CORRINDX_T3AMP" .J 1 t.record (fun r => [r.corrindx_t3amp])) := by
      cases h : t.corrname
      · exact absurd h hc
      · simp only [Spec.hduT3, h]; rfl
    have c16 : colAt (Spec.hduT3 t v).cols "CORRINDX_T3PHI"
        = some (Spec.intsCol "CORRINDX_T3PHI" .J 1 t.record (fun r => [r.corrindx_t3phi])) := by
      cases h : t.corrname
      · exact absurd h hc
      · simp only [Spec.hduT3, h]; rfl
    simp only [ne_eq, hc, not_false_eq_true, decide_true, readCorrindx, if_true]
    rc c15; rc c16
    simp

theorem read_next_oi_t3_eq {s s' : FState R} (hok : s.status = .ok)
    (hmv : next_named_hdu "OI_T3" s = .ok ((), s')) (hs : At s' (Spec.hduT3 t v))
    (ht : t.WF) (u : Undef R) (old : OiT3 R) :
    read_next_oi_t3 u old s = .ok (t.asRead u.int, s') := by
  have hb : (Spec.hduT3 t v).type = .binary := rfl
  have hn : (Spec.hduT3 t v).nrows = t.record.length := rfl
  have k1 : (Spec.hduT3 t v).keys.lookup ("OI_REVN" : CStr) = some (.int 2) := rfl
  have k2 : (Spec.hduT3 t v).keys.lookup ("DATE-OBS" : CStr) = some (.str (keyStr t.date_obs)) := rfl
  have k3 : (Spec.hduT3 t v).keys.lookup ("ARRNAME" : CStr)
      = if t.arrname = [] then none else some (.str (keyStr t.arrname)) := by
    cases h : t.arrname <;> cases h' : t.corrname <;> (simp only [Spec.hduT3, h, h']; rfl)
  have k4 : (Spec.hduT3 t v).keys.lookup ("INSNAME" : CStr) = some (.str (keyStr t.insname)) := by
    cases h : t.arrname <;> (simp only [Spec.hduT3, h]; rfl)
  have k5 : (Spec.hduT3 t v).keys.lookup ("CORRNAME" : CStr)
      = if t.corrname = [] then none else some (.str (keyStr t.corrname)) := by
    cases h : t.arrname <;> cases h' : t.corrname <;> (simp only [Spec.hduT3, h, h']; rfl)
  have c1 : colAt (Spec.hduT3 t v).cols "T3AMP" = some (Spec.dblsCol "T3AMP" t.nwave none t.record (·.t3amp)) := rfl
  obtain ⟨k, hk, -, hty⟩ := coltype_of_colAt hs hb c1 (.A, 0)
  unfold read_next_oi_t3
  rw [guardStatus_ok hok]; rb hmv
  rw [guardStatus_ok hs.ok]; rd k1
  rw [guardStatus_ok hs.ok]; rd k2; rd k3; rd k4; rb (readCorrname_eq hs k5 _)
  rb (get_num_rows hs hb _); rb hk; rb hty
  refine (guardStatus_ok hs.ok _ _).trans ?_
  rw [hn]
  have ha : allocRecords t.record.length (Spec.dblsCol (R := R) "T3AMP" t.nwave none t.record (·.t3amp)).rep = .ok () :=
    allocRecords_ok (by simpa using ht.rows) ht.chans
  rw [ha]; rb (FitsM.run_lift_ok () s')
  rb (forRows_map_one t.record _ _ fun i e he => readT3Record_eq hs ht u he)
  rfl

end

/-! ### OI_FLUX -/

section
variable {s : FState R} {t : OiFlux R} {v : Int}

theorem readFluxSta_eq (hs : At s (Spec.hduFlux t v)) (u : Undef R)
    {i : Nat} {r : OiFluxRecord R} (hr : t.record[i]? = some r) :
    readFluxSta u (i + 1) s = .ok (if t.arrname = [] then -1 else r.sta_index, s) := by
  have hb : (Spec.hduFlux t v).type = .binary := rfl
  by_cases ha : t.arrname = []
  · have c : colAt (Spec.hduFlux t v).cols "STA_INDEX" = none := by
      cases h : t.corrname <;> (simp only [Spec.hduFlux, h, ha]; rfl)
    rw [readFluxSta]
    rb (colAt_none hs hb c 0)
    rw [if_pos ha]
    change Outcome.ok ((-1 : Int), { s with status := .ok }) = _
    rw [status_reset hs.ok]
  · have c : colAt (Spec.hduFlux t v).cols "STA_INDEX"
        = some (Spec.intsCol "STA_INDEX" .I 1 t.record (fun r => [r.sta_index])) := by
      cases h' : t.arrname
      · exact absurd h' ha
      · cases h : t.corrname <;> (simp only [Spec.hduFlux, h, h']; rfl)
    obtain ⟨k, hk, hkc⟩ := colAt_colnum hb c
    have hi := (List.getElem?_eq_some_iff.mp hr).1
    rw [readFluxSta]
    rb (get_colnum hs hk 0)
    rb (run_getStatus s)
    rw [hs.ok, if_neg (by decide), if_neg ha]
    have : fits_read_col Cell.toInt (k + 1) (i + 1) 1 [u.int] s = .ok ([r.sta_index], s) := by
      refine cfRead_ok hs (readCol_row hkc (by simp [Spec.intsCol, Spec.col]) (row := [.int r.sta_index])
        rfl (by simp [Col.nelem, Spec.intsCol, Spec.col]) (by simp [Col.nelem, Spec.intsCol, Spec.col]) hi ?_ rfl) _
      intro e x he
      simp [Spec.intsCol, Spec.col, hr, he]
    rb this
    rfl

theorem readFluxRecord_eq (hs : At s (Spec.hduFlux t v)) (ht : t.WF) (u : Undef R)
    {i : Nat} {r : OiFluxRecord R} (hr : t.record[i]? = some r) :
    readFluxRecord u t.nwave (decide (t.corrname ≠ [])) (i + 1) s = .ok ({ r with
        corrindx_fluxdata := if t.corrname = [] then u.int else r.corrindx_fluxdata
        sta_index := if t.arrname = [] then -1 else r.sta_index }, s) := by
  have hp : 0 < t.nwave := Nat.pos_of_ne_zero ht.chans
  have hw := ht.recs r (List.mem_of_getElem? hr)
  have c1 : colAt (Spec.hduFlux t v).cols "TARGET_ID" = some (Spec.intsCol "TARGET_ID" .I 1 t.record (fun r => [r.target_id])) := rfl
  have c2 : colAt (Spec.hduFlux t v).cols "MJD" = some (Spec.dblsCol "MJD" 1 (some "day") t.record (fun r => [r.mjd])) := rfl
  have c3 : colAt (Spec.hduFlux t v).cols "INT_TIME" = some (Spec.dblsCol "INT_TIME" 1 (some "s") t.record (fun r => [r.int_time])) := rfl
  have c4 : colAt (Spec.hduFlux t v).cols "FLUXDATA" = some (Spec.dblsCol "FLUXDATA" t.nwave (some (keyStr t.fluxunit)) t.record (·.fluxdata)) := rfl
  have c5 : colAt (Spec.hduFlux t v).cols "FLUXERR" = some (Spec.dblsCol "FLUXERR" t.nwave (some (keyStr t.fluxunit)) t.record (·.fluxerr)) := by
    cases h : t.corrname <;> cases h' : t.arrname <;> (simp only [Spec.hduFlux, h, h']; rfl)
  have c6 : colAt (Spec.hduFlux t v).cols "FLAG" = some (Spec.logsCol "FLAG" t.nwave none t.record (·.flag)) := by
    cases h : t.corrname <;> cases h' : t.arrname <;> (simp only [Spec.hduFlux, h, h']; rfl)
  unfold readFluxRecord
  rc c1; rc c2; rc c3
  ra c4 hw.fluxdata hp; ra c5 hw.fluxerr hp; ra c6 hw.flag hp
  rb (readFluxSta_eq hs u hr)
  by_cases hc : t.corrname = []
  · simp [readCorrindx, hc]
  · have c7 : colAt (Spec.hduFlux t v).cols "CORRINDX_FLUXDATA"
        = some (Spec.intsCol "CORRINDX_FLUXDATA" .J 1 t.record (fun r => [r.corrindx_fluxdata])) := by
      cases h : t.corrname
      · exact absurd h hc
      · simp only [Spec.hduFlux, h]; rfl
    simp only [ne_eq, hc, not_false_eq_true, decide_true, readCorrindx, if_true]
    rc c7
    simp

theorem read_next_oi_flux_eq {s s' : FState R} (hok : s.status = .ok)
    (hmv : next_named_hdu "OI_FLUX" s = .ok ((), s')) (hs : At s' (Spec.hduFlux t v))
    (ht : t.WF) (u : Undef R) (old : OiFlux R) :
    read_next_oi_flux u old s = .ok (t.asRead u.int, s') := by
  have hb : (Spec.hduFlux t v).type = .binary := rfl
  have hn : (Spec.hduFlux t v).nrows = t.record.length := rfl
  have k1 : (Spec.hduFlux t v).keys.lookup ("OI_REVN" : CStr) = some (.int 1) := rfl
  have k2 : (Spec.hduFlux t v).keys.lookup ("DATE-OBS" : CStr) = some (.str (keyStr t.date_obs)) := rfl
  have k3 : (Spec.hduFlux t v).keys.lookup ("ARRNAME" : CStr)
      = if t.arrname = [] then none else some (.str (keyStr t.arrname)) := by
    cases h : t.arrname <;> cases h' : t.corrname <;> cases h'' : t.fovtype <;>
      (simp only [Spec.hduFlux, h, h', h'']; rfl)
  have k4 : (Spec.hduFlux t v).keys.lookup ("INSNAME" : CStr) = some (.str (keyStr t.insname)) := by
    cases h : t.arrname <;> (simp only [Spec.hduFlux, h]; rfl)
  have k5 : (Spec.hduFlux t v).keys.lookup ("CORRNAME" : CStr)
      = if t.corrname = [] then none else some (.str (keyStr t.corrname)) := by
    cases h : t.arrname <;> cases h' : t.corrname <;> cases h'' : t.fovtype <;>
      (simp only [Spec.hduFlux, h, h', h'']; rfl)
  have k6 : (Spec.hduFlux t v).keys.lookup ("FOVTYPE" : CStr)
      = if t.fovtype = [] then none else some (.str (keyStr t.fovtype)) := by
    cases h : t.arrname <;> cases h' : t.corrname <;> cases h'' : t.fovtype <;>
      (simp only [Spec.hduFlux, h, h', h'']; rfl)
  have k7 : (Spec.hduFlux t v).keys.lookup ("FOV" : CStr)
      = if t.fovtype = [] then none else some (.dbl (Spec.asKey t.fov)) := by
    cases h : t.arrname <;> cases h' : t.corrname <;> cases h'' : t.fovtype <;>
      (simp only [Spec.hduFlux, h, h', h'']; rfl)
  have k8 : (Spec.hduFlux t v).keys.lookup ("CALSTAT" : CStr)
      = some (.str (keyStr (if t.calstat = '\x00' then [] else [t.calstat]))) := by
    cases h : t.arrname <;> (simp only [Spec.hduFlux, h]; rfl)
  have hfov : ∃ b, read_key_opt_double "FOV" old.fov s'
      = .ok ((b, if t.fovtype = [] then R.nan else Spec.asKey t.fov), s') := by
    by_cases h : t.fovtype = []
    · rw [if_pos h] at k7 ⊢
      exact ⟨_, read_opt_dbl_none hs k7 _⟩
    · rw [if_neg h] at k7 ⊢
      exact ⟨_, read_opt_dbl hs k7 _⟩
  obtain ⟨b, hfov⟩ := hfov
  have c1 : colAt (Spec.hduFlux t v).cols "FLUXDATA" = some (Spec.dblsCol "FLUXDATA" t.nwave (some (keyStr t.fluxunit)) t.record (·.fluxdata)) := rfl
  obtain ⟨k, hk, hkc, hty⟩ := coltype_of_colAt hs hb c1 (.A, 0)
  unfold read_next_oi_flux
  rw [guardStatus_ok hok]; rb hmv
  rw [guardStatus_ok hs.ok]; rd k1
  rw [guardStatus_ok hs.ok]; rd k2; rd k3; rd k4; rd k5; rb hfov; rd k6; rd k8
  rb (get_num_rows hs hb _); rb hk; rb hty
  refine (guardStatus_ok hs.ok _ _).trans ?_
  rw [hn]
  have ha : allocRecords t.record.length (Spec.dblsCol (R := R) "FLUXDATA" t.nwave (some (keyStr t.fluxunit)) t.record (·.fluxdata)).rep = .ok () :=
    allocRecords_ok (by simpa using ht.rows) ht.chans
  rw [ha]; rb (FitsM.run_lift_ok () s')
  rb (readColUnit_some hs hkc rfl _)
  rb (forRows_map_one t.record _ _ fun i e he => readFluxRecord_eq hs ht u he)
  rw [calstat_read]
  rfl

end

/-! ### OI_VIS -/

section
variable {s : FState R} {t : OiVis R} {v : Int}

/-- A record after the first pass over the rows. -/
def visBase (u : Undef R) (r : OiVisRecord R) : OiVisRecord R :=
  { r with
    time := R.lit 0.0, corrindx_visamp := u.int, corrindx_visphi := u.int, visrefmap := none
    rvis := none, rviserr := none, corrindx_rvis := u.int
    ivis := none, iviserr := none, corrindx_ivis := u.int }

/-- A record after the pass reading CORRINDX_VISAMP and CORRINDX_VISPHI. -/
def visCorr (u : Undef R) (t : OiVis R) (r : OiVisRecord R) : OiVisRecord R :=
  { visBase u r with
    corrindx_visamp := if t.corrname = [] then u.int else r.corrindx_visamp
    corrindx_visphi := if t.corrname = [] then u.int else r.corrindx_visphi }

/-- A record after the pass reading VISREFMAP. -/
def visRef (u : Undef R) (t : OiVis R) (r : OiVisRecord R) : OiVisRecord R :=
  { visCorr u t r with visrefmap := r.visrefmap }

/-- A record as finally read. -/
def visDone (u : Undef R) (t : OiVis R) (r : OiVisRecord R) : OiVisRecord R :=
  { r with
    time := R.lit 0.0
    corrindx_visamp := if t.corrname = [] then u.int else r.corrindx_visamp
    corrindx_visphi := if t.corrname = [] then u.int else r.corrindx_visphi
    corrindx_rvis := if t.usecomplex ∧ t.corrname ≠ [] then r.corrindx_rvis else u.int
    corrindx_ivis := if t.usecomplex ∧ t.corrname ≠ [] then r.corrindx_ivis else u.int }

/-- Find a column of an OI_VIS table. -/
macro "vis_col" t:ident : tactic => `(tactic|
  (cases h : OiVis.corrname $t <;> cases h' : OiVis.usecomplex $t <;> cases h'' : OiVis.usevisrefmap $t <;>
    (simp only [Spec.hduVis, Spec.visCols, h, h', h'']; rfl)))

theorem readVisRecord_eq (hs : At s (Spec.hduVis t v)) (ht : t.WF) (u : Undef R)
    {i : Nat} {r : OiVisRecord R} (hr : t.record[i]? = some r) :
    readVisRecord u t.nwave (i + 1) s = .ok (visBase u r, s) := by
  have hp : 0 < t.nwave := Nat.pos_of_ne_zero ht.chans
  have hw := ht.recs r (List.mem_of_getElem? hr)
  have c1 : colAt (Spec.hduVis t v).cols "TARGET_ID" = some (Spec.intsCol "TARGET_ID" .I 1 t.record (fun r => [r.target_id])) := by
    cases h : t.corrname <;> (simp only [Spec.hduVis, Spec.visCols, h]; rfl)
  have c2 : colAt (Spec.hduVis t v).cols "TIME" = some (Spec.dblsCol "TIME" 1 (some "s") t.record (fun _ => [R.lit 0.0])) := by
    cases h : t.corrname <;> (simp only [Spec.hduVis, Spec.visCols, h]; rfl)
  have c3 : colAt (Spec.hduVis t v).cols "MJD" = some (Spec.dblsCol "MJD" 1 (some "day") t.record (fun r => [r.mjd])) := by
    cases h : t.corrname <;> (simp only [Spec.hduVis, Spec.visCols, h]; rfl)
  have c4 : colAt (Spec.hduVis t v).cols "INT_TIME" = some (Spec.dblsCol "INT_TIME" 1 (some "s") t.record (fun r => [r.int_time])) := by
    cases h : t.corrname <;> (simp only [Spec.hduVis, Spec.visCols, h]; rfl)
  have c5 : colAt (Spec.hduVis t v).cols "VISAMP" = some (Spec.dblsCol "VISAMP" t.nwave
      (if t.amptyp = ("correlated flux" : CStr) then some (keyStr t.ampunit) else none) t.record (·.visamp)) := by
    cases h : t.corrname <;> (simp only [Spec.hduVis, Spec.visCols, h]; rfl)
  have c6 : colAt (Spec.hduVis t v).cols "VISAMPERR" = some (Spec.dblsCol "VISAMPERR" t.nwave
      (if t.amptyp = ("correlated flux" : CStr) then some (keyStr t.ampunit) else none) t.record (·.visamperr)) := by
    cases h : t.corrname <;> (simp only [Spec.hduVis, Spec.visCols, h]; rfl)
  have c7 : colAt (Spec.hduVis t v).cols "VISPHI" = some (Spec.dblsCol "VISPHI" t.nwave (some "deg") t.record (·.visphi)) := by
    vis_col t
  have c8 : colAt (Spec.hduVis t v).cols "VISPHIERR" = some (Spec.dblsCol "VISPHIERR" t.nwave (some "deg") t.record (·.visphierr)) := by
    vis_col t
  have c9 : colAt (Spec.hduVis t v).cols "UCOORD" = some (Spec.dblsCol "UCOORD" 1 (some "m") t.record (fun r => [r.ucoord])) := by
    vis_col t
  have c10 : colAt (Spec.hduVis t v).cols "VCOORD" = some (Spec.dblsCol "VCOORD" 1 (some "m") t.record (fun r => [r.vcoord])) := by
    vis_col t
  have c11 : colAt (Spec.hduVis t v).cols "STA_INDEX" = some (Spec.intsCol "STA_INDEX" .I 2 t.record (fun r => [r.sta_index.1, r.sta_index.2])) := by
    vis_col t
  have c12 : colAt (Spec.hduVis t v).cols "FLAG" = some (Spec.logsCol "FLAG" t.nwave none t.record (·.flag)) := by
    vis_col t
  unfold readVisRecord
  rc c1; rc c2; rc c3; rc c4
  ra c5 hw.visamp hp; ra c6 hw.visamperr hp; ra c7 hw.visphi hp; ra c8 hw.visphierr hp
  rc c9; rc c10
  ra c11 rfl (by decide); ra c12 hw.flag hp
  rfl

theorem readVisCorr_eq (hs : At s (Spec.hduVis t v)) (u : Undef R) :
    readVisCorr u (decide (t.corrname ≠ [])) (t.record.map (visBase u)) s
      = .ok (t.record.map (visCorr u t), s) := by
  by_cases hc : t.corrname = []
  · have : visCorr u t = visBase u := by funext r; simp [visCorr, visBase, hc]
    simp [readVisCorr, hc, this]
  · have c1 : colAt (Spec.hduVis t v).cols "CORRINDX_VISAMP"
        = some (Spec.intsCol "CORRINDX_VISAMP" .J 1 t.record (fun r => [r.corrindx_visamp])) := by
      cases h : t.corrname
      · exact absurd h hc
      · simp only [Spec.hduVis, Spec.visCols, h]; rfl
    have c2 : colAt (Spec.hduVis t v).cols "CORRINDX_VISPHI"
        = some (Spec.intsCol "CORRINDX_VISPHI" .J 1 t.record (fun r => [r.corrindx_visphi])) := by
      cases h : t.corrname
      · exact absurd h hc
      · cases h' : t.usecomplex <;> (simp only [Spec.hduVis, Spec.visCols, h, h']; rfl)
    simp only [ne_eq, hc, not_false_eq_true, decide_true, readVisCorr, if_true]
    refine forRecs_map_one t.record _ _ _ fun i r hr => ?_
    unfold readVisCorrRow
    rc c1; rc c2
    simp [visCorr, visBase, hc]

theorem read_col_logs {h : Hdu R} (hs : At s h) {k n i : Nat} {nm : CStr} {tdim : Option CStr}
    {recs : List β} {f : β → List Bool} {r : β} (hc : h.cols[k]? = some (Spec.logsCol nm n tdim recs f))
    (hr : recs[i]? = some r) (hn : recs.length = h.nrows) (hl : (f r).length = n) (hn0 : 0 < n)
    (arr : List Bool) : fits_read_col Cell.toLog (k + 1) (i + 1) n arr s = .ok (f r, s) := by
  have hi := (List.getElem?_eq_some_iff.mp hr).1
  refine cfRead_ok hs (readCol_row hc (by simp [Spec.logsCol, Spec.col]) (row := (f r).map .log)
    (by simpa using hl) ?_ ?_ (by omega) ?_ (mapM_conv_id _ fun _ => rfl)) _
  · simpa [Col.nelem, Spec.logsCol, Spec.col] using hn0
  · simp [Col.nelem, Spec.logsCol, Spec.col]
  · intro e x he
    simp only [List.getElem?_map, Option.map_eq_some_iff] at he
    obtain ⟨y, hy, rfl⟩ := he
    simp [Spec.logsCol, Spec.col, hr, hy]

theorem optArray_true {n : Nat} {a : Option (List α)} (h : OptArray true n a) :
    (a.getD []).length = n ∧ some (a.getD []) = a := by
  cases a with
  | none => exact h.elim
  | some l => exact ⟨h, rfl⟩

theorem optArray_false {n : Nat} {a : Option (List α)} (h : OptArray false n a) : a = none := by
  cases a with
  | none => rfl
  | some l => exact h.elim

theorem readRefmap_eq (hs : At s (Spec.hduVis t v)) (ht : t.WF) (u : Undef R) (vis : OiVis R)
    (hn : vis.nwave = t.nwave) (hr : vis.record = t.record.map (visCorr u t)) :
    readRefmap u vis s = .ok ({ vis with
      usevisrefmap := t.usevisrefmap, record := t.record.map (visRef u t) }, s) := by
  have hb : (Spec.hduVis t v).type = .binary := rfl
  cases hu : t.usevisrefmap with
  | false =>
    have c : colAt (Spec.hduVis t v).cols "VISREFMAP" = none := by
      cases h : t.corrname <;> cases h' : t.usecomplex <;> (simp only [Spec.hduVis, Spec.visCols, h, h', hu]; rfl)
    rw [readRefmap]
    rb (colAt_none hs hb c 0)
    rb (run_getStatus _)
    rw [if_pos rfl]
    rb (run_setStatus _ _)
    rw [status_reset hs.ok, hr, List.map_map]
    have : t.record.map ((fun r => { r with visrefmap := none }) ∘ visCorr u t) = t.record.map (visRef u t) := by
      refine List.map_congr_left fun r hm => ?_
      have := optArray_false (hu ▸ (ht.recs r hm).visrefmap)
      simp [visRef, this]
    rw [this]
    rfl
  | true =>
    have c : colAt (Spec.hduVis t v).cols "VISREFMAP" = some (Spec.logsCol "VISREFMAP" (t.nwave * t.nwave)
      (some (keyStr (("(" : CStr) ++ fmtInt t.nwave ++ ("," : CStr) ++ fmtInt t.nwave ++ (")" : CStr))))
      t.record (fun r => r.visrefmap.getD [])) := by
      cases h : t.corrname <;> cases h' : t.usecomplex <;> (simp only [Spec.hduVis, Spec.visCols, h, h', hu]; rfl)
    obtain ⟨k, hk, hkc⟩ := colAt_colnum hb c
    rw [readRefmap]
    rb (get_colnum hs hk 0)
    rb (run_getStatus _)
    rw [hs.ok, if_neg (by decide), hr, hn]
    have hloop : forRecs 1 (t.record.map (visCorr u t)) (readRefmapRow u t.nwave (k + 1)) s
        = .ok (t.record.map (visRef u t), s) := by
      refine forRecs_map_one t.record _ _ _ fun i r hi => ?_
      have hp : 0 < t.nwave * t.nwave := Nat.mul_pos (Nat.pos_of_ne_zero ht.chans) (Nat.pos_of_ne_zero ht.chans)
      obtain ⟨hl, he⟩ := optArray_true (hu ▸ (ht.recs r (List.mem_of_getElem? hi)).visrefmap)
      rw [readRefmapRow, chkmallocN_ok (by omega)]
      rb (FitsM.run_lift_ok () s)
      rb (read_col_logs hs hkc hi rfl hl hp _)
      rw [he]
      rfl
    rb hloop
    rfl

theorem read_oi_vis_complex_eq (hs : At s (Spec.hduVis t v)) (ht : t.WF) (u : Undef R) (vis : OiVis R)
    (hn : vis.nwave = t.nwave) (hr : vis.record = t.record.map (visRef u t)) :
    read_oi_vis_complex u vis (decide (t.corrname ≠ [])) s = .ok ({ vis with
      usecomplex := t.usecomplex
      complexunit := if t.usecomplex then keyStr t.complexunit else []
      record := t.record.map (visDone u t) }, s) := by
  have hb : (Spec.hduVis t v).type = .binary := rfl
  unfold read_oi_vis_complex
  rw [guardStatus_ok hs.ok]
  cases hu : t.usecomplex with
  | false =>
    have c : colAt (Spec.hduVis t v).cols "RVIS" = none := by
      cases h : t.corrname <;> cases h' : t.usevisrefmap <;> (simp only [Spec.hduVis, Spec.visCols, h, h', hu]; rfl)
    rb (colAt_none hs hb c 0)
    rb (run_getStatus _)
    rw [if_pos rfl]
    rb (run_setStatus _ _)
    rw [status_reset hs.ok, hr, List.map_map]
    have : t.record.map ((fun r => { r with rvis := none, rviserr := none, ivis := none, iviserr := none }) ∘ visRef u t)
        = t.record.map (visDone u t) := by
      refine List.map_congr_left fun r hm => ?_
      have hw := ht.recs r hm
      rw [hu] at hw
      have h1 := optArray_false hw.rvis
      have h2 := optArray_false hw.rviserr
      have h3 := optArray_false hw.ivis
      have h4 := optArray_false hw.iviserr
      simp [visRef, visCorr, visBase, visDone, hu, h1, h2, h3, h4]
    rw [this]
    rfl
  | true =>
    have c1 : colAt (Spec.hduVis t v).cols "RVIS" = some (Spec.dblsCol "RVIS" t.nwave (some (keyStr t.complexunit)) t.record (fun r => r.rvis.getD [])) := by
      cases h : t.corrname <;> (simp only [Spec.hduVis, Spec.visCols, h, hu]; rfl)
    have c2 : colAt (Spec.hduVis t v).cols "RVISERR" = some (Spec.dblsCol "RVISERR" t.nwave (some (keyStr t.complexunit)) t.record (fun r => r.rviserr.getD [])) := by
      cases h : t.corrname <;> (simp only [Spec.hduVis, Spec.visCols, h, hu]; rfl)
    have c3 : colAt (Spec.hduVis t v).cols "IVIS" = some (Spec.dblsCol "IVIS" t.nwave (some (keyStr t.complexunit)) t.record (fun r => r.ivis.getD [])) := by
      cases h : t.corrname <;> (simp only [Spec.hduVis, Spec.visCols, h, hu]; rfl)
    have c4 : colAt (Spec.hduVis t v).cols "IVISERR" = some (Spec.dblsCol "IVISERR" t.nwave (some (keyStr t.complexunit)) t.record (fun r => r.iviserr.getD [])) := by
      cases h : t.corrname <;> (simp only [Spec.hduVis, Spec.visCols, h, hu]; rfl)
    obtain ⟨k, hk, hkc⟩ := colAt_colnum hb c1
    rb (get_colnum hs hk 0)
    rb (run_getStatus _)
    rw [hs.ok, if_neg (by decide), hr, hn]
    rb (readColUnit_some hs hkc rfl _)
    have hloop : forRecs 1 (t.record.map (visRef u t)) (readVisComplexRow u t.nwave (decide (t.corrname ≠ []))) s
        = .ok (t.record.map (visDone u t), s) := by
      refine forRecs_map_one t.record _ _ _ fun i r hi => ?_
      have hp : 0 < t.nwave := Nat.pos_of_ne_zero ht.chans
      have hw := ht.recs r (List.mem_of_getElem? hi)
      rw [hu] at hw
      obtain ⟨l1, e1⟩ := optArray_true hw.rvis
      obtain ⟨l2, e2⟩ := optArray_true hw.rviserr
      obtain ⟨l3, e3⟩ := optArray_true hw.ivis
      obtain ⟨l4, e4⟩ := optArray_true hw.iviserr
      rw [readVisComplexRow, chkmallocN_ok (by omega)]
      rb (FitsM.run_lift_ok () s)
      ra c1 l1 hp; ra c2 l2 hp; ra c3 l3 hp; ra c4 l4 hp
      rw [e1, e2, e3, e4]
      by_cases hc : t.corrname = []
      · simp [readVisComplexCorr, hc, visRef, visCorr, visBase, visDone]
      · have c5 : colAt (Spec.hduVis t v).cols "CORRINDX_RVIS"
            = some (Spec.intsCol "CORRINDX_RVIS" .J 1 t.record (fun r => [r.corrindx_rvis])) := by
          cases h : t.corrname
          · exact absurd h hc
          · simp only [Spec.hduVis, Spec.visCols, h, hu]; rfl
        have c6 : colAt (Spec.hduVis t v).cols "CORRINDX_IVIS"
            = some (Spec.intsCol "CORRINDX_IVIS" .J 1 t.record (fun r => [r.corrindx_ivis])) := by
          cases h : t.corrname
          · exact absurd h hc
          · simp only [Spec.hduVis, Spec.visCols, h, hu]; rfl
        simp only [ne_eq, hc, not_false_eq_true, decide_true, readVisComplexCorr, if_true]
        rc c5; rc c6
        simp [visRef, visCorr, visBase, visDone, hc, hu]
    rb hloop
    rfl


/-- Skip keywords of other names. -/
macro "lk_skip" : tactic => `(tactic|
  repeat first
    | refine Eq.trans (lookup_skip rfl) ?_
    | refine Eq.trans (lookup_opt_skip rfl) ?_
    | refine Eq.trans (lookup_order_skip rfl) ?_)

theorem vis_keys (t : OiVis R) (v : Int) : (Spec.hduVis t v).keys =
    (("EXTNAME" : CStr), KeyVal.str "OI_VIS") :: (("OI_REVN" : CStr), KeyVal.int 2) :: (("DATE-OBS" : CStr), KeyVal.str (keyStr t.date_obs)) ::
    (Spec.optKey "ARRNAME" t.arrname ++ (("INSNAME" : CStr), KeyVal.str (keyStr t.insname)) :: (("EXTVER" : CStr), KeyVal.int v) ::
    (Spec.optKey "CORRNAME" t.corrname ++ (Spec.optKey "AMPTYP" t.amptyp ++ (Spec.optKey "PHITYP" t.phityp ++
    (Spec.optOrder "AMPORDER" t.amporder ++ (Spec.optOrder "PHIORDER" t.phiorder ++ [])))))) := by
  simp only [Spec.hduVis, List.append_assoc, List.cons_append, List.nil_append, List.append_nil]

theorem readAmpunit {s : FState R} {h : Hdu R} (hs : At s h) {k : Nat} {c : Col R} {v : CStr} {p : Prop}
    [Decidable p] (hc : h.cols[k]? = some c) (hu : c.unit = if p then some v else none) (dst old : CStr) :
    ∃ b, readKeyOpt (readColUnit (k + 1) dst) old [] s = .ok ((b, if p then v else []), s) := by
  by_cases hp : p
  · rw [if_pos hp] at hu ⊢
    exact ⟨_, readKeyOpt_found hs.ok (readColUnit_some hs hc hu dst) _ _⟩
  · rw [if_neg hp] at hu ⊢
    exact ⟨_, readKeyOpt_missing hs.ok (readColUnit_none hs hc hu dst) _ _⟩

theorem read_next_oi_vis_eq {s s' : FState R} (hok : s.status = .ok)
    (hmv : next_named_hdu "OI_VIS" s = .ok ((), s')) (hs : At s' (Spec.hduVis t v))
    (ht : t.WF) (u : Undef R) (old : OiVis R) :
    read_next_oi_vis u old s = .ok (t.asRead u.int, s') := by
  have hb : (Spec.hduVis t v).type = .binary := rfl
  have hn : (Spec.hduVis t v).nrows = t.record.length := rfl
  have k1 : (Spec.hduVis t v).keys.lookup ("OI_REVN" : CStr) = some (.int 2) := rfl
  have k2 : (Spec.hduVis t v).keys.lookup ("DATE-OBS" : CStr) = some (.str (keyStr t.date_obs)) := rfl
  have k3 : (Spec.hduVis t v).keys.lookup ("ARRNAME" : CStr)
      = if t.arrname = [] then none else some (.str (keyStr t.arrname)) := by
    rw [vis_keys]; lk_skip; exact lookup_opt_hit (by lk_skip; rfl)
  have k4 : (Spec.hduVis t v).keys.lookup ("INSNAME" : CStr) = some (.str (keyStr t.insname)) := by
    rw [vis_keys]; lk_skip; exact lookup_hit
  have k5 : (Spec.hduVis t v).keys.lookup ("CORRNAME" : CStr)
      = if t.corrname = [] then none else some (.str (keyStr t.corrname)) := by
    rw [vis_keys]; lk_skip; exact lookup_opt_hit (by lk_skip; rfl)
  have k6 : (Spec.hduVis t v).keys.lookup ("AMPTYP" : CStr)
      = if t.amptyp = [] then none else some (.str (keyStr t.amptyp)) := by
    rw [vis_keys]; lk_skip; exact lookup_opt_hit (by lk_skip; rfl)
  have k7 : (Spec.hduVis t v).keys.lookup ("PHITYP" : CStr)
      = if t.phityp = [] then none else some (.str (keyStr t.phityp)) := by
    rw [vis_keys]; lk_skip; exact lookup_opt_hit (by lk_skip; rfl)
  have k8 : (Spec.hduVis t v).keys.lookup ("AMPORDER" : CStr)
      = if t.amporder ≥ 0 then some (.int t.amporder) else none := by
    rw [vis_keys]; lk_skip; exact lookup_order_hit (by lk_skip; rfl)
  have k9 : (Spec.hduVis t v).keys.lookup ("PHIORDER" : CStr)
      = if t.phiorder ≥ 0 then some (.int t.phiorder) else none := by
    rw [vis_keys]; lk_skip; exact lookup_order_hit rfl
  have c1 : colAt (Spec.hduVis t v).cols "VISAMP" = some (Spec.dblsCol "VISAMP" t.nwave
      (if t.amptyp = ("correlated flux" : CStr) then some (keyStr t.ampunit) else none) t.record (·.visamp)) := by
    cases h : t.corrname <;> (simp only [Spec.hduVis, Spec.visCols, h]; rfl)
  obtain ⟨k, hk, hkc, hty⟩ := coltype_of_colAt hs hb c1 (.A, 0)
  obtain ⟨b, hunit⟩ := readAmpunit hs hkc rfl old.ampunit old.ampunit
  unfold read_next_oi_vis
  rw [guardStatus_ok hok]; rb hmv
  rw [guardStatus_ok hs.ok]; rd k1
  rw [guardStatus_ok hs.ok]; rd k2; rd k3; rd k4
  rb (get_num_rows hs hb _); rb hk; rb hty
  refine (guardStatus_ok hs.ok _ _).trans ?_
  rw [hn]
  have ha : allocRecords t.record.length (Spec.dblsCol (R := R) "VISAMP" t.nwave
      (if t.amptyp = ("correlated flux" : CStr) then some (keyStr t.ampunit) else none) t.record (·.visamp)).rep = .ok () :=
    allocRecords_ok (by simpa using ht.rows) ht.chans
  rw [ha]; rb (FitsM.run_lift_ok () s'); rb hunit
  rb (forRows_map_one t.record _ _ fun i e he => readVisRecord_eq hs ht u he)
  unfold read_oi_vis_opt
  rw [guardStatus_ok hs.ok, if_neg (by simp [OI_REVN_V1_VIS])]
  rd k5; rd k6; rd k7; rd k8; rd k9
  rb (readVisCorr_eq hs u)
  refine (FitsM.bind_ok (readRefmap_eq hs ht u _ ?_ ?_) _).trans ?_
  rotate_left
  rotate_left
  refine (read_oi_vis_complex_eq hs ht u _ ?_ ?_).trans ?_
  all_goals rfl

end

/-! ### OI_INSPOL -/

section
variable {s : FState R} {t : OiInspol R} {v : Int}

theorem flatMap_pair_getElem? (z : List (α × α)) (k : Nat) :
    (z.flatMap fun w => [w.1, w.2])[k]? = (z[k / 2]?).map fun w => if k % 2 = 0 then w.1 else w.2 := by
  induction z generalizing k with
  | nil => simp
  | cons w ws ih =>
    match k with
    | 0 => rfl
    | 1 => rfl
    | k + 2 =>
      have : (k + 2) / 2 = k / 2 + 1 := by omega
      simp only [List.flatMap_cons, List.cons_append, List.nil_append, List.getElem?_cons_succ, ih, this]
      rw [show (k + 2) % 2 = k % 2 by omega]

theorem readJones_eq {h : Hdu R} (hs : At s h) (hb : h.type = .binary) {name nm : CStr} {n i : Nat}
    {recs : List β} {f : β → List (R.Flt × R.Flt)} {r : β}
    (hc : colAt h.cols name = some (Spec.cpxsCol nm n recs f)) (hr : recs[i]? = some r)
    (hn : recs.length = h.nrows) (hl : (f r).length = n) (hn0 : 0 < n) (u : Undef R) :
    readJones u name (i + 1) n s = .ok (Spec.jonesAsRead (f r), s) := by
  have hi := (List.getElem?_eq_some_iff.mp hr).1
  obtain ⟨k, hk, hkc⟩ := colAt_colnum hb hc
  have hne : (Spec.cpxsCol (R := R) nm n recs f).nelem = n := by simp [Col.nelem, Spec.cpxsCol, Spec.col]
  have hparts : (Spec.cpxsCol (R := R) nm n recs f).getParts i n
      = (((f r).flatMap fun w => [w.1, w.2]).take n).map .flt := by
    unfold Col.getParts
    rw [hne]
    apply List.ext_getElem?
    intro e
    by_cases he : e < n
    · have h2 : e / 2 < (f r).length := by omega
      simp only [List.getElem?_map, List.getElem?_range he, Option.map_some,
        List.getElem?_take_of_lt he, flatMap_pair_getElem?, Nat.div_eq_of_lt (show e < 2 * n by omega),
        Nat.mod_eq_of_lt (show e < 2 * n by omega), List.getElem?_eq_getElem h2]
      simp [Spec.cpxsCol, Spec.col, hr, List.getElem?_eq_getElem h2]
    · rw [List.getElem?_eq_none (by simpa using he), List.getElem?_eq_none (by simp; omega)]
  have hread : h.readCol (k + 1) (i + 1) n Cell.toDbl
      = .ok ((((f r).flatMap fun w => [w.1, w.2]).take n).map R.toD) := by
    have hre : (Spec.cpxsCol (R := R) nm n recs f).realNelem = 2 * n := by
      rw [Col.realNelem, hne]; simp [Spec.cpxsCol, Spec.col]
    have hq : (n - 1) / (2 * n) = 0 := Nat.div_eq_of_lt (by omega)
    have hct : (Spec.cpxsCol (R := R) nm n recs f).type = .C := rfl
    simp only [Hdu.readCol, Nat.add_sub_cancel, hkc, hre, hq, hct, if_true, hparts, Nat.add_zero,
      mapM_conv (R := R) (mk := Cell.flt) (conv := Cell.toDbl) (g := R.toD) _ fun _ => rfl]
    rw [if_neg (by omega), if_neg (by omega)]
  rw [readJones, readArr]
  rw [FitsM.bind_ok (FitsM.bind_ok (get_colnum hs hk 0) _ |>.trans (cfRead_ok hs hread _))]
  simp [Spec.jonesAsRead, hl, Function.comp_def]

theorem readInspolRecord_eq (hs : At s (Spec.hduInspol t v)) (ht : t.WF) (u : Undef R)
    {i : Nat} {r : OiInspolRecord R} (hr : t.record[i]? = some r) :
    readInspolRecord u t.nwave (i + 1) s = .ok ({ r with
        insname := colStr 70 r.insname
        jxx := Spec.jonesAsRead r.jxx
        jyy := Spec.jonesAsRead r.jyy
        jxy := Spec.jonesAsRead r.jxy
        jyx := Spec.jonesAsRead r.jyx }, s) := by
  have hb : (Spec.hduInspol t v).type = .binary := rfl
  have hp : 0 < t.nwave := Nat.pos_of_ne_zero ht.chans
  have hw := ht.recs r (List.mem_of_getElem? hr)
  have c1 : colAt (Spec.hduInspol t v).cols "TARGET_ID" = some (Spec.intsCol "TARGET_ID" .I 1 t.record (fun r => [r.target_id])) := rfl
  have c2 : colAt (Spec.hduInspol t v).cols "INSNAME" = some (Spec.strCol "INSNAME" 70 t.record (·.insname)) := rfl
  have c3 : colAt (Spec.hduInspol t v).cols "MJD_OBS" = some (Spec.dblsCol "MJD_OBS" 1 (some "day") t.record (fun r => [r.mjd_obs])) := rfl
  have c4 : colAt (Spec.hduInspol t v).cols "MJD_END" = some (Spec.dblsCol "MJD_END" 1 (some "day") t.record (fun r => [r.mjd_end])) := rfl
  have c5 : colAt (Spec.hduInspol t v).cols "JXX" = some (Spec.cpxsCol "JXX" t.nwave t.record (·.jxx)) := rfl
  have c6 : colAt (Spec.hduInspol t v).cols "JYY" = some (Spec.cpxsCol "JYY" t.nwave t.record (·.jyy)) := rfl
  have c7 : colAt (Spec.hduInspol t v).cols "JXY" = some (Spec.cpxsCol "JXY" t.nwave t.record (·.jxy)) := rfl
  have c8 : colAt (Spec.hduInspol t v).cols "JYX" = some (Spec.cpxsCol "JYX" t.nwave t.record (·.jyx)) := rfl
  have c9 : colAt (Spec.hduInspol t v).cols "STA_INDEX" = some (Spec.intsCol "STA_INDEX" .I 1 t.record (fun r => [r.sta_index])) := rfl
  unfold readInspolRecord
  rc c1; rc c2; rc c3; rc c4
  rb (readJones_eq hs hb c5 hr rfl hw.jxx hp u)
  rb (readJones_eq hs hb c6 hr rfl hw.jyy hp u)
  rb (readJones_eq hs hb c7 hr rfl hw.jxy hp u)
  rb (readJones_eq hs hb c8 hr rfl hw.jyx hp u)
  rc c9
  rfl

theorem read_next_oi_inspol_eq {s s' : FState R} (hok : s.status = .ok)
    (hmv : next_named_hdu "OI_INSPOL" s = .ok ((), s')) (hs : At s' (Spec.hduInspol t v))
    (ht : t.WF) (u : Undef R) (old : OiInspol R) :
    read_next_oi_inspol u old s = .ok (t.asRead, s') := by
  have hb : (Spec.hduInspol t v).type = .binary := rfl
  have hn : (Spec.hduInspol t v).nrows = t.record.length := rfl
  have k1 : (Spec.hduInspol t v).keys.lookup ("OI_REVN" : CStr) = some (.int 1) := rfl
  have k2 : (Spec.hduInspol t v).keys.lookup ("DATE-OBS" : CStr) = some (.str (keyStr t.date_obs)) := rfl
  have k3 : (Spec.hduInspol t v).keys.lookup ("NPOL" : CStr) = some (.int t.npol) := rfl
  have k4 : (Spec.hduInspol t v).keys.lookup ("ARRNAME" : CStr) = some (.str (keyStr t.arrname)) := rfl
  have k5 : (Spec.hduInspol t v).keys.lookup ("ORIENT" : CStr) = some (.str (keyStr t.orient)) := rfl
  have k6 : (Spec.hduInspol t v).keys.lookup ("MODEL" : CStr) = some (.str (keyStr t.model)) := rfl
  have c1 : colAt (Spec.hduInspol t v).cols "JXX" = some (Spec.cpxsCol "JXX" t.nwave t.record (·.jxx)) := rfl
  obtain ⟨k, hk, hkc, hty⟩ := coltype_of_colAt hs hb c1 (.A, 0)
  unfold read_next_oi_inspol
  rw [guardStatus_ok hok]; rb hmv
  rw [guardStatus_ok hs.ok]; unfold read_oi_inspol_chdu
  rw [guardStatus_ok hs.ok]; rd k1
  rw [guardStatus_ok hs.ok]; rd k2; rd k3; rd k4; rd k5; rd k6
  rb (get_num_rows hs hb _); rb hk; rb hty
  refine (guardStatus_ok hs.ok _ _).trans ?_
  rw [hn]
  have ha : allocRecords t.record.length (Spec.cpxsCol (R := R) "JXX" t.nwave t.record (·.jxx)).rep = .ok () :=
    allocRecords_ok (by simpa using ht.rows) ht.chans
  rw [ha]; rb (FitsM.run_lift_ok () s')
  rb (forRows_map_one t.record _ _ fun i e he => readInspolRecord_eq hs ht u he)
  rfl

end

/-! ### The header -/

theorem primary_keys (today : CStr) (t : OiHeader) : (Spec.hduPrimary (R := R) today t).keys =
    (("ORIGIN" : CStr), KeyVal.str (keyStr t.origin)) :: (("DATE" : CStr), KeyVal.str (keyStr today)) ::
    (("DATE-OBS" : CStr), KeyVal.str (keyStr t.date_obs)) :: (("TELESCOP" : CStr), KeyVal.str (keyStr t.telescop)) ::
    (("INSTRUME" : CStr), KeyVal.str (keyStr t.instrume)) :: (("OBSERVER" : CStr), KeyVal.str (keyStr t.observer)) ::
    (("CONTENT" : CStr), KeyVal.str "OIFITS2") :: (("INSMODE" : CStr), KeyVal.str (keyStr t.insmode)) ::
    (("OBJECT" : CStr), KeyVal.str (keyStr t.object)) ::
    (Spec.optKey "REFERENC" t.referenc ++ (Spec.optKey "AUTHOR" t.author ++ (Spec.optKey "PROG_ID" t.prog_id ++
    (Spec.optKey "PROCSOFT" t.procsoft ++ (Spec.optKey "OBSTECH" t.obstech ++ []))))) := by
  simp only [Spec.hduPrimary, List.append_assoc, List.cons_append, List.nil_append, List.append_nil]

theorem read_oi_header_eq {s s' : FState R} (hok : s.status = .ok) {today : CStr} {t : OiHeader} {ty : HduType}
    (hmv : fits_movabs_hdu 1 s = .ok (ty, s')) (hs : At s' (Spec.hduPrimary today t)) (old : OiHeader) :
    read_oi_header old s = .ok (t.asRead today, s') := by
  have k10 : (Spec.hduPrimary (R := R) today t).keys.lookup ("REFERENC" : CStr)
      = if t.referenc = [] then none else some (.str (keyStr t.referenc)) := by
    rw [primary_keys]; lk_skip; exact lookup_opt_hit (by lk_skip; rfl)
  have k11 : (Spec.hduPrimary (R := R) today t).keys.lookup ("AUTHOR" : CStr)
      = if t.author = [] then none else some (.str (keyStr t.author)) := by
    rw [primary_keys]; lk_skip; exact lookup_opt_hit (by lk_skip; rfl)
  have k12 : (Spec.hduPrimary (R := R) today t).keys.lookup ("PROG_ID" : CStr)
      = if t.prog_id = [] then none else some (.str (keyStr t.prog_id)) := by
    rw [primary_keys]; lk_skip; exact lookup_opt_hit (by lk_skip; rfl)
  have k13 : (Spec.hduPrimary (R := R) today t).keys.lookup ("PROCSOFT" : CStr)
      = if t.procsoft = [] then none else some (.str (keyStr t.procsoft)) := by
    rw [primary_keys]; lk_skip; exact lookup_opt_hit (by lk_skip; rfl)
  have k14 : (Spec.hduPrimary (R := R) today t).keys.lookup ("OBSTECH" : CStr)
      = if t.obstech = [] then none else some (.str (keyStr t.obstech)) := by
    rw [primary_keys]; lk_skip; exact lookup_opt_hit rfl
  unfold read_oi_header
  rw [guardStatus_ok hok]; rb hmv
  rb (read_opt_str hs (v := keyStr t.origin) rfl _)
  rb (read_opt_str hs (v := keyStr today) rfl _)
  rb (read_opt_str hs (v := keyStr t.date_obs) rfl _)
  rb (read_opt_str hs (v := "OIFITS2") rfl _)
  rb (read_opt_str hs (v := keyStr t.telescop) rfl _)
  rb (read_opt_str hs (v := keyStr t.instrume) rfl _)
  rb (read_opt_str hs (v := keyStr t.observer) rfl _)
  rb (read_opt_str hs (v := keyStr t.insmode) rfl _)
  rb (read_opt_str hs (v := keyStr t.object) rfl _)
  rd k10; rd k11; rd k12; rd k13; rd k14
  rfl

end Verif
