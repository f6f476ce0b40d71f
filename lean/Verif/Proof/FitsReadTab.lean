import Verif.Proof.FitsRead
import Verif.Spec.RoundTrip

/-! Reading back the tables written. -/

namespace Verif
open Outcome

variable {R : FP} {α β γ : Type}

theorem cardFit_length_le (n : Nat) (v : CStr) : (cardFit n v).length ≤ n := by
  induction v generalizing n with
  | nil => simp [cardFit]
  | cons c cs ih =>
    simp only [cardFit]
    have hw : 1 ≤ (if c = '\'' then 2 else 1 : Nat) := by split <;> omega
    generalize (if c = '\'' then 2 else 1 : Nat) = w at hw
    by_cases h : w ≤ n
    · have := ih (n - w)
      rw [if_pos h, List.length_cons]
      omega
    · rw [if_neg h]
      exact Nat.zero_le _

theorem keyStr_length_le (v : CStr) : (keyStr v).length ≤ 68 := by
  have h1 : (List.dropWhile (· == ' ') (cardFit 68 v).reverse).length ≤ (cardFit 68 v).reverse.length :=
    List.Sublist.length_le (List.dropWhile_sublist _)
  have := cardFit_length_le 68 v
  simp only [keyStr, rtrim, List.length_reverse] at *
  omega

theorem readName_none {s : FState R} {h : Hdu R} (hs : At s h) (u : Undef R) {keyword v : CStr}
    (hk : h.keys.lookup keyword = some (.str (keyStr v))) :
    readName u keyword none s = .ok (keyStr v, s) := by
  rw [readName, FitsM.bind_ok (read_key_str hs hk u.str)]
  have : (keyStr v).take FLEN_VALUE = keyStr v :=
    List.take_of_length_le (Nat.le_trans (keyStr_length_le v) (by decide))
  simp [this]

/-- One step of reading a keyword or column, of which `c` says what the file has. -/
macro "rd" c:term : tactic => `(tactic| first
  | refine (FitsM.bind_ok (read_key_int ‹At _ _› $c _) _).trans ?_
  | refine (FitsM.bind_ok (read_key_str ‹At _ _› $c _) _).trans ?_
  | refine (FitsM.bind_ok (read_key_dbl ‹At _ _› $c _) _).trans ?_
  | refine (FitsM.bind_ok (read_opt_str_opt ‹At _ _› $c _) _).trans ?_
  | refine (FitsM.bind_ok (read_opt_int_opt ‹At _ _› $c _) _).trans ?_
  | refine (FitsM.bind_ok (readName_none ‹At _ _› _ $c) _).trans ?_)

/-- One step of reading a column, of which `c` says what the file has. -/
macro "rc" c:term : tactic => `(tactic| first
  | refine (FitsM.bind_ok (readOne_ints ‹At _ _› rfl $c (by decide) (by decide) (by assumption) rfl rfl _) _).trans ?_
  | refine (FitsM.bind_ok (readOne_dbls ‹At _ _› rfl $c (by assumption) rfl rfl _) _).trans ?_
  | refine (FitsM.bind_ok (readOne_flts ‹At _ _› rfl $c (by assumption) rfl rfl _) _).trans ?_
  | refine (FitsM.bind_ok (read_col_str ‹At _ _› rfl $c (by assumption) rfl _ _) _).trans ?_
  | refine (FitsM.bind_ok (read_col_str_truncate ‹At _ _› rfl $c (by assumption) rfl _) _).trans ?_)

theorem readElement_eq {s : FState R} {t : OiArray R} {v : Int} (hs : At s (Spec.hduArray t v)) (u : Undef R)
    {i : Nat} {e : Element R} (hr : t.elem[i]? = some e) :
    readElement u 2 (i + 1) s = .ok ({ e with
        tel_name := colStr 16 e.tel_name
        sta_name := colStr 16 e.sta_name
        fovtype := colStr 6 e.fovtype }, s) := by
  have hb : (Spec.hduArray t v).type = .binary := rfl
  have hn : t.elem.length = (Spec.hduArray t v).nrows := rfl
  have c1 : colAt (Spec.hduArray t v).cols "TEL_NAME" = some (Spec.strCol "TEL_NAME" 16 t.elem (·.tel_name)) := rfl
  have c2 : colAt (Spec.hduArray t v).cols "STA_NAME" = some (Spec.strCol "STA_NAME" 16 t.elem (·.sta_name)) := rfl
  have c3 : colAt (Spec.hduArray t v).cols "STA_INDEX" = some (Spec.intsCol "STA_INDEX" .I 1 t.elem (fun e => [e.sta_index])) := rfl
  have c4 : colAt (Spec.hduArray t v).cols "DIAMETER" = some (Spec.fltsCol "DIAMETER" 1 (some "m") t.elem (fun e => [e.diameter])) := rfl
  have c5 : colAt (Spec.hduArray t v).cols "STAXYZ" = some (Spec.dblsCol "STAXYZ" 3 (some "m") t.elem (fun e => [e.staxyz.1, e.staxyz.2.1, e.staxyz.2.2])) := rfl
  have c6 : colAt (Spec.hduArray t v).cols "FOV" = some (Spec.dblsCol "FOV" 1 (some "arcsec") t.elem (fun e => [e.fov])) := rfl
  have c7 : colAt (Spec.hduArray t v).cols "FOVTYPE" = some (Spec.strCol "FOVTYPE" 6 t.elem (·.fovtype)) := rfl
  unfold readElement
  rc c1; rc c2; rc c3; rc c4
  refine (FitsM.bind_ok (readArr_dbls hs hb c5 hr hn rfl (by decide) _) _).trans ?_
  simp only [ge_iff_le, Int.le_refl, if_true]
  rc c6; rc c7
  rfl

theorem read_oi_array_chdu_eq {s : FState R} {t : OiArray R} {v : Int} (hs : At s (Spec.hduArray t v))
    (ht : t.elem ≠ []) (u : Undef R) (old : OiArray R) :
    read_oi_array_chdu u old none s = .ok (t.asRead, s) := by
  have hb : (Spec.hduArray t v).type = .binary := rfl
  have k1 : (Spec.hduArray t v).keys.lookup ("OI_REVN" : CStr) = some (.int 2) := rfl
  have k2 : (Spec.hduArray t v).keys.lookup ("ARRNAME" : CStr) = some (.str (keyStr t.arrname)) := rfl
  have k3 : (Spec.hduArray t v).keys.lookup ("FRAME" : CStr) = some (.str (keyStr t.frame)) := rfl
  have k4 : (Spec.hduArray t v).keys.lookup ("ARRAYX" : CStr) = some (.dbl (Spec.asKey t.arrayx)) := rfl
  have k5 : (Spec.hduArray t v).keys.lookup ("ARRAYY" : CStr) = some (.dbl (Spec.asKey t.arrayy)) := rfl
  have k6 : (Spec.hduArray t v).keys.lookup ("ARRAYZ" : CStr) = some (.dbl (Spec.asKey t.arrayz)) := rfl
  have hn : (Spec.hduArray t v).nrows = t.elem.length := rfl
  unfold read_oi_array_chdu
  rw [guardStatus_ok hs.ok]; rd k1
  rw [guardStatus_ok hs.ok]; rd k2; rd k3; rd k4; rd k5; rd k6
  rw [FitsM.bind_ok (get_num_rows hs hb _)]
  rw [guardStatus_ok hs.ok, hn, chkmallocN_ok (by simpa using ht)]
  rw [FitsM.bind_ok (FitsM.run_lift_ok () s), FitsM.bind_ok (forRows_map_one t.elem _ _ fun i e he => readElement_eq hs u he)]
  rfl

theorem read_oi_wavelength_chdu_eq {s : FState R} {t : OiWavelength R} {v : Int}
    (hs : At s (Spec.hduWavelength t v)) (ht : t.WF) (u : Undef R) (old : OiWavelength R) :
    read_oi_wavelength_chdu u old none s = .ok (t.asRead, s) := by
  have hb : (Spec.hduWavelength t v).type = .binary := rfl
  have k1 : (Spec.hduWavelength t v).keys.lookup ("OI_REVN" : CStr) = some (.int 2) := rfl
  have k2 : (Spec.hduWavelength t v).keys.lookup ("INSNAME" : CStr) = some (.str (keyStr t.insname)) := rfl
  have c1 : colAt (Spec.hduWavelength t v).cols "EFF_WAVE"
      = some (Spec.col "EFF_WAVE" .E 1 (some "m") none (t.eff_wave.map fun x => [Cell.flt x])) := rfl
  have c2 : colAt (Spec.hduWavelength t v).cols "EFF_BAND"
      = some (Spec.col "EFF_BAND" .E 1 (some "m") none (t.eff_band.map fun x => [Cell.flt x])) := rfl
  have hpos : 0 < (Spec.hduWavelength t v).nrows := Nat.pos_of_ne_zero ht.chans
  unfold read_oi_wavelength_chdu
  rw [guardStatus_ok hs.ok]; rd k1
  rw [guardStatus_ok hs.ok]; rd k2
  rw [FitsM.bind_ok (get_num_rows hs hb _)]
  rw [guardStatus_ok hs.ok, chkmallocN_ok (by omega)]
  rw [FitsM.bind_ok (FitsM.run_lift_ok () s),
    FitsM.bind_ok (readArr_all hs hb c1 (by decide) ht.eff_wave hpos (fun _ => rfl) _),
    FitsM.bind_ok (readArr_all hs hb c2 (by decide) ht.eff_band hpos (fun _ => rfl) _)]
  rfl

theorem read_oi_corr_chdu_eq {s : FState R} {t : OiCorr R} {v : Int}
    (hs : At s (Spec.hduCorr t v)) (ht : t.WF) (u : Undef R) (old : OiCorr R) :
    read_oi_corr_chdu u old none s = .ok (t.asRead, s) := by
  have hb : (Spec.hduCorr t v).type = .binary := rfl
  have k1 : (Spec.hduCorr t v).keys.lookup ("OI_REVN" : CStr) = some (.int 1) := rfl
  have k2 : (Spec.hduCorr t v).keys.lookup ("CORRNAME" : CStr) = some (.str (keyStr t.corrname)) := rfl
  have k3 : (Spec.hduCorr t v).keys.lookup ("NDATA" : CStr) = some (.int t.ndata) := rfl
  have c1 : colAt (Spec.hduCorr t v).cols "IINDX"
      = some (Spec.col "IINDX" .J 1 none none (t.iindx.map fun x => [Cell.int x])) := rfl
  have c2 : colAt (Spec.hduCorr t v).cols "JINDX"
      = some (Spec.col "JINDX" .J 1 none none (t.jindx.map fun x => [Cell.int x])) := rfl
  have c3 : colAt (Spec.hduCorr t v).cols "CORR"
      = some (Spec.col "CORR" .D 1 none none (t.corr.map fun x => [Cell.dbl x])) := rfl
  have hpos : 0 < (Spec.hduCorr t v).nrows := Nat.pos_of_ne_zero ht.rows
  unfold read_oi_corr_chdu
  rw [guardStatus_ok hs.ok]; rd k1
  rw [guardStatus_ok hs.ok]; rd k2; rd k3
  rw [FitsM.bind_ok (get_num_rows hs hb _)]
  rw [guardStatus_ok hs.ok, chkmallocN_ok (by omega)]
  rw [FitsM.bind_ok (FitsM.run_lift_ok () s),
    FitsM.bind_ok (readArr_all hs hb c1 (by decide) ht.iindx hpos (fun _ => rfl) _),
    FitsM.bind_ok (readArr_all hs hb c2 (by decide) ht.jindx hpos (fun _ => rfl) _),
    FitsM.bind_ok (readArr_all hs hb c3 (by decide) ht.corr hpos (fun _ => rfl) _)]
  rfl

/-! ### OI_TARGET -/

theorem readTarget_eq {s : FState R} {t : OiTarget R} (hs : At s (Spec.hduTarget t)) (u : Undef R)
    {i : Nat} {x : Target R} (hr : t.targ[i]? = some x) :
    readTarget u (i + 1) s = .ok ({ x with
        target := colStr 32 x.target
        veltyp := colStr 8 x.veltyp
        veldef := colStr 8 x.veldef
        spectyp := colStr 32 x.spectyp
        category := u.str }, s) := by
  have c1 : colAt (Spec.hduTarget t).cols "TARGET_ID" = some (Spec.intsCol "TARGET_ID" .I 1 t.targ (fun x => [x.target_id])) := rfl
  have c2 : colAt (Spec.hduTarget t).cols "TARGET" = some (Spec.strCol "TARGET" 32 t.targ (·.target)) := rfl
  have c3 : colAt (Spec.hduTarget t).cols "RAEP0" = some (Spec.dblsCol "RAEP0" 1 (some "deg") t.targ (fun x => [x.raep0])) := rfl
  have c4 : colAt (Spec.hduTarget t).cols "DECEP0" = some (Spec.dblsCol "DECEP0" 1 (some "deg") t.targ (fun x => [x.decep0])) := rfl
  have c5 : colAt (Spec.hduTarget t).cols "EQUINOX" = some (Spec.fltsCol "EQUINOX" 1 (some "yr") t.targ (fun x => [x.equinox])) := rfl
  have c6 : colAt (Spec.hduTarget t).cols "RA_ERR" = some (Spec.dblsCol "RA_ERR" 1 (some "deg") t.targ (fun x => [x.ra_err])) := rfl
  have c7 : colAt (Spec.hduTarget t).cols "DEC_ERR" = some (Spec.dblsCol "DEC_ERR" 1 (some "deg") t.targ (fun x => [x.dec_err])) := rfl
  have c8 : colAt (Spec.hduTarget t).cols "SYSVEL" = some (Spec.dblsCol "SYSVEL" 1 (some "m/s") t.targ (fun x => [x.sysvel])) := rfl
  have c9 : colAt (Spec.hduTarget t).cols "VELTYP" = some (Spec.strCol "VELTYP" 8 t.targ (·.veltyp)) := rfl
  have c10 : colAt (Spec.hduTarget t).cols "VELDEF" = some (Spec.strCol "VELDEF" 8 t.targ (·.veldef)) := rfl
  have c11 : colAt (Spec.hduTarget t).cols "PMRA" = some (Spec.dblsCol "PMRA" 1 (some "deg/yr") t.targ (fun x => [x.pmra])) := rfl
  have c12 : colAt (Spec.hduTarget t).cols "PMDEC" = some (Spec.dblsCol "PMDEC" 1 (some "deg/yr") t.targ (fun x => [x.pmdec])) := rfl
  have c13 : colAt (Spec.hduTarget t).cols "PMRA_ERR" = some (Spec.dblsCol "PMRA_ERR" 1 (some "deg/yr") t.targ (fun x => [x.pmra_err])) := rfl
  have c14 : colAt (Spec.hduTarget t).cols "PMDEC_ERR" = some (Spec.dblsCol "PMDEC_ERR" 1 (some "deg/yr") t.targ (fun x => [x.pmdec_err])) := rfl
  have c15 : colAt (Spec.hduTarget t).cols "PARALLAX" = some (Spec.fltsCol "PARALLAX" 1 (some "deg") t.targ (fun x => [x.parallax])) := rfl
  have c16 : colAt (Spec.hduTarget t).cols "PARA_ERR" = some (Spec.fltsCol "PARA_ERR" 1 (some "deg") t.targ (fun x => [x.para_err])) := rfl
  have c17 : colAt (Spec.hduTarget t).cols "SPECTYP" = some (Spec.strCol "SPECTYP" 32 t.targ (·.spectyp)) := rfl
  unfold readTarget
  rc c1; rc c2; rc c3; rc c4; rc c5; rc c6; rc c7; rc c8; rc c9; rc c10; rc c11; rc c12
  rc c13; rc c14; rc c15; rc c16; rc c17
  rfl

theorem readCategories_eq {s : FState R} {t : OiTarget R} (hs : At s (Spec.hduTarget t)) (u : Undef R)
    (ht : t.targ ≠ []) :
    readCategories 2 (t.targ.map fun x => { x with
        target := colStr 32 x.target
        veltyp := colStr 8 x.veltyp
        veldef := colStr 8 x.veldef
        spectyp := colStr 32 x.spectyp
        category := u.str }) s = .ok (t.asRead u.str, s) := by
  have hb : (Spec.hduTarget t).type = .binary := rfl
  cases hu : t.usecategory with
  | false =>
    have c1 : colAt (Spec.hduTarget t).cols "CATEGORY" = none := by
      simp only [Spec.hduTarget, hu]; rfl
    unfold readCategories
    rw [if_pos (by decide)]
    cases hl : t.targ with
    | nil => exact absurd hl ht
    | cons x xs =>
      simp only [List.map_cons]
      rw [FitsM.bind_ok (read_col_str_none hs hb c1 3 1 _)]
      simp [OiTarget.asRead, hu, hl]
  | true =>
    have c1 : colAt (Spec.hduTarget t).cols "CATEGORY" = some (Spec.strCol "CATEGORY" 3 t.targ (·.category)) := by
      simp only [Spec.hduTarget, hu]; rfl
    unfold readCategories
    rw [if_pos (by decide)]
    cases hl : t.targ with
    | nil => exact absurd hl ht
    | cons x xs =>
      simp only [List.map_cons]
      rw [FitsM.bind_ok (read_col_str hs hb c1 (i := 0) (r := x) (by simp [hl]) rfl true _)]
      simp only [if_true]
      rw [FitsM.bind_ok (forRecs_map xs _ (fun x => { x with
        target := colStr 32 x.target
        veltyp := colStr 8 x.veltyp
        veldef := colStr 8 x.veldef
        spectyp := colStr 32 x.spectyp
        category := colStr 3 x.category }) 2 readCategory ?_)]
      · simp [OiTarget.asRead, hu, hl]
      · intro i r hr
        rw [readCategory, show 2 + i = (i + 1) + 1 by omega]
        rw [FitsM.bind_ok (read_col_str hs hb c1 (i := i + 1) (r := r) (by simp [hl, hr]) rfl false _)]
        rfl

/-- One step of any kind. -/
macro "rb" h:term : tactic => `(tactic| refine (FitsM.bind_ok $h _).trans ?_)

theorem read_oi_target_eq {s s' : FState R} (hok : s.status = .ok) {t : OiTarget R}
    (hmv : fits_movnam_hdu "OI_TARGET" s = .ok ((), s')) (hs : At s' (Spec.hduTarget t))
    (ht : t.targ ≠ []) (u : Undef R) (old : OiTarget R) :
    read_oi_target u old s = .ok (t.asRead u.str, s') := by
  have hb : (Spec.hduTarget t).type = .binary := rfl
  have hn : (Spec.hduTarget t).nrows = t.targ.length := rfl
  have k1 : (Spec.hduTarget t).keys.lookup ("OI_REVN" : CStr) = some (.int 2) := rfl
  unfold read_oi_target
  rw [guardStatus_ok hok]; rb hmv; rd k1
  rw [guardStatus_ok hs.ok]; rb (get_num_rows hs hb _)
  rw [guardStatus_ok hs.ok, hn, chkmallocN_ok (by simpa using ht)]
  rb (FitsM.run_lift_ok () s')
  rb (forRows_map_one t.targ _ _ fun i e he => readTarget_eq hs u he)
  exact readCategories_eq hs u ht

theorem read_next_oi_array_eq {s s' : FState R} (hok : s.status = .ok) {t : OiArray R} {v : Int}
    (hmv : next_named_hdu "OI_ARRAY" s = .ok ((), s')) (hs : At s' (Spec.hduArray t v))
    (ht : t.elem ≠ []) (u : Undef R) (old : OiArray R) :
    read_next_oi_array u old s = .ok (t.asRead, s') := by
  unfold read_next_oi_array
  rw [guardStatus_ok hok]; rb hmv
  rw [guardStatus_ok hs.ok]
  exact read_oi_array_chdu_eq hs ht u old

theorem read_next_oi_wavelength_eq {s s' : FState R} (hok : s.status = .ok) {t : OiWavelength R} {v : Int}
    (hmv : next_named_hdu "OI_WAVELENGTH" s = .ok ((), s')) (hs : At s' (Spec.hduWavelength t v))
    (ht : t.WF) (u : Undef R) (old : OiWavelength R) :
    read_next_oi_wavelength u old s = .ok (t.asRead, s') := by
  unfold read_next_oi_wavelength
  rw [guardStatus_ok hok]; rb hmv
  rw [guardStatus_ok hs.ok]
  exact read_oi_wavelength_chdu_eq hs ht u old

theorem read_next_oi_corr_eq {s s' : FState R} (hok : s.status = .ok) {t : OiCorr R} {v : Int}
    (hmv : next_named_hdu "OI_CORR" s = .ok ((), s')) (hs : At s' (Spec.hduCorr t v))
    (ht : t.WF) (u : Undef R) (old : OiCorr R) :
    read_next_oi_corr u old s = .ok (t.asRead, s') := by
  unfold read_next_oi_corr
  rw [guardStatus_ok hok]; rb hmv
  rw [guardStatus_ok hs.ok]
  exact read_oi_corr_chdu_eq hs ht u old

end Verif
