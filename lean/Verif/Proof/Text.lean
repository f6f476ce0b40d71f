import Verif.Spec.Cli
import Verif.Spec.WF
import Verif.Proof.Loop

/-! Texts made in the string buffer. -/

namespace Verif
open Outcome Spec
variable {R : FP} {α : Type}

/-- The function adds `text` to the buffer. -/
def Appends (m : TextM Unit) (text : CStr) : Prop := ∀ s, m (some s) = .ok ((), some (s ++ text))

theorem appends_gAppend (text : CStr) : Appends (gAppend text) text := fun _ => rfl

theorem appends_nil : Appends (pure ()) [] := fun s => by simp; rfl

theorem Appends.bind {m n : TextM Unit} {a b : CStr} (h1 : Appends m a) (h2 : Appends n b) :
    Appends (do m; n) (a ++ b) := fun s => by
  show ((m (some s)) >>= fun p => n p.2) = _
  rw [h1 s, bind_ok, h2, List.append_assoc]

/-- Running to the end. -/
theorem run_appends {m : TextM Unit} {n : TextM CStr} {a s : CStr} {r : Outcome (CStr × Option CStr)} (h : Appends m a)
    (hr : n (some (s ++ a)) = r) : (do m; n : TextM CStr) (some s) = r := by
  show ((m (some s)) >>= fun p => n p.2) = _
  rw [h s, bind_ok, hr]

theorem appends_numberedList {f : Int → α → TextM Unit} {text : Int → α → CStr} (l : List α)
    (h : ∀ n, ∀ x ∈ l, Appends (f n x) (text n x)) (n : Nat) :
    Appends (numberedList f n l) ((l.zipIdx n).flatMap fun t => text t.2 t.1) := by
  induction l generalizing n with
  | nil => exact appends_nil
  | cons x l ih =>
    have := (h n x List.mem_cons_self).bind (ih (fun n x hx => h n x (List.mem_cons_of_mem _ hx)) (n + 1))
    exact this

theorem fmtInt_nat (n : Nat) : fmtInt n = dec n := by
  unfold fmtInt dec
  rw [if_neg (by omega)]; rfl

theorem appends_listing {f : Int → α → TextM Unit} {entry : α → CStr} {name : CStr} {l : List α} {n : Int}
    (hn : n = l.length)
    (h : ∀ n : Nat, ∀ x ∈ l, Appends (f n x) (("    #" : CStr) ++ fmtIntL2 n ++ (" " : CStr) ++ entry x)) :
    Appends (do appendCount n name; numberedList f 1 l) (listing name l entry) := by
  subst hn
  have key : ∀ (l : List α) (n : Nat),
      (∀ n : Nat, ∀ x ∈ l, Appends (f n x) (("    #" : CStr) ++ fmtIntL2 n ++ (" " : CStr) ++ entry x)) →
      Appends (numberedList f n l) ((l.zipIdx n).flatMap fun t =>
        ("    #" : CStr) ++ dec t.2 ++ List.replicate (2 - (dec t.2).length) ' ' ++ (" " : CStr) ++ entry t.1) := by
    intro l
    induction l with
    | nil => exact fun _ _ => appends_nil
    | cons x l ih =>
      intro n h
      have h1 := h n x List.mem_cons_self
      unfold fmtIntL2 at h1
      rw [fmtInt_nat] at h1
      have := h1.bind (ih (n + 1) fun n x hx => h n x (List.mem_cons_of_mem _ hx))
      rw [List.zipIdx_cons, List.flatMap_cons]
      simp only [List.append_assoc] at this ⊢
      exact this
  have e : (("  " : CStr) ++ fmtInt l.length ++ (" " : CStr) ++ name ++ (" tables:\n" : CStr))
      = line ["  ", dec l.length, " ", name, " tables:"] := by
    rw [fmtInt_nat]
    simp only [line, List.flatten_cons, List.flatten_nil, List.append_assoc, List.append_nil]
    rfl
  have e' : appendCount (l.length : Int) name = gAppend (line ["  ", dec l.length, " ", name, " tables:"]) := by
    rw [← e]; rfl
  rw [e']
  have h2 := ((appends_gAppend (line ["  ", dec l.length, " ", name, " tables:"])).bind (key l 1 h))
  unfold listing
  simp only [List.append_assoc] at h2 ⊢
  exact h2

theorem get_min_wavelength_eq {w : OiWavelength R} (h : w.WF) : get_min_wavelength w = .ok (shortest w.eff_wave) := by
  unfold get_min_wavelength
  rw [loopN_index (F := fun x minWave =>
    if R.lt (R.toD x) (R.toD minWave) then return x else return minWave) h.eff_wave]
  rw [foldlM_ok (g := fun minWave x => if R.lt (R.toD x) (R.toD minWave) then x else minWave)
    (by intro s x _; split <;> rfl)]
  rfl

theorem get_max_wavelength_eq {w : OiWavelength R} (h : w.WF) : get_max_wavelength w = .ok (longest w.eff_wave) := by
  unfold get_max_wavelength
  rw [loopN_index (F := fun x maxWave =>
    if R.lt (R.toD maxWave) (R.toD x) then return x else return maxWave) h.eff_wave]
  rw [foldlM_ok (g := fun maxWave x => if R.lt (R.toD maxWave) (R.toD x) then x else maxWave)
    (by intro s x _; split <;> rfl)]
  rfl

theorem appends_of_eq {a b : CStr} (h : a = b) : Appends (gAppend a) b := h ▸ appends_gAppend a

theorem appends_array (n : Nat) (t : OiArray R) : Appends
    (gAppend (("    #" : CStr) ++ fmtIntL2 n ++ (" ARRNAME='" : CStr) ++ t.arrname ++ ("'  " : CStr)
      ++ fmtInt t.elem.length ++ (" elements\n" : CStr)))
    (("    #" : CStr) ++ fmtIntL2 n ++ (" " : CStr) ++
      arrayEntry t) := by
  unfold arrayEntry
  rw [fmtInt_nat]
  refine appends_of_eq ?_
  simp only [line, List.flatten_cons, List.flatten_nil, List.append_assoc, List.append_nil]
  rfl

theorem appends_wavelength (n : Nat) (t : OiWavelength R) (h : t.WF) : Appends
    (do
      let lo ← get_min_wavelength t
      let hi ← get_max_wavelength t
      gAppend (("    #" : CStr) ++ fmtIntL2 n ++ (" INSNAME='" : CStr) ++ t.insname ++ ("'  " : CStr)
        ++ fmtInt t.nwave ++ (" channels  " : CStr)
        ++ R.fmt "%7.1f" (R.mul (R.lit 1000000000) (R.toD lo)) ++ ("-" : CStr)
        ++ R.fmt "%7.1f" (R.mul (R.lit 1000000000) (R.toD hi)) ++ ("nm\n" : CStr)))
    (("    #" : CStr) ++ fmtIntL2 n ++ (" " : CStr) ++
      wavelengthEntry t) := by
  unfold wavelengthEntry
  rw [get_min_wavelength_eq h, get_max_wavelength_eq h, fmtInt_nat]
  refine appends_of_eq ?_
  simp only [line, List.flatten_cons, List.flatten_nil, List.append_assoc, List.append_nil]
  rfl

theorem appends_corr (n : Nat) (t : OiCorr R) : Appends
    (gAppend (("    #" : CStr) ++ fmtIntL2 n ++ (" CORRNAME='" : CStr) ++ t.corrname ++ ("'  " : CStr)
      ++ fmtInt t.ncorr ++ ("/" : CStr) ++ fmtInt t.ndata ++ (" non-zero correlations\n" : CStr)))
    (("    #" : CStr) ++ fmtIntL2 n ++ (" " : CStr) ++
      corrEntry t) := by
  unfold corrEntry
  rw [fmtInt_nat]
  refine appends_of_eq ?_
  simp only [line, List.flatten_cons, List.flatten_nil, List.append_assoc, List.append_nil]
  rfl

theorem appends_inspol (n : Nat) (t : OiInspol R) : Appends
    (gAppend (("    #" : CStr) ++ fmtIntL2 n ++ (" ARRNAME='" : CStr) ++ t.arrname ++ ("'\n" : CStr)))
    (("    #" : CStr) ++ fmtIntL2 n ++ (" " : CStr) ++ inspolEntry t) := by
  unfold inspolEntry
  refine appends_of_eq ?_
  simp only [line, List.flatten_cons, List.flatten_nil, List.append_assoc, List.append_nil]
  rfl

theorem fmtIntW_nat (w n : Nat) : fmtIntW w n = rightAligned w n := by
  unfold fmtIntW
  rw [fmtInt_nat]; rfl

theorem appends_data (n : Nat) (a b c d : CStr) (k m : Nat) : Appends (dataSummary n a b c d k m)
    (("    #" : CStr) ++ fmtIntL2 n ++ (" " : CStr) ++ dataEntry a b c d k m) := by
  unfold dataSummary dataEntry
  rw [fmtIntW_nat, fmtIntW_nat]
  refine appends_of_eq ?_
  generalize rightAligned 5 k = x
  generalize rightAligned 3 m = y
  generalize fmtIntL2 n = z
  simp only [line, List.flatten_cons, List.flatten_nil, List.append_assoc, List.append_nil]
  rfl

theorem appends_key {name value : CStr} {l : CStr} (h : l = ("  " : CStr) ++ name ++ ("= '" : CStr)) :
    Appends (appendKey name value) (line [l, value, ("'" : CStr)]) := by
  subst h
  refine appends_of_eq ?_
  simp only [line, List.flatten_cons, List.flatten_nil, List.append_assoc, List.append_nil]
  rfl

theorem text_end {a t : CStr} (h : a = t) : bufferText (some a) = .ok (t, some t) := by
  subst h; rfl

theorem appends_list_array {n : Int} {l : List (OiArray R)} (hn : n = l.length) {name : CStr} :
    Appends (do appendCount n name; format_array_list_summary l) (listing name l arrayEntry) :=
  appends_listing hn fun n t _ => appends_array n t

theorem appends_list_wavelength {n : Int} {l : List (OiWavelength R)} (hn : n = l.length) (hw : ∀ t ∈ l, t.WF) {name : CStr} :
    Appends (do appendCount n name; format_wavelength_list_summary l) (listing name l wavelengthEntry) :=
  appends_listing hn fun n t ht => appends_wavelength n t (hw t ht)

theorem appends_list_corr {n : Int} {l : List (OiCorr R)} (hn : n = l.length) {name : CStr} :
    Appends (do appendCount n name; format_corr_list_summary l) (listing name l corrEntry) :=
  appends_listing hn fun n t _ => appends_corr n t

theorem appends_list_inspol {n : Int} {l : List (OiInspol R)} (hn : n = l.length) {name : CStr} :
    Appends (do appendCount n name; format_inspol_list_summary l) (listing name l inspolEntry) :=
  appends_listing hn fun n t _ => appends_inspol n t

theorem appends_list_vis {n : Int} {l : List (OiVis R)} (hn : n = l.length) {name : CStr} :
    Appends (do
      appendCount n name
      numberedList (fun nn t => dataSummary nn t.date_obs t.insname t.arrname t.corrname t.record.length t.nwave) 1 l)
      (listing name l fun t => dataEntry t.date_obs t.insname t.arrname t.corrname t.record.length t.nwave) :=
  appends_listing hn fun n t _ => appends_data n t.date_obs t.insname t.arrname t.corrname t.record.length t.nwave

theorem appends_list_vis2 {n : Int} {l : List (OiVis2 R)} (hn : n = l.length) {name : CStr} :
    Appends (do
      appendCount n name
      numberedList (fun nn t => dataSummary nn t.date_obs t.insname t.arrname t.corrname t.record.length t.nwave) 1 l)
      (listing name l fun t => dataEntry t.date_obs t.insname t.arrname t.corrname t.record.length t.nwave) :=
  appends_listing hn fun n t _ => appends_data n t.date_obs t.insname t.arrname t.corrname t.record.length t.nwave

theorem appends_list_t3 {n : Int} {l : List (OiT3 R)} (hn : n = l.length) {name : CStr} :
    Appends (do
      appendCount n name
      numberedList (fun nn t => dataSummary nn t.date_obs t.insname t.arrname t.corrname t.record.length t.nwave) 1 l)
      (listing name l fun t => dataEntry t.date_obs t.insname t.arrname t.corrname t.record.length t.nwave) :=
  appends_listing hn fun n t _ => appends_data n t.date_obs t.insname t.arrname t.corrname t.record.length t.nwave

theorem appends_list_flux {n : Int} {l : List (OiFlux R)} (hn : n = l.length) {name : CStr} :
    Appends (do
      appendCount n name
      numberedList (fun nn t => dataSummary nn t.date_obs t.insname t.arrname t.corrname t.record.length t.nwave) 1 l)
      (listing name l fun t => dataEntry t.date_obs t.insname t.arrname t.corrname t.record.length t.nwave) :=
  appends_listing hn fun n t _ => appends_data n t.date_obs t.insname t.arrname t.corrname t.record.length t.nwave

/-- Running to the end, in two steps. -/
theorem run_appends2 {m m' : TextM Unit} {n : TextM CStr} {a s : CStr} {r : Outcome (CStr × Option CStr)}
    (h : Appends (do m; m') a) (hr : n (some (s ++ a)) = r) : (do m; m'; n : TextM CStr) (some s) = r := by
  have e : (do m; m'; n : TextM CStr) = (do (do m; m'); n : TextM CStr) := (bind_assoc ..).symm
  rw [e]
  exact run_appends h hr

theorem summary_eq {oi : OiFits R} (h : oi.WF) (b : Option CStr) :
    format_oi_fits_summary oi b = .ok (summary oi, some (summary oi)) := by
  have start : ∀ (k : Unit → TextM CStr) (v w : CStr) (c : Bool) (r : Outcome (CStr × Option CStr)),
      k () (some (if c then v else w)) = r →
      (do needBuffer; if c then (do let y ← gPrintf v; k y) else (do let y ← gPrintf w; k y) : TextM CStr) b = r := by
    intro k v w c r hk
    cases b <;> cases c <;> exact hk
  unfold format_oi_fits_summary
  refine start _ _ _ _ _ ?_
  refine run_appends (appends_key (l := "  ORIGIN  = '") rfl) ?_
  refine run_appends (appends_key (l := "  DATE    = '") rfl) ?_
  refine run_appends (appends_key (l := "  DATE-OBS= '") rfl) ?_
  refine run_appends (appends_key (l := "  TELESCOP= '") rfl) ?_
  refine run_appends (appends_key (l := "  INSTRUME= '") rfl) ?_
  refine run_appends (appends_key (l := "  OBSERVER= '") rfl) ?_
  refine run_appends (appends_key (l := "  OBJECT  = '") rfl) ?_
  refine run_appends (appends_key (l := "  INSMODE = '") rfl) ?_
  refine run_appends (appends_gAppend _) ?_
  refine run_appends2 (appends_list_array h.counts.array) ?_
  refine run_appends2 (appends_list_wavelength h.counts.wavelength h.wavelength) ?_
  refine run_appends2 (appends_list_corr h.counts.corr) ?_
  refine run_appends2 (appends_list_inspol h.counts.inspol) ?_
  refine run_appends2 (appends_list_vis h.counts.vis) ?_
  refine run_appends2 (appends_list_vis2 h.counts.vis2) ?_
  refine run_appends2 (appends_list_t3 h.counts.t3) ?_
  refine run_appends2 (appends_list_flux h.counts.flux) ?_
  refine text_end ?_
  unfold summary
  have e1 : ∀ x : CStr, ("  OBSTECH = '" : CStr) ++ x ++ ("'\n\n" : CStr)
      = line ["  OBSTECH = '", x, "'"] ++ line [] := by
    intro x
    simp only [line, List.flatten_cons, List.flatten_nil, List.append_assoc, List.append_nil]
    rfl
  rw [e1]
  have e2 : (if is_oi_fits_two oi = true then ("OIFITS version 2 data:\n" : CStr) else ("OIFITS version 1 data:\n" : CStr))
      = line ["OIFITS version ", if oi.header.content = ("OIFITS2" : CStr) then "2" else "1", " data:"] := by
    unfold is_oi_fits_two
    by_cases hc : oi.header.content = ("OIFITS2" : CStr)
    · rw [if_pos (by simpa using hc), if_pos hc]; rfl
    · rw [if_neg (by simpa using hc), if_neg hc]; rfl
  rw [e2]
  simp only [List.append_assoc]

theorem start_buffer (b : Option CStr) {k : TextM CStr} {v : CStr} {r : Outcome (CStr × Option CStr)}
    (hk : k (some v) = r) : (do needBuffer; gPrintf v; k : TextM CStr) b = r := by
  cases b <;> exact hk

/-- One of two lines. -/
theorem run_either {k : Unit → TextM CStr} {v w s : CStr} {c : Prop} [Decidable c] {r : Outcome (CStr × Option CStr)}
    (hk : k () (some (s ++ if c then v else w)) = r) :
    (if c then (do let y ← gAppend v; k y) else (do let y ← gAppend w; k y) : TextM CStr) (some s) = r := by
  by_cases h : c
  · rw [if_pos h] at hk ⊢; exact hk
  · rw [if_neg h] at hk ⊢; exact hk

theorem appends_accept (c : Bool) (yes no l1 l2 : CStr) (h1 : l1 = ("  " : CStr) ++ yes)
    (h2 : l2 = ("  [" : CStr) ++ no ++ (" not accepted]" : CStr)) :
    Appends (acceptLine c yes no) (line (if c then [l1] else [l2])) := by
  subst h1 h2
  cases c
  · refine appends_of_eq ?_
    simp only [Bool.false_eq_true, if_false, line, List.flatten_cons, List.flatten_nil, List.append_assoc, List.append_nil]
    rfl
  · refine appends_of_eq ?_
    simp only [if_true, line, List.flatten_cons, List.flatten_nil, List.append_assoc, List.append_nil]
    rfl

theorem filterText_eq (f : FilterSpec R) (b : Option CStr) :
    format_oi_filter f b = .ok (filterText f, some (filterText f)) := by
  unfold format_oi_filter
  refine start_buffer b ?_
  refine run_appends (appends_gAppend _) ?_
  refine run_appends (appends_gAppend _) ?_
  refine run_appends (appends_gAppend _) ?_
  refine run_either ?_
  refine run_appends (appends_gAppend _) ?_
  refine run_appends (appends_gAppend _) ?_
  refine run_appends (appends_gAppend _) ?_
  refine run_appends (appends_gAppend _) ?_
  refine run_appends (appends_gAppend _) ?_
  refine run_appends (appends_accept f.accept_vis _ _ "  OI_VIS (complex visibilities)" "  [OI_VIS not accepted]" rfl rfl) ?_
  refine run_appends (appends_accept f.accept_vis2 _ _ "  OI_VIS2 (squared visibilities)" "  [OI_VIS2 not accepted]" rfl rfl) ?_
  refine run_appends (appends_accept f.accept_t3amp _ _ "  OI_T3 T3AMP (triple amplitudes)" "  [OI_T3 T3AMP not accepted]" rfl rfl) ?_
  refine run_appends (appends_accept f.accept_t3phi _ _ "  OI_T3 T3PHI (closure phases)" "  [OI_T3 T3PHI not accepted]" rfl rfl) ?_
  refine run_appends (appends_accept f.accept_flux _ _ "  OI_FLUX (incoherent spectra)" "  [OI_FLUX not accepted]" rfl rfl) ?_
  refine run_appends (appends_accept f.accept_flagged _ _ "  All-flagged records" "  [All-flagged records not accepted]" rfl rfl) ?_
  refine text_end ?_
  have e : (if f.target_id ≥ 0 then ("  TARGET_ID=" : CStr) ++ fmtInt f.target_id ++ ("\n" : CStr) else ("  [Any TARGET_ID]\n" : CStr))
      = line (if f.target_id < 0 then ["  [Any TARGET_ID]"] else ["  TARGET_ID=", dec f.target_id.toNat]) := by
    by_cases h : f.target_id < 0
    · rw [if_neg (by omega), if_pos h]; rfl
    · rw [if_pos (by omega), if_neg h]
      obtain ⟨n, hn⟩ := Int.eq_ofNat_of_zero_le (show 0 ≤ f.target_id by omega)
      rw [hn, fmtInt_nat]
      simp only [line, List.flatten_cons, List.flatten_nil, List.append_assoc, List.append_nil]
      rfl
  rw [e]
  unfold filterText
  have l1 : ∀ (a x z z' : CStr), z = z' ++ ['\n'] → a ++ x ++ z = line [a, x, z'] := by
    intro a x z z' h; subst h
    simp only [line, List.flatten_cons, List.flatten_nil, List.append_assoc, List.append_nil]
  have l2 : ∀ (a x y w z z' : CStr), z = z' ++ ['\n'] → a ++ x ++ y ++ w ++ z = line [a, x, y, w, z'] := by
    intro a x y w z z' h; subst h
    simp only [line, List.flatten_cons, List.flatten_nil, List.append_assoc, List.append_nil]
  have l3 : ∀ (a x y w z : CStr), z = ['\n'] → a ++ x ++ y ++ w ++ z = line [a, x, y, w] := by
    intro a x y w z h; subst h
    simp only [line, List.flatten_cons, List.flatten_nil, List.append_assoc, List.append_nil]
  rw [l1 ("  ARRNAME='" : CStr) f.arrname ("'\n" : CStr) ("'" : CStr) rfl, l1 ("  INSNAME='" : CStr) f.insname ("'\n" : CStr) ("'" : CStr) rfl,
    l1 ("  CORRNAME='" : CStr) f.corrname ("'\n" : CStr) ("'" : CStr) rfl,
    l3 ("  MJD: " : CStr) _ _ _ ("\n" : CStr) rfl, l2 ("  Wavelength: " : CStr) _ _ _ ("nm\n" : CStr) ("nm" : CStr) rfl,
    l2 ("  Baseline: " : CStr) _ _ _ ("m\n" : CStr) ("m" : CStr) rfl, l2 ("  UV Radius: " : CStr) _ _ _ (" waves\n" : CStr) (" waves" : CStr) rfl,
    l3 ("  SNR: " : CStr) _ _ _ ("\n" : CStr) rfl,
    show ("Filter accepts:\n" : CStr) = line ["Filter accepts:"] from rfl]
  rfl

end Verif
