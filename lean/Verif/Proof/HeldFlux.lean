import Verif.Proof.HeldMore

/-! The same for OI_FLUX and OI_VIS tables. A missing column may go unnoticed in them: the
columns which have to be there are therefore assumed to be. -/

namespace Verif
open Outcome Spec

variable {R : FP} {α β γ ι : Type} {soft : Prop} {h : Hdu R}

/-! ### OI_FLUX -/

/-- The optional column STA_INDEX. -/
def valSta (h : Hdu R) (i : Nat) : Option Int :=
  if hasColumn "STA_INDEX" h = true then valOne h Cell.toInt "STA_INDEX" i else some (-1)

theorem colnum_error {name : CStr} (hb : h.type = .binary) (hc : hasColumn name h = false) :
    h.colnum name = .error .COL_NOT_FOUND := by
  cases hk : h.colnum name with
  | ok k => rw [(colnum_ok_iff name hb).mp ⟨k, hk⟩] at hc; cases hc
  | error st =>
    unfold Hdu.colnum at hk
    rw [if_pos hb] at hk
    split at hk
    · cases hk
    · rw [← hk]

theorem sem_fluxSta (hb : h.type = .binary) (u : Undef R) (i : Nat) : Sem False h (readFluxSta u i) (valSta h i) := by
  unfold readFluxSta valSta
  cases hc : hasColumn "STA_INDEX" h with
  | false =>
    rw [if_neg (by decide)]
    refine ⟨fun a ha s hs => ?_, fun ha => by (cases ha)⟩
    cases ha
    have e : fits_get_colnum "STA_INDEX" 0 s = .ok (0, { s with status := .COL_NOT_FOUND }) :=
      cfRead_error hs (colnum_error hb hc) 0
    rw [FitsM.bind_ok e, FitsM.bind_ok (run_getStatus _), if_pos rfl]
    change Outcome.ok ((-1 : Int), { s with status := .ok }) = _
    rw [status_reset hs.ok]
  | true =>
    rw [if_pos rfl]
    obtain ⟨k, hk⟩ := (colnum_ok_iff _ hb).mpr hc
    have hrun : ∀ s, At s h → (fits_get_colnum "STA_INDEX" 0 >>= fun colnum => getStatus >>= fun st =>
        if st = .COL_NOT_FOUND then (setStatus .ok >>= fun _ => pure (-1)) else
          (fits_read_col Cell.toInt colnum i 1 [u.int] >>= fun xs => pure (xs.headD u.int))) s =
        (fits_read_col Cell.toInt k i 1 [u.int] >>= fun xs => pure (xs.headD u.int)) s := by
      intro s hs
      have e : fits_get_colnum "STA_INDEX" 0 s = .ok (k, s) := cfRead_ok hs hk 0
      rw [FitsM.bind_ok e, FitsM.bind_ok (run_getStatus _), hs.ok, if_neg (by decide)]
    have hsem : Sem False h (fits_read_col Cell.toInt k i 1 [u.int] >>= fun xs => pure (xs.headD u.int))
        (valOne h Cell.toInt "STA_INDEX" i) := by
      refine ((sem_read_col _ _ _ _ _).bind (fun xs => Sem.pure _) fun _ => Still.of (Inert.pure _)).congr ?_
      unfold valOne valArr
      rw [hk]
      change _ = (h.readCol k i 1 Cell.toInt).toOption.bind (·.head?)
      cases hv : h.readCol k i 1 Cell.toInt with
      | error st => rfl
      | ok xs =>
        have := cells_length (name := "STA_INDEX") ⟨k, hk, hv⟩
        match xs, this with
        | [y], _ => rfl
    exact ⟨fun a ha s hs => (hrun s hs).trans (hsem.ok a ha s hs), fun ha s hs => by
      have := hsem.err ha s hs
      rw [← hrun s hs] at this
      exact this⟩

theorem still_getStatus {f : Status → FitsM R α} (hf : ∀ st, Bad soft st → Still soft (f st)) :
    Still soft (getStatus >>= f) :=
  ⟨fun s hs => by rw [FitsM.bind_ok (run_getStatus _)]; exact (hf _ hs).run s hs⟩

theorem still_fluxSta (u : Undef R) (i : Nat) : Still False (readFluxSta u i) := by
  unfold readFluxSta
  refine (Still.of (by inert)).bind fun k => still_getStatus fun st hst => ?_
  rw [if_neg fun e => hst.2 e]
  exact Still.of (by inert)

theorem sta_of {i : Nat} {x : Int} (e : valSta h i = some x) :
    (hasColumn "STA_INDEX" h = true → Ints h "STA_INDEX" i 1 [x]) ∧ (hasColumn "STA_INDEX" h = false → x = -1) := by
  unfold valSta at e
  split at e
  · rename_i hc
    exact ⟨fun _ => valOne_some.mp e, fun h' => by rw [hc] at h'; cases h'⟩
  · rename_i hc
    cases e
    exact ⟨fun h' => absurd h' hc, fun _ => rfl⟩

theorem of_sta {i : Nat} {x : Int} (h1 : hasColumn "STA_INDEX" h = true → Ints h "STA_INDEX" i 1 [x]) :
    ∃ y, valSta h i = some y := by
  unfold valSta
  split
  · exact ⟨_, valOne_some.mpr (h1 ‹_›)⟩
  · exact ⟨_, rfl⟩

/-- The columns which have to be there. -/
theorem found_of {name : CStr} {l : List CStr} (hl : mandatoryColumns.lookup name = some l) (hc : Complete name h)
    {c : CStr} (hm : c ∈ l) : Found soft h c := .inr (hc.1 l hl c hm)

@[inherit_doc tacticSem]
macro "semf" : tactic => `(tactic| repeat (first
  | with_reducible apply sem_fluxSta | with_reducible apply still_fluxSta
  | with_reducible apply sem_corrname | with_reducible apply sem_corrindx
  | with_reducible apply Sem.guard | with_reducible apply Sem.alloc | with_reducible apply Sem.allocRecords
  | with_reducible apply sem_key_str | with_reducible apply sem_key_int | with_reducible apply sem_key_dbl
  | with_reducible apply sem_opt_str | with_reducible apply sem_opt_int | with_reducible apply sem_opt_dbl
  | with_reducible apply sem_colUnit | with_reducible apply sem_optUnit | with_reducible apply sem_colnum
  | with_reducible apply sem_coltype
  | with_reducible apply sem_num_rows | with_reducible apply sem_read_col | with_reducible apply sem_name
  | with_reducible apply sem_arr | with_reducible apply sem_one
  | with_reducible apply Sem.pure | with_reducible apply Sem.ite
  | with_reducible apply Sem.bind2 | with_reducible apply Sem.bind
  | assumption
  | (focus ((with_reducible apply Still.of); inert; done))
  | with_reducible apply Still.bind
  | (intro _; try dsimp only)))

theorem still_fluxRecord (u : Undef R) (nwave : Nat) (c : Bool) (i : Nat) :
    Still False (readFluxRecord u nwave c i) := by
  unfold readFluxRecord
  semf

theorem tells_fluxRecord (hb : h.type = .binary) (hc : Complete "OI_FLUX" h)
    (u : Undef R) (nwave : Nat) (c : Bool) (hcorr : c = true → hasColumn "CORRINDX_FLUXDATA" h = true) (i : Nat) :
    Tells False h (readFluxRecord u nwave c i) (FluxRecordIn h nwave (c = true) i) := by
  have hcf : c = true → Found False h "CORRINDX_FLUXDATA" := fun e => .inr (hcorr e)
  have f1 : Found False h "TARGET_ID" := found_of rfl hc (by decide)
  have f2 : Found False h "MJD" := found_of rfl hc (by decide)
  have f3 : Found False h "INT_TIME" := found_of rfl hc (by decide)
  have f4 : Found False h "FLUXDATA" := found_of rfl hc (by decide)
  have f5 : Found False h "FLUXERR" := found_of rfl hc (by decide)
  have f6 : Found False h "FLAG" := found_of rfl hc (by decide)
  unfold readFluxRecord
  apply Tells.mk
  · semf
  · intro a ha
    parts at ha
    obtain ⟨x1, h1, x2, h2, x3, h3, x4, h4, x5, h5, x6, h6, x7, h7, x8, h8, rfl⟩ := ha
    exact ⟨h1, h2, h3, h4, h5, corrindx_of h8, (sta_of h7).1, (sta_of h7).2, h6⟩
  · intro a ha
    obtain ⟨y, hy⟩ := of_corrindx (u := u) ha.corrindx
    obtain ⟨z, hz⟩ := of_sta ha.sta_index
    rw [valOne_some.mpr ha.target_id, valOne_some.mpr ha.mjd, valOne_some.mpr ha.int_time,
      valArr_some.mpr ha.fluxdata, valArr_some.mpr ha.fluxerr, valArr_some.mpr ha.flag, hy, hz]
    exact ⟨_, rfl⟩

/-- The value of a loop over the rows, and what it is, for some of the arguments. -/
theorem rows_val_if {body : ι → Nat → FitsM R α} {In : ι → Nat → α → Prop} {P : ι → Prop}
    (hb : ∀ x, P x → ∀ i, Tells soft h (body x i) (In x i)) (hs : ∀ x i, Still soft (body x i)) :
    ∃ w : ι → Nat → Option (List α),
      (∀ x, P x → ∀ n, Sem soft h (forRows 1 n (body x)) (w x n)) ∧
      (∀ x, P x → ∀ xs, h.nrows ≠ 0 → w x h.nrows = some xs → Rows h xs (In x)) ∧
      ∀ x, P x → ∀ xs, Rows h xs (In x) → ∃ ys, w x h.nrows = some ys := by
  have hex : ∀ x, ∃ w : Nat → Option (List α), P x → (∀ n, Sem soft h (forRows 1 n (body x)) (w n)) ∧
      (∀ xs, h.nrows ≠ 0 → w h.nrows = some xs → Rows h xs (In x)) ∧
      ∀ xs, Rows h xs (In x) → ∃ ys, w h.nrows = some ys := by
    intro x
    by_cases hp : P x
    · obtain ⟨w, h1, h2, h3⟩ := rows_val (ι := Unit) (fun _ => hb x hp) fun _ => hs x
      exact ⟨w (), fun _ => ⟨h1 (), h2 (), h3 ()⟩⟩
    · exact ⟨fun _ => none, fun hp' => absurd hp' hp⟩
  exact ⟨fun x => (hex x).choose, fun x hp => ((hex x).choose_spec hp).1, fun x hp => ((hex x).choose_spec hp).2.1,
    fun x hp => ((hex x).choose_spec hp).2.2⟩

theorem Sem.bind2v {m : FitsM R (α × β)} {f : α × β → FitsM R γ} {v : Option (α × β)} {w : α → β → Option γ}
    (hm : Sem soft h m v) (hf : ∀ a b, v = some (a, b) → Sem soft h (f (a, b)) (w a b))
    (hs : ∀ a b, Still soft (f (a, b))) : Sem soft h (m >>= f) (v.bind fun p => w p.1 p.2) :=
  Sem.bindv hm (fun p e => hf p.1 p.2 e) fun p => hs p.1 p.2

theorem optCorr_of {b : Bool} {v : CStr} (e : valOpt (h.readStr "CORRNAME") [] = some (b, v))
    (hb : b = true) : Correlated h := by
  have := (optText_of e).2
  dsimp only at this
  rw [hb] at this
  exact this.symm

theorem colUnit_of {name v : CStr} {k : Nat} (hk : h.colnum name = .ok k) :
    unitOf h k = .ok v ↔ ColUnit h name v := by
  unfold unitOf ColUnit
  rw [hk]
  constructor
  · intro e
    split at e
    · rename_i c hc
      split at e
      · rename_i x hx; cases e; exact ⟨k, c, rfl, hc, hx⟩
      · cases e
    · cases e
  · rintro ⟨_, c, e, hc, hx⟩
    cases e
    rw [hc]
    simp only [hx]

theorem tells_flux (hb : h.type = .binary) (hc : Complete "OI_FLUX" h)
    (hcorr : Correlated h → hasColumn "CORRINDX_FLUXDATA" h = true) (u : Undef R) (old : OiFlux R) :
    Tells False h (do
      let revision ← fits_read_key_int "OI_REVN" old.revision
      guardStatus { old with revision := revision } do
        let date_obs ← fits_read_key_str "DATE-OBS" old.date_obs
        let (_, arrname) ← read_key_opt_string "ARRNAME" old.arrname
        let insname ← fits_read_key_str "INSNAME" old.insname
        let (correlated, corrname) ← read_key_opt_string "CORRNAME" old.corrname
        let (_, fov) ← read_key_opt_double "FOV" old.fov
        let (_, fovtype) ← read_key_opt_string "FOVTYPE" old.fovtype
        let calstat ← fits_read_key_str "CALSTAT" u.str
        let nrows ← fits_get_num_rows 0
        let colnum ← fits_get_colnum "FLUXDATA" 0
        let (_, nwave) ← fits_get_coltype colnum (.A, 0)
        guardStatus ⟨revision, date_obs, arrname, insname, corrname, fov, fovtype,
            calstat.headD '\x00', old.fluxunit, old.nwave, old.record⟩ do
          FitsM.lift (allocRecords nrows nwave)
          let fluxunit ← readColUnit colnum old.fluxunit
          let record ← forRows 1 nrows (readFluxRecord u nwave correlated)
          return ⟨revision, date_obs, arrname, insname, corrname, fov, fovtype,
            calstat.headD '\x00', fluxunit, nwave, record⟩) (FluxIn h) := by
  have f4 : Found False h "FLUXDATA" := found_of rfl hc (by decide)
  obtain ⟨w, hw, hw1, hw2⟩ := rows_val_if (P := fun p : Nat × Bool => p.2 = true → Correlated h)
    (fun (p : Nat × Bool) hp i => tells_fluxRecord hb hc u p.1 p.2 (fun e => hcorr (hp e)) i)
    (fun p _ => still_fluxRecord u p.1 p.2 _)
  have hsr : ∀ nwave c n, Still False (forRows 1 n (readFluxRecord u nwave c)) := fun nwave c n => by
    have : ∀ first, Still False (forRows first n (readFluxRecord u nwave c)) := by
      induction n with
      | zero => intro _; exact Still.of (Inert.pure _)
      | succ n ih =>
        intro first
        exact (still_fluxRecord u nwave c first).bind fun _ => (ih _).bind fun _ => Still.of (Inert.pure _)
    exact this 1
  apply Tells.mk
  · apply Sem.bind (sem_key_int _ _)
    · intro rev
      apply Sem.guard
      apply Sem.bind (sem_key_str _ _)
      · intro date_obs
        apply Sem.bind2 (sem_opt_str _ _)
        · intro _ arrname
          apply Sem.bind (sem_key_str _ _)
          · intro insname
            apply Sem.bind2v (sem_opt_str _ _)
            · intro c corrname hcn
              dsimp only
              have hcc := optCorr_of hcn
              semf
              · exact hw (_, _) hcc _
              all_goals semf
              · exact hsr _ _ _
              · intro _; exact Still.of (Inert.pure _)
            · semf
          · semf
        · semf
      · semf
    · intro _; exact Still.guard _ _
  · intro a ha
    parts at ha
    obtain ⟨x1, h1, x2, h2, x3, h3, x4, h4, x5, h5, x6, h6, x7, h7, x8, h8, _, rfl, k, hk, p, hp, hn, x9, h9, x10,
      h10, rfl⟩ := ha
    exact ⟨h1, h2, (optText_of h3).1, h4, (optText_of h5).1, optReal_of h6, (optText_of h7).1, ⟨_, h8, rfl⟩,
      (colUnit_of hk).mp h9, repeat_some hk hp, fun e => hn (.inr e),
      (hw1 _ (optCorr_of h5) _ (fun e => hn (.inl e)) h10).congr_prop (P := fun q => FluxRecordIn h p.2 q)
        (by dsimp only; rw [(optText_of h5).2]; exact Iff.rfl)⟩
  · intro a ha
    obtain ⟨k, c, hk, hc', e⟩ := ha.nwave
    obtain ⟨b, hfov⟩ := of_optReal ha.fov
    obtain ⟨v, hv, -⟩ := ha.calstat
    obtain ⟨ys, hys⟩ := hw2 (a.nwave, hasKeyword "CORRNAME" h) (fun e => e) _ ha.record
    rw [toOption_ok ha.revision, toOption_ok ha.date_obs, of_optText ha.arrname, toOption_ok ha.insname, toOption_ok hk,
      of_optText ha.corrname, hfov, of_optText ha.fovtype, toOption_ok hv]
    simp only [Option.bind_some, hc', Option.map_some, e]
    rw [if_neg (by have := ha.waves; have := ha.record.nonempty; simp_all)]
    simp only [toOption_ok ((colUnit_of hk).mpr ha.fluxunit), hys, Option.bind_some]
    exact ⟨_, rfl⟩

end Verif
