import Verif.Model.Fault
import Verif.Proof.Cut
import Verif.Proof.Cli

/-! Proofs about writing files when calls of CFITSIO fail. -/

namespace Verif
open Spec Outcome

variable {R : FP}

/-! ### Without failures -/

/-- One after the other, without failures. -/
def doOps : List (WriteOp R) → FitsM R Unit
  | [] => pure ()
  | op :: ops => do
    op.run
    doOps ops

theorem runOps_none (ops : List (WriteOp R)) : ∀ n, runOps (fun _ => none) n ops = doOps ops := by
  induction ops with
  | nil => intro n; rfl
  | cons op ops ih =>
    intro n
    show (do op.run; runOps (fun _ => none) (n + 1) ops : FitsM R Unit) = _
    rw [ih]; rfl

theorem doOps_append (a b : List (WriteOp R)) : doOps (a ++ b) = (do doOps a; doOps b : FitsM R Unit) := by
  induction a with
  | nil => rfl
  | cons c cs ih =>
    show (do c.run; doOps (cs ++ b) : FitsM R Unit) = (do (do c.run; doOps cs : FitsM R Unit); doOps b : FitsM R Unit)
    rw [ih, bind_assoc]

theorem doOps_eachRow {α : Type} (l : List α) (f : Nat → α → List (WriteOp R)) :
    ∀ first, doOps (eachRow first l f) = forEach first l (fun i x => doOps (f i x)) := by
  induction l with
  | nil => intro first; rfl
  | cons x xs ih => intro first; rw [eachRow, doOps_append, ih, forEach]

theorem doOps_ite (c : Prop) [Decidable c] (a b : List (WriteOp R)) :
    doOps (if c then a else b) = if c then doOps a else doOps b := by
  by_cases h : c <;> simp only [h, if_true, if_false]

theorem tform_use {α : Type} (t : List CStr) (v : Int) (k : List CStr → FitsM R α) :
    (FitsM.lift (make_tform t v) >>= k) = (FitsM.lift (make_tform t v) >>= fun _ => k (tforms t v)) := by
  funext s
  show (match FitsM.lift (make_tform t v) s with | _ => _) = _
  unfold tforms
  cases h : make_tform t v <;> rfl

theorem doOps_optKey (name value : CStr) : doOps (R := R) (optKey name value) = writeOptKey name value := by
  unfold optKey writeOptKey
  split <;> simp only [doOps, WriteOp.run, bind_pure_unit]

theorem doOps_optOrder (name : CStr) (value : Int) : doOps (R := R) (optOrder name value) = writeOptOrder name value := by
  unfold optOrder writeOptOrder
  split <;> simp only [doOps, WriteOp.run, bind_pure_unit]

theorem do_header (today : CStr) (h : OiHeader) :
    guardStatus () (doOps (R := R) (headerSteps today h)) = write_oi_header today h := by
  simp only [headerSteps, doOps_append, doOps, WriteOp.run, doOps_optKey, bind_assoc, pure_bind, bind_pure_unit,
    write_oi_header]

theorem do_array (a : OiArray R) (v : Int) : guardStatus () (doOps (arraySteps a v)) = write_oi_array a v := by
  simp only [arraySteps, doOps_append, doOps, WriteOp.run, doOps_eachRow, bind_assoc, pure_bind, bind_pure_unit,
    write_oi_array]
  rfl

theorem do_target (t : OiTarget R) : guardStatus () (doOps (targetSteps t)) = write_oi_target t := by
  simp only [targetSteps, doOps_append, doOps_ite, doOps, WriteOp.run, doOps_eachRow, bind_assoc, pure_bind, bind_pure_unit,
    write_oi_target]
  rfl

theorem do_wavelength (w : OiWavelength R) (v : Int) :
    guardStatus () (doOps (wavelengthSteps w v)) = write_oi_wavelength w v := by
  simp only [wavelengthSteps, doOps, WriteOp.run, bind_pure_unit, write_oi_wavelength]

theorem do_corr (c : OiCorr R) (v : Int) : guardStatus () (doOps (corrSteps c v)) = write_oi_corr c v := by
  simp only [corrSteps, doOps, WriteOp.run, bind_pure_unit, write_oi_corr]

theorem do_inspol (p : OiInspol R) (v : Int) : guardStatus () (doOps (inspolSteps p v)) = write_oi_inspol p v := by
  rw [write_oi_inspol, tform_use]
  simp only [inspolSteps, doOps_append, doOps, WriteOp.run, doOps_eachRow, bind_assoc, pure_bind, bind_pure_unit]
  rfl

theorem do_vis2 (p : OiVis2 R) (v : Int) : guardStatus () (doOps (vis2Steps p v)) = write_oi_vis2 p v := by
  rw [write_oi_vis2, tform_use]
  simp only [vis2Steps, doOps_append, doOps_ite, doOps, WriteOp.run, doOps_eachRow, doOps_optKey, bind_assoc, pure_bind,
    bind_pure_unit]
  rfl

theorem do_t3 (p : OiT3 R) (v : Int) : guardStatus () (doOps (t3Steps p v)) = write_oi_t3 p v := by
  rw [write_oi_t3, tform_use]
  simp only [t3Steps, doOps_append, doOps_ite, doOps, WriteOp.run, doOps_eachRow, doOps_optKey, bind_assoc, pure_bind,
    bind_pure_unit]
  rfl

theorem do_flux (p : OiFlux R) (v : Int) : guardStatus () (doOps (fluxSteps p v)) = write_oi_flux p v := by
  rw [write_oi_flux, tform_use]
  simp only [fluxSteps, doOps_append, doOps_ite, doOps, WriteOp.run, doOps_eachRow, doOps_optKey, bind_assoc, pure_bind,
    bind_pure_unit]
  rfl

theorem do_visOpt (p : OiVis R) : doOps (visOptSteps p) = write_oi_vis_opt p := by
  have hc : writeVisComplex p = if p.usecomplex then (do
      FitsM.lift (make_tform ["?D", "?D", "?D", "?D"] p.nwave) >>= fun _ => (do
      fits_insert_cols 9 (List.zip (["RVIS", "RVISERR", "IVIS", "IVISERR"] : List CStr)
        (tforms ["?D", "?D", "?D", "?D"] p.nwave))
      writeColUnit 9 p.complexunit
      writeColUnit 10 p.complexunit
      writeColUnit 11 p.complexunit
      writeColUnit 12 p.complexunit
      forEach 1 p.record (writeVisComplexRow p.nwave)
      writeVisComplexCorr p : FitsM R Unit)) else pure () := by
    unfold writeVisComplex
    split
    · rw [tform_use]
    · rfl
  rw [write_oi_vis_opt, hc]
  simp only [visOptSteps, writeVisOptKeys, doOps_append, doOps_ite, doOps, WriteOp.run, doOps_eachRow, doOps_optKey,
    doOps_optOrder, bind_assoc, pure_bind, bind_pure_unit]
  rfl

theorem do_vis (p : OiVis R) (v : Int) : guardStatus () (doOps (visSteps p v)) = write_oi_vis p v := by
  rw [write_oi_vis, tform_use]
  simp only [visSteps, doOps_append, doOps_ite, do_visOpt, doOps, WriteOp.run, doOps_eachRow, doOps_optKey, bind_assoc,
    pure_bind, bind_pure_unit]
  rfl

theorem runParts_none (parts : List (List (WriteOp R))) :
    ∀ k, runParts (fun _ _ => none) k parts = runCalls (parts.map fun ops => guardStatus () (doOps ops)) := by
  induction parts with
  | nil => intro k; rfl
  | cons p ps ih =>
    intro k
    rw [runParts, runOps_none, ih]; rfl

theorem map_mapIdx' {α β γ : Type} (g : β → γ) (f : Nat → α → β) (l : List α) :
    (l.mapIdx f).map g = l.mapIdx fun k t => g (f k t) := by
  apply List.ext_getElem
  · simp
  · intro i h1 h2; simp

theorem runParts_file (today : CStr) (oi : OiFits R) :
    runParts (fun _ _ => none) 0 (fileSteps today oi) = writeBody today oi := by
  rw [runParts_none, ← runCalls_writeCalls]
  simp only [fileSteps, writeCalls, List.map_cons, List.map_append, map_mapIdx', do_header, do_target, do_array,
    do_wavelength, do_corr, do_inspol, do_vis, do_vis2, do_t3, do_flux]

/-! ### After an error -/

theorem bind_some {α β : Type} {m : FitsM R α} {f : α → FitsM R β} {s : FState R} {p : β × FState R}
    (h : (m >>= f) s = .ok p) : ∃ a s1, m s = .ok (a, s1) ∧ f a s1 = .ok p := by
  change (match m s with | .ok (a, t) => f a t | .abort => .abort | .ub => .ub) = _ at h
  cases hm : m s with
  | ok q => rw [hm] at h; exact ⟨q.1, q.2, rfl, h⟩
  | abort => rw [hm] at h; cases h
  | ub => rw [hm] at h; cases h

theorem bind_abort {α β : Type} {m : FitsM R α} {f : α → FitsM R β} {s : FState R} (h : m s = .abort) :
    (m >>= f) s = .abort := by
  change (match m s with | .ok (a, t) => f a t | .abort => .abort | .ub => .ub) = _
  rw [h]

theorem bind_ub {α β : Type} {m : FitsM R α} {f : α → FitsM R β} {s : FState R} (h : m s = .ub) :
    (m >>= f) s = .ub := by
  change (match m s with | .ok (a, t) => f a t | .abort => .abort | .ub => .ub) = _
  rw [h]

/-- CFITSIO does nothing after an error. -/
theorem call_err {op : WriteOp R} (h : op.isCall = true) {s : FState R} (hs : s.status ≠ .ok) :
    op.run s = .ok ((), s) := by
  cases op with
  | primary =>
    have e1 : fits_get_num_hdus s = .ok (s.hdus.length, s) ∨ fits_get_num_hdus s = .ok (0, s) := by
      unfold fits_get_num_hdus; simp [hs]
    have e2 : ∀ n, primaryHdu n s = .ok ((), s) := by
      intro n
      unfold primaryHdu
      split
      · simp [fits_create_img, hs]
      · obtain ⟨t, ht⟩ : ∃ t, fits_movabs_hdu 1 s = .ok (t, s) := ⟨_, if_neg hs⟩
        rw [FitsM.bind_ok ht]; rfl
    show (fits_get_num_hdus >>= fun nhdu => primaryHdu nhdu) s = _
    rcases e1 with e | e <;> rw [FitsM.bind_ok e, e2]
  | table => simp [WriteOp.run, fits_create_tbl, hs]
  | key => exact if_neg hs
  | date => exact if_neg hs
  | keyUnit => rfl
  | colUnit => exact if_neg hs
  | colDim => exact if_neg hs
  | insert => exact if_neg hs
  | col => exact if_neg hs
  | colPtr _ _ _ a => cases a <;> simp [WriteOp.run, fits_write_col_ptr, fits_write_col, hs]
  | chksum => rfl
  | tform => cases h
  | assert => cases h

/-- Assertions change nothing, and do not depend on the file. -/
theorem noncall_run {op : WriteOp R} (h : op.isCall = false) :
    ∃ o : Outcome Unit, ∀ s, op.run s = match o with
      | .ok _ => .ok ((), s)
      | .abort => .abort
      | .ub => .ub := by
  cases op with
  | tform t v =>
    cases ht : make_tform t v with
    | ok l => exact ⟨.ok (), fun s => by rw [WriteOp.run, ht]; rfl⟩
    | abort => exact ⟨.abort, fun s => by rw [WriteOp.run, ht]; rfl⟩
    | ub => exact ⟨.ub, fun s => by rw [WriteOp.run, ht]; rfl⟩
  | assert b =>
    cases b with
    | true => exact ⟨.ok (), fun s => rfl⟩
    | false => exact ⟨.abort, fun s => rfl⟩
  | _ => cases h

/-- An assertion which holds. -/
def Passes (op : WriteOp R) : Prop := op.isCall = false → ∀ s, op.run s = .ok ((), s)

theorem run_err {op : WriteOp R} {s s' : FState R} (hs : s.status ≠ .ok) (h : op.run s = .ok ((), s')) : s' = s := by
  cases hc : op.isCall with
  | true => rw [call_err hc hs] at h; cases h; rfl
  | false =>
    obtain ⟨o, ho⟩ := noncall_run hc
    rw [ho] at h
    cases o <;> cases h; rfl

theorem passes_of_run {op : WriteOp R} {s s' : FState R} (h : op.run s = .ok ((), s')) : Passes op := by
  intro hc
  obtain ⟨o, ho⟩ := noncall_run hc
  rw [ho] at h
  cases o <;> cases h
  exact ho

theorem attempt_err_eq {op : WriteOp R} {f : Option (Fault R)} {s : FState R} (hs : s.status ≠ .ok) :
    op.attempt f s = op.run s := by
  cases f with
  | none => rfl
  | some f => exact if_neg fun h => hs h.2

theorem runOps_err {f : Nat → Option (Fault R)} {ops : List (WriteOp R)} {s s' : FState R} (hs : s.status ≠ .ok) :
    ∀ n, runOps f n ops s = .ok ((), s') → s' = s := by
  induction ops with
  | nil => intro n h; cases h; rfl
  | cons op ops ih =>
    intro n h
    obtain ⟨⟨⟩, s1, h1, h2⟩ := bind_some h
    rw [attempt_err_eq hs] at h1
    cases run_err hs h1
    exact ih _ h2

theorem doOps_err {ops : List (WriteOp R)} {s s' : FState R} (hs : s.status ≠ .ok) (h : doOps ops s = .ok ((), s')) :
    s' = s := runOps_err hs 0 (by rw [runOps_none]; exact h)

/-- If the status is good at the end no call has failed. -/
theorem runOps_success {f : Nat → Option (Fault R)} {ops : List (WriteOp R)} {s s' : FState R} (ok : s'.status = .ok) :
    ∀ n, runOps f n ops s = .ok ((), s') → doOps ops s = .ok ((), s') := by
  induction ops generalizing s with
  | nil => intro n h; exact h
  | cons op ops ih =>
    intro n h
    obtain ⟨⟨⟩, s1, h1, h2⟩ := bind_some h
    have hs1 : s1.status = .ok := by
      by_cases e : s1.status = .ok
      · exact e
      · cases runOps_err e _ h2; exact ok
    have : op.run s = .ok ((), s1) := by
      cases hf : f n with
      | none => rw [hf] at h1; exact h1
      | some ft =>
        rw [hf] at h1
        simp only [WriteOp.attempt] at h1
        split at h1
        · cases h1; exact absurd hs1 ft.bad
        · exact h1
    rw [doOps, FitsM.bind_ok this]
    exact ih _ h2

theorem doOps_passes {ops : List (WriteOp R)} {s s' : FState R} (h : doOps ops s = .ok ((), s')) :
    ∀ op ∈ ops, Passes op := by
  induction ops generalizing s with
  | nil => intro op hm; cases hm
  | cons op ops ih =>
    obtain ⟨⟨⟩, s1, h1, h2⟩ := bind_some h
    intro o hm
    rcases List.mem_cons.1 hm with rfl | hm
    · exact passes_of_run h1
    · exact ih h2 _ hm

theorem runOps_err_ok {f : Nat → Option (Fault R)} {ops : List (WriteOp R)} {s : FState R} (hs : s.status ≠ .ok)
    (hp : ∀ op ∈ ops, Passes op) : ∀ n, runOps f n ops s = .ok ((), s) := by
  induction ops with
  | nil => intro n; rfl
  | cons op ops ih =>
    intro n
    have : op.attempt (f n) s = .ok ((), s) := by
      rw [attempt_err_eq hs]
      cases hc : op.isCall with
      | true => exact call_err hc hs
      | false => exact hp op (by simp) hc s
    rw [runOps, FitsM.bind_ok this]
    exact ih (fun o ho => hp o (by simp [ho])) _

theorem doOps_step {op : WriteOp R} {ops : List (WriteOp R)} {s s' : FState R} (ok : s'.status = .ok)
    (h : doOps (op :: ops) s = .ok ((), s')) :
    ∃ s1, op.run s = .ok ((), s1) ∧ s1.status = .ok ∧ doOps ops s1 = .ok ((), s') := by
  obtain ⟨⟨⟩, s1, h1, h2⟩ := bind_some h
  refine ⟨s1, h1, ?_, h2⟩
  by_cases e : s1.status = .ok
  · exact e
  · cases doOps_err e h2; exact ok

/-- If all is well without failures, then failures are the only errors. -/
theorem runOps_total {f : Nat → Option (Fault R)} {ops : List (WriteOp R)} {s s' : FState R} (ok : s'.status = .ok)
    (h : doOps ops s = .ok ((), s')) : ∀ n, ∃ s2, runOps f n ops s = .ok ((), s2) := by
  induction ops generalizing s with
  | nil => intro n; exact ⟨s, rfl⟩
  | cons op ops ih =>
    intro n
    obtain ⟨s1, h1, _, h2⟩ := doOps_step ok h
    cases hf : f n with
    | none =>
      obtain ⟨s2, e⟩ := ih h2 (n + 1)
      refine ⟨s2, ?_⟩
      have : op.attempt (f n) s = .ok ((), s1) := by rw [hf]; exact h1
      rw [runOps, FitsM.bind_ok this, e]
    | some ft =>
      by_cases hc : op.isCall = true ∧ s.status = .ok
      · refine ⟨⟨ft.left, s.cur, ft.code⟩, ?_⟩
        have : op.attempt (f n) s = .ok ((), ⟨ft.left, s.cur, ft.code⟩) := by rw [hf]; exact if_pos hc
        rw [runOps, FitsM.bind_ok this]
        exact runOps_err_ok ft.bad (doOps_passes h2) _
      · have : op.attempt (f n) s = .ok ((), s1) := by rw [hf, ← h1]; exact if_neg hc
        obtain ⟨s2, e⟩ := ih h2 (n + 1)
        refine ⟨s2, ?_⟩
        rw [runOps, FitsM.bind_ok this, e]

/-- The first failure decides. -/
theorem runOps_first {f : Nat → Option (Fault R)} {ops : List (WriteOp R)} {s s' : FState R} (hs : s.status = .ok)
    (ok : s'.status = .ok) (h : doOps ops s = .ok ((), s')) {j : Nat} {op : WriteOp R} {ft : Fault R}
    (hj : ops[j]? = some op) (hc : op.isCall = true) :
    ∀ n, (∀ i, i < j → f (n + i) = none) → f (n + j) = some ft →
      ∃ cur, runOps f n ops s = .ok ((), ⟨ft.left, cur, ft.code⟩) := by
  induction ops generalizing s j with
  | nil => simp at hj
  | cons o ops ih =>
    intro n before at_
    obtain ⟨s1, h1, hs1, h2⟩ := doOps_step ok h
    cases j with
    | zero =>
      cases hj
      have : op.attempt (f n) s = .ok ((), ⟨ft.left, s.cur, ft.code⟩) := by
        rw [show f n = some ft from at_]; exact if_pos ⟨hc, hs⟩
      refine ⟨s.cur, ?_⟩
      rw [runOps, FitsM.bind_ok this]
      exact runOps_err_ok ft.bad (doOps_passes h2) _
    | succ j =>
      have : o.attempt (f n) s = .ok ((), s1) := by
        rw [show f n = none from before 0 (by omega)]; exact h1
      obtain ⟨cur, e⟩ := ih hs1 h2 (j := j) hj (n + 1)
        (fun i hi => by rw [Nat.add_assoc, Nat.add_comm 1]; exact before (i + 1) (by omega))
        (by rw [Nat.add_assoc, Nat.add_comm 1]; exact at_)
      refine ⟨cur, ?_⟩
      rw [runOps, FitsM.bind_ok this, e]

/-! ### All parts of a file -/

theorem runParts_err {f : Nat → Nat → Option (Fault R)} {parts : List (List (WriteOp R))} {s : FState R}
    (hs : s.status ≠ .ok) : ∀ k, runParts f k parts s = .ok ((), s) := by
  induction parts with
  | nil => intro k; rfl
  | cons p ps ih =>
    intro k
    rw [runParts, FitsM.bind_ok (guardStatus_err hs _ _)]
    exact ih _

theorem guarded {α : Type} {s : FState R} (hs : s.status = .ok) (a : α) (m : FitsM R α) : guardStatus a m s = m s :=
  if_pos hs

theorem runParts_success {f : Nat → Nat → Option (Fault R)} {parts : List (List (WriteOp R))} {s s' : FState R}
    (ok : s'.status = .ok) : ∀ k, runParts f k parts s = .ok ((), s') →
      runParts (fun _ _ => none) k parts s = .ok ((), s') := by
  induction parts generalizing s with
  | nil => intro k h; exact h
  | cons p ps ih =>
    intro k h
    obtain ⟨⟨⟩, s1, h1, h2⟩ := bind_some h
    have hs1 : s1.status = .ok := by
      by_cases e : s1.status = .ok
      · exact e
      · rw [runParts_err e] at h2; cases h2; exact ok
    by_cases hs : s.status = .ok
    · rw [guarded hs] at h1
      have := runOps_success hs1 _ h1
      rw [runParts, FitsM.bind_ok (a := ()) (s' := s1) (by rw [guarded hs, runOps_none]; exact this)]
      exact ih _ h2
    · rw [guardStatus_err hs] at h1; cases h1; exact absurd hs1 hs

theorem parts_step {p : List (WriteOp R)} {ps : List (List (WriteOp R))} {s s' : FState R} (ok : s'.status = .ok) {k : Nat}
    (h : runParts (fun _ _ => none) k (p :: ps) s = .ok ((), s')) :
    s.status = .ok ∧ ∃ s1, doOps p s = .ok ((), s1) ∧ s1.status = .ok ∧
      runParts (fun _ _ => none) (k + 1) ps s1 = .ok ((), s') := by
  by_cases hs : s.status = .ok
  · refine ⟨hs, ?_⟩
    obtain ⟨⟨⟩, s1, h1, h2⟩ := bind_some h
    rw [guarded hs, runOps_none] at h1
    refine ⟨s1, h1, ?_, h2⟩
    by_cases e : s1.status = .ok
    · exact e
    · rw [runParts_err e] at h2; cases h2; exact ok
  · rw [runParts_err hs] at h; cases h; exact absurd ok hs

theorem runParts_total {f : Nat → Nat → Option (Fault R)} {parts : List (List (WriteOp R))} {s s' : FState R}
    (ok : s'.status = .ok) : ∀ k, runParts (fun _ _ => none) k parts s = .ok ((), s') →
      ∃ s2, runParts f k parts s = .ok ((), s2) := by
  induction parts generalizing s with
  | nil => intro k h; exact ⟨s, rfl⟩
  | cons p ps ih =>
    intro k h
    obtain ⟨hs, s1, h1, hs1, h2⟩ := parts_step ok h
    obtain ⟨s2, e⟩ := runOps_total (f := f k) hs1 h1 0
    have e' : guardStatus () (runOps (f k) 0 p) s = .ok ((), s2) := by rw [guarded hs]; exact e
    by_cases hs2 : s2.status = .ok
    · have := runOps_success hs2 _ e
      rw [h1] at this
      cases this
      obtain ⟨s3, e3⟩ := ih (k + 1) h2
      exact ⟨s3, by rw [runParts, FitsM.bind_ok e', e3]⟩
    · exact ⟨s2, by rw [runParts, FitsM.bind_ok e', runParts_err hs2]⟩

theorem runParts_first {f : Nat → Nat → Option (Fault R)} {parts : List (List (WriteOp R))} {s s' : FState R}
    (ok : s'.status = .ok) {i j : Nat} {p : List (WriteOp R)} {op : WriteOp R} {ft : Fault R}
    (hi : parts[i]? = some p) (hj : p[j]? = some op) (hc : op.isCall = true) :
    ∀ k, runParts (fun _ _ => none) k parts s = .ok ((), s') →
      (∀ a b, a < i → f (k + a) b = none) → (∀ b, b < j → f (k + i) b = none) → f (k + i) j = some ft →
      ∃ cur, runParts f k parts s = .ok ((), ⟨ft.left, cur, ft.code⟩) := by
  induction parts generalizing s i with
  | nil => simp at hi
  | cons q qs ih =>
    intro k h before here at_
    obtain ⟨hs, s1, h1, hs1, h2⟩ := parts_step ok h
    cases i with
    | zero =>
      cases hi
      obtain ⟨cur, e⟩ := runOps_first (f := f k) hs hs1 h1 hj hc 0
        (fun b hb => by rw [Nat.zero_add]; exact here b hb) (by rw [Nat.zero_add]; exact at_)
      refine ⟨cur, ?_⟩
      rw [runParts, FitsM.bind_ok (a := ()) (by rw [guarded hs]; exact e)]
      exact runParts_err ft.bad _
    | succ i =>
      have e0 : f k = fun _ => none := by
        funext b; exact before 0 b (by omega)
      obtain ⟨cur, e⟩ := ih (i := i) hi (k + 1) h2
        (fun a b ha => by rw [Nat.add_assoc, Nat.add_comm 1]; exact before (a + 1) b (by omega))
        (fun b hb => by rw [Nat.add_assoc, Nat.add_comm 1]; exact here b hb)
        (by rw [Nat.add_assoc, Nat.add_comm 1]; exact at_)
      refine ⟨cur, ?_⟩
      rw [runParts, e0, runOps_none, FitsM.bind_ok (a := ()) (s' := s1) (by rw [guarded hs]; exact h1), e]

/-! ### `write_oi_fits` -/

/-- Nothing fails. -/
def noFaults : Faults R := ⟨none, fun _ _ => none, none⟩

theorem write_failing_eq {F : Faults R} (hc : F.create = none) (today : CStr) (oi : OiFits R) :
    write_oi_fits_failing F today false oi .ok =
      (match runParts F.calls 0 (fileSteps today oi) ⟨[], 0, .ok⟩ with
      | .ok ((), s) => match F.close with
        | some f => .ok (some f.left, if s.status = .ok then f.code else s.status)
        | none => .ok (some s.hdus, s.status)
      | .abort => .abort
      | .ub => .ub) := by
  unfold write_oi_fits_failing
  simp only [hc, ne_eq, not_true, if_false, Bool.false_eq_true]
  cases hr : runParts F.calls 0 (fileSteps today oi) ⟨[], 0, .ok⟩ with
  | abort =>
    rw [show (runParts F.calls 0 (fileSteps today oi) >>= fun _ => closeFile F.close) ⟨[], 0, .ok⟩ = .abort from bind_abort hr]
    rfl
  | ub =>
    rw [show (runParts F.calls 0 (fileSteps today oi) >>= fun _ => closeFile F.close) ⟨[], 0, .ok⟩ = .ub from bind_ub hr]
    rfl
  | ok p =>
    obtain ⟨⟨⟩, s⟩ := p
    rw [FitsM.bind_ok hr]
    cases F.close <;> rfl

theorem write_plain_eq (today : CStr) (oi : OiFits R) :
    write_oi_fits today false oi .ok =
      (match runParts (fun _ _ => none) 0 (fileSteps today oi) ⟨[], 0, .ok⟩ with
      | .ok ((), s) => .ok (some s.hdus, s.status)
      | .abort => .abort
      | .ub => .ub : Outcome (Option (List (Hdu R)) × Status)) := by
  rw [runParts_file]
  unfold write_oi_fits
  simp only [ne_eq, not_true, if_false, Bool.false_eq_true]
  cases writeBody today oi ⟨[], 0, .ok⟩ <;> rfl

theorem write_there (today : CStr) (oi : OiFits R) : write_oi_fits today true oi .ok = .ok (none, .other 105) := by
  unfold write_oi_fits
  rw [if_neg (by simp), if_pos rfl]

theorem write_failing_there (F : Faults R) (today : CStr) (oi : OiFits R) :
    write_oi_fits_failing F today true oi .ok = .ok (none, .other 105) := by
  unfold write_oi_fits_failing
  rw [if_neg (by simp), if_pos rfl]

theorem write_noFaults (today : CStr) (there : Bool) (oi : OiFits R) (st : Status) :
    write_oi_fits_failing noFaults today there oi st = write_oi_fits today there oi st := by
  by_cases hs : st = .ok
  · subst hs
    cases there with
    | true => rw [write_there, write_failing_there]
    | false =>
      rw [write_failing_eq rfl, write_plain_eq]
      simp only [noFaults]
  · unfold write_oi_fits_failing write_oi_fits
    rw [if_pos hs, if_pos hs]

theorem write_failing_success {F : Faults R} {today : CStr} {there : Bool} {oi : OiFits R} {st : Status}
    {o : Option (List (Hdu R))} (h : write_oi_fits_failing F today there oi st = .ok (o, .ok)) :
    write_oi_fits today there oi st = .ok (o, .ok) := by
  by_cases hs : st = .ok
  · subst hs
    cases there with
    | true => rw [write_failing_there] at h; cases h
    | false =>
      cases hc : F.create with
      | some f =>
        unfold write_oi_fits_failing at h
        simp only [hc, ne_eq, not_true, if_false, Bool.false_eq_true] at h
        cases f with
        | mk f l => injection h with h; injection h with _ h; exact absurd h f.bad
      | none =>
        rw [write_failing_eq hc] at h
        rw [write_plain_eq]
        cases hr : runParts F.calls 0 (fileSteps today oi) ⟨[], 0, .ok⟩ with
        | abort => rw [hr] at h; cases h
        | ub => rw [hr] at h; cases h
        | ok p =>
          obtain ⟨⟨⟩, s⟩ := p
          rw [hr] at h
          simp only at h
          cases hf : F.close with
          | some f =>
            rw [hf] at h
            simp only [Outcome.ok.injEq, Prod.mk.injEq] at h
            replace h := h.2
            split at h
            · exact absurd h f.bad
            · rename_i hn; exact absurd h hn
          | none =>
            rw [hf] at h
            simp only [Outcome.ok.injEq, Prod.mk.injEq] at h
            rw [runParts_success h.2 _ hr]
            simp only [h.1, h.2]
  · unfold write_oi_fits_failing at h
    rw [if_pos hs] at h
    injection h with h; injection h with _ h
    exact absurd h hs

theorem write_failing_total {F : Faults R} {today : CStr} {there : Bool} {oi : OiFits R} {st : Status}
    {o : Option (List (Hdu R))} (h : write_oi_fits today there oi st = .ok (o, .ok)) :
    ∃ o' st', write_oi_fits_failing F today there oi st = .ok (o', st') := by
  by_cases hs : st = .ok
  · subst hs
    cases there with
    | true => rw [write_there] at h; cases h
    | false =>
      cases hc : F.create with
      | some f =>
        unfold write_oi_fits_failing
        simp only [hc, ne_eq, not_true, if_false, Bool.false_eq_true]
        exact ⟨_, _, rfl⟩
      | none =>
        rw [write_plain_eq] at h
        rw [write_failing_eq hc]
        cases hr : runParts (fun _ _ => none) 0 (fileSteps today oi) ⟨[], 0, .ok⟩ with
        | abort => rw [hr] at h; cases h
        | ub => rw [hr] at h; cases h
        | ok p =>
          obtain ⟨⟨⟩, s⟩ := p
          rw [hr] at h
          injection h with h; injection h with h1 h2
          obtain ⟨s2, e⟩ := runParts_total (f := F.calls) h2 _ hr
          rw [e]
          simp only
          cases F.close <;> exact ⟨_, _, rfl⟩
  · unfold write_oi_fits_failing
    rw [if_pos hs]
    exact ⟨_, _, rfl⟩

/-- The first failing call decides. -/
theorem write_failing_first {F : Faults R} {today : CStr} {oi : OiFits R} {o : Option (List (Hdu R))}
    (h : write_oi_fits today false oi .ok = .ok (o, .ok)) (hc : F.create = none)
    {i j : Nat} {p : List (WriteOp R)} {op : WriteOp R} {ft : Fault R} (hi : (fileSteps today oi)[i]? = some p)
    (hj : p[j]? = some op) (hcall : op.isCall = true) (before : ∀ a b, a < i → F.calls a b = none)
    (here : ∀ b, b < j → F.calls i b = none) (at_ : F.calls i j = some ft) :
    write_oi_fits_failing F today false oi .ok = .ok (some ((F.close.map Fault.left).getD ft.left), ft.code) := by
  rw [write_plain_eq] at h
  rw [write_failing_eq hc]
  cases hr : runParts (fun _ _ => none) 0 (fileSteps today oi) ⟨[], 0, .ok⟩ with
  | abort => rw [hr] at h; cases h
  | ub => rw [hr] at h; cases h
  | ok q =>
    obtain ⟨⟨⟩, s⟩ := q
    rw [hr] at h
    injection h with h; injection h with h1 h2
    obtain ⟨cur, e⟩ := runParts_first (f := F.calls) h2 hi hj hcall 0 hr
      (fun a b ha => by rw [Nat.zero_add]; exact before a b ha) (fun b hb => by rw [Nat.zero_add]; exact here b hb)
      (by rw [Nat.zero_add]; exact at_)
    rw [e]
    simp only
    cases F.close with
    | none => rfl
    | some f => simp only [if_neg ft.bad, Option.map_some, Option.getD_some]

/-- If only closing fails, that is reported. -/
theorem write_failing_close {F : Faults R} {today : CStr} {oi : OiFits R} {o : Option (List (Hdu R))}
    (h : write_oi_fits today false oi .ok = .ok (o, .ok)) (hc : F.create = none) (hn : ∀ a b, F.calls a b = none)
    {ft : Fault R} (hf : F.close = some ft) :
    write_oi_fits_failing F today false oi .ok = .ok (some ft.left, ft.code) := by
  rw [write_plain_eq] at h
  rw [write_failing_eq hc, show F.calls = fun _ _ => none from funext fun a => funext fun b => hn a b]
  cases hr : runParts (fun _ _ => none) 0 (fileSteps today oi) ⟨[], 0, .ok⟩ with
  | abort => rw [hr] at h; cases h
  | ub => rw [hr] at h; cases h
  | ok q =>
    obtain ⟨⟨⟩, s⟩ := q
    rw [hr] at h
    injection h with h; injection h with h1 h2
    simp only [hf, h2, if_true]

/-! ### The programs -/

variable {α β : Type}

/-- The second program does the same as the first one, or it ends with another exit code than zero. -/
def SameOrFails (m m' : Prog R α) : Prop := ∀ w, m' w = m w ∨ ∃ e, m' w = .error e ∧ e.exit ≠ .code 0

theorem sof_refl (m : Prog R α) : SameOrFails m m := fun _ => .inl rfl

theorem sof_bind {x : Prog R α} {f f' : α → Prog R β} (h : ∀ a, SameOrFails (f a) (f' a)) :
    SameOrFails (x >>= f) (x >>= f') := by
  intro w
  rw [Prog.bind_eq, Prog.bind_eq]
  cases x w with
  | error e => exact .inl rfl
  | ok p => exact h p.1 p.2

theorem sof_ite {c : Prop} [Decidable c] {a b a' b' : Prog R α} (h1 : SameOrFails a a') (h2 : SameOrFails b b') :
    SameOrFails (if c then a else b) (if c then a' else b') := by
  split <;> assumption

theorem sof_run {m m' : Prog R Unit} (h : SameOrFails m m') (fs : Files R) (h0 : (m'.run fs).exit = .code 0) :
    m'.run fs = m.run fs := by
  unfold Prog.run at *
  rcases h ⟨[], fs, none⟩ with e | ⟨x, e, hx⟩
  · rw [e]
  · rw [e] at h0; exact absurd h0 hx

/-- If the first program ends with exit code zero, the second one ends with zero or one. -/
def ZeroThenOne (m m' : Prog R α) : Prop := ∀ w,
  (∀ a w', m w = .ok (a, w') → m' w = .ok (a, w')) ∧
  (∀ e, m w = .error e → e.exit = .code 0 → ∃ e', m' w = .error e' ∧ (e'.exit = .code 0 ∨ e'.exit = .code 1))

theorem zto_refl (m : Prog R α) : ZeroThenOne m m := fun _ => ⟨fun _ _ h => h, fun e h h0 => ⟨e, h, .inl h0⟩⟩

theorem zto_bind {x : Prog R α} {f f' : α → Prog R β} (h : ∀ a, ZeroThenOne (f a) (f' a)) :
    ZeroThenOne (x >>= f) (x >>= f') := by
  intro w
  rw [Prog.bind_eq, Prog.bind_eq]
  cases x w with
  | error e => exact zto_refl (fun _ => .error e) w
  | ok p => exact h p.1 p.2

theorem zto_ite {c : Prop} [Decidable c] {a b a' b' : Prog R α} (h1 : ZeroThenOne a a') (h2 : ZeroThenOne b b') :
    ZeroThenOne (if c then a else b) (if c then a' else b') := by
  split <;> assumption

theorem zto_run {m m' : Prog R Unit} (h : ZeroThenOne m m') (fs : Files R) (h0 : (m.run fs).exit = .code 0) :
    (m'.run fs).exit = .code 0 ∨ (m'.run fs).exit = .code 1 := by
  unfold Prog.run at *
  cases hm : m ⟨[], fs, none⟩ with
  | ok p =>
    obtain ⟨a, w'⟩ := p
    rw [(h _).1 _ _ hm]
    exact .inl rfl
  | error e =>
    rw [hm] at h0
    obtain ⟨e', h1, h2⟩ := (h _).2 _ hm h0
    rw [h1]
    exact h2

/-- How the programs end. -/
def lastStep (write : CStr → OiFits R → Prog R Status) (name : CStr) (oi : OiFits R) : Prog R Unit := do
  let status ← write name oi
  if status ≠ .ok then exitWith EXIT_FAILURE
  exitWith EXIT_SUCCESS

theorem lastStep_eq (write : CStr → OiFits R → Prog R Status) (name : CStr) (oi : OiFits R) (w : World R) :
    lastStep write name oi w = match write name oi w with
      | .error e => .error e
      | .ok (st, w') => if st = .ok then .error ⟨.code 0, w'.out, w'.files⟩ else .error ⟨.code 1, w'.out, w'.files⟩ := by
  unfold lastStep
  rw [Prog.bind_eq]
  cases write name oi w with
  | error e => rfl
  | ok p =>
    obtain ⟨st, w'⟩ := p
    by_cases h : st = .ok
    · simp only [h, ne_eq, not_true, if_false, if_true]; rfl
    · simp only [h, ne_eq, not_false_eq_true, if_true, if_false]; rfl

/-- What the two functions do, for the name of the file and whether it exists. -/
theorem writeFile_both (F : Faults R) (today name : CStr) (oi : OiFits R) (w : World R) : ∃ path there,
    writeFile today name oi w = (match write_oi_fits today there oi .ok with
      | .ok (some hdus, st) => .ok (st, { w with files := w.files.set path (some (.fits hdus)) })
      | .ok (none, st) => .ok (st, w)
      | .abort => .error ⟨.abort, w.out, w.files.set path (some .other)⟩
      | .ub => .error ⟨.ub, w.out, w.files.set path (some .other)⟩) ∧
    writeFileFailing F today name oi w = (match write_oi_fits_failing F today there oi .ok with
      | .ok (some hdus, st) => .ok (st, { w with files := w.files.set path (some (.fits hdus)) })
      | .ok (none, st) =>
        match F.create with
        | some (_, left) => if there then .ok (st, w) else .ok (st, { w with files := w.files.set path left })
        | none => .ok (st, w)
      | .abort => .error ⟨.abort, w.out, w.files.set path (some .other)⟩
      | .ub => .error ⟨.ub, w.out, w.files.set path (some .other)⟩) ∧
    (name.head? ≠ some '!' → path = name ∧ there = (w.files name).isSome) := by
  refine ⟨_, _, rfl, rfl, fun hn => ?_⟩
  cases name with
  | nil => exact ⟨rfl, rfl⟩
  | cons c cs =>
    have hc : c ≠ '!' := fun e => hn (by rw [e]; rfl)
    split
    · rename_i h2; exact absurd (List.cons.inj h2).1 hc
    · exact ⟨rfl, rfl⟩

theorem writeFileFailing_ok {F : Faults R} {today name : CStr} {oi : OiFits R} {w w' : World R}
    (h : writeFileFailing F today name oi w = .ok (.ok, w')) : writeFile today name oi w = .ok (.ok, w') := by
  obtain ⟨path, there, e1, e2, -⟩ := writeFile_both F today name oi w
  rw [e2] at h
  rw [e1]
  cases hw : write_oi_fits_failing F today there oi .ok with
  | abort => rw [hw] at h; cases h
  | ub => rw [hw] at h; cases h
  | ok p =>
    obtain ⟨o, st⟩ := p
    rw [hw] at h
    have hst : st = .ok := by
      cases o with
      | some l => injection h with h; injection h
      | none =>
        simp only at h
        cases hF : F.create with
        | none => rw [hF] at h; injection h with h; injection h
        | some q =>
          rw [hF] at h
          simp only at h
          split at h <;> (injection h with h; injection h)
    subst hst
    have := write_failing_success hw
    rw [this]
    cases o with
    | some l => exact h
    | none =>
      cases there with
      | true => rw [write_there] at this; cases this
      | false => exact absurd this (write_none today oi .ok)

theorem writeFileFailing_total {F : Faults R} {today name : CStr} {oi : OiFits R} {w w' : World R}
    (h : writeFile today name oi w = .ok (.ok, w')) : ∃ st w'', writeFileFailing F today name oi w = .ok (st, w'') := by
  obtain ⟨path, there, e1, e2, -⟩ := writeFile_both F today name oi w
  rw [e1] at h
  rw [e2]
  cases hw : write_oi_fits today there oi .ok with
  | abort => rw [hw] at h; cases h
  | ub => rw [hw] at h; cases h
  | ok p =>
    obtain ⟨o, st⟩ := p
    rw [hw] at h
    have hst : st = .ok := by
      cases o <;> (injection h with h; injection h)
    subst hst
    obtain ⟨o', st', e⟩ := write_failing_total (F := F) hw
    rw [e]
    cases o' with
    | some l => exact ⟨_, _, rfl⟩
    | none =>
      simp only
      cases F.create with
      | none => exact ⟨_, _, rfl⟩
      | some q =>
        simp only
        split <;> exact ⟨_, _, rfl⟩

theorem writeFileFailing_error {F : Faults R} {today name : CStr} {oi : OiFits R} {w : World R} {e : Final R}
    (h : writeFileFailing F today name oi w = .error e) : e.exit ≠ .code 0 := by
  obtain ⟨path, there, e1, e2, -⟩ := writeFile_both F today name oi w
  rw [e2] at h
  cases hw : write_oi_fits_failing F today there oi .ok with
  | abort => rw [hw] at h; cases h; intro e; cases e
  | ub => rw [hw] at h; cases h; intro e; cases e
  | ok p =>
    obtain ⟨o, st⟩ := p
    rw [hw] at h
    cases o with
    | some l => cases h
    | none =>
      simp only at h
      cases hF : F.create with
      | none => rw [hF] at h; cases h
      | some q =>
        rw [hF] at h
        simp only at h
        split at h <;> cases h

theorem sof_last (F : Faults R) (today name : CStr) (oi : OiFits R) :
    SameOrFails (lastStep (writeFile today) name oi) (lastStep (writeFileFailing F today) name oi) := by
  intro w
  rw [lastStep_eq, lastStep_eq]
  cases h : writeFileFailing F today name oi w with
  | error e => exact .inr ⟨e, rfl, writeFileFailing_error h⟩
  | ok p =>
    obtain ⟨st, w'⟩ := p
    by_cases hs : st = .ok
    · subst hs
      rw [writeFileFailing_ok h]
      exact .inl rfl
    · simp only [hs, if_false]
      exact .inr ⟨_, rfl, by intro e; cases e⟩

theorem zto_last (F : Faults R) (today name : CStr) (oi : OiFits R) :
    ZeroThenOne (lastStep (writeFile today) name oi) (lastStep (writeFileFailing F today) name oi) := by
  intro w
  rw [lastStep_eq, lastStep_eq]
  cases h : writeFile today name oi w with
  | error e =>
    refine ⟨fun _ _ h => (by cases h), fun e' he h0 => ?_⟩
    injection he with he
    subst he
    exact absurd h0 (writeFile_exit h 0)
  | ok p =>
    obtain ⟨st, w'⟩ := p
    by_cases hs : st = .ok
    · subst hs
      obtain ⟨st', w'', e⟩ := writeFileFailing_total (F := F) h
      rw [e]
      refine ⟨fun _ _ h => (by cases h), fun _ _ _ => ?_⟩
      by_cases hs' : st' = .ok
      · simp only [hs', if_true]; exact ⟨_, rfl, .inl rfl⟩
      · simp only [hs', if_false]; exact ⟨_, rfl, .inr rfl⟩
    · simp only [hs, if_false]
      refine ⟨fun _ _ h => (by cases h), fun e' he h0 => ?_⟩
      injection he with he
      subst he
      cases h0

theorem mergeMain_rel {Rel : ∀ {α : Type}, Prog R α → Prog R α → Prop} (refl : ∀ {α : Type} (m : Prog R α), Rel m m)
    (hbind : ∀ {α β : Type} {x : Prog R α} {f f' : α → Prog R β}, (∀ a, Rel (f a) (f' a)) → Rel (x >>= f) (x >>= f'))
    {write write' : CStr → OiFits R → Prog R Status}
    (hlast : ∀ name oi, Rel (lastStep write name oi) (lastStep write' name oi)) (u : Undef R) (argv : List CStr) :
    Rel (mergeMain write u argv) (mergeMain write' u argv) := by
  unfold mergeMain
  split
  · exact hbind fun _ => hbind fun _ => hbind fun _ => hbind fun _ => hlast _ _
  · exact refl _

theorem upgradeMain_rel {Rel : ∀ {α : Type}, Prog R α → Prog R α → Prop} (refl : ∀ {α : Type} (m : Prog R α), Rel m m)
    (hbind : ∀ {α β : Type} {x : Prog R α} {f f' : α → Prog R β}, (∀ a, Rel (f a) (f' a)) → Rel (x >>= f) (x >>= f'))
    {write write' : CStr → OiFits R → Prog R Status}
    (hlast : ∀ name oi, Rel (lastStep write name oi) (lastStep write' name oi)) (u : Undef R) (argv : List CStr) :
    Rel (upgradeMain write u argv) (upgradeMain write' u argv) := by
  unfold upgradeMain
  split
  · refine hbind fun p => ?_
    obtain ⟨oi, st⟩ := p
    cases oi with
    | none => exact refl _
    | some oi =>
      simp only
      by_cases c1 : st ≠ .ok
      · simp only [if_pos c1]; exact refl _
      · simp only [if_neg c1]
        split
        · exact refl _
        · split
          · exact refl _
          · exact hbind fun _ => hbind fun _ => hlast _ _
  · exact refl _

theorem filterMain_rel {Rel : ∀ {α : Type}, Prog R α → Prog R α → Prop} (refl : ∀ {α : Type} (m : Prog R α), Rel m m)
    (hbind : ∀ {α β : Type} {x : Prog R α} {f f' : α → Prog R β}, (∀ a, Rel (f a) (f' a)) → Rel (x >>= f) (x >>= f'))
    {write write' : CStr → OiFits R → Prog R Status}
    (hlast : ∀ name oi, Rel (lastStep write name oi) (lastStep write' name oi)) (u : Undef R)
    (removable : CStr → Bool) (line : CommandLine R) :
    Rel (filterMain write u removable line) (filterMain write' u removable line) := by
  unfold filterMain
  split
  · exact refl _
  · refine hbind fun p => ?_
    obtain ⟨oi, st⟩ := p
    cases oi with
    | none => exact refl _
    | some oi =>
      simp only
      by_cases c1 : st ≠ .ok
      · simp only [if_pos c1]; exact refl _
      · simp only [if_neg c1]
        refine hbind fun _ => hbind fun _ => hbind fun _ => hbind fun _ => hbind fun out => ?_
        refine hbind fun _ => hbind fun _ => hbind fun there => ?_
        split
        · split
          · exact hbind fun _ => hbind fun _ => hlast _ _
          · split
            · exact hbind fun _ => hbind fun _ => hlast _ _
            · exact hbind fun _ => hlast _ _
        · exact hlast _ _
  · exact refl _

theorem filterMain_eq (u : Undef R) (today : CStr) (removable : CStr → Bool) (line : CommandLine R) :
    filterMain (writeFile today) u removable line = oifits_filter u today removable line := rfl

theorem mergeMain_eq (u : Undef R) (today : CStr) (argv : List CStr) :
    mergeMain (writeFile today) u argv = oifits_merge u today argv := rfl

theorem upgradeMain_eq (u : Undef R) (today : CStr) (argv : List CStr) :
    upgradeMain (writeFile today) u argv = oifits_upgrade u today argv := rfl

/-! ### Which files are changed -/

theorem obeys_failing_keepsExisting {name : CStr} (hn : name.head? ≠ some '!') (F : Faults R) (today : CStr) (oi : OiFits R) :
    Obeys KeepsExisting (writeFileFailing F today name oi) := by
  intro w
  obtain ⟨path, there, -, e, h⟩ := writeFile_both F today name oi w
  obtain ⟨rfl, rfl⟩ := h hn
  rw [e]
  cases hx : w.files path with
  | some d =>
    rw [Option.isSome_some, write_failing_there]
    simp only
    cases F.create with
    | none => exact ⟨fun e h => (by cases h), fun b w' h => by cases h; exact keepsExisting_pre.refl _⟩
    | some q => exact ⟨fun e h => (by cases h), fun b w' h => by cases h; exact keepsExisting_pre.refl _⟩
  | none =>
    have set_ok : ∀ x, KeepsExisting w.files (w.files.set path x) := by
      intro x n d h
      unfold Files.set
      by_cases e : n = path
      · rw [e, hx] at h; cases h
      · rw [if_neg e]; exact h
    simp only [Option.isSome_none]
    cases write_oi_fits_failing F today false oi .ok with
    | ok p =>
      obtain ⟨o, st⟩ := p
      cases o with
      | none =>
        simp only [Bool.false_eq_true, if_false]
        cases F.create with
        | none => exact ⟨fun e h => (by cases h), fun b w' h => by cases h; exact keepsExisting_pre.refl _⟩
        | some q => exact ⟨fun e h => (by cases h), fun b w' h => by cases h; exact set_ok _⟩
      | some hdus => exact ⟨fun e h => (by cases h), fun b w' h => by cases h; exact set_ok _⟩
    | abort => exact ⟨fun e h => (by cases h; exact set_ok _), fun b w' h => by cases h⟩
    | ub => exact ⟨fun e h => (by cases h; exact set_ok _), fun b w' h => by cases h⟩

theorem obeys_failing_keepsOthers {name : CStr} (hn : name.head? ≠ some '!') (F : Faults R) (today : CStr) (oi : OiFits R) :
    Obeys (KeepsOthers name) (writeFileFailing F today name oi) := by
  intro w
  obtain ⟨path, there, -, e, h⟩ := writeFile_both F today name oi w
  obtain ⟨rfl, rfl⟩ := h hn
  rw [e]
  have set_ok := fun x => keepsOthers_set (R := R) path w.files x
  have same := (keepsOthers_pre (R := R) path).refl w.files
  cases write_oi_fits_failing F today (w.files path).isSome oi .ok with
  | ok p =>
    obtain ⟨o, st⟩ := p
    cases o with
    | none =>
      simp only
      cases F.create with
      | none => exact ⟨fun e h => (by cases h), fun b w' h => by cases h; exact same⟩
      | some q =>
        simp only
        split
        · exact ⟨fun e h => (by cases h), fun b w' h => by cases h; exact same⟩
        · exact ⟨fun e h => (by cases h), fun b w' h => by cases h; exact set_ok _⟩
    | some hdus => exact ⟨fun e h => (by cases h), fun b w' h => by cases h; exact set_ok _⟩
  | abort => exact ⟨fun e h => (by cases h; exact set_ok _), fun b w' h => by cases h⟩
  | ub => exact ⟨fun e h => (by cases h; exact set_ok _), fun b w' h => by cases h⟩

variable {T : Files R → Files R → Prop}

theorem obeys_lastStep (hT : Preorder' T) {write : CStr → OiFits R → Prog R Status} {name : CStr} {oi : OiFits R}
    (h : Obeys T (write name oi)) : Obeys T (lastStep write name oi) :=
  obeys_bind hT h fun _ => obeys_ite
    (fun _ => obeys_bind hT (obeys_exit hT _) fun _ => obeys_exit hT _) (fun _ => obeys_exit hT _)

theorem obeys_mergeMain (hT : Preorder' T) {write : CStr → OiFits R → Prog R Status} (u : Undef R) (argv : List CStr)
    (hw : ∀ name, argv[1]? = some name → ∀ oi, Obeys T (write name oi)) : Obeys T (mergeMain write u argv) := by
  unfold mergeMain
  split
  · refine obeys_bind hT (obeys_readInputs hT _ _) fun l => obeys_bind hT (obeys_call hT _) fun o => ?_
    refine obeys_bind hT (obeys_say hT _) fun _ => obeys_bind hT (obeys_sayText hT _) fun _ => ?_
    exact obeys_lastStep hT (hw _ rfl _)
  · exact obeys_bind hT (obeys_say hT _) fun _ => obeys_exit hT _

theorem obeys_upgradeMain (hT : Preorder' T) {write : CStr → OiFits R → Prog R Status} (u : Undef R) (argv : List CStr)
    (hw : ∀ name, argv[2]? = some name → ∀ oi, Obeys T (write name oi)) : Obeys T (upgradeMain write u argv) := by
  unfold upgradeMain
  split
  · refine obeys_bind hT (obeys_readFile hT _ _) fun p => ?_
    obtain ⟨oi, st⟩ := p
    cases oi with
    | none => exact obeys_exit hT _
    | some oi =>
      refine obeys_ite (fun _ => obeys_exit hT _) fun _ => obeys_ite (fun _ => ?_) fun _ => obeys_ite (fun _ => ?_) fun _ => ?_
      · exact obeys_bind hT (obeys_say hT _) fun _ => obeys_exit hT _
      · exact obeys_bind hT (obeys_say hT _) fun _ => obeys_exit hT _
      · refine obeys_bind hT (obeys_say hT _) fun _ => obeys_bind hT (obeys_sayText hT _) fun _ => ?_
        exact obeys_lastStep hT (hw _ rfl _)
  · exact obeys_bind hT (obeys_say hT _) fun _ => obeys_exit hT _

theorem obeys_filterMain (hT : Preorder' T) {write : CStr → OiFits R → Prog R Status} (u : Undef R)
    (removable : CStr → Bool) (line : CommandLine R)
    (hw : ∀ opts clobber prog infile outfile, line = .args opts clobber [prog, infile, outfile] → ∀ oi,
      Obeys T (write (strlcpy outfile FLEN_FILENAME) oi))
    (hd : ∀ opts prog infile outfile, line = .args opts true [prog, infile, outfile] → ∀ f : Files R,
      T f (f.set (strlcpy outfile FLEN_FILENAME) none)) :
    Obeys T (filterMain write u removable line) := by
  unfold filterMain
  split
  · exact obeys_bind hT (obeys_say hT _) fun _ => obeys_exit hT _
  · rename_i opts clobber prog infile outfile
    refine obeys_bind hT (obeys_readFile hT _ _) fun p => ?_
    obtain ⟨oi, st⟩ := p
    cases oi with
    | none => exact obeys_exit hT _
    | some oi =>
      refine obeys_ite (fun _ => obeys_exit hT _) fun _ => ?_
      refine obeys_bind hT (obeys_say hT _) fun _ => obeys_bind hT (obeys_sayText hT _) fun _ => ?_
      refine obeys_bind hT (obeys_say hT _) fun _ => obeys_bind hT (obeys_sayText hT _) fun _ => ?_
      refine obeys_bind hT (obeys_call hT _) fun out => ?_
      refine obeys_bind hT (obeys_say hT _) fun _ => obeys_bind hT (obeys_sayText hT _) fun _ => ?_
      refine obeys_bind hT (fun w => ⟨fun e h => (by cases h), fun b w' h => by cases h; exact hT.refl _⟩) fun there => ?_
      have rest : ∀ x : Unit, Obeys T (lastStep write (strlcpy outfile FLEN_FILENAME) out) := fun _ =>
        obeys_lastStep hT (hw _ _ _ _ _ rfl _)
      refine obeys_ite (fun _ => ?_) (fun _ => ?_)
      · refine obeys_ite (fun _ => ?_) (fun hc => ?_)
        · exact obeys_bind hT (obeys_say hT _) fun _ => obeys_bind hT (obeys_exit hT _) rest
        · refine obeys_ite (fun _ => ?_) (fun _ => ?_)
          · exact obeys_bind hT (obeys_say hT _) fun _ => obeys_bind hT (obeys_exit hT _) rest
          · refine obeys_bind hT ?_ rest
            cases clobber with
            | false => exact absurd rfl hc
            | true =>
              exact fun w => ⟨fun e h => (by cases h), fun b w' h => by cases h; exact hd _ _ _ _ rfl _⟩
      · exact rest ()
  · exact obeys_bind hT (obeys_say hT _) fun _ => obeys_exit hT _

end Verif
