import Verif.Proof.HeldFlux

/-! The same for OI_VIS tables. -/

namespace Verif
open Outcome Spec

variable {R : FP} {α β γ ι : Type} {soft : Prop} {h : Hdu R}

/-- An error other than `COL_NOT_FOUND` is not cleared. -/
structure Late (m : FitsM R α) : Prop where
  run : ∀ s, Bad False s.status → m s = .abort ∨ ∃ a s', m s = .ok (a, s') ∧ Bad True s'.status

theorem Bad.any {st : Status} (hb : Bad soft st) : Bad True st := ⟨hb.1, fun _ => trivial⟩

theorem Late.of {m : FitsM R α} (hm : Still False m) : Late m :=
  ⟨fun s hs => (hm.run s hs).imp_right fun ⟨a, s', h1, h2⟩ => ⟨a, s', h1, h2.any⟩⟩

theorem Late.bind {m : FitsM R α} {f : α → FitsM R β} (hm : Still False m) (hf : ∀ a, Late (f a)) : Late (m >>= f) := by
  constructor
  intro s hs
  rcases hm.run s hs with h1 | ⟨a, s', h1, h2⟩
  · left; change FitsM.bind _ _ s = _; simp [FitsM.bind, h1]
  · rw [FitsM.bind_ok h1]; exact (hf a).run s' h2

theorem Sem.late {m : FitsM R α} {f : α → FitsM R β} {v : Option α} {w : α → Option β}
    (hm : Sem False h m v) (hf : ∀ a, v = some a → Sem True h (f a) (w a)) (hs : ∀ a, Late (f a)) :
    Sem True h (m >>= f) (v.bind w) := by
  cases hv : v with
  | none =>
    refine ⟨fun a ha => (by cases ha), fun _ s hs' => ?_⟩
    rcases hm.err hv s hs' with h1 | ⟨a, s', h1, h2⟩
    · left; change FitsM.bind _ _ s = _; simp [FitsM.bind, h1]
    · rw [FitsM.bind_ok h1]; exact (hs a).run s' h2
  | some a =>
    refine ⟨fun b hb s hs' => ?_, fun hb s hs' => ?_⟩
    · rw [FitsM.bind_ok (hm.ok a hv s hs')]; exact (hf a hv).ok b hb s hs'
    · rw [FitsM.bind_ok (hm.ok a hv s hs')]; exact (hf a hv).err hb s hs'

/-! ### The rows -/

theorem tells_visRecord (hb : h.type = .binary) (u : Undef R) (nwave : Nat) (i : Nat) :
    Tells True h (readVisRecord u nwave i) fun r => VisRecordIn h nwave i r ∧ NoExtras false false r := by
  unfold readVisRecord
  apply Tells.mk
  · sem!
  · intro a ha
    parts at ha
    obtain ⟨x1, h1, x2, h2, x3, h3, x4, h4, x5, h5, x6, h6, x7, h7, x8, h8, x9, h9, x10, h10, x11, h11, x12, h12, rfl⟩ := ha
    obtain ⟨a, b, rfl⟩ := cells_two h11
    exact ⟨⟨h1, h2, h3, h4, h5, h6, h7, h8, h9, h10, h11, h12⟩,
      ⟨fun _ => rfl, fun _ => rfl, fun _ => rfl, fun _ => rfl, fun _ => rfl⟩⟩
  · rintro a ⟨ha, -⟩
    rw [valOne_some.mpr ha.target_id, valOne_some.mpr ha.time, valOne_some.mpr ha.mjd, valOne_some.mpr ha.int_time,
      valArr_some.mpr ha.visamp, valArr_some.mpr ha.visamperr, valArr_some.mpr ha.visphi, valArr_some.mpr ha.visphierr,
      valOne_some.mpr ha.ucoord, valOne_some.mpr ha.vcoord, valArr_some.mpr ha.sta_index, valArr_some.mpr ha.flag]
    exact ⟨_, rfl⟩

/-- One step over the records. -/
theorem rows_step {w : Nat → α → Option β} {l : List α} {l' : List β} {P : Nat → α → Prop} {Q : Nat → β → Prop}
    (hr : Rows h l P) (hv : valRecs w 1 l = some l') (hpq : ∀ i r r', P i r → w i r = some r' → Q i r') :
    Rows h l' Q := by
  obtain ⟨h1, h2⟩ := valRecs_some.mp hv
  refine ⟨hr.nonempty, h1.trans hr.each, fun i r' hi => ?_⟩
  have hi' : i < l.length := by have := (List.getElem?_eq_some_iff.mp hi).1; omega
  have e := List.getElem?_eq_getElem hi'
  have := h2 i _ r' e hi
  rw [Nat.add_comm] at this
  exact hpq _ _ _ (hr.row i _ e) this

theorem rows_step_exists {w : Nat → α → Option β} {l : List α} {P : Nat → α → Prop} (hr : Rows h l P)
    (hw : ∀ i, i < h.nrows → ∀ r, ∃ r', w (i + 1) r = some r') : ∃ l', valRecs w 1 l = some l' := by
  refine valRecs_exists fun i r hi => ?_
  rw [Nat.add_comm]
  have := (List.getElem?_eq_some_iff.mp hi).1
  exact hw i (by have := hr.each; omega) r

theorem rows_map {l : List α} {P : Nat → α → Prop} {Q : Nat → β → Prop} (hr : Rows h l P) {f : α → β}
    (hf : ∀ i r, P i r → Q i (f r)) : Rows h (l.map f) Q := by
  refine ⟨hr.nonempty, by rw [List.length_map]; exact hr.each, fun i r hi => ?_⟩
  rw [List.getElem?_map, Option.map_eq_some_iff] at hi
  obtain ⟨r', hr', rfl⟩ := hi
  exact hf _ _ (hr.row i r' hr')

theorem rows_at {l : List α} {P : Nat → α → Prop} (hr : Rows h l P) {i : Nat} (hi : i < h.nrows) : ∃ r, P (i + 1) r :=
  ⟨_, hr.row i _ (List.getElem?_eq_getElem (by rw [hr.each]; exact hi))⟩

/-! ### The indices into the correlation matrix -/

/-- CORRINDX_VISAMP and CORRINDX_VISPHI. -/
def valVisCorr (h : Hdu R) (c : Bool) (l : List (OiVisRecord R)) : Option (List (OiVisRecord R)) :=
  if c = true then valRecs (fun i r => (valOne h Cell.toInt "CORRINDX_VISAMP" i).bind fun a =>
    (valOne h Cell.toInt "CORRINDX_VISPHI" i).bind fun p =>
      some { r with corrindx_visamp := a, corrindx_visphi := p }) 1 l
  else some l

theorem sem_visCorr (hb : h.type = .binary) (u : Undef R) {c : Bool}
    (hc : c = true → hasColumn "CORRINDX_VISAMP" h = true ∧ hasColumn "CORRINDX_VISPHI" h = true)
    (l : List (OiVisRecord R)) : Sem False h (readVisCorr u c l) (valVisCorr h c l) := by
  unfold readVisCorr valVisCorr
  refine Sem.ite (fun e => ?_) fun _ => Sem.pure _
  have f1 : Found False h "CORRINDX_VISAMP" := .inr (hc e).1
  have f2 : Found False h "CORRINDX_VISPHI" := .inr (hc e).2
  refine Sem.forRecs (fun i r => ?_) (fun i r => Still.of ?_) 1 l
  · unfold readVisCorrRow
    exact (sem_one hb f1 _ _ _).bind (fun a => (sem_one hb f2 _ _ _).bind (fun b => Sem.pure _)
      fun b => Still.of (Inert.pure _)) fun a => Still.of (by inert)
  · unfold readVisCorrRow; inert

theorem still_visCorr (u : Undef R) (c : Bool) (l : List (OiVisRecord R)) : Still soft (readVisCorr u c l) := by
  unfold readVisCorr readVisCorrRow
  exact Still.of (by inert)

/-! ### VISREFMAP -/

/-- VISREFMAP, which is optional. -/
def valRefmap (h : Hdu R) (v : OiVis R) : Option (OiVis R) :=
  if hasColumn "VISREFMAP" h = true then
    (valRecs (fun i r => if v.nwave * v.nwave = 0 then none else
      (valArr h Cell.toLog "VISREFMAP" i (v.nwave * v.nwave)).bind fun m =>
        some { r with visrefmap := some m }) 1 v.record).bind fun record =>
      some { v with usevisrefmap := true, record := record }
  else some { v with usevisrefmap := false, record := v.record.map fun r => { r with visrefmap := none } }

/-- An optional column: what is done depends on whether the column is there. -/
theorem sem_optional (hb : h.type = .binary) {name : CStr} {f : Nat → FitsM R α} {a : α} {v : Option α}
    (hf : ∀ k, h.colnum name = .ok k → Sem soft h (f k) v) :
    Sem soft h (fits_get_colnum name 0 >>= fun k => getStatus >>= fun st =>
      if st = .COL_NOT_FOUND then (setStatus .ok >>= fun _ => pure a) else f k)
      (if hasColumn name h = true then v else some a) := by
  cases hc : hasColumn name h with
  | false =>
    rw [if_neg (by decide)]
    refine ⟨fun b hb' s hs => ?_, fun ha => by (cases ha)⟩
    cases hb'
    have e : fits_get_colnum name 0 s = .ok (0, { s with status := .COL_NOT_FOUND }) :=
      cfRead_error hs (colnum_error hb hc) 0
    rw [FitsM.bind_ok e, FitsM.bind_ok (run_getStatus _), if_pos rfl]
    change Outcome.ok (a, { s with status := .ok }) = _
    rw [status_reset hs.ok]
  | true =>
    rw [if_pos rfl]
    obtain ⟨k, hk⟩ := (colnum_ok_iff _ hb).mpr hc
    have hrun : ∀ s, At s h → (fits_get_colnum name 0 >>= fun k => getStatus >>= fun st =>
        if st = .COL_NOT_FOUND then (setStatus .ok >>= fun _ => pure a) else f k) s = f k s := by
      intro s hs
      have e : fits_get_colnum name 0 s = .ok (k, s) := cfRead_ok hs hk 0
      rw [FitsM.bind_ok e, FitsM.bind_ok (run_getStatus _), hs.ok, if_neg (by decide)]
    exact ⟨fun a ha s hs => (hrun s hs).trans ((hf k hk).ok a ha s hs), fun ha s hs => by
      have := (hf k hk).err ha s hs
      rw [← hrun s hs] at this
      exact this⟩

theorem still_optional {name : CStr} {f : Nat → FitsM R α} {a : α} (hf : ∀ k, Still False (f k)) :
    Still False (fits_get_colnum name 0 >>= fun k => getStatus >>= fun st =>
      if st = .COL_NOT_FOUND then (setStatus .ok >>= fun _ => pure a) else f k) := by
  refine (Still.of (by inert)).bind fun k => still_getStatus fun st hst => ?_
  rw [if_neg fun e => hst.2 e]
  exact hf k

theorem still_alloc {n : Nat} {f : Unit → FitsM R β} (hf : Still soft (f ())) :
    Still soft (FitsM.lift (chkmallocN n) >>= f) :=
  (Still.lift _ (by unfold chkmallocN; split <;> simp)).bind fun _ => hf

theorem still_refmapRow (u : Undef R) (nwave k i : Nat) (r : OiVisRecord R) : Still soft (readRefmapRow u nwave k i r) := by
  unfold readRefmapRow
  exact still_alloc (Still.of (by inert))

theorem sem_refmap (hb : h.type = .binary) (u : Undef R) (v : OiVis R) :
    Sem False h (readRefmap u v) (valRefmap h v) := by
  unfold readRefmap valRefmap
  refine sem_optional hb fun k hk => ?_
  refine (Sem.forRecs (fun i r => ?_) (fun i r => still_refmapRow u _ k i r) 1 v.record).bind (fun _ => Sem.pure _)
    fun _ => Still.of (Inert.pure _)
  unfold readRefmapRow
  refine Sem.alloc (((sem_read_col Cell.toLog k i (v.nwave * v.nwave) _).bind (fun _ => Sem.pure _)
    fun _ => Still.of (Inert.pure _)).congr ?_)
  unfold valArr
  rw [hk]
  rfl

theorem still_refmap (u : Undef R) (v : OiVis R) : Still False (readRefmap u v) := by
  unfold readRefmap
  exact still_optional fun k => (Still.forRecs (fun i r => still_refmapRow u _ k i r) 1 _).bind fun _ =>
    Still.of (Inert.pure _)

/-! ### Complex visibilities -/

/-- CORRINDX_RVIS and CORRINDX_IVIS. -/
def valComplexCorr (h : Hdu R) (c : Bool) (i : Nat) (r : OiVisRecord R) : Option (OiVisRecord R) :=
  if c = true then (valOne h Cell.toInt "CORRINDX_RVIS" i).bind fun a =>
    (valOne h Cell.toInt "CORRINDX_IVIS" i).bind fun b =>
      some { r with corrindx_rvis := a, corrindx_ivis := b }
  else some r

/-- A row. -/
def valComplexRow (h : Hdu R) (nwave : Nat) (c : Bool) (i : Nat) (r : OiVisRecord R) : Option (OiVisRecord R) :=
  if nwave = 0 then none else
    (valArr h Cell.toDbl "RVIS" i nwave).bind fun a => (valArr h Cell.toDbl "RVISERR" i nwave).bind fun b =>
      (valArr h Cell.toDbl "IVIS" i nwave).bind fun d => (valArr h Cell.toDbl "IVISERR" i nwave).bind fun e =>
        valComplexCorr h c i { r with rvis := some a, rviserr := some b, ivis := some d, iviserr := some e }

/-- The complex visibilities, which are optional. -/
def valComplex (h : Hdu R) (v : OiVis R) (c : Bool) : Option (OiVis R) :=
  if hasColumn "RVIS" h = true then
    ((h.colnum "RVIS").toOption.bind fun k => (unitOf h k).toOption).bind fun unit =>
      (valRecs (valComplexRow h v.nwave c) 1 v.record).bind fun record =>
        some { v with usecomplex := true, complexunit := unit, record := record }
  else some { v with usecomplex := false, complexunit := [],
                     record := v.record.map fun r => { r with rvis := none, rviserr := none, ivis := none, iviserr := none } }

theorem still_complexRow (u : Undef R) (nwave : Nat) (c : Bool) (i : Nat) (r : OiVisRecord R) :
    Still soft (readVisComplexRow u nwave c i r) := by
  unfold readVisComplexRow readVisComplexCorr
  exact still_alloc (Still.of (by inert))

theorem sem_complexCorr (hb : h.type = .binary) (u : Undef R) (c : Bool) (i : Nat) (r : OiVisRecord R) :
    Sem True h (readVisComplexCorr u c i r) (valComplexCorr h c i r) := by
  unfold readVisComplexCorr valComplexCorr
  refine Sem.ite (fun _ => ?_) fun _ => Sem.pure _
  exact (sem_one hb (.inl trivial) _ _ _).bind (fun a => (sem_one hb (.inl trivial) _ _ _).bind (fun b => Sem.pure _)
    fun b => Still.of (Inert.pure _)) fun a => Still.of (by inert)

theorem inert_complexCorr (u : Undef R) (c : Bool) (i : Nat) (r : OiVisRecord R) : Inert (readVisComplexCorr u c i r) := by
  unfold readVisComplexCorr; inert

theorem sem_complexRow (hb : h.type = .binary) (u : Undef R) (nwave : Nat) (c : Bool) (i : Nat) (r : OiVisRecord R) :
    Sem True h (readVisComplexRow u nwave c i r) (valComplexRow h nwave c i r) := by
  unfold readVisComplexRow valComplexRow
  refine Sem.alloc ?_
  have hi := fun r => inert_complexCorr u c i r
  exact (sem_arr hb (.inl trivial) _ _ _ _).bind (fun a => (sem_arr hb (.inl trivial) _ _ _ _).bind (fun b =>
    (sem_arr hb (.inl trivial) _ _ _ _).bind (fun d => (sem_arr hb (.inl trivial) _ _ _ _).bind
      (fun e => sem_complexCorr hb u c i _)
      fun e => Still.of (hi _))
      fun d => Still.of (Inert.bind (inert_arr _ _ _ _ _) fun _ => hi _))
      fun b => Still.of (Inert.bind (inert_arr _ _ _ _ _) fun _ => Inert.bind (inert_arr _ _ _ _ _) fun _ => hi _))
      fun a => Still.of (Inert.bind (inert_arr _ _ _ _ _) fun _ => Inert.bind (inert_arr _ _ _ _ _) fun _ =>
        Inert.bind (inert_arr _ _ _ _ _) fun _ => hi _)

theorem sem_complex (hb : h.type = .binary) (u : Undef R) (v : OiVis R) (c : Bool) :
    Sem True h (read_oi_vis_complex u v c) (valComplex h v c) := by
  unfold read_oi_vis_complex valComplex
  apply Sem.guard
  refine sem_optional hb fun k hk => ?_
  refine ((sem_colUnit k _).bind (fun unit => (Sem.forRecs (fun i r => sem_complexRow hb u v.nwave c i r)
    (fun i r => still_complexRow u _ c i r) 1 v.record).bind (fun _ => Sem.pure _)
    fun _ => Still.of (Inert.pure _)) fun _ =>
      (Still.forRecs (fun i r => still_complexRow u _ c i r) 1 _).bind fun _ => Still.of (Inert.pure _)).congr ?_
  rw [hk]; rfl

theorem still_complex (u : Undef R) (v : OiVis R) (c : Bool) : Still soft (read_oi_vis_complex u v c) := by
  unfold read_oi_vis_complex
  exact Still.guard _ _

/-! ### What only version 2 has -/

/-- `read_oi_vis_opt`. -/
def valVisOpt (h : Hdu R) (v : OiVis R) : Option (OiVis R) :=
  if v.revision = OI_REVN_V1_VIS then
    some { v with corrname := [], amptyp := [], phityp := [], amporder := -1, phiorder := -1,
                  usevisrefmap := false, usecomplex := false }
  else
    (valOpt (h.readStr "CORRNAME") []).bind fun cn => (valOpt (h.readStr "AMPTYP") []).bind fun at' =>
    (valOpt (h.readStr "PHITYP") []).bind fun pt => (valOpt (h.readInt "AMPORDER") (-1)).bind fun ao =>
    (valOpt (h.readInt "PHIORDER") (-1)).bind fun po => (valVisCorr h cn.1 v.record).bind fun record =>
    (valRefmap h { v with corrname := cn.2, amptyp := at'.2, phityp := pt.2, amporder := ao.2,
                          phiorder := po.2, record := record }).bind fun v => valComplex h v cn.1

theorem late_tail (u : Undef R) (c : Bool) (v : OiVis R) :
    Late (readRefmap u v >>= fun v => read_oi_vis_complex u v c) :=
  Late.bind (still_refmap u v) fun _ => Late.of (still_complex u _ _)

theorem sem_visOpt (hb : h.type = .binary) (u : Undef R) (v : OiVis R)
    (hc : v.revision ≠ 1 → Correlated h → hasColumn "CORRINDX_VISAMP" h = true ∧ hasColumn "CORRINDX_VISPHI" h = true) :
    Sem True h (read_oi_vis_opt u v) (valVisOpt h v) := by
  unfold read_oi_vis_opt valVisOpt
  apply Sem.guard
  refine Sem.ite (fun _ => Sem.pure _) fun hrev => ?_
  have hl : ∀ c (f : List (OiVisRecord R) → OiVis R), Late (readVisCorr u c v.record >>= fun record =>
      readRefmap u (f record) >>= fun v => read_oi_vis_complex u v c) := fun c f =>
    Late.bind (still_visCorr u c _) fun _ => late_tail u c _
  refine Sem.late (sem_opt_str _ _) (fun cn hcn => ?_) fun cn => ?_
  · obtain ⟨c, corrname⟩ := cn
    refine Sem.late (sem_opt_str _ _) (fun at' _ => ?_) fun at' => ?_
    · refine Sem.late (sem_opt_str _ _) (fun pt _ => ?_) fun pt => ?_
      · refine Sem.late (sem_opt_int _ _) (fun ao _ => ?_) fun ao => ?_
        · refine Sem.late (sem_opt_int _ _) (fun po _ => ?_) fun po => ?_
          · refine Sem.late (sem_visCorr hb u (fun e => hc hrev (optCorr_of hcn e)) _) (fun record _ => ?_) fun record => ?_
            · exact Sem.late (sem_refmap hb u _) (fun v _ => sem_complex hb u v c) fun v => Late.of (still_complex u v c)
            · exact late_tail u c _
          · exact hl c _
        · exact Late.bind (Still.of (inert_opt_int _ _)) fun _ => hl c _
      · exact Late.bind (Still.of (inert_opt_int _ _)) fun _ => Late.bind (Still.of (inert_opt_int _ _)) fun _ => hl c _
    · exact Late.bind (Still.of (inert_opt_str _ _)) fun _ => Late.bind (Still.of (inert_opt_int _ _)) fun _ =>
        Late.bind (Still.of (inert_opt_int _ _)) fun _ => hl c _
  · exact Late.bind (Still.of (inert_opt_str _ _)) fun _ => Late.bind (Still.of (inert_opt_str _ _)) fun _ =>
      Late.bind (Still.of (inert_opt_int _ _)) fun _ => Late.bind (Still.of (inert_opt_int _ _)) fun _ => hl cn.1 _

/-- What has been read of a record: `c` if the indices into the correlation matrix have
been, `m` if VISREFMAP has been, `x` if the complex visibilities have been. -/
structure VisSoFar (h : Hdu R) (nwave : Nat) (c m x : Bool) (i : Nat) (r : OiVisRecord R) : Prop where
  base : VisRecordIn h nwave i r
  corr : c = true → Ints h "CORRINDX_VISAMP" i 1 [r.corrindx_visamp] ∧ Ints h "CORRINDX_VISPHI" i 1 [r.corrindx_visphi]
  map : m = true → ∃ xs, r.visrefmap = some xs ∧ Logs h "VISREFMAP" i (nwave * nwave) xs
  nomap : m = false → r.visrefmap = none
  complex : x = true → (∃ xs, r.rvis = some xs ∧ Dbls h "RVIS" i nwave xs) ∧
    (∃ xs, r.rviserr = some xs ∧ Dbls h "RVISERR" i nwave xs) ∧ (∃ xs, r.ivis = some xs ∧ Dbls h "IVIS" i nwave xs) ∧
    (∃ xs, r.iviserr = some xs ∧ Dbls h "IVISERR" i nwave xs) ∧
    (c = true → Ints h "CORRINDX_RVIS" i 1 [r.corrindx_rvis] ∧ Ints h "CORRINDX_IVIS" i 1 [r.corrindx_ivis])
  nocomplex : x = false → r.rvis = none ∧ r.rviserr = none ∧ r.ivis = none ∧ r.iviserr = none

theorem visSoFar_start {nwave i : Nat} {r : OiVisRecord R} (hr : VisRecordIn h nwave i r ∧ NoExtras false false r) :
    VisSoFar h nwave false false false i r :=
  ⟨hr.1, fun e => by (cases e), fun e => by (cases e), fun _ => hr.2.visrefmap rfl, fun e => by (cases e),
    fun _ => ⟨hr.2.rvis rfl, hr.2.rviserr rfl, hr.2.ivis rfl, hr.2.iviserr rfl⟩⟩

theorem rows_visCorr {nwave : Nat} {c : Bool} {l l' : List (OiVisRecord R)}
    (hr : Rows h l (VisSoFar h nwave false false false)) (e : valVisCorr h c l = some l') :
    Rows h l' (VisSoFar h nwave c false false) := by
  unfold valVisCorr at e
  split at e
  · rename_i hc
    subst hc
    refine rows_step hr e fun i r r' hp hw => ?_
    parts at hw
    obtain ⟨a, ha, b, hb, rfl⟩ := hw
    exact ⟨{ hp.base with }, fun _ => ⟨ha, hb⟩, fun e => by (cases e), hp.nomap, fun e => by (cases e), hp.nocomplex⟩
  · rename_i hc
    cases e
    have hc : c = false := by simpa using hc
    rw [hc]
    exact hr

theorem rows_refmap {nwave : Nat} {c : Bool} {v v' : OiVis R} (hn : v.nwave = nwave)
    (hr : Rows h v.record (VisSoFar h nwave c false false)) (e : valRefmap h v = some v') :
    Rows h v'.record (VisSoFar h nwave c (hasColumn "VISREFMAP" h) false) ∧
      ∃ l, v' = { v with usevisrefmap := hasColumn "VISREFMAP" h, record := l } := by
  subst hn
  unfold valRefmap at e
  split at e
  · rename_i hc
    parts at e
    obtain ⟨l, hl, rfl⟩ := e
    rw [hc]
    refine ⟨rows_step hr hl fun i r r' hp hw => ?_, _, rfl⟩
    parts at hw
    obtain ⟨-, xs, hx, rfl⟩ := hw
    exact ⟨{ hp.base with }, hp.corr, fun _ => ⟨xs, rfl, hx⟩, fun e => by (cases e), fun e => by (cases e), hp.nocomplex⟩
  · rename_i hc
    have hc : hasColumn "VISREFMAP" h = false := by simpa using hc
    cases e
    rw [hc]
    refine ⟨rows_map hr fun i r hp => ?_, _, rfl⟩
    exact ⟨{ hp.base with }, hp.corr, fun e => by (cases e), fun _ => rfl, fun e => by (cases e), hp.nocomplex⟩

theorem rows_complex {nwave : Nat} {c m : Bool} {v v' : OiVis R} (hn : v.nwave = nwave)
    (hr : Rows h v.record (VisSoFar h nwave c m false)) (e : valComplex h v c = some v') :
    Rows h v'.record (VisSoFar h nwave c m (hasColumn "RVIS" h)) ∧
      ∃ l un, v' = { v with usecomplex := hasColumn "RVIS" h, record := l, complexunit := un } ∧
        (hasColumn "RVIS" h = true → ColUnit h "RVIS" un) := by
  subst hn
  unfold valComplex at e
  split at e
  · rename_i hc
    parts at e
    obtain ⟨un, ⟨k, hk, hun⟩, l, hl, rfl⟩ := e
    rw [hc]
    refine ⟨rows_step hr hl fun i r r' hp hw => ?_, _, _, rfl, fun _ => (colUnit_of hk).mp hun⟩
    unfold valComplexRow at hw
    parts at hw
    obtain ⟨-, x1, h1, x2, h2, x3, h3, x4, h4, hw⟩ := hw
    unfold valComplexCorr at hw
    split at hw
    · rename_i hcc
      parts at hw
      obtain ⟨a, ha, b, hb, rfl⟩ := hw
      exact ⟨{ hp.base with }, hp.corr, hp.map, hp.nomap,
        fun _ => ⟨⟨_, rfl, h1⟩, ⟨_, rfl, h2⟩, ⟨_, rfl, h3⟩, ⟨_, rfl, h4⟩, fun _ => ⟨ha, hb⟩⟩, fun e => by (cases e)⟩
    · rename_i hcc
      cases hw
      exact ⟨{ hp.base with }, hp.corr, hp.map, hp.nomap,
        fun _ => ⟨⟨_, rfl, h1⟩, ⟨_, rfl, h2⟩, ⟨_, rfl, h3⟩, ⟨_, rfl, h4⟩, fun e => absurd e hcc⟩, fun e => by (cases e)⟩
  · rename_i hc
    have hc : hasColumn "RVIS" h = false := by simpa using hc
    cases e
    rw [hc]
    refine ⟨rows_map hr fun i r hp => ?_, _, _, rfl, fun e => by cases e⟩
    exact ⟨{ hp.base with }, hp.corr, hp.map, hp.nomap, fun e => by (cases e), fun _ => ⟨rfl, rfl, rfl, rfl⟩⟩

theorem optUnit_of {name v : CStr} {k : Nat} {b : Bool} (hk : h.colnum name = .ok k)
    (e : valOpt (unitOf h k) [] = some (b, v)) : OptColUnit h name v := by
  rcases valOpt_some.mp e with ⟨-, e1⟩ | ⟨-, e1, e2⟩
  · exact .inl ((colUnit_of hk).mp e1)
  · obtain ⟨c, hc⟩ := colnum_col hk
    refine .inr ⟨k, c, hk, hc, ?_, e2⟩
    unfold unitOf at e1
    rw [hc] at e1
    cases hu : c.unit with
    | none => rfl
    | some x => simp only [hu] at e1; cases e1

theorem of_optUnit {name v : CStr} {k : Nat} (hk : h.colnum name = .ok k) (ho : OptColUnit h name v) :
    ∃ b, valOpt (unitOf h k) [] = some (b, v) := by
  rcases ho with e | ⟨k', c, hk', hc, hu, hv⟩
  · exact ⟨true, valOpt_some.mpr (.inl ⟨rfl, (colUnit_of hk).mpr e⟩)⟩
  · rw [hk] at hk'
    cases hk'
    refine ⟨false, valOpt_some.mpr (.inr ⟨rfl, ?_, hv⟩)⟩
    unfold unitOf
    rw [hc]
    simp only [hu]

theorem valVisOpt_exists {v t : OiVis R} (ht : VisIn h t) (hrev : v.revision = t.revision) (hn : v.nwave = t.nwave)
    (hr : Rows h v.record (VisSoFar h t.nwave false false false)) : ∃ v', valVisOpt h v = some v' := by
  unfold valVisOpt
  by_cases h1 : v.revision = OI_REVN_V1_VIS
  · rw [if_pos h1]; exact ⟨_, rfl⟩
  rw [if_neg h1]
  have h1' : t.revision ≠ 1 := by rw [← hrev]; exact h1
  obtain ⟨b1, e1⟩ := of_optInt (ht.amporder h1')
  obtain ⟨b2, e2⟩ := of_optInt (ht.phiorder h1')
  have hx := ht.extras h1'
  rw [of_optText (ht.corrname h1'), of_optText (ht.amptyp h1'), of_optText (ht.phityp h1'), e1, e2]
  simp only [Option.bind_some]
  obtain ⟨l1, hl1⟩ : ∃ l, valVisCorr h (hasKeyword "CORRNAME" h) v.record = some l := by
    unfold valVisCorr
    split
    · rename_i hc
      refine rows_step_exists hr fun i hi r => ?_
      obtain ⟨r0, hr0⟩ := rows_at hx hi
      rw [valOne_some.mpr (hr0.corrindx_amp hc), valOne_some.mpr (hr0.corrindx_phi hc)]
      exact ⟨_, rfl⟩
    · exact ⟨_, rfl⟩
  rw [hl1]
  simp only [Option.bind_some]
  have hr1 := rows_visCorr hr hl1
  obtain ⟨v2, hv2⟩ : ∃ v', valRefmap h { v with
      corrname := t.corrname, amptyp := t.amptyp, phityp := t.phityp, amporder := t.amporder,
      phiorder := t.phiorder, record := l1 } = some v' := by
    unfold valRefmap
    split
    · rename_i hc
      obtain ⟨l2, hl2⟩ := rows_step_exists (w := fun i r => if v.nwave * v.nwave = 0 then none else
        (valArr h Cell.toLog "VISREFMAP" i (v.nwave * v.nwave)).bind fun m =>
          some { r with visrefmap := some m }) hr1 fun i hi r => by
        obtain ⟨r0, hr0⟩ := rows_at hx hi
        obtain ⟨xs, -, hxs⟩ := hr0.visrefmap (by rw [ht.usevisrefmap h1']; exact hc)
        rw [if_neg (by rw [hn]; exact Nat.mul_ne_zero ht.waves ht.waves), hn, valArr_some.mpr hxs]
        exact ⟨_, rfl⟩
      refine ⟨{ v with corrname := t.corrname, amptyp := t.amptyp, phityp := t.phityp, amporder := t.amporder,
                       phiorder := t.phiorder, usevisrefmap := true, record := l2 }, ?_⟩
      dsimp only
      rw [hl2]
      rfl
    · exact ⟨_, rfl⟩
  rw [hv2]
  simp only [Option.bind_some]
  obtain ⟨hr2, l2, rfl⟩ := rows_refmap (by exact hn) hr1 hv2
  unfold valComplex
  split
  · rename_i hc
    have huc : t.usecomplex = true := by rw [ht.usecomplex h1']; exact hc
    have hun := ht.complexunit h1' huc
    obtain ⟨k, _, hk, -⟩ := hun
    obtain ⟨l3, hl3⟩ := rows_step_exists (w := valComplexRow h v.nwave (hasKeyword "CORRNAME" h)) hr2 fun i hi r => by
      obtain ⟨r0, hr0⟩ := rows_at hx hi
      obtain ⟨x1, -, e1⟩ := hr0.rvis huc
      obtain ⟨x2, -, e2⟩ := hr0.rviserr huc
      obtain ⟨x3, -, e3⟩ := hr0.ivis huc
      obtain ⟨x4, -, e4⟩ := hr0.iviserr huc
      unfold valComplexRow
      rw [if_neg (by rw [hn]; exact ht.waves), hn, valArr_some.mpr e1, valArr_some.mpr e2, valArr_some.mpr e3,
        valArr_some.mpr e4]
      simp only [Option.bind_some]
      unfold valComplexCorr
      split
      · rename_i hcc
        rw [valOne_some.mpr (hr0.corrindx_rvis huc hcc), valOne_some.mpr (hr0.corrindx_ivis huc hcc)]
        exact ⟨_, rfl⟩
      · exact ⟨_, rfl⟩
    dsimp only at hl3 ⊢
    rw [hl3, toOption_ok hk]
    simp only [Option.bind_some]
    rw [toOption_ok ((colUnit_of hk).mpr (ht.complexunit h1' huc))]
    exact ⟨_, rfl⟩
  · exact ⟨_, rfl⟩

theorem tells_vis (hb : h.type = .binary) (hcorr : ¬ IntKey h "OI_REVN" 1 → Correlated h →
      hasColumn "CORRINDX_VISAMP" h = true ∧ hasColumn "CORRINDX_VISPHI" h = true) (u : Undef R) (old : OiVis R) :
    Tells True h (do
      let revision ← fits_read_key_int "OI_REVN" old.revision
      guardStatus { old with revision := revision } do
        let date_obs ← fits_read_key_str "DATE-OBS" old.date_obs
        let (_, arrname) ← read_key_opt_string "ARRNAME" old.arrname
        let insname ← fits_read_key_str "INSNAME" old.insname
        let nrows ← fits_get_num_rows 0
        let colnum ← fits_get_colnum "VISAMP" 0
        let (_, nwave) ← fits_get_coltype colnum (.A, 0)
        guardStatus { old with
            revision := revision, date_obs := date_obs, arrname := arrname, insname := insname } do
          FitsM.lift (allocRecords nrows nwave)
          let (_, ampunit) ← readKeyOpt (readColUnit colnum old.ampunit) old.ampunit []
          let record ← forRows 1 nrows (readVisRecord u nwave)
          read_oi_vis_opt u { old with
            revision := revision, date_obs := date_obs, arrname := arrname, insname := insname
            usevisrefmap := false, usecomplex := false
            ampunit := ampunit, nwave := nwave, record := record }) (VisIn h) := by
  obtain ⟨w, hw, hw1, hw2⟩ := rows_val (fun nwave i => tells_visRecord hb u nwave i)
    (fun _ _ => Still.of (by unfold readVisRecord; inert))
  have hio : ∀ v, Inert (read_oi_vis_opt u v) := fun v => by unfold read_oi_vis_opt; exact Inert.guard _ _
  have hir : ∀ nwave i, Inert (readVisRecord u nwave i) := fun nwave i => by unfold readVisRecord; inert
  apply Tells.mk
  · apply Sem.bindv (sem_key_int _ _)
    · intro rev hrev
      have hcorr' : rev ≠ 1 → Correlated h →
          hasColumn "CORRINDX_VISAMP" h = true ∧ hasColumn "CORRINDX_VISPHI" h = true := fun h1 h2 =>
        hcorr (fun e => h1 (by
          have e' := toOption_eq_some.mp hrev
          unfold IntKey at e
          rw [e'] at e
          exact Except.ok.inj e)) h2
      apply Sem.guard
      sem!
      · exact hw _ _
      · intro _; exact sem_visOpt hb u _ hcorr'
      · intro _; exact Still.of (hio _)
      · intro _ _; exact Still.of (Inert.bind (Inert.forRows (fun i => hir _ _) _ _) fun _ => hio _)
      all_goals sem!
    · intro _; exact Still.guard _ _
  · intro a ha
    parts at ha
    obtain ⟨rev, h1, date, h2, arr, h3, ins, h4, _, rfl, k, hk, p, hp, hn, am, h5, rec', h6, h7⟩ := ha
    have hrows := hw1 _ _ (fun e => hn (.inl e)) h6
    have hr0 : Rows h rec' (VisSoFar h p.2 false false false) := hrows.imp fun _ _ => visSoFar_start
    have hbase : ∀ {c m x : Bool} {l : List (OiVisRecord R)}, Rows h l (VisSoFar h p.2 c m x) →
        Rows h l (VisRecordIn h p.2) := fun hl => hl.imp fun _ _ => VisSoFar.base
    unfold valVisOpt at h7
    dsimp only at h7
    by_cases hv1 : rev = OI_REVN_V1_VIS
    · rw [if_pos hv1] at h7
      cases h7
      have hv1' : rev = 1 := hv1
      refine ⟨h1, h2, (optText_of h3).1, h4, optUnit_of hk h5, repeat_some hk hp, fun e => hn (.inr e), hbase hr0,
        fun e => absurd hv1' e, fun e => absurd hv1' e, fun e => absurd hv1' e, fun e => absurd hv1' e,
        fun e => absurd hv1' e, fun e => absurd hv1' e, fun e => absurd hv1' e, fun e => absurd hv1' e,
        fun e => absurd hv1' e, fun r hr => ?_, fun _ => ⟨rfl, rfl, rfl, rfl, rfl, rfl, rfl⟩⟩
      obtain ⟨i, hi, e⟩ := List.getElem_of_mem hr
      exact (hrows.row i r (by rw [← e]; exact List.getElem?_eq_getElem hi)).2
    · rw [if_neg hv1] at h7
      parts at h7
      obtain ⟨cn, hcn, at', hat, pt, hpt, ao, hao, po, hpo, l1, hl1, v2, hv2, h7⟩ := h7
      have hr1 := rows_visCorr hr0 hl1
      obtain ⟨hr2, l2, rfl⟩ := rows_refmap (by rfl) hr1 hv2
      obtain ⟨hr3, l3, un, rfl, hun⟩ := rows_complex (by rfl) hr2 h7
      have hcc : Correlated h → cn.1 = true := fun e => by rw [(optText_of hcn).2]; exact e
      refine ⟨h1, h2, (optText_of h3).1, h4, optUnit_of hk h5, repeat_some hk hp, fun e => hn (.inr e), hbase hr3,
        fun _ => (optText_of hcn).1, fun _ => (optText_of hat).1, fun _ => (optText_of hpt).1, fun _ => optInt_of hao,
        fun _ => optInt_of hpo, fun _ => rfl, fun _ => rfl, fun _ => hun, fun _ => ?_, fun r hr => ?_,
        fun e => absurd e hv1⟩
      · refine hr3.imp fun i r hr => ?_
        exact ⟨fun e => (hr.corr (hcc e)).1, fun e => (hr.corr (hcc e)).2, hr.map, fun e => (hr.complex e).1,
          fun e => (hr.complex e).2.1, fun e => (hr.complex e).2.2.1, fun e => (hr.complex e).2.2.2.1,
          fun e e' => ((hr.complex e).2.2.2.2 (hcc e')).1, fun e e' => ((hr.complex e).2.2.2.2 (hcc e')).2⟩
      · obtain ⟨i, hi, e⟩ := List.getElem_of_mem hr
        have hs := hr3.row i r (by rw [← e]; exact List.getElem?_eq_getElem hi)
        exact ⟨hs.nomap, fun e => (hs.nocomplex e).1, fun e => (hs.nocomplex e).2.1, fun e => (hs.nocomplex e).2.2.1,
          fun e => (hs.nocomplex e).2.2.2⟩
  · intro a ha
    obtain ⟨k, c, hk, hc', e⟩ := ha.nwave
    obtain ⟨b, hu⟩ := of_optUnit (k := k) (by obtain ⟨k', _, hk', -⟩ := ha.nwave; exact hk) ha.ampunit
    have hfresh : ∃ l, Rows h l fun i r => VisRecordIn h a.nwave i r ∧ NoExtras false false r := by
      refine ⟨a.record.map fun r => { r with visrefmap := none, rvis := none, rviserr := none, ivis := none,
                                             iviserr := none }, rows_map ha.record fun i r hr => ⟨{ hr with }, ?_⟩⟩
      exact ⟨fun _ => rfl, fun _ => rfl, fun _ => rfl, fun _ => rfl, fun _ => rfl⟩
    obtain ⟨l, hl⟩ := hfresh
    obtain ⟨ys, hys⟩ := hw2 a.nwave _ hl
    have hys' := (hw1 _ _ ha.record.nonempty hys).imp fun _ _ => visSoFar_start
    rw [toOption_ok ha.revision, toOption_ok ha.date_obs, of_optText ha.arrname, toOption_ok ha.insname, toOption_ok hk]
    simp only [Option.bind_some, hc', Option.map_some, e]
    rw [if_neg (by have := ha.waves; have := ha.record.nonempty; simp_all)]
    simp only [hu, hys, Option.bind_some]
    exact valVisOpt_exists ha rfl rfl hys'

end Verif
