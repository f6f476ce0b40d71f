import Verif.Model.FilterSpec

/-! Model of `/repo/src/oifitslib/oiiter.c`. -/

namespace Verif
open Outcome

variable {R : FP}

/-- oiiter.c:39-66 `oi_vis_iter_accept_channel`, for record `r` and channel `j`. -/
def oi_vis_iter_accept_channel (f : FilterSpec R) (pWave : Option (OiWavelength R))
    (r : OiVisRecord R) (j : Nat) : Outcome Bool := do
  let w ← deref pWave
  let wave ← index w.eff_wave j
  if outsideF f.wave_range wave then return false else do
  let amp ← index r.visamp j
  let amperr ← index r.visamperr j
  if outsideF f.snr_range (R.toF (R.div amp amperr)) then return false else do
  let phierr ← index r.visphierr j
  if outsideF f.snr_range (R.toF (R.div RAD2DEG phierr)) then return false else do
  if outsideD f.uvrad_range (R.div (hypot2 r.ucoord r.vcoord) (R.toD wave)) then return false else do
  let flag ← index r.flag j
  return !(flag && !f.accept_flagged)

/-- oiiter.c:70-93 `oi_vis2_iter_accept_channel`. -/
def oi_vis2_iter_accept_channel (f : FilterSpec R) (pWave : Option (OiWavelength R))
    (r : OiVis2Record R) (j : Nat) : Outcome Bool := do
  let w ← deref pWave
  let wave ← index w.eff_wave j
  if outsideF f.wave_range wave then return false else do
  let x ← index r.vis2data j
  let err ← index r.vis2err j
  if outsideF f.snr_range (R.toF (R.div x err)) then return false else do
  if outsideD f.uvrad_range (R.div (hypot2 r.ucoord r.vcoord) (R.toD wave)) then return false else do
  let flag ← index r.flag j
  return !(flag && !f.accept_flagged)

/-- oiiter.c:106-112: `if (accept_t3amp)`, is the amplitude SNR out of range? -/
def t3ampSnrOutside (f : FilterSpec R) (r : OiT3Record R) (j : Nat) : Outcome Bool :=
  if f.accept_t3amp then do
    let amp ← index r.t3amp j
    let amperr ← index r.t3amperr j
    return outsideF f.snr_range (R.toF (R.div amp amperr))
  else return false

/-- oiiter.c:113-119: `if (accept_t3phi)`, is the phase SNR out of range? -/
def t3phiSnrOutside (f : FilterSpec R) (r : OiT3Record R) (j : Nat) : Outcome Bool :=
  if f.accept_t3phi then do
    let phierr ← index r.t3phierr j
    return outsideF f.snr_range (R.toF (R.div RAD2DEG phierr))
  else return false

/-- oiiter.c:96-138 `oi_t3_iter_accept_channel`. -/
def oi_t3_iter_accept_channel (f : FilterSpec R) (pWave : Option (OiWavelength R))
    (r : OiT3Record R) (j : Nat) : Outcome Bool := do
  let w ← deref pWave
  let wave ← index w.eff_wave j
  if outsideF f.wave_range wave then return false else do
  let badAmp ← t3ampSnrOutside f r j
  if badAmp then return false else do
  let badPhi ← t3phiSnrOutside f r j
  if badPhi then return false else do
  let abRad := R.div (hypot2 r.u1coord r.v1coord) (R.toD wave)
  let bcRad := R.div (hypot2 r.u2coord r.v2coord) (R.toD wave)
  let acRad := R.div (hypot2 (R.add r.u1coord r.u2coord) (R.add r.v1coord r.v2coord)) (R.toD wave)
  if outsideD f.uvrad_range abRad || outsideD f.uvrad_range bcRad || outsideD f.uvrad_range acRad
  then return false else do
  let flag ← index r.flag j
  return !(flag && !f.accept_flagged)

/-- oiiter.c:143-160 `oi_vis_iter_accept_record`. -/
def oi_vis_iter_accept_record (f : FilterSpec R) (r : OiVisRecord R) : Bool :=
  if f.target_id ≥ 0 ∧ r.target_id ≠ f.target_id then false
  else if outsideD f.mjd_range r.mjd then false
  else if outsideD f.bas_range (hypot2 r.ucoord r.vcoord) then false
  else true

/-- oiiter.c:165-182 `oi_vis2_iter_accept_record`. -/
def oi_vis2_iter_accept_record (f : FilterSpec R) (r : OiVis2Record R) : Bool :=
  if f.target_id ≥ 0 ∧ r.target_id ≠ f.target_id then false
  else if outsideD f.mjd_range r.mjd then false
  else if outsideD f.bas_range (hypot2 r.ucoord r.vcoord) then false
  else true

/-- oiiter.c:187-214 `oi_t3_iter_accept_record`. -/
def oi_t3_iter_accept_record (f : FilterSpec R) (r : OiT3Record R) : Bool :=
  if f.target_id ≥ 0 ∧ r.target_id ≠ f.target_id then false
  else if outsideD f.mjd_range r.mjd then false
  else if outsideD f.bas_range (hypot2 r.u1coord r.v1coord) then false
  else if outsideD f.bas_range (hypot2 r.u2coord r.v2coord) then false
  else if outsideD f.bas_range (hypot2 (R.add r.u1coord r.u2coord) (R.add r.v1coord r.v2coord))
  then false
  else true

/-- oiiter.c:39-570. What differs between the three copies of the iterator code for OI_VIS, OI_VIS2
and OI_T3: table type `τ` and record type `ρ`, the fields read, the list iterated
over, and the acceptance tests. -/
structure IterKind (R : FP) (τ ρ : Type) where
  tables : OiFits R → List τ
  nwave : τ → Nat
  record : τ → List ρ
  arrname : τ → CStr
  insname : τ → CStr
  corrname : τ → CStr
  /-- the `accept_...` switch tested on entry of `oi_..._iter_next` -/
  enabled : FilterSpec R → Bool
  acceptRecord : FilterSpec R → ρ → Bool
  acceptChannel : FilterSpec R → Option (OiWavelength R) → ρ → Nat → Outcome Bool

/-- oiiter.c:39-69, 143-164, 231-241, 272, 392: The `oi_vis_iter_*` functions. -/
def visKind : IterKind R (OiVis R) (OiVisRecord R) where
  tables oi := oi.visList
  nwave t := t.nwave
  record t := t.record
  arrname t := t.arrname
  insname t := t.insname
  corrname t := t.corrname
  enabled f := f.accept_vis
  acceptRecord := oi_vis_iter_accept_record
  acceptChannel := oi_vis_iter_accept_channel

/-- oiiter.c:70-95, 165-186, 242-252, 305, 454: The `oi_vis2_iter_*` functions. -/
def vis2Kind : IterKind R (OiVis2 R) (OiVis2Record R) where
  tables oi := oi.vis2List
  nwave t := t.nwave
  record t := t.record
  arrname t := t.arrname
  insname t := t.insname
  corrname t := t.corrname
  enabled f := f.accept_vis2
  acceptRecord := oi_vis2_iter_accept_record
  acceptChannel := oi_vis2_iter_accept_channel

/-- oiiter.c:96-142, 187-230, 253-271, 338, 516: The `oi_t3_iter_*` functions. -/
def t3Kind : IterKind R (OiT3 R) (OiT3Record R) where
  tables oi := oi.t3List
  nwave t := t.nwave
  record t := t.record
  arrname t := t.arrname
  insname t := t.insname
  corrname t := t.corrname
  enabled f := !(!f.accept_t3amp && !f.accept_t3phi)
  acceptRecord := oi_t3_iter_accept_record
  acceptChannel := oi_t3_iter_accept_channel

variable {τ ρ : Type}

/-- oiiter.c:231-259 `oi_..._iter_accept_table` with the macros at 216-226, for the
current table `t`. -/
def iter_accept_table (K : IterKind R τ ρ) (f : FilterSpec R) (t : τ) : Bool :=
  globMatch f.arrname (K.arrname t) && globMatch f.insname (K.insname t) &&
  globMatch f.corrname (K.corrname t)

/-- oiiter.h:50-61 `_oi_iter`. `link` is the rest of the table list, from the
current table on; NULL is `[]`. -/
structure Iter (R : FP) (τ : Type) where
  pData : OiFits R
  filter : FilterSpec R
  link : List τ
  pWave : Option (OiWavelength R)
  extver : Nat
  irec : Nat
  iwave : Int

/-- oiiter.c:272-362 `oi_..._iter_init`; a NULL filter is `none`. -/
def iter_init (K : IterKind R τ ρ) (oi : OiFits R) (f : Option (FilterSpec R)) : Iter R τ where
  pData := oi
  filter := match f with
    | some f => f
    | none => init_oi_filter R
  link := K.tables oi
  pWave := match K.tables oi with
    | t :: _ => oi_fits_lookup_wavelength oi (K.insname t)
    | [] => none
  extver := 1
  irec := 0
  iwave := -1

/-- oiiter.c:364-379, the disjunction of the macros `NEXT_CHANNEL`, `NEXT_RECORD`
and `NEXT_TABLE`; `none` stands for false. -/
def iterAdvance (K : IterKind R τ ρ) (it : Iter R τ) : Option (Iter R τ) :=
  match it.link with
  | [] => none
  | t :: ts =>
    if it.iwave < (K.nwave t : Int) - 1 then some { it with iwave := it.iwave + 1 }
    else if (it.irec : Int) < ((K.record t).length : Int) - 1 then
      some { it with irec := it.irec + 1, iwave := 0 }
    else match ts with
      | [] => none
      | t' :: ts' => some { it with
          link := t' :: ts'
          pWave := oi_fits_lookup_wavelength it.pData (K.insname t')
          extver := it.extver + 1
          irec := 0
          iwave := 0 }

/-- As in oiiter.c:574, 596, 623. Use of a channel number as array index: a negative one is out of bounds. (The
code's `iwave` is -1 before the first `oi_..._iter_next`.) -/
def chanIndex (iwave : Int) : Outcome Nat := if iwave < 0 then .ub else .ok iwave.toNat

/-- The condition of the loop at oiiter.c:416-423: is the current datum accepted? -/
def iterAccept (K : IterKind R τ ρ) (it : Iter R τ) : Outcome Bool := do
  let t ← deref it.link.head?
  if !iter_accept_table K it.filter t then return false else do
  let r ← index (K.record t) it.irec
  if !K.acceptRecord it.filter r then return false else do
  let j ← chanIndex it.iwave
  K.acceptChannel it.filter it.pWave r j

/-- An upper bound on how often `iterAdvance` can still succeed. -/
def iterLeft (K : IterKind R τ ρ) (it : Iter R τ) : Nat :=
  match it.link with
  | [] => 0
  | t :: ts => ((K.record t).length - 1 - it.irec) * (K.nwave t + 1) +
      ((K.nwave t : Int) - 1 - it.iwave).toNat +
      (ts.map fun t => (K.record t).length * (K.nwave t + 1) + K.nwave t + 1).sum

theorem iterLeft_advance {K : IterKind R τ ρ} {it it' : Iter R τ}
    (h : iterAdvance K it = some it') : iterLeft K it' < iterLeft K it := by
  unfold iterAdvance at h
  unfold iterLeft
  cases hl : it.link with
  | nil => simp [hl] at h
  | cons t ts =>
    simp only [hl] at h
    split at h
    · rename_i h1
      simp only [Option.some.injEq] at h
      subst h
      simp only [hl]
      omega
    · split at h
      · rename_i h1 h2
        simp only [Option.some.injEq] at h
        subst h
        simp only [hl]
        have : (K.record t).length - 1 - it.irec = ((K.record t).length - 1 - (it.irec + 1)) + 1 := by
          omega
        rw [this, Nat.add_mul]
        omega
      · cases ts with
        | nil => simp at h
        | cons t' ts' =>
          simp only [Option.some.injEq] at h
          subst h
          simp only [List.map_cons, List.sum_cons, Nat.sub_zero]
          have : ((K.record t').length - 1) * (K.nwave t' + 1) ≤
              (K.record t').length * (K.nwave t' + 1) :=
            Nat.mul_le_mul_right _ (Nat.sub_le _ _)
          omega

/-- The loop at oiiter.c:416-423 with its exits: the new iterator state, and
whether an accepted datum was found. -/
def iterLoop (K : IterKind R τ ρ) (it : Iter R τ) : Outcome (Iter R τ × Bool) :=
  match h : iterAdvance K it with
  | none => .ok (it, false)
  | some it' => do
    let ok ← iterAccept K it'
    if ok then .ok (it', true) else iterLoop K it'
termination_by iterLeft K it
decreasing_by exact iterLeft_advance h

/-- oiiter.c:392, 454, 516. What `oi_..._iter_next` returns through its pointer arguments. -/
structure Datum (τ ρ : Type) where
  extver : Nat
  table : τ
  irec : Nat
  record : ρ
  iwave : Nat
deriving DecidableEq

/-- oiiter.c:426-432: the current datum, returned through the pointer arguments
(all of which are given). -/
def iterCurrent (K : IterKind R τ ρ) (it : Iter R τ) : Outcome (Datum τ ρ) := do
  let t ← deref it.link.head?
  let r ← index (K.record t) it.irec
  let j ← chanIndex it.iwave
  return ⟨it.extver, t, it.irec, r, j⟩

/-- oiiter.c:392, 454, 516. The end of `oi_..._iter_next`: on success return the current datum. -/
def iterReturn (K : IterKind R τ ρ) (res : Iter R τ × Bool) :
    Outcome (Iter R τ × Option (Datum τ ρ)) :=
  if res.2 then do
    let d ← iterCurrent K res.1
    return (res.1, some d)
  else return (res.1, none)

/-- oiiter.c:392-446 `oi_vis_iter_next`, 454-508 `oi_vis2_iter_next`, 516-570
`oi_t3_iter_next`. FALSE is `none`. -/
def iter_next (K : IterKind R τ ρ) (it : Iter R τ) : Outcome (Iter R τ × Option (Datum τ ρ)) :=
  if !K.enabled it.filter then return (it, none)
  else do
    let res ← iterLoop K it
    iterReturn K res

/-- oiiter.c:574-586 `oi_vis_iter_get_uv`: effective wavelength and u, v. -/
def oi_vis_iter_get_uv (it : Iter R (OiVis R)) : Outcome (R.Dbl × R.Dbl × R.Dbl) := do
  let t ← deref it.link.head?
  let r ← index t.record it.irec
  let w ← deref it.pWave
  let j ← chanIndex it.iwave
  let x ← index w.eff_wave j
  let effWave := R.toD x
  return (effWave, R.div r.ucoord effWave, R.div r.vcoord effWave)

/-- oiiter.c:596-607 `oi_vis2_iter_get_uv`. -/
def oi_vis2_iter_get_uv (it : Iter R (OiVis2 R)) : Outcome (R.Dbl × R.Dbl × R.Dbl) := do
  let t ← deref it.link.head?
  let r ← index t.record it.irec
  let w ← deref it.pWave
  let j ← chanIndex it.iwave
  let x ← index w.eff_wave j
  let effWave := R.toD x
  return (effWave, R.div r.ucoord effWave, R.div r.vcoord effWave)

/-- oiiter.c:623-637 `oi_t3_iter_get_uv`. -/
def oi_t3_iter_get_uv (it : Iter R (OiT3 R)) :
    Outcome (R.Dbl × R.Dbl × R.Dbl × R.Dbl × R.Dbl) := do
  let t ← deref it.link.head?
  let r ← index t.record it.irec
  let w ← deref it.pWave
  let j ← chanIndex it.iwave
  let x ← index w.eff_wave j
  let effWave := R.toD x
  return (effWave, R.div r.u1coord effWave, R.div r.v1coord effWave,
    R.div r.u2coord effWave, R.div r.v2coord effWave)

end Verif
