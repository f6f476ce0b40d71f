import Verif.Proof.FitsWriteFile
import Verif.Proof.FitsReadFile
import Verif.Proof.FitsTame
import Verif.Proof.FitsExact
import Verif.Spec.ExampleFits

/-! Properties of writing and reading back, C49 to C52, C55 and C62. What a table is after
it has been written and read back is in `Spec/RoundTrip.lean`, when that is the same
table in `Spec/Exact.lean`, and what a file contains in `Spec/Fits.lean`. -/

namespace Verif
open Outcome Spec

variable {R : FP}

/-! ### C49: a single table -/

/-- The new table is the next one. -/
theorem next_new {pre : List (Hdu R)} {h : Hdu R} {name : CStr} (hp : pre ≠ []) (hn : h.isNamed name = true) :
    next_named_hdu name { endState pre h with cur := (endState pre h).hdus.length - 2 }
      = .ok ((), endState pre h) := by
  have hl : 0 < pre.length := List.length_pos_iff.mpr hp
  have hok : h.NameOk := by
    intro st hst
    unfold Hdu.isNamed at hn
    rw [hst] at hn
    split at hn
    · rename_i h1; cases h1
    · cases hn
  refine (guardStatus_ok rfl _ _).trans ?_
  have e1 : (endState pre h).hdus.length - 2 = pre.length - 1 := by simp [endState]
  have e2 : (pre ++ [h]).drop (pre.length - 1 + 1) = [h] := by
    rw [show pre.length - 1 + 1 = pre.length by omega]; simp
  simp only [e1]
  rw [show (endState pre h).hdus = pre ++ [h] from rfl, e2, nextLoop_cons hok, hn, if_pos rfl]
  simp only [endState]
  rw [show pre.length - 1 + 1 = pre.length by omega]

theorem primed_ne (l : List (Hdu R)) : primed l ≠ [] := by cases l <;> simp [primed]

theorem restores_of {α : Type} {write : FitsM R Unit} {read : FitsM R α} {x : α} {s : FState R} {h : Hdu R}
    {name : CStr} (hw : write s = .ok ((), endState (primed s.hdus) h)) (hn : h.isNamed name = true)
    (hr : ∀ s1 s2, s1.status = .ok → next_named_hdu name s1 = .ok ((), s2) → At s2 h → read s1 = .ok (x, s2)) :
    Restores write read x s := by
  refine ⟨_, hw, rfl, ?_, ?_, hr _ _ rfl (next_new (primed_ne _) hn) ⟨rfl, by simp [endState]⟩⟩
  · cases hs : s.hdus with
    | nil => exact List.nil_prefix
    | cons a l => exact ⟨[h], rfl⟩
  · cases hs : s.hdus with
    | nil => rfl
    | cons a l => simp [endState, primed]

/-- C49 for OI_ARRAY. -/
theorem C49_array {t : OiArray R} (h : t.Storable) (v : Int) {s : FState R} (hs : s.status = .ok) (u : Undef R)
    (old : OiArray R) : Restores (write_oi_array t v) (read_next_oi_array u old) t.asRead s :=
  restores_of (name := "OI_ARRAY") (write_oi_array_eq t h v s hs) rfl
    fun _ _ h1 h2 h3 => read_next_oi_array_eq h1 h2 h3 h.wf.rows u old

/-- C49 for OI_ARRAY: nothing changes if the file can hold the contents exactly. -/
theorem C49_array_exact {t : OiArray R} (h : t.Storable) (v : Int) {s : FState R} (hs : s.status = .ok) (u : Undef R)
    (old : OiArray R) (he : t.Exact) : Restores (write_oi_array t v) (read_next_oi_array u old) t s := by
  have := C49_array h v hs u old
  rwa [he.eq] at this

example (old : OiArray FP.ratFP) : Restores (write_oi_array Ex.array 3)
    (read_next_oi_array ⟨0, none, none, "x", true, 'x'⟩ old) Ex.array ⟨[], 0, .ok⟩ :=
  C49_array_exact Ex.array_storable 3 rfl _ old Ex.array_exact

/-- C49 for OI_WAVELENGTH. -/
theorem C49_wavelength {t : OiWavelength R} (h : t.WF) (v : Int) {s : FState R} (hs : s.status = .ok) (u : Undef R)
    (old : OiWavelength R) : Restores (write_oi_wavelength t v) (read_next_oi_wavelength u old) t.asRead s :=
  restores_of (name := "OI_WAVELENGTH") (write_oi_wavelength_eq t h v s hs) rfl
    fun _ _ h1 h2 h3 => read_next_oi_wavelength_eq h1 h2 h3 h u old

/-- C49 for OI_WAVELENGTH: nothing changes if the file can hold the contents exactly. -/
theorem C49_wavelength_exact {t : OiWavelength R} (h : t.WF) (v : Int) {s : FState R} (hs : s.status = .ok) (u : Undef R)
    (old : OiWavelength R) (he : t.Exact) : Restores (write_oi_wavelength t v) (read_next_oi_wavelength u old) t s := by
  have := C49_wavelength h v hs u old
  rwa [he.eq] at this

example (old : OiWavelength FP.ratFP) : Restores (write_oi_wavelength Ex.wave 3)
    (read_next_oi_wavelength ⟨0, none, none, "x", true, 'x'⟩ old) Ex.wave ⟨[], 0, .ok⟩ :=
  C49_wavelength_exact Ex.wave_wf 3 rfl _ old Ex.wave_exact

/-- C49 for OI_CORR. -/
theorem C49_corr {t : OiCorr R} (h : t.WF) (v : Int) {s : FState R} (hs : s.status = .ok) (u : Undef R)
    (old : OiCorr R) : Restores (write_oi_corr t v) (read_next_oi_corr u old) t.asRead s :=
  restores_of (name := "OI_CORR") (write_oi_corr_eq t h v s hs) rfl
    fun _ _ h1 h2 h3 => read_next_oi_corr_eq h1 h2 h3 h u old

/-- C49 for OI_CORR: nothing changes if the file can hold the contents exactly. -/
theorem C49_corr_exact {t : OiCorr R} (h : t.WF) (v : Int) {s : FState R} (hs : s.status = .ok) (u : Undef R)
    (old : OiCorr R) (he : t.Exact) : Restores (write_oi_corr t v) (read_next_oi_corr u old) t s := by
  have := C49_corr h v hs u old
  rwa [he.eq] at this

example (old : OiCorr FP.ratFP) : Restores (write_oi_corr Ex.corr 3)
    (read_next_oi_corr ⟨0, none, none, "x", true, 'x'⟩ old) Ex.corr ⟨[], 0, .ok⟩ :=
  C49_corr_exact Ex.corr_wf 3 rfl _ old Ex.corr_exact

/-- C49 for OI_VIS. -/
theorem C49_vis {t : OiVis R} (h : t.Storable) (v : Int) {s : FState R} (hs : s.status = .ok) (u : Undef R)
    (old : OiVis R) : Restores (write_oi_vis t v) (read_next_oi_vis u old) (t.asRead u.int) s :=
  restores_of (name := "OI_VIS") (write_oi_vis_eq t h v s hs) rfl
    fun _ _ h1 h2 h3 => read_next_oi_vis_eq h1 h2 h3 h.wf u old

/-- C49 for OI_VIS: nothing changes if the file can hold the contents exactly. -/
theorem C49_vis_exact {t : OiVis R} (h : t.Storable) (v : Int) {s : FState R} (hs : s.status = .ok) (u : Undef R)
    (old : OiVis R) (he : t.Exact u.int) : Restores (write_oi_vis t v) (read_next_oi_vis u old) t s := by
  have := C49_vis h v hs u old
  rwa [he.eq] at this

example (old : OiVis FP.ratFP) : Restores (write_oi_vis Ex.vis 3)
    (read_next_oi_vis ⟨0, none, none, "x", true, 'x'⟩ old) Ex.vis ⟨[], 0, .ok⟩ :=
  C49_vis_exact Ex.vis_storable 3 rfl _ old (Ex.vis_exact _)

/-- C49 for OI_VIS2. -/
theorem C49_vis2 {t : OiVis2 R} (h : t.Storable) (v : Int) {s : FState R} (hs : s.status = .ok) (u : Undef R)
    (old : OiVis2 R) : Restores (write_oi_vis2 t v) (read_next_oi_vis2 u old) (t.asRead u.int) s :=
  restores_of (name := "OI_VIS2") (write_oi_vis2_eq t h v s hs) rfl
    fun _ _ h1 h2 h3 => read_next_oi_vis2_eq h1 h2 h3 h.wf u old

/-- C49 for OI_VIS2: nothing changes if the file can hold the contents exactly. -/
theorem C49_vis2_exact {t : OiVis2 R} (h : t.Storable) (v : Int) {s : FState R} (hs : s.status = .ok) (u : Undef R)
    (old : OiVis2 R) (he : t.Exact u.int) : Restores (write_oi_vis2 t v) (read_next_oi_vis2 u old) t s := by
  have := C49_vis2 h v hs u old
  rwa [he.eq] at this

example (old : OiVis2 FP.ratFP) : Restores (write_oi_vis2 Ex.vis2 3)
    (read_next_oi_vis2 ⟨1, none, none, "x", true, 'x'⟩ old) Ex.vis2 ⟨[], 0, .ok⟩ :=
  C49_vis2_exact Ex.vis2_storable 3 rfl _ old Ex.vis2_exact

/-- C49 for OI_T3. -/
theorem C49_t3 {t : OiT3 R} (h : t.Storable) (v : Int) {s : FState R} (hs : s.status = .ok) (u : Undef R)
    (old : OiT3 R) : Restores (write_oi_t3 t v) (read_next_oi_t3 u old) (t.asRead u.int) s :=
  restores_of (name := "OI_T3") (write_oi_t3_eq t h v s hs) rfl
    fun _ _ h1 h2 h3 => read_next_oi_t3_eq h1 h2 h3 h.wf u old

/-- C49 for OI_T3: nothing changes if the file can hold the contents exactly. -/
theorem C49_t3_exact {t : OiT3 R} (h : t.Storable) (v : Int) {s : FState R} (hs : s.status = .ok) (u : Undef R)
    (old : OiT3 R) (he : t.Exact u.int) : Restores (write_oi_t3 t v) (read_next_oi_t3 u old) t s := by
  have := C49_t3 h v hs u old
  rwa [he.eq] at this

example (old : OiT3 FP.ratFP) : Restores (write_oi_t3 Ex.t3c 3)
    (read_next_oi_t3 ⟨0, none, none, "x", true, 'x'⟩ old) Ex.t3c ⟨[], 0, .ok⟩ :=
  C49_t3_exact Ex.t3c_storable 3 rfl _ old (Ex.t3_exact _)

/-- C49 for OI_FLUX. -/
theorem C49_flux {t : OiFlux R} (h : t.Storable) (v : Int) {s : FState R} (hs : s.status = .ok) (u : Undef R)
    (old : OiFlux R) : Restores (write_oi_flux t v) (read_next_oi_flux u old) (t.asRead u.int) s :=
  restores_of (name := "OI_FLUX") (write_oi_flux_eq t h v s hs) rfl
    fun _ _ h1 h2 h3 => read_next_oi_flux_eq h1 h2 h3 h.wf u old

/-- C49 for OI_FLUX: nothing changes if the file can hold the contents exactly. -/
theorem C49_flux_exact {t : OiFlux R} (h : t.Storable) (v : Int) {s : FState R} (hs : s.status = .ok) (u : Undef R)
    (old : OiFlux R) (he : t.Exact u.int) : Restores (write_oi_flux t v) (read_next_oi_flux u old) t s := by
  have := C49_flux h v hs u old
  rwa [he.eq] at this

example (old : OiFlux FP.ratFP) : Restores (write_oi_flux Ex.flux 3)
    (read_next_oi_flux ⟨(-1), none, none, "x", true, 'x'⟩ old) Ex.flux ⟨[], 0, .ok⟩ :=
  C49_flux_exact Ex.flux_storable 3 rfl _ old Ex.flux_exact

/-- C49 for OI_INSPOL, except that the Jones matrices do not come back (`jonesAsRead`). -/
theorem C49_inspol_partial {t : OiInspol R} (h : t.Storable) (v : Int) {s : FState R} (hs : s.status = .ok)
    (u : Undef R) (old : OiInspol R) : Restores (write_oi_inspol t v) (read_next_oi_inspol u old) t.asRead s :=
  restores_of (name := "OI_INSPOL") (write_oi_inspol_eq t h v s hs) rfl
    fun _ _ h1 h2 h3 => read_next_oi_inspol_eq h1 h2 h3 h.wf u old

/-- C49 is false of OI_INSPOL: two different tables give the same when read back, as the
Jones matrices are read as real numbers, of which there are twice as many. -/
theorem C49_inspol_counterexample : ∃ t1 t2 : OiInspol FP.ratFP, t1.Storable ∧ t2.Storable ∧
    t1.record.map (·.jxx) ≠ t2.record.map (·.jxx) ∧
    ∀ v u old, ∃ x, Restores (write_oi_inspol t1 v) (read_next_oi_inspol u old) x ⟨[], 0, .ok⟩ ∧
      Restores (write_oi_inspol t2 v) (read_next_oi_inspol u old) x ⟨[], 0, .ok⟩ := by
  let r (y : FP.ratFP.Flt) : OiInspolRecord FP.ratFP :=
    ⟨1, "INS1", Ex.num 56974, Ex.num 56975, [(Ex.numF 1, Ex.numF 0), (y, Ex.numF 0)],
      [(Ex.numF 1, Ex.numF 0), (y, Ex.numF 0)], [(Ex.numF 0, Ex.numF 0), (Ex.numF 0, Ex.numF 0)],
      [(Ex.numF 0, Ex.numF 0), (Ex.numF 0, Ex.numF 0)], 1⟩
  let t (y : FP.ratFP.Flt) : OiInspol FP.ratFP := { Ex.inspol with record := [r y] }
  have hst (y) : (t y).Storable := by
    refine ⟨⟨by simp [t], by change 2 ≠ 0; decide, fun x hx => ?_⟩, by change 2 < 10000; decide, fun x hx => ?_, fun x hx => ?_⟩ <;>
      rw [List.mem_singleton.mp hx]
    · exact ⟨rfl, rfl, rfl, rfl⟩
    · change Int16 1; decide
    · change Int16 1; decide
  refine ⟨t (Ex.numF 2), t (Ex.numF 3), hst _, hst _, by decide +kernel, fun v u old => ?_⟩
  refine ⟨_, C49_inspol_partial (hst _) v rfl u old, ?_⟩
  have : (t (Ex.numF 2)).asRead = (t (Ex.numF 3)).asRead := by decide +kernel
  rw [this]
  exact C49_inspol_partial (hst _) v rfl u old

/-- C49 for OI_TARGET, which is read from the first OI_TARGET table of the file. -/
theorem C49_target {t : OiTarget R} (h : t.Storable) {s : FState R} (hs : s.status = .ok)
    (hno : ∀ h ∈ s.hdus, StringName h ∧ isTable "OI_TARGET" h = false) (u : Undef R) (old : OiTarget R) (cur : Nat) :
    ∃ s', write_oi_target t s = .ok ((), s') ∧ s'.status = .ok ∧ s.hdus <+: s'.hdus ∧
      s'.hdus.length = max 1 s.hdus.length + 1 ∧
      read_oi_target u old { s' with cur := cur } = .ok (t.asRead u.str, s') := by
  have hmv : ∀ (l : List (Hdu R)) (i : Nat), (∀ h ∈ l, StringName h ∧ isTable "OI_TARGET" h = false) →
      movnamLoop "OI_TARGET" (l ++ [hduTarget t]) i = some (i + l.length) := by
    intro l
    induction l with
    | nil => intro i _; rfl
    | cons a l ih =>
      intro i hl
      obtain ⟨hsn, ha⟩ := hl a (by simp)
      have := ih (i + 1) fun h hh => hl h (by simp [hh])
      rw [List.cons_append, movnamLoop]
      have e : i + (a :: l).length = i + 1 + l.length := by simp; omega
      rw [e]
      split
      · rename_i hb
        unfold isTable at ha
        unfold Hdu.readStr
        rw [hb] at ha
        cases hk : a.keys.lookup ("EXTNAME" : CStr) with
        | none => exact this
        | some v =>
          obtain ⟨x, rfl⟩ := hsn v hk
          rw [hk] at ha
          have hx : x ≠ ("OI_TARGET" : CStr) := by simpa using ha
          simp only [if_neg hx]
          exact this
      · exact this
  have hno' : ∀ h ∈ primed s.hdus, StringName h ∧ isTable "OI_TARGET" h = false := by
    cases hd : s.hdus with
    | nil => intro h hh; rw [List.mem_singleton.mp hh]; exact ⟨fun v hv => (by cases hv), rfl⟩
    | cons a l => rw [hd] at hno; exact hno
  refine ⟨_, write_oi_target_eq t h s hs, rfl, ?_, ?_, ?_⟩
  · cases hs : s.hdus with
    | nil => exact List.nil_prefix
    | cons a l => exact ⟨[_], rfl⟩
  · cases hs : s.hdus with
    | nil => rfl
    | cons a l => simp [endState, primed]
  · refine read_oi_target_eq rfl (s' := endState (primed s.hdus) (hduTarget t)) ?_ ⟨rfl, by simp [endState]⟩ h.rows u old
    refine (guardStatus_ok rfl _ _).trans ?_
    have := hmv (primed s.hdus) 0 hno'
    simp only [endState, this]
    simp

/-- C49 for OI_TARGET: nothing changes if the file can hold the contents exactly. -/
theorem C49_target_exact {t : OiTarget R} (h : t.Storable) {s : FState R} (hs : s.status = .ok)
    (hno : ∀ h ∈ s.hdus, StringName h ∧ isTable "OI_TARGET" h = false) (u : Undef R) (old : OiTarget R) (cur : Nat)
    (he : t.Exact u.str) :
    ∃ s', write_oi_target t s = .ok ((), s') ∧ s'.status = .ok ∧
      read_oi_target u old { s' with cur := cur } = .ok (t, s') := by
  obtain ⟨s', h1, h2, -, -, h3⟩ := C49_target h hs hno u old cur
  rw [he.eq] at h3
  exact ⟨s', h1, h2, h3⟩

example (u : Undef FP.ratFP) (old : OiTarget FP.ratFP) (cur : Nat) :
    ∃ s', write_oi_target Ex.targets ⟨[], 0, .ok⟩ = .ok ((), s') ∧ s'.status = .ok ∧
      read_oi_target u old { s' with cur := cur } = .ok (Ex.targets, s') :=
  C49_target_exact Ex.targets_storable rfl (by simp) u old cur (Ex.targets_exact _)

/-- C49 for the header, written to an empty file. -/
theorem C49_header (today : CStr) (t old : OiHeader) (cur cur' : Nat) :
    ∃ s' : FState R, write_oi_header today t ⟨[], cur, .ok⟩ = .ok ((), s') ∧ s'.status = .ok ∧
      read_oi_header old { s' with cur := cur' } = .ok (t.asRead today, s') := by
  refine ⟨_, write_oi_header_eq today t cur, rfl, ?_⟩
  exact read_oi_header_eq (ty := .image) (today := today) rfl (by simp [fits_movabs_hdu, endState, hduPrimary])
    ⟨rfl, by simp [endState]⟩ old

/-- C49 for the header: nothing changes if the file can hold the contents exactly. -/
theorem C49_header_exact (today : CStr) (t old : OiHeader) (cur cur' : Nat) (he : t.Exact today) :
    ∃ s' : FState R, write_oi_header today t ⟨[], cur, .ok⟩ = .ok ((), s') ∧ s'.status = .ok ∧
      read_oi_header old { s' with cur := cur' } = .ok (t, s') := by
  have := C49_header (R := R) today t old cur cur'
  rwa [he.eq] at this

example : ∃ s' : FState FP.ratFP, write_oi_header "2016-01-01" Ex.header ⟨[], 0, .ok⟩ = .ok ((), s') ∧
    s'.status = .ok ∧ read_oi_header Ex.header { s' with cur := 5 } = .ok (Ex.header, s') :=
  C49_header_exact _ _ _ 0 5 Ex.header_exact

end Verif
