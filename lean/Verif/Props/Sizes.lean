import Verif.Proof.SizesFilter
import Verif.Props.Machine
import Verif.Props.WriteFile
import Verif.Props.File

/-!
# C115: the sizes of reference maps are computed without overflow

The square of the number of channels is computed in `int` or `long`. The number of bits is a parameter.
-/

set_option Elab.async false

namespace Verif
open Outcome Spec

variable {R : FP} {bits : Nat}

/-- C115: a file whose OI_VIS tables have few channels is read without overflow. -/
theorem C115_read_partial (u : Undef R) {hdus : List (Hdu R)} (h : FewChannels bits hdus) (st : Status) :
    read_oi_fitsSized bits u (some hdus) st = read_oi_fits u (some hdus) st := by
  have e := eqOn_body u ⟨hdus, 0, .ok⟩ h
  unfold read_oi_fitsSized read_oi_fits
  simp only [e]

theorem holds_square {n : Nat} (h : n ≤ 46340) : Holds 32 (n * n) := by
  have : n * n ≤ 46340 * 46340 := Nat.mul_le_mul h h
  unfold Holds
  have e : (2 : Int) ^ (32 - 1) = 2147483648 := by decide
  rw [e]
  omega

theorem not_holds_square {n : Nat} (h : 46341 ≤ n) : ¬ Holds 32 (n * n) := by
  have : 46341 * 46341 ≤ n * n := Nat.mul_le_mul h h
  unfold Holds
  have e : (2 : Int) ^ (32 - 1) = 2147483648 := by decide
  rw [e]
  omega

/-- C115: with integers of 32 bits, up to 46340 channels are few. -/
theorem C115_read_int_partial (u : Undef R) {hdus : List (Hdu R)}
    (h : ∀ x ∈ hdus, ∀ c ∈ x.cols, upper c.name = ("VISAMP" : CStr) → c.rep ≤ 46340) (st : Status) :
    read_oi_fitsSized 32 u (some hdus) st = read_oi_fits u (some hdus) st :=
  C115_read_partial u (fun x hx c hc hn => holds_square (h x hx c hc hn)) st

/-- C115: any other file is read as it would be in unbounded integers, or the program overflows. -/
theorem C115_read_same (u : Undef R) (file : Option (List (Hdu R))) (st : Status) :
    read_oi_fitsSized bits u file st = read_oi_fits u file st ∨ read_oi_fitsSized bits u file st = .ub := by
  unfold read_oi_fitsSized read_oi_fits
  split
  · exact .inl rfl
  · cases file with
    | none => exact .inl rfl
    | some hdus =>
      rcases orUb_body (bits := bits) u ⟨hdus, 0, .ok⟩ with h | h
      · exact .inl (by simp only [h])
      · exact .inr (by simp only [h]; rfl)

/-- C115: it does if one of the tables, with a record, has a reference map which is too large. -/
theorem C115_read_overflow {u : Undef R} {hdus : List (Hdu R)} {oi : OiFits R} {st : Status}
    (h : read_oi_fits u (some hdus) .ok = .ok (some oi, st))
    (hl : ∃ t ∈ oi.visList, TooLarge bits t ∧ t.record ≠ []) : read_oi_fitsSized bits u (some hdus) .ok = .ub := by
  have e : read_oi_fits u (some hdus) .ok = (readBody u ⟨hdus, 0, .ok⟩ >>= fun x => .ok (x.1, x.2.status)) := rfl
  rw [e, Outcome.bind_eq_ok] at h
  obtain ⟨⟨o, s⟩, h1, h2⟩ := h
  cases h2
  have h3 := over_body (bits := bits) u _ _ _ h1 ⟨oi, rfl, hl⟩
  have e' : read_oi_fitsSized bits u (some hdus) .ok =
    (readBodySized bits u ⟨hdus, 0, .ok⟩ >>= fun x => .ok (x.1, x.2.status)) := rfl
  rw [e', h3]
  rfl

/-- C115: so what has been read can be copied and filtered without overflow. -/
theorem C115_after_reading {u : Undef R} {hdus : List (Hdu R)} {oi : OiFits R} {st : Status}
    (h : read_oi_fitsSized bits u (some hdus) .ok = .ok (some oi, st)) (t : OiVis R) (ht : t ∈ oi.visList)
    (hr : t.record ≠ []) :
    dup_oi_visM bits t = dup_oi_vis t ∧
    (∀ f w useWave, filter_oi_visM bits t f w useWave = filter_oi_vis t f w useWave) ∧
    ∀ v, write_oi_visM bits t v = write_oi_vis t v := by
  have hs : ¬ TooLarge bits t := by
    intro hc
    rcases C115_read_same (bits := bits) u (some hdus) .ok with h1 | h1
    · have := C115_read_overflow (h1 ▸ h) ⟨t, ht, hc, hr⟩
      rw [h] at this
      cases this
    · rw [h] at h1
      cases h1
  exact ⟨dup_small hs, fun f w b => filter_small hs f w b, fun v => write_small hs v⟩

/-- C115: a table can be copied without overflow just if its reference map is not too large. -/
theorem C115_dup {t t' : OiVis R} (h : dup_oi_vis t = .ok t') :
    (¬ TooLarge bits t → dup_oi_visM bits t = .ok t') ∧ (TooLarge bits t → dup_oi_visM bits t = .ub) :=
  ⟨fun hs => (dup_small hs).trans h, fun hl => dup_large hl h⟩

/-- C115: filtering such a table does not overflow. -/
theorem C115_filter_partial {t : OiVis R} (h : ¬ TooLarge bits t) (f : FilterSpec R) (w : Option (OiWavelength R))
    (useWave : List Bool) : filter_oi_visM bits t f w useWave = filter_oi_vis t f w useWave :=
  filter_small h f w useWave

/-- C115: filtering overflows if a record is left and the reference map is still too large. -/
theorem C115_filter_overflow {t t' : OiVis R} {f : FilterSpec R} {w : Option (OiWavelength R)} {useWave : List Bool}
    (h : filter_oi_vis t f w useWave = .ok t') (hl : TooLarge bits t') (hr : t'.record ≠ []) :
    filter_oi_visM bits t f w useWave = .ub := filter_large h hl hr

-- A map of two by two elements is filtered with integers of four bits but not of three.
example : filter_oi_visM 4 Ex.vis (init_oi_filter _) (some Ex.wave) [true, true] =
    filter_oi_vis Ex.vis (init_oi_filter _) (some Ex.wave) [true, true] :=
  C115_filter_partial (fun h => h.2 (by unfold Holds; decide)) _ _ _
example : ((filter_oi_vis Ex.vis (init_oi_filter _) (some Ex.wave) [true, true]).bind fun t =>
      .ok (t.usevisrefmap, t.nwave, t.record.length)) = .ok (true, 2, 2) ∧
    filter_oi_visM 3 Ex.vis (init_oi_filter _) (some Ex.wave) [true, true] = .ub := by decide +kernel

theorem lift_abort_bind {α β : Type} (f : α → FitsM R β) : (FitsM.lift .abort >>= f) = fun _ => .abort := rfl

/-- C115: writing never overflows with integers of 32 bits: a table with 10000 channels or more is refused before
the size of its reference map is computed. -/
theorem C115_write (t : OiVis R) (extver : Int) : write_oi_visM 32 t extver = write_oi_vis t extver := by
  by_cases hn : t.nwave < 10000
  · exact write_small (fun h => h.2 (holds_square (by omega))) extver
  · have hm : make_tform ["I", "D", "D", "D", "?D", "?D", "?D", "?D", "1D", "1D", "2I", "?L"] (t.nwave : Int) = .abort :=
      C55_too_many (by omega) ⟨"D", by decide⟩
    unfold write_oi_visM write_oi_vis
    rw [hm, lift_abort_bind, lift_abort_bind]

/-- C115: with any number of bits, a table which can be written in unbounded integers overflows just if its reference
map is too large. -/
theorem C115_write_bits {t : OiVis R} {extver : Int} {s s' : FState R} (hs : s.status = .ok)
    (h : write_oi_vis t extver s = .ok ((), s')) :
    (¬ TooLarge bits t → write_oi_visM bits t extver s = .ok ((), s')) ∧
    (TooLarge bits t → write_oi_visM bits t extver s = .ub) :=
  ⟨fun hl => by rw [write_small hl, h], fun hl => write_large hl hs h⟩

/-! ### Examples -/

/-- A record with `n` channels. -/
def Ex.wideRec (n : Nat) : OiVisRecord FP.ratFP :=
  { Ex.visRec 1 (List.replicate n false) with
    visamp := List.replicate n (some 0), visamperr := List.replicate n (some 0), visphi := List.replicate n (some 0),
    visphierr := List.replicate n (some 0), visrefmap := some (List.replicate (n * n) false),
    rvis := none, rviserr := none, ivis := none, iviserr := none }

/-- An OI_VIS table with a reference map of `n` by `n` elements. -/
def Ex.wideVis (n : Nat) : OiVis FP.ratFP :=
  { Ex.vis with nwave := n, usecomplex := false, record := [Ex.wideRec n] }

theorem Ex.wideVis_wf {n : Nat} (h : n ≠ 0) : (Ex.wideVis n).WF where
  rows := List.cons_ne_nil _ _
  chans := h
  recs := by
    intro r hr
    have hr : r = Ex.wideRec n := List.mem_singleton.mp hr
    subst hr
    exact ⟨List.length_replicate, List.length_replicate, List.length_replicate, List.length_replicate,
      List.length_replicate, trivial, trivial, trivial, trivial, List.length_replicate⟩

theorem Ex.wideVis_tooLarge {n : Nat} (h : 46341 ≤ n) : TooLarge 32 (Ex.wideVis n) := ⟨rfl, not_holds_square h⟩

theorem Ex.wideVis_small {n : Nat} (h : n ≤ 46340) : ¬ TooLarge 32 (Ex.wideVis n) := fun hl => hl.2 (holds_square h)

/-- A file with such a table. -/
def Ex.wideFile (n : Nat) : List (Hdu FP.ratFP) := fileOf "2016-01-01" { Ex.oi with visList := [Ex.wideVis n] }

theorem Ex.wideFile_read {n : Nat} (h : n ≠ 0) : ∃ oi, read_oi_fits Ex.undef (some (Ex.wideFile n)) .ok = .ok (some oi, .ok) ∧
    oi.visList = [(Ex.wideVis n).asRead Ex.undef.int] := by
  have hr : ({ Ex.oi with visList := [Ex.wideVis n] } : OiFits FP.ratFP).Readable :=
    { Ex.oi_storable.readable with
      vis := fun t ht => by
        have ht : t = Ex.wideVis n := List.mem_singleton.mp ht
        rw [ht]
        exact Ex.wideVis_wf h }
  have hb := readBody_readable "2016-01-01" hr Ex.undef
  have e : read_oi_fits Ex.undef (some (Ex.wideFile n)) .ok =
    (readBody Ex.undef ⟨Ex.wideFile n, 0, .ok⟩ >>= fun x => .ok (x.1, x.2.status)) := rfl
  refine ⟨_, by rw [e, Ex.wideFile, hb]; rfl, ?_⟩
  exact (congrArg OiFits.visList (assemble_spec _ _ _ _ _ _ _ _ _ _).1).symm

/-- C115 fails for a file with an OI_VIS table of 46341 channels or more, if integers have 32 bits: it can be read in
unbounded integers, but the program overflows. -/
theorem C115_read_counterexample (n : Nat) (h : 46341 ≤ n) :
    (∃ oi, read_oi_fits Ex.undef (some (Ex.wideFile n)) .ok = .ok (some oi, .ok)) ∧
    read_oi_fitsSized 32 Ex.undef (some (Ex.wideFile n)) .ok = .ub := by
  obtain ⟨oi, h1, h2⟩ := Ex.wideFile_read (n := n) (by omega)
  refine ⟨⟨oi, h1⟩, C115_read_overflow h1 ⟨(Ex.wideVis n).asRead Ex.undef.int, by rw [h2]; exact List.mem_singleton.mpr rfl, ?_,
    List.cons_ne_nil _ _⟩⟩
  exact ⟨rfl, not_holds_square h⟩

/-- C115 fails for copying such a table. -/
theorem C115_dup_counterexample (n : Nat) (h : 46341 ≤ n) :
    dup_oi_vis (Ex.wideVis n) = .ok (Ex.wideVis n) ∧ dup_oi_visM 32 (Ex.wideVis n) = .ub := by
  have h1 := C22_dup_oi_vis_real_partial (Ex.wideVis n) (Ex.wideVis_wf (by omega)) rfl
  exact ⟨h1, (C115_dup h1).2 (Ex.wideVis_tooLarge h)⟩

-- With 46340 channels the table is copied.
example : dup_oi_visM 32 (Ex.wideVis 46340) = .ok (Ex.wideVis 46340) :=
  (C115_dup (C22_dup_oi_vis_real_partial _ (Ex.wideVis_wf (by decide)) rfl)).1 (Ex.wideVis_small (by decide))

end Verif
