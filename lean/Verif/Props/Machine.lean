import Verif.Proof.Machine
import Verif.Props.Held
import Verif.Props.Merge

/-!
# C111: dates are computed without overflow

`long` may have any number of bits from 32.
-/

set_option Elab.async false

namespace Verif
open Outcome Spec

variable {R : FP} {bits : Nat}

/-- C111: the MJD of a date is computed without overflow, for any month and day up to a million. -/
theorem C111_date2mjd (hb : 32 ≤ bits) (y m d : Int) (hm : -1000000 ≤ m ∧ m ≤ 1000000)
    (hd : -1000000 ≤ d ∧ d ≤ 1000000) : date2mjdM bits y m d = date2mjd y m d :=
  date2mjdM_eq hb hm hd

example : date2mjdM 32 2012 2 29 = .ok 55986 := by decide +kernel
-- A month which does not fit.
example : date2mjdM 32 2012 10000000 29 = .ub := by decide +kernel

/-- C111: the date of an MJD is computed without overflow just if the first product fits. -/
theorem C111_mjd2date (hb : 32 ≤ bits) (mjd : Int) :
    (DayFits bits mjd → mjd2dateM bits mjd = .ok (mjd2date mjd)) ∧
    (¬ DayFits bits mjd → mjd2dateM bits mjd = .ub) :=
  ⟨mjd2dateM_ok hb, mjd2dateM_ub⟩

/-- C111: that is so for days within a million years of 1858, if `long` has 32 bits ... -/
theorem C111_days (hb : 32 ≤ bits) {mjd : Int} (h1 : -500000000 ≤ mjd) (h2 : mjd ≤ 500000000) :
    mjd2dateM bits mjd = .ok (mjd2date mjd) :=
  mjd2dateM_ok hb (dayFits_of hb h1 h2)

/-- C111: ... and if it has 64 bits for all MJDs up to 2300000000000000000, but not for all `long`. -/
theorem C111_days_long (mjd : Int) :
    (-2300000000000000000 ≤ mjd → mjd ≤ 2300000000000000000 → mjd2dateM 64 mjd = .ok (mjd2date mjd)) ∧
    (2310000000000000000 ≤ mjd ∨ mjd ≤ -2310000000000000000 → mjd2dateM 64 mjd = .ub) := by
  have e : (2 : Int) ^ (64 - 1) = 9223372036854775808 := by decide
  refine ⟨fun h1 h2 => mjd2dateM_ok (by omega) ?_, fun h => mjd2dateM_ub fun h' => ?_⟩
  · unfold DayFits Holds
    rw [e]
    omega
  · unfold DayFits Holds at h'
    rw [e] at h'
    omega

example : mjd2dateM 32 55986 = .ok ⟨2012, 2, 29⟩ := by decide +kernel
example : mjd2dateM 32 600000000 = .ub := by decide +kernel

/-- C111: merging never overflows, whatever the texts of DATE-OBS are. -/
theorem C111_merge (hb : 32 ≤ bits) (ins : List (OiFits R)) :
    merge_oi_fits_listM bits ins = merge_oi_fits_list ins := by
  unfold merge_oi_fits_listM merge_oi_fits_list
  simp only [merge_oi_headerM_eq hb]

example : (fun o => o.header.date_obs) <$> merge_oi_fits_listM 32 Ex.both = .ok "2012-02-29" := by decide +kernel

/-- C111: making up a header does not overflow just if the date of the earliest MJD can be computed. -/
theorem C111_set_oi_header (hb : 32 ≤ bits) {oi oi' : OiFits R} (h : set_oi_header oi = .ok oi') :
    (DayFits bits (R.floor (get_min_mjd oi)) → set_oi_headerM bits oi = .ok oi') ∧
    (¬ DayFits bits (R.floor (get_min_mjd oi)) → set_oi_headerM bits oi = .ub) :=
  ⟨fun hf => (set_oi_headerM_eq hb hf).trans h, set_oi_headerM_ub h⟩

theorem read_with (u : Undef R) (hdus : List (Hdu R)) :
    (∃ oi s, read_oi_fits u (some hdus) .ok = (finishHeader oi >>= fun oi => .ok (some oi, s)) ∧
      ∀ bits, read_oi_fitsM bits u (some hdus) .ok = (finishHeaderM bits oi >>= fun oi => .ok (some oi, s))) ∨
    ((∀ bits, read_oi_fitsM bits u (some hdus) .ok = read_oi_fits u (some hdus) .ok) ∧
      ∀ oi s, read_oi_fits u (some hdus) .ok ≠ .ok (some oi, s)) := by
  have e1 : read_oi_fits u (some hdus) .ok = (readBodyWith finishHeader u ⟨hdus, 0, .ok⟩ >>= fun x => .ok (x.1, x.2.status)) := rfl
  have e2 : ∀ bits, read_oi_fitsM bits u (some hdus) .ok =
      (readBodyWith (finishHeaderM bits) u ⟨hdus, 0, .ok⟩ >>= fun x => .ok (x.1, x.2.status)) := fun _ => rfl
  rcases readBodyWith_cases u hdus with ⟨oi, s, h⟩ | h
  · left
    refine ⟨oi, s.status, ?_, fun bits => ?_⟩
    · rw [e1, h]
      cases finishHeader oi <;> rfl
    · rw [e2, h]
      cases finishHeaderM bits oi <;> rfl
  · right
    refine ⟨fun bits => ?_, fun oi s h1 => ?_⟩
    · rw [e1, e2, (h (finishHeaderM bits) finishHeader).1]
    · rw [e1, Outcome.bind_eq_ok] at h1
      obtain ⟨⟨o, s'⟩, h2, h3⟩ := h1
      cases h3
      exact (h finishHeader finishHeader).2 _ _ h2

/-- C111: a file in version 2 of the format, or whose earliest MJD is one whose date can be computed, is read
without overflow. -/
theorem C111_read_partial (hb : 32 ≤ bits) {u : Undef R} {hdus : List (Hdu R)} {oi : OiFits R} {st : Status}
    (h : read_oi_fits u (some hdus) .ok = .ok (some oi, st))
    (hf : oi.header.content = "OIFITS2" ∨ DayFits bits (R.floor (get_min_mjd oi))) :
    read_oi_fitsM bits u (some hdus) .ok = .ok (some oi, st) := by
  rcases read_with u hdus with ⟨oi0, s, h1, h2⟩ | ⟨h1, -⟩
  · rw [h2, ← h, h1]
    rw [h1, Outcome.bind_eq_ok] at h
    obtain ⟨o, h3, h4⟩ := h
    cases h4
    congr 1
    unfold finishHeader at h3
    unfold finishHeader finishHeaderM
    split at h3
    · rename_i hv
      obtain ⟨m1, m2⟩ := set_oi_header_min h3
      rw [if_pos hv, if_pos hv]
      refine set_oi_headerM_eq hb ?_
      rw [m1, m2] at hf
      refine hf.resolve_left fun hc => ?_
      simp [is_oi_fits_two, hc] at hv
    · rename_i hv
      rw [if_neg hv, if_neg hv]
  · rw [h1, h]

/-- C111: any other file which can be read in unbounded integers makes the program overflow. -/
theorem C111_read_overflow {u : Undef R} {hdus : List (Hdu R)} {oi : OiFits R} {st : Status}
    (h : read_oi_fits u (some hdus) .ok = .ok (some oi, st))
    (hc : oi.header.content ≠ "OIFITS2") (hf : ¬ DayFits bits (R.floor (get_min_mjd oi))) :
    read_oi_fitsM bits u (some hdus) .ok = .ub := by
  rcases read_with u hdus with ⟨oi0, s, h1, h2⟩ | ⟨-, h1⟩
  · rw [h2]
    rw [h1, Outcome.bind_eq_ok] at h
    obtain ⟨o, h3, h4⟩ := h
    cases h4
    unfold finishHeader at h3
    unfold finishHeaderM
    split at h3
    · rename_i hv
      obtain ⟨m1, m2⟩ := set_oi_header_min h3
      rw [m1] at hf
      rw [if_pos hv, set_oi_headerM_ub h3 hf]
      rfl
    · rename_i hv
      cases h3
      simp [is_oi_fits_two] at hv
      exact absurd hv hc
  · exact absurd h (h1 _ _)

/-- C111: errors are the same. -/
theorem C111_read_error {u : Undef R} {hdus : List (Hdu R)} {st : Status}
    (h : read_oi_fits u (some hdus) .ok = .ok (none, st)) :
    read_oi_fitsM bits u (some hdus) .ok = .ok (none, st) := by
  rcases read_with u hdus with ⟨oi0, s, h1, -⟩ | ⟨h1, -⟩
  · rw [h1, Outcome.bind_eq_ok] at h
    obtain ⟨o, -, h4⟩ := h
    cases h4
  · rw [h1, h]

-- A file of version 1 is read without overflow ...
example : read_oi_fitsM 32 Ex.undef (some Ex.oneFile) .ok = .ok (some Ex.oneRead, .ok) := by
  refine C111_read_partial (by decide) Ex.oneFile_read (Or.inr (dayFits_of (by decide) ?_ ?_)) <;> decide +kernel

/-- A file of version 1, with an absurd MJD. -/
def Ex.oneOld : List (Hdu FP.ratFP) :=
  [⟨.image, [("ORIGIN", .str "ESO")], [], 0⟩, hduTarget Ex.targets, hduArray Ex.array 1, hduWavelength Ex.wave 1,
   hduVis2 { Ex.vis2 with record := Ex.vis2.record.map fun r => { r with mjd := some (-3000000000000000000) } } 1]

def Ex.oneOldRead : OiFits FP.ratFP :=
  match read_oi_fits Ex.undef (some Ex.oneOld) .ok with
  | .ok (some oi, .ok) => oi
  | _ => Ex.oic

theorem Ex.oneOld_isRead : Ex.isRead (read_oi_fits Ex.undef (some Ex.oneOld) .ok) = true := by decide +kernel

theorem Ex.oneOld_read : read_oi_fits Ex.undef (some Ex.oneOld) .ok = .ok (some Ex.oneOldRead, .ok) := by
  have h := Ex.oneOld_isRead
  unfold Ex.oneOldRead
  match read_oi_fits Ex.undef (some Ex.oneOld) .ok, h with
  | .ok (some oi, .ok), _ => rfl

theorem Ex.oneOld_facts : Ex.oneOldRead.header.content ≠ "OIFITS2" ∧
    FP.ratFP.floor (get_min_mjd Ex.oneOldRead) = -3000000000000000000 := by decide +kernel

/-- C111 fails for a file with an absurd MJD, even if `long` has 64 bits. -/
theorem C111_read_counterexample : ∃ (u : Undef FP.ratFP) (hdus : List (Hdu FP.ratFP)) (oi : OiFits FP.ratFP),
    read_oi_fits u (some hdus) .ok = .ok (some oi, .ok) ∧ read_oi_fitsM 64 u (some hdus) .ok = .ub := by
  refine ⟨Ex.undef, Ex.oneOld, Ex.oneOldRead, Ex.oneOld_read, ?_⟩
  refine C111_read_overflow Ex.oneOld_read Ex.oneOld_facts.1 ?_
  rw [Ex.oneOld_facts.2]
  unfold DayFits Holds
  decide

end Verif
