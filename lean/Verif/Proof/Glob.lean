import Verif.Spec.FilterSpec
import Verif.Model.FilterSpec

namespace Verif
open Spec
variable {R : FP}

theorem globMatch_iff (p s : CStr) : globMatch p s = true ↔ Glob p s := by
  induction p generalizing s with
  | nil =>
    constructor
    · intro h
      cases s with
      | nil => exact .nil
      | cons c s => simp [globMatch] at h
    · intro h; cases h; rfl
  | cons p ps ih =>
    unfold globMatch
    by_cases hp : p = '*'
    · subst hp
      simp only [beq_self_eq_true, if_true, List.any_eq_true, List.mem_range]
      constructor
      · rintro ⟨i, hi, h⟩
        have := Glob.star (s.take i) ((ih _).1 h)
        rwa [List.take_append_drop] at this
      · intro h
        cases h with
        | @star p s a h =>
          refine ⟨a.length, by simp; omega, ?_⟩
          rw [ih]
          simpa using h
        | char c h => exact absurd rfl h
    · have hb : (p == '*') = false := by simpa using hp
      simp only [hb, Bool.false_eq_true, if_false]
      cases s with
      | nil =>
        simp only [Bool.false_eq_true, false_iff]
        intro h
        generalize hs : ([] : CStr) = s' at h
        cases h with
        | star => exact hp rfl
        | any => cases hs
        | char => cases hs
      | cons c cs =>
        simp only [Bool.and_eq_true, Bool.or_eq_true, beq_iff_eq, ih]
        constructor
        · rintro ⟨h | h, hg⟩
          · subst h; exact .any c hg
          · subst h
            by_cases hq : p = '?'
            · subst hq; exact .any _ hg
            · exact .char p hp hq hg
        · intro h
          generalize hs : (c :: cs : CStr) = s' at h
          cases h with
          | star => exact absurd rfl hp
          | any c' h => cases hs; exact ⟨.inl rfl, h⟩
          | char c' _ _ h => cases hs; exact ⟨.inr rfl, h⟩

theorem outsideD_false (range : R.Dbl × R.Dbl) (x : R.Dbl) :
    outsideD range x = false ↔ InD range x := by
  simp [outsideD, InD]

theorem outsideF_false (range : R.Flt × R.Flt) (x : R.Flt) :
    outsideF range x = false ↔ InF range x := by
  simp [outsideF, InF]

end Verif
