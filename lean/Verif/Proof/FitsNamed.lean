import Verif.Proof.FitsFail
import Verif.Proof.FitsWF

/-! Where a search for a table ends, and what tables which have been read have. -/

namespace Verif
open Outcome

variable {R : FP} {α β : Type} {h : Hdu R}

theorem isTable_of_readStr {name : CStr} (hs : Spec.StringName h) (hb : h.type = .binary)
    (he : h.readStr "EXTNAME" = .ok name) : Spec.isTable name h = true := by
  rw [← isNamed_eq_isTable hs]
  unfold Hdu.isNamed
  rw [he, hb]; simp

/-- Where the search of `next_named_hdu` succeeds. -/
theorem nextLoop_named {name : CStr} (l : List (Hdu R)) (hn : ∀ h ∈ l, Spec.StringName h) (i j : Nat)
    (hl : nextLoop name l i = (j, .ok)) :
    ∃ h k, l[k]? = some h ∧ j = i + k + 1 ∧ Spec.isTable name h = true := by
  induction l generalizing i with
  | nil => rw [nextLoop] at hl; cases hl
  | cons h l ih =>
    have hrec (hl : nextLoop name l (i + 1) = (j, .ok)) :
        ∃ h' k, (h :: l)[k]? = some h' ∧ j = i + k + 1 ∧ Spec.isTable name h' = true := by
      obtain ⟨h', k, h1, h2, h3⟩ := ih (fun h hh => hn h (List.mem_cons_of_mem _ hh)) _ hl
      exact ⟨h', k + 1, by simpa using h1, by omega, h3⟩
    have hs := hn h List.mem_cons_self
    rw [nextLoop_cons (nameOk_of_string hs), isNamed_eq_isTable hs] at hl
    split at hl
    · injection hl with hl _
      exact ⟨h, 0, rfl, by omega, by assumption⟩
    · exact hrec hl

theorem binary_of_isTable {name : CStr} (ht : Spec.isTable name h = true) : h.type = .binary := by
  unfold Spec.isTable at ht
  split at ht
  · assumption
  · cases ht

/-- A table which has been read has the columns and keywords. -/
theorem ReadsStrict.has {name : CStr} {cols keys : List CStr} {old : α} {read : FitsM R α}
    (hr : ReadsStrict name cols keys old read) {s s' : FState R} {a : α} (hok : s.status = .ok)
    (hn : ∀ h ∈ s.hdus, Spec.StringName h) (hrd : read s = .ok (a, s')) (hok' : s'.status = .ok) :
    ∃ h, s.hdus[s'.cur]? = some h ∧ s.cur < s'.cur ∧ Spec.isTable name h = true ∧
      (∀ c ∈ cols, Spec.hasColumn c h = true) ∧ ∀ k ∈ keys, Spec.hasKeyword k h = true := by
  obtain ⟨body, h1, rfl⟩ := hr.shape
  have hm : next_named_hdu name s = .ok ((), { s with
      cur := (nextLoop name (s.hdus.drop (s.cur + 1)) s.cur).1
      status := (nextLoop name (s.hdus.drop (s.cur + 1)) s.cur).2 }) := guardStatus_ok hok _ _
  rw [guardStatus_ok hok, FitsM.bind_ok hm] at hrd
  cases hl : nextLoop name (s.hdus.drop (s.cur + 1)) s.cur with
  | mk j st =>
    rw [hl] at hrd
    by_cases hst : st = .ok
    · subst hst
      obtain ⟨h, k, h2, h3, h4⟩ := nextLoop_named _
        (fun h hh => hn h (List.mem_of_mem_drop hh)) _ _ hl
      rw [List.getElem?_drop] at h2
      have hj : s.hdus[j]? = some h := by rw [← h2]; congr 1; omega
      have hat : At (⟨s.hdus, j, .ok⟩ : FState R) h := ⟨rfl, hj⟩
      have hlo := h1 h (binary_of_isTable h4)
      have hbad (hf : Fails h body) : False := by
        rcases (hf.guard old).run _ hat with h5 | ⟨b, s2, h5, h6⟩
        · rw [h5] at hrd; cases hrd
        · rw [h5] at hrd
          obtain ⟨-, rfl⟩ := Prod.mk.inj (Outcome.ok.inj hrd)
          exact h6 hok'
      have hcur : s'.cur = j := by
        rcases (hlo.tame.guard old).run ⟨s.hdus, j, .ok⟩ with h5 | ⟨b, s2, h5, -, h6, -⟩
        · rw [h5] at hrd; cases hrd
        · rw [h5] at hrd
          obtain ⟨-, rfl⟩ := Prod.mk.inj (Outcome.ok.inj hrd)
          exact h6
      refine ⟨h, by rw [hcur]; exact hj, by omega, h4, fun c hc => ?_, fun k hk => ?_⟩
      · cases hx : Spec.hasColumn c h
        · exact (hbad (hlo.cols c hc hx)).elim
        · rfl
      · cases hx : Spec.hasKeyword k h
        · exact (hbad (hlo.keys k hk hx)).elim
        · rfl
    · rw [guardStatus_err hst] at hrd
      obtain ⟨-, rfl⟩ := Prod.mk.inj (Outcome.ok.inj hrd)
      exact absurd hok' hst

/-! ### OI_TARGET -/

theorem movnamLoop_named {name : CStr} (l : List (Hdu R)) (hn : ∀ h ∈ l, Spec.StringName h) (i j : Nat)
    (hl : movnamLoop name l i = some j) :
    ∃ h k, l[k]? = some h ∧ j = i + k ∧ Spec.isTable name h = true := by
  induction l generalizing i with
  | nil => cases hl
  | cons h l ih =>
    have hrec (hl : movnamLoop name l (i + 1) = some j) :
        ∃ h' k, (h :: l)[k]? = some h' ∧ j = i + k ∧ Spec.isTable name h' = true := by
      obtain ⟨h', k, h1, h2, h3⟩ := ih (fun h hh => hn h (List.mem_cons_of_mem _ hh)) _ hl
      exact ⟨h', k + 1, by simpa using h1, by omega, h3⟩
    rw [movnamLoop] at hl
    by_cases ht : h.type = .binary
    · rw [if_pos ht] at hl
      split at hl
      · rename_i he
        split at hl
        · rename_i hc
          injection hl with hl
          exact ⟨h, 0, rfl, by omega, isTable_of_readStr (hn h List.mem_cons_self) ht (hc ▸ he)⟩
        · exact hrec hl
      · exact hrec hl
    · rw [if_neg ht] at hl
      exact hrec hl

theorem Fails.leftP {m : FitsM R α} {f : α → FitsM R β} {P : α → Prop} (hm : Fails h m) (ha : Always m P)
    (hi : ∀ a, P a → Inert (f a)) : Fails h (m >>= f) := by
  constructor
  intro s hs
  rcases hm.run s hs with h1 | ⟨a, s', h1, h2⟩
  · left; change FitsM.bind _ _ s = _; simp [FitsM.bind, h1]
  · right
    obtain ⟨b, hb⟩ := (hi a (ha.run s a s' h1)).run s' h2
    exact ⟨b, s', by rw [FitsM.bind_ok h1, hb], h2⟩

theorem inert_categories (r : Int) {l : List (Target R)} (h : l ≠ []) : Inert (readCategories r l) := by
  unfold readCategories readCategory
  cases l with
  | nil => exact absurd rfl h
  | cons t l => inert

theorem strict_readTarget (hb : h.type = .binary) (u : Undef R) (i : Nat) :
    Strict h (readTarget u i) (["TARGET_ID", "TARGET", "RAEP0", "DECEP0", "EQUINOX", "RA_ERR", "DEC_ERR",
      "SYSVEL", "VELTYP", "VELDEF", "PMRA", "PMDEC", "PMRA_ERR", "PMDEC_ERR", "PARALLAX", "PARA_ERR",
      "SPECTYP"] : List CStr) [] := by
  unfold readTarget
  repeat (first
    | with_reducible exact Strict.pure _
    | with_reducible refine Strict.bindC (strict_one hb _ _ _ _) fun _ => ?_
    | with_reducible refine Strict.bindC (strict_col_string hb _ _ _ _) fun _ => ?_
    | with_reducible refine Strict.bindC (strict_col_trunc hb _ _ _ _) fun _ => ?_
    | split)

/-- An OI_TARGET table which has been read has its columns and keywords. -/
theorem target_has (u : Undef R) (old : OiTarget R) {s s' : FState R} {a : OiTarget R} (hok : s.status = .ok)
    (hn : ∀ h ∈ s.hdus, Spec.StringName h) (hrd : read_oi_target u old s = .ok (a, s')) (hok' : s'.status = .ok) :
    ∃ h ∈ s.hdus, Spec.isTable "OI_TARGET" h = true ∧
      (∀ c ∈ (["TARGET_ID", "TARGET", "RAEP0", "DECEP0", "EQUINOX", "RA_ERR", "DEC_ERR",
      "SYSVEL", "VELTYP", "VELDEF", "PMRA", "PMDEC", "PMRA_ERR", "PMDEC_ERR", "PARALLAX", "PARA_ERR",
      "SPECTYP"] : List CStr), Spec.hasColumn c h = true) ∧
      ∀ k ∈ (["OI_REVN"] : List CStr), Spec.hasKeyword k h = true := by
  unfold read_oi_target at hrd
  rw [guardStatus_ok hok] at hrd
  cases hm : movnamLoop ("OI_TARGET" : CStr) s.hdus 0 with
  | none =>
    have hmv : fits_movnam_hdu ("OI_TARGET" : CStr) s = .ok ((), { s with status := .BAD_HDU_NUM }) :=
      (guardStatus_ok hok _ _).trans (by simp only [hm])
    rw [FitsM.bind_ok hmv] at hrd
    have hne : ({ s with status := .BAD_HDU_NUM } : FState R).status ≠ .ok := by simp
    obtain ⟨r, h1⟩ := (inert_key_int ("OI_REVN" : CStr) old.revision).run _ hne
    rw [FitsM.bind_ok h1, guardStatus_err hne] at hrd
    obtain ⟨-, rfl⟩ := Prod.mk.inj (Outcome.ok.inj hrd)
    exact absurd hok' hne
  | some i =>
    have hmv : fits_movnam_hdu ("OI_TARGET" : CStr) s = .ok ((), { s with cur := i }) :=
      (guardStatus_ok hok _ _).trans (by simp only [hm])
    rw [FitsM.bind_ok hmv] at hrd
    obtain ⟨h, k, h1, h2, h3⟩ := movnamLoop_named _ hn _ _ hm
    have hat : At ({ s with cur := i } : FState R) h := ⟨hok, by rw [h2]; simpa using h1⟩
    have hb := binary_of_isTable h3
    have hbad : ∀ {m : FitsM R (OiTarget R)}, Fails h m → m { s with cur := i } = .ok (a, s') → False := by
      intro m hf hm
      rcases hf.run _ hat with h5 | ⟨b, s2, h5, h6⟩
      · rw [h5] at hm; cases hm
      · rw [h5] at hm
        obtain ⟨-, rfl⟩ := Prod.mk.inj (Outcome.ok.inj hm)
        exact h6 hok'
    refine ⟨h, List.mem_of_getElem? h1, h3, fun c hc => ?_, fun k hk => ?_⟩
    · cases hx : Spec.hasColumn c h
      · refine (hbad ?_ hrd).elim
        refine Fails.right (tame_key_int _ _) (fun _ => Inert.guard _ _) fun r => Fails.guard _ ?_
        refine Fails.right (tame_num_rows _) (fun _ => Inert.guard _ _) fun n => Fails.guard _ ?_
        refine Fails.alloc fun hn0 => ?_
        refine Fails.leftP (P := fun l => l ≠ []) ?_ ?_ fun l hl => inert_categories _ hl
        · exact (Strict.forRows hn0 (fun i => strict_readTarget hb u i) 1).cols c hc hx
        · exact (Always.forRows (fun _ => Always.any _) 1 n).mono fun l hl => ne_nil_of_length hl.1 hn0
      · rfl
    · cases hx : Spec.hasKeyword k h
      · refine (hbad ?_ hrd).elim
        exact Fails.left ((strict_key_int _ _).keys k hk hx) fun _ => Inert.guard _ _
      · rfl

end Verif
