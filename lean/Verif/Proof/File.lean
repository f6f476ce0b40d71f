import Verif.Proof.Loop
import Verif.Spec.WF
import Verif.Spec.File
import Mathlib.Tactic.Linarith
import Mathlib.Algebra.Order.Field.Rat

/-! Helper lemmas for `Verif.Props.File`. -/

namespace Verif
open Outcome Spec

variable {R : FP}

theorem find?_firstWith {α : Type} {p : α → Bool} {q : α → Prop} (hpq : ∀ x, p x = true ↔ q x)
    (l : List α) (x : α) : l.find? p = some x ↔ FirstWith q l x := by
  rw [List.find?_eq_some_iff_append]
  unfold FirstWith
  simp only [hpq]
  constructor
  · rintro ⟨h1, pre, post, h2, h3⟩
    refine ⟨pre, post, h2, h1, fun y hy hq => ?_⟩
    have := h3 y hy
    simp [(hpq y).mpr hq] at this
  · rintro ⟨pre, post, h2, h1, h3⟩
    refine ⟨h1, pre, post, h2, fun y hy => ?_⟩
    have := h3 y hy
    rw [← hpq] at this
    simpa using this

theorem find?_none_iff {α : Type} {p : α → Bool} {q : α → Prop} (hpq : ∀ x, p x = true ↔ q x)
    (l : List α) : l.find? p = none ↔ ∀ x ∈ l, ¬ q x := by
  rw [List.find?_eq_none]
  simp only [hpq]

theorem countUnflagged_eq {n : Nat} {flag : List Bool} (h : flag.length = n) (k : Nat) :
    countUnflagged n flag k = .ok (k + flag.count false) := by
  unfold countUnflagged
  rw [loopN_index (F := fun f num => if !f then return num + 1 else return num) h]
  have : ∀ l : List Bool, ∀ k, l.foldlM (m := Outcome)
      (fun num f => if !f then return num + 1 else return num) k = .ok (k + l.count false) := by
    intro l
    induction l with
    | nil => intro k; rfl
    | cons f l ih =>
      intro k
      cases f <;> simp only [List.foldlM_cons, Bool.not_false, Bool.not_true, if_true,
        Bool.false_eq_true, if_false, pure_eq, bind_ok] <;> rw [← pure_eq] at * <;>
        rw [show (List.foldlM (fun num f => if (!f) = true then Outcome.ok (num + 1) else
          Outcome.ok num) _ l : Outcome Nat) = _ from ih _] <;> simp <;> omega
  exact this flag k

theorem foldlM_count {α : Type} {f : Nat → α → Outcome Nat} {g : α → Nat} {l : List α}
    (h : ∀ x ∈ l, ∀ k, f k x = .ok (k + g x)) (k : Nat) :
    l.foldlM f k = .ok (k + (l.map g).sum) := by
  induction l generalizing k with
  | nil => rfl
  | cons x l ih =>
    rw [List.foldlM_cons, h x (by simp), bind_ok, ih (fun y hy => h y (by simp [hy]))]
    simp; omega

theorem minStep_mem (L : Lawful R) {lo : Rat} (xs : List R.Dbl) :
    ∀ (m : R.Dbl) (a : Rat), L.val m = some a → (∀ x ∈ xs, ∃ b, L.val x = some b ∧ lo ≤ b) →
    ∃ c, L.val (xs.foldl minStep m) = some c ∧ c ≤ a ∧
      (∀ x ∈ xs, ∀ b, L.val x = some b → c ≤ b) ∧
      (xs.foldl minStep m = m ∨ xs.foldl minStep m ∈ xs) := by
  induction xs with
  | nil => intro m a hm _; exact ⟨a, hm, le_refl _, by simp, Or.inl rfl⟩
  | cons x xs ih =>
    intro m a hm hx
    obtain ⟨b, hb, -⟩ := hx x (by simp)
    have hs : minStep m x = if R.lt x m then x else m := rfl
    rw [List.foldl_cons]
    by_cases h : R.lt x m = true
    · have hlt := (L.lt_iff x m b a hb hm).mp h
      rw [hs, if_pos h]
      obtain ⟨c, h1, h2, h3, h4⟩ := ih x b hb (fun y hy => hx y (by simp [hy]))
      refine ⟨c, h1, by linarith, ?_, ?_⟩
      · intro y hy b' hb'
        rcases List.mem_cons.mp hy with rfl | hy
        · rw [hb] at hb'; cases hb'; exact h2
        · exact h3 y hy b' hb'
      · rcases h4 with h4 | h4
        · right; rw [h4]; simp
        · right; simp [h4]
    · have hlt : ¬ b < a := fun hl => h ((L.lt_iff x m b a hb hm).mpr hl)
      rw [hs, if_neg h]
      obtain ⟨c, h1, h2, h3, h4⟩ := ih m a hm (fun y hy => hx y (by simp [hy]))
      refine ⟨c, h1, h2, ?_, ?_⟩
      · intro y hy b' hb'
        rcases List.mem_cons.mp hy with rfl | hy
        · rw [hb] at hb'; cases hb'; linarith
        · exact h3 y hy b' hb'
      · rcases h4 with h4 | h4
        · exact Or.inl h4
        · right; simp [h4]

theorem maxStep_mem (L : Lawful R) (xs : List R.Dbl) :
    ∀ (m : R.Dbl) (a : Rat), L.val m = some a → (∀ x ∈ xs, ∃ b, L.val x = some b) →
    ∃ c, L.val (xs.foldl maxStep m) = some c ∧ a ≤ c ∧
      (∀ x ∈ xs, ∀ b, L.val x = some b → b ≤ c) ∧
      (xs.foldl maxStep m = m ∨ xs.foldl maxStep m ∈ xs) := by
  induction xs with
  | nil => intro m a hm _; exact ⟨a, hm, le_refl _, by simp, Or.inl rfl⟩
  | cons x xs ih =>
    intro m a hm hx
    obtain ⟨b, hb⟩ := hx x (by simp)
    have hs : maxStep m x = if R.lt m x then x else m := rfl
    rw [List.foldl_cons]
    by_cases h : R.lt m x = true
    · have hlt := (L.lt_iff m x a b hm hb).mp h
      rw [hs, if_pos h]
      obtain ⟨c, h1, h2, h3, h4⟩ := ih x b hb (fun y hy => hx y (by simp [hy]))
      refine ⟨c, h1, by linarith, ?_, ?_⟩
      · intro y hy b' hb'
        rcases List.mem_cons.mp hy with rfl | hy
        · rw [hb] at hb'; cases hb'; exact h2
        · exact h3 y hy b' hb'
      · rcases h4 with h4 | h4
        · right; rw [h4]; simp
        · right; simp [h4]
    · have hlt : ¬ a < b := fun hl => h ((L.lt_iff m x a b hm hb).mpr hl)
      rw [hs, if_neg h]
      obtain ⟨c, h1, h2, h3, h4⟩ := ih m a hm (fun y hy => hx y (by simp [hy]))
      refine ⟨c, h1, h2, ?_, ?_⟩
      · intro y hy b' hb'
        rcases List.mem_cons.mp hy with rfl | hy
        · rw [hb] at hb'; cases hb'; linarith
        · exact h3 y hy b' hb'
      · rcases h4 with h4 | h4
        · exact Or.inl h4
        · right; simp [h4]

end Verif

namespace Verif
open Outcome Spec
variable {R : FP}

theorem foldl_tables_mjd {τ ρ : Type} (rec : τ → List ρ) (mjd : ρ → R.Dbl)
    (step : R.Dbl → R.Dbl → R.Dbl) (l : List τ) (m : R.Dbl) :
    l.foldl (fun m t => (rec t).foldl (fun m r => step m (mjd r)) m) m =
      (l.flatMap fun t => (rec t).map mjd).foldl step m := by
  induction l generalizing m with
  | nil => rfl
  | cons t l ih => simp [ih, List.foldl_append, List.foldl_map]

theorem get_min_mjd_eq (oi : OiFits R) :
    get_min_mjd oi = (mjds oi).foldl minStep (R.lit 100000) := by
  unfold get_min_mjd mjds
  simp only [foldl_tables_mjd, List.foldl_append]

theorem get_max_mjd_eq (oi : OiFits R) :
    get_max_mjd oi = (mjds oi).foldl maxStep (R.lit 0) := by
  unfold get_max_mjd mjds
  simp only [foldl_tables_mjd, List.foldl_append]

theorem fmtYear : ∀ y : Fin 200, fmtIntW 4 (1900 + (y : Nat)) =
    [digit ((1900 + (y : Nat) : Int) / 1000), digit ((1900 + (y : Nat) : Int) / 100),
     digit ((1900 + (y : Nat) : Int) / 10), digit (1900 + (y : Nat) : Int)] := by
  decide +kernel

theorem fmt2 : ∀ m : Fin 32, fmtInt0 2 (m : Nat) =
    [digit ((m : Nat) / 10 : Int), digit (m : Nat)] := by
  decide +kernel

theorem fmtDate_eq {d : Date} (hv : ValidDate d) (h1 : 1901 ≤ d.year) (h2 : d.year ≤ 2099) :
    fmtDate d = isoDate d := by
  obtain ⟨y, m, d⟩ := d
  obtain ⟨hm1, hm2, hd1, hd2⟩ := hv
  simp only at *
  have hd : d ≤ 31 := by
    refine Int.le_trans hd2 ?_
    unfold daysInMonth
    repeat' split
    all_goals omega
  unfold fmtDate isoDate
  have e1 := fmtYear ⟨(y - 1900).toNat, by omega⟩
  have e2 := fmt2 ⟨m.toNat, by omega⟩
  have e3 := fmt2 ⟨d.toNat, by omega⟩
  simp only [show ((m.toNat : Nat) : Int) = m by omega] at e2
  simp only [show ((d.toNat : Nat) : Int) = d by omega] at e3
  simp only [show (1900 + ((y - 1900).toNat : Nat) : Int) = y by omega] at e1
  simp [e1, e2, e3]

end Verif
