import Verif.Model.Filter
import Verif.Proof.Loop

/-! Lemmas about the loops of `Model/Filter`. -/

namespace Verif
open Outcome

variable {σ α : Type}

/-- The places below `n` where the mask is set. -/
def usedIdx (n : Nat) (u : List Bool) : List Nat :=
  (List.range n).filter fun j => u[j]? == some true

theorem usedIdx_succ (n : Nat) (u : List Bool) :
    usedIdx (n + 1) u = usedIdx n u ++ (if u[n]? = some true then [n] else []) := by
  unfold usedIdx
  rw [List.range_succ, List.filter_append]
  congr 1
  by_cases h : u[n]? = some true <;> simp [List.filter_cons, h]

theorem mem_usedIdx {n : Nat} {u : List Bool} {j : Nat} :
    j ∈ usedIdx n u ↔ j < n ∧ u[j]? = some true := by
  simp [usedIdx]

theorem usedIdx_prefix {m n : Nat} (u : List Bool) (h : m ≤ n) :
    ∃ post, usedIdx n u = usedIdx m u ++ post := by
  induction n with
  | zero => exact ⟨[], by simp [Nat.le_zero.mp h]⟩
  | succ n ih =>
    by_cases hm : m = n + 1
    · exact ⟨[], by simp [hm]⟩
    · obtain ⟨post, hp⟩ := ih (by omega)
      exact ⟨post ++ (if u[n]? = some true then [n] else []), by
        rw [usedIdx_succ, hp, List.append_assoc]⟩

theorem loopN_succ (n : Nat) (f : Nat → σ → Outcome σ) (s : σ) :
    loopN (n + 1) f s = loopN n f s >>= f n := by
  unfold loopN
  rw [List.range_succ, List.foldlM_append]
  congr 1
  funext s
  rw [List.foldlM_cons]
  show (f n s >>= fun s => Outcome.ok s) = f n s
  cases f n s <;> rfl

theorem useLoop_ok {n : Nat} {u : List Bool} (hu : n ≤ u.length) {body : Nat → σ → Outcome σ}
    (S : List Nat → σ)
    (h : ∀ pre j post, usedIdx n u = pre ++ j :: post → body j (S pre) = .ok (S (pre ++ [j]))) :
    useLoop n u body (S []) = .ok (S (usedIdx n u)) := by
  have key : ∀ m, m ≤ n → useLoop m u body (S []) = .ok (S (usedIdx m u)) := by
    intro m
    induction m with
    | zero => intro _; rfl
    | succ m ih =>
      intro hm
      have ih := ih (by omega)
      unfold useLoop at ih ⊢
      rw [loopN_succ, ih, bind_ok]
      have hlt : m < u.length := by omega
      rw [index_of_lt hlt, bind_ok, usedIdx_succ]
      cases hb : u[m] with
      | true =>
        have : u[m]? = some true := by rw [List.getElem?_eq_getElem hlt, hb]
        obtain ⟨post, hp⟩ := usedIdx_prefix u hm
        rw [usedIdx_succ, if_pos this, List.append_assoc] at hp
        simp only [this, if_true]
        exact h _ m post hp
      | false =>
        have : u[m]? = some false := by rw [List.getElem?_eq_getElem hlt, hb]
        simp [this]
  exact key n (Nat.le_refl n)

theorem countUse_ok {n : Nat} {u : List Bool} (hu : n ≤ u.length) :
    countUse n u = .ok (usedIdx n u).length := by
  unfold countUse
  exact useLoop_ok hu (fun l => l.length) (fun pre j post _ => by simp)

theorem checkWrite_ok {n : Nat} {u : List Bool} {pre post : List Nat} {j : Nat}
    (h : usedIdx n u = pre ++ j :: post) : checkWrite pre.length (usedIdx n u).length = .ok () := by
  unfold checkWrite
  rw [if_pos]
  rw [h]; simp

theorem chkmallocN_ok {n : Nat} (h : n ≠ 0) : chkmallocN n = .ok () := by
  unfold chkmallocN; rw [if_neg h]

theorem anyLoop_ok {p : Nat → Outcome Bool} {b : Nat → Bool} {l : List Nat}
    (h : ∀ j ∈ l, p j = .ok (b j)) : anyLoop p l = .ok (l.any b) := by
  induction l with
  | nil => rfl
  | cons j l ih =>
    unfold anyLoop
    rw [h j (by simp), bind_ok]
    cases hb : b j with
    | true => simp [hb]
    | false => simp [hb, ih (fun k hk => h k (by simp [hk]))]

theorem filterRecs_ok {ρ : Type} {keep : ρ → Outcome Bool} {conv : ρ → Outcome ρ} {k : ρ → Bool}
    {c : ρ → ρ} {l : List ρ} (hk : ∀ r ∈ l, keep r = .ok (k r))
    (hc : ∀ r ∈ l, k r = true → conv r = .ok (c r)) :
    filterRecs keep conv l = .ok ((l.filter k).map c) := by
  induction l with
  | nil => rfl
  | cons r l ih =>
    have ih := ih (fun r hr => hk r (by simp [hr])) (fun r hr => hc r (by simp [hr]))
    unfold filterRecs
    rw [hk r (by simp), bind_ok]
    cases hb : k r with
    | true =>
      rw [if_pos rfl, hc r (by simp) hb, bind_ok, ih, bind_ok]
      simp [hb]
    | false => simp [hb, ih]

theorem filterTabs_ok {τ : Type} {accept : τ → Bool} {useWave : τ → Option (List Bool)}
    {filt : τ → List Bool → Outcome τ} {nonempty : τ → Bool} {g : τ → Option τ} {l : List τ}
    (hskip : ∀ t ∈ l, accept t = false ∨ useWave t = none → g t = none)
    (hf : ∀ t ∈ l, accept t = true → ∀ u, useWave t = some u →
      ∃ t', filt t u = .ok t' ∧ g t = if nonempty t' then some t' else none) :
    filterTabs accept useWave filt nonempty l = .ok (l.filterMap g) := by
  induction l with
  | nil => rfl
  | cons t l ih =>
    have ih := ih (fun r hr => hskip r (by simp [hr])) (fun r hr => hf r (by simp [hr]))
    unfold filterTabs
    cases ha : accept t with
    | false =>
      have := hskip t (by simp) (Or.inl ha)
      simp [this, ih]
    | true =>
      simp only [Bool.not_true, Bool.false_eq_true, if_false]
      cases hu : useWave t with
      | none =>
        have := hskip t (by simp) (Or.inr hu)
        simp [this, ih]
      | some u =>
        obtain ⟨t', h1, h2⟩ := hf t (by simp) ha u hu
        simp only [h1, bind_ok, ih, List.filterMap_cons, h2]
        cases nonempty t' <;> simp

end Verif
