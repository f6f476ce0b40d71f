import Verif.Model.File

/-! Lemmas about loops in the `Outcome` monad. -/

namespace Verif
open Outcome

variable {α β σ : Type}

theorem foldlM_ok {f : σ → α → Outcome σ} {g : σ → α → σ} {l : List α}
    (h : ∀ s, ∀ x ∈ l, f s x = .ok (g s x)) (s : σ) : l.foldlM f s = .ok (l.foldl g s) := by
  induction l generalizing s with
  | nil => rfl
  | cons x l ih =>
    rw [List.foldlM_cons, h s x (by simp), bind_ok, List.foldl_cons]
    exact ih (fun s y hy => h s y (by simp [hy])) _

theorem mapM_ok {f : α → Outcome β} {g : α → β} {l : List α}
    (h : ∀ x ∈ l, f x = .ok (g x)) : l.mapM f = .ok (l.map g) := by
  induction l with
  | nil => rfl
  | cons x l ih =>
    rw [List.mapM_cons, h x (by simp), bind_ok, ih (fun y hy => h y (by simp [hy])), bind_ok]
    rfl

theorem mapM_ok_id {f : α → Outcome α} {l : List α}
    (h : ∀ x ∈ l, f x = .ok x) : l.mapM f = .ok l := by
  rw [mapM_ok h]; simp

theorem foldlM_range_index {F : α → σ → Outcome σ} (l : List α) (s : σ) :
    (List.range l.length).foldlM (fun s i => index l i >>= fun x => F x s) s =
      l.foldlM (fun s x => F x s) s := by
  have key : ∀ (pre suf : List α), l = pre ++ suf → ∀ s,
      ((List.range suf.length).map (pre.length + ·)).foldlM
        (fun s i => index l i >>= fun x => F x s) s = suf.foldlM (fun s x => F x s) s := by
    intro pre suf
    induction suf generalizing pre with
    | nil => intro _ s; rfl
    | cons x suf ih =>
      intro h s
      rw [List.length_cons, List.range_succ_eq_map, List.map_cons, List.foldlM_cons,
        List.foldlM_cons]
      have hi : index l pre.length = .ok x := by
        subst h; simp [index]
      simp only [Nat.add_zero, hi, bind_ok]
      congr 1
      funext s'
      rw [List.map_map]
      have := ih (pre ++ [x]) (by simp [h]) s'
      rw [← this]
      congr 1
      apply List.map_congr_left
      intro a _
      simp; omega
  have := key [] l rfl s
  simpa using this

theorem loopN_index {F : α → σ → Outcome σ} {l : List α} {n : Nat} (h : l.length = n) (s : σ) :
    loopN n (fun i s => index l i >>= fun x => F x s) s = l.foldlM (fun s x => F x s) s := by
  subst h
  exact foldlM_range_index l s

theorem loopN_ok {f : Nat → σ → Outcome σ} {g : Nat → σ → σ} {n : Nat}
    (h : ∀ i, i < n → ∀ s, f i s = .ok (g i s)) (s : σ) :
    loopN n f s = .ok ((List.range n).foldl (fun s i => g i s) s) :=
  foldlM_ok (fun s i hi => h i (List.mem_range.mp hi) s) s

theorem memdup_self {l : List α} {n : Nat} (h : l.length = n) (hn : n ≠ 0) :
    memdup l n = .ok l := by
  subst h
  unfold memdup
  rw [if_neg hn, if_neg (by omega), List.take_length]

theorem memdupOpt_self {l : List α} {n : Nat} (h : l.length = n) (hn : n ≠ 0) :
    memdupOpt (some l) n = .ok (some l) := by
  simp [memdupOpt, hn, memdup_self h hn]

theorem foldl_foldl_flatMap {τ : Type} (f : τ → List α) (g : σ → α → σ) (l : List τ) (s : σ) :
    l.foldl (fun s t => (f t).foldl g s) s = (l.flatMap f).foldl g s := by
  induction l generalizing s with
  | nil => rfl
  | cons t l ih => simp [ih, List.foldl_append]

end Verif
