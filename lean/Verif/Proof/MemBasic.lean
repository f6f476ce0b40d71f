import Verif.Spec.Memory
import Mathlib.Tactic.Abel

/-! Rules for reasoning about code that uses the allocator. -/

namespace Verif.Mem

variable {α β σ τ ρ : Type}

/-- From any state with `P`, the code runs without undefined behaviour, and if it does not
abort then it ends in a state with `Q`. -/
def Triple (P : Heap → Prop) (m : Mem α) (Q : α → Heap → Prop) : Prop :=
  ∀ h, P h → match m h with
    | .ok (a, h') => Q a h'
    | .abort => True
    | .ub => False

/-- The pointer points to one of the blocks. -/
def Held (p : Ptr) (M : Multiset Nat) : Prop := ∃ i, p = some i ∧ i ∈ M

theorem bind_def (x : Mem α) (f : α → Mem β) (h : Heap) :
    (x >>= f) h = (x h).bind (fun r => f r.1 r.2) := rfl

theorem Triple.bind {P : Heap → Prop} {x : Mem α} {f : α → Mem β} {Q : α → Heap → Prop}
    {S : β → Heap → Prop} (hx : Triple P x Q) (hf : ∀ a, Triple (Q a) (f a) S) :
    Triple P (x >>= f) S := by
  intro h hP
  have := hx h hP
  rw [bind_def]
  cases hxh : x h with
  | ok r =>
    rw [hxh] at this
    exact hf r.1 r.2 this
  | abort => trivial
  | ub => rw [hxh] at this; exact this

theorem Triple.pre {P P' : Heap → Prop} {x : Mem α} {Q : α → Heap → Prop}
    (hx : Triple P x Q) (hP : ∀ h, P' h → P h) : Triple P' x Q := fun h h' => hx h (hP h h')

theorem Triple.post {P : Heap → Prop} {x : Mem α} {Q Q' : α → Heap → Prop}
    (hx : Triple P x Q) (hQ : ∀ a h, Q a h → Q' a h) : Triple P x Q' := by
  intro h hP
  have := hx h hP
  cases hxh : x h with
  | ok r => rw [hxh] at this; exact hQ _ _ this
  | abort => trivial
  | ub => rw [hxh] at this; exact this

theorem Triple.pure {P : Heap → Prop} {a : α} {Q : α → Heap → Prop} (h : ∀ h, P h → Q a h) :
    Triple P (Pure.pure a : Mem α) Q := fun s hs => h s hs

theorem Triple.of_eq {M M' : Multiset Nat} {x : Mem α} {Q : α → Heap → Prop}
    (hx : Triple (Own M) x Q) (e : M' = M) : Triple (Own M') x Q := e ▸ hx

theorem Triple.and {P : Heap → Prop} {p : Prop} {x : Mem α} {Q : α → Heap → Prop}
    (hx : p → Triple P x Q) : Triple (fun h => P h ∧ p) x Q := fun h hP => hx hP.2 h hP.1

theorem Triple.exists_pre {ι : Sort*} {P : ι → Heap → Prop} {x : Mem α} {Q : α → Heap → Prop}
    (hx : ∀ i, Triple (P i) x Q) : Triple (fun h => ∃ i, P i h) x Q :=
  fun h ⟨i, hP⟩ => hx i h hP

theorem triple_abort {P : Heap → Prop} {Q : α → Heap → Prop} :
    Triple P (fun _ => .abort : Mem α) Q := fun _ _ => trivial

/-! ### The operations -/

theorem malloc_bind {M : Multiset Nat} {n : Nat} {f : Ptr → Mem β} {Q : β → Heap → Prop}
    (H : ∀ p, p ≠ none → 0 < n → Triple (Own (blk p + M)) (f p) Q) :
    Triple (Own M) (chkmalloc n >>= f) Q := by
  intro h hM
  rw [bind_def]
  unfold chkmalloc
  by_cases hn : n = 0
  · simp only [hn, if_true]; trivial
  · simp only [hn, if_false]
    apply H (some h.next) (by simp) (Nat.pos_of_ne_zero hn)
    obtain ⟨⟨hnd, hlt⟩, rfl⟩ := hM
    refine ⟨⟨?_, ?_⟩, ?_⟩
    · exact List.nodup_cons.mpr ⟨fun hm => Nat.lt_irrefl _ (hlt _ hm), hnd⟩
    · intro i hi
      rcases List.mem_cons.mp hi with rfl | hi
      · exact Nat.lt_succ_self _
      · exact Nat.lt_succ_of_lt (hlt i hi)
    · rfl

theorem free_bind {M : Multiset Nat} {p : Ptr} {f : Unit → Mem β} {Q : β → Heap → Prop}
    (H : Triple (Own M) (f ()) Q) : Triple (Own (blk p + M)) (free p >>= f) Q := by
  intro h hM
  rw [bind_def]
  unfold free
  cases p with
  | none => exact H h (by simpa [blk] using hM)
  | some i =>
    obtain ⟨⟨hnd, hlt⟩, hM⟩ := hM
    have hm : i ∈ h.live := by
      have : i ∈ (h.live : Multiset Nat) := by rw [hM]; simp [blk]
      simpa using this
    simp only [hm, if_true]
    apply H
    refine ⟨⟨hnd.erase i, fun j hj => hlt j (List.mem_of_mem_erase hj)⟩, ?_⟩
    change ((h.live.erase i : List Nat) : Multiset Nat) = M
    rw [← Multiset.coe_erase, hM]
    simp [blk]

theorem touch_bind {M : Multiset Nat} {p : Ptr} {f : Unit → Mem β} {Q : β → Heap → Prop}
    (hp : Held p M) (H : Triple (Own M) (f ()) Q) : Triple (Own M) (touch p >>= f) Q := by
  intro h hM
  rw [bind_def]
  obtain ⟨i, rfl, hi⟩ := hp
  unfold touch
  have hm : i ∈ h.live := by
    have : i ∈ (h.live : Multiset Nat) := by rw [hM.2]; exact hi
    simpa using this
  simp only [hm, if_true]
  exact H h hM

theorem bind_pure_unit (x : Mem Unit) : (x >>= fun _ => Pure.pure ()) = x := by
  funext h
  rw [bind_def]
  cases x h with
  | ok r => rfl
  | abort => rfl
  | ub => rfl

theorem bind_pure_id (x : Mem α) : (x >>= Pure.pure) = x := by
  funext h
  rw [bind_def]
  cases x h with
  | ok r => rfl
  | abort => rfl
  | ub => rfl

theorem malloc_rule {M : Multiset Nat} {n : Nat} :
    Triple (Own M) (chkmalloc n) (fun p h => Own (blk p + M) h ∧ p ≠ none ∧ 0 < n) := by
  rw [← bind_pure_id (chkmalloc n)]
  exact malloc_bind fun p hp hn => Triple.pure fun h hh => ⟨hh, hp, hn⟩

theorem free_rule {M : Multiset Nat} {p : Ptr} :
    Triple (Own (blk p + M)) (free p) (fun _ => Own M) := by
  rw [← bind_pure_unit (free p)]
  exact free_bind (Triple.pure fun _ h => h)

theorem touch_rule {M : Multiset Nat} {p : Ptr} (hp : Held p M) :
    Triple (Own M) (touch p) (fun _ => Own M) := by
  rw [← bind_pure_unit (touch p)]
  exact touch_bind hp (Triple.pure fun _ h => h)

theorem bind_assoc (x : Mem α) (f : α → Mem β) (g : β → Mem σ) :
    (x >>= f) >>= g = x >>= fun a => f a >>= g := by
  funext h
  simp only [bind_def]
  cases x h with
  | ok r => rfl
  | abort => rfl
  | ub => rfl

theorem pure_bind (a : α) (f : α → Mem β) : ((Pure.pure a : Mem α) >>= f) = f a := rfl

/-! ### Held blocks -/

theorem held_add {p : Ptr} {A B : Multiset Nat} : Held p (A + B) ↔ Held p A ∨ Held p B := by
  unfold Held
  constructor
  · rintro ⟨i, rfl, hi⟩
    rcases Multiset.mem_add.mp hi with h | h
    · exact .inl ⟨i, rfl, h⟩
    · exact .inr ⟨i, rfl, h⟩
  · rintro (⟨i, rfl, h⟩ | ⟨i, rfl, h⟩)
    · exact ⟨i, rfl, Multiset.mem_add.mpr (.inl h)⟩
    · exact ⟨i, rfl, Multiset.mem_add.mpr (.inr h)⟩

theorem held_blk {p : Ptr} (h : p ≠ none) : Held p (blk p) := by
  cases p with
  | none => exact absurd rfl h
  | some i => exact ⟨i, rfl, by simp [blk]⟩

theorem Held.ne {p : Ptr} {M : Multiset Nat} (h : Held p M) : p ≠ none := by
  obtain ⟨i, rfl, _⟩ := h
  simp

theorem Held.mono {p : Ptr} {A B : Multiset Nat} (h : Held p A) (hAB : A ≤ B) : Held p B := by
  obtain ⟨i, rfl, hi⟩ := h
  exact ⟨i, rfl, Multiset.mem_of_le hAB hi⟩

theorem held_of_le {p : Ptr} {B : Multiset Nat} (hp : p ≠ none) (h : blk p ≤ B) : Held p B :=
  (held_blk hp).mono h

theorem allOf_nil (f : τ → Multiset Nat) : allOf f [] = 0 := rfl
theorem allOf_cons (f : τ → Multiset Nat) (t : τ) (l : List τ) :
    allOf f (t :: l) = f t + allOf f l := rfl
theorem allOf_append (f : τ → Multiset Nat) (l l' : List τ) :
    allOf f (l ++ l') = allOf f l + allOf f l' := by
  simp [allOf]
theorem allOf_one (f : τ → Multiset Nat) (t : τ) : allOf f [t] = f t := by simp [allOf]

theorem le_allOf {f : τ → Multiset Nat} {l : List τ} {t : τ} (h : t ∈ l) : f t ≤ allOf f l := by
  induction l with
  | nil => cases h
  | cons a l ih =>
    rw [allOf_cons]
    rcases List.mem_cons.mp h with rfl | h
    · exact Multiset.le_add_right _ _
    · exact le_trans (ih h) (Multiset.le_add_left _ _)

/-! ### realloc and MEMDUP -/

theorem realloc_bind {M : Multiset Nat} {p : Ptr} {n : Nat} {f : Ptr → Mem β}
    {Q : β → Heap → Prop} (hp : p ≠ none)
    (H : ∀ q, (0 < n → q ≠ none) → (n = 0 → q = none) → Triple (Own (blk q + M)) (f q) Q) :
    Triple (Own (blk p + M)) (realloc p n >>= f) Q := by
  unfold realloc
  by_cases hn : n = 0
  · simp only [hn, if_true, bind_assoc, pure_bind]
    apply free_bind
    have := H none (fun h => absurd h (by omega)) (fun _ => rfl)
    simpa [blk] using this
  · simp only [hn, if_false, bind_assoc, pure_bind]
    apply malloc_bind
    intro q hq _
    apply touch_bind
    · exact held_add.mpr (.inr (held_add.mpr (.inl (held_blk hp))))
    apply Triple.of_eq (M := blk p + (blk q + M)) _ (by abel)
    apply free_bind
    exact H q (fun _ => hq) (fun h => absurd h hn)

theorem memdup_bind {M : Multiset Nat} {p : Ptr} {n : Nat} {f : Ptr → Mem β}
    {Q : β → Heap → Prop} (hp : Held p M)
    (H : ∀ q, q ≠ none → 0 < n → Triple (Own (blk q + M)) (f q) Q) :
    Triple (Own M) (memdup p n >>= f) Q := by
  unfold memdup
  simp only [bind_assoc, pure_bind]
  apply malloc_bind
  intro q hq hn
  apply touch_bind (held_add.mpr (.inr hp))
  exact H q hq hn

/-! ### Loops -/

theorem memMap_rule {f : α → Mem β} {g : β → Multiset Nat} {S : β → Prop} {D : Multiset Nat} :
    ∀ (l : List α) (M : Multiset Nat), D ≤ M →
      (∀ a ∈ l, ∀ M, D ≤ M → Triple (Own M) (f a) (fun b h => Own (g b + M) h ∧ S b)) →
      Triple (Own M) (memMap f l)
        (fun bs h => Own (allOf g bs + M) h ∧ (∀ b ∈ bs, S b) ∧ bs.length = l.length) := by
  intro l
  induction l with
  | nil =>
    intro M _ _
    exact Triple.pure fun h hh => ⟨by simpa [allOf] using hh, by simp, rfl⟩
  | cons a l ih =>
    intro M hD hf
    unfold memMap
    apply Triple.bind (hf a (by simp) M hD)
    intro b
    apply Triple.and
    intro hb
    apply Triple.bind (ih (g b + M) (le_trans hD (Multiset.le_add_left _ _))
      (fun a' ha' => hf a' (List.mem_cons_of_mem _ ha')))
    intro bs
    apply Triple.and
    rintro ⟨hbs, hlen⟩
    apply Triple.pure
    intro h hh
    refine ⟨?_, ?_, by simp [hlen]⟩
    · rw [allOf_cons]
      have e : g b + allOf g bs + M = allOf g bs + (g b + M) := by abel
      rw [e]; exact hh
    · intro x hx
      rcases List.mem_cons.mp hx with rfl | hx
      · exact hb
      · exact hbs x hx

theorem memFold_rule {f : σ → α → Mem σ} {I : σ → Heap → Prop} :
    ∀ (l : List α) (s : σ), (∀ s, ∀ a ∈ l, Triple (I s) (f s a) I) →
      Triple (I s) (memFold f s l) I := by
  intro l
  induction l with
  | nil => intro s _; exact Triple.pure fun _ h => h
  | cons a l ih =>
    intro s hf
    unfold memFold
    exact Triple.bind (hf s a (by simp)) fun s' =>
      ih s' fun s a ha => hf s a (List.mem_cons_of_mem _ ha)

theorem memFor_touch {f : α → Mem Unit} {M : Multiset Nat} :
    ∀ (l : List α), (∀ a ∈ l, Triple (Own M) (f a) (fun _ => Own M)) →
      Triple (Own M) (memFor f l) (fun _ => Own M) := by
  intro l
  induction l with
  | nil => intro _; exact Triple.pure fun _ h => h
  | cons a l ih =>
    intro hf
    unfold memFor
    exact Triple.bind (hf a (by simp)) fun _ => ih fun a ha => hf a (List.mem_cons_of_mem _ ha)

/-- A loop that frees the blocks of each element. -/
theorem memFor_free {f : τ → Mem Unit} {g : τ → Multiset Nat} {D : Multiset Nat} :
    ∀ (l : List τ) (M : Multiset Nat), D ≤ M →
      (∀ t ∈ l, ∀ M, D ≤ M → Triple (Own (g t + M)) (f t) (fun _ => Own M)) →
      Triple (Own (allOf g l + M)) (memFor f l) (fun _ => Own M) := by
  intro l
  induction l with
  | nil =>
    intro M _ _
    exact Triple.pure fun h hh => by simpa [allOf] using hh
  | cons a l ih =>
    intro M hD hf
    unfold memFor
    apply Triple.of_eq (M := g a + (allOf g l + M)) _ (by rw [allOf_cons]; abel)
    apply Triple.bind (hf a (by simp) _ (le_trans hD (Multiset.le_add_left _ _)))
    intro _
    exact ih M hD fun t ht => hf t (List.mem_cons_of_mem _ ht)

theorem recAt_bind {record : Ptr} {recs : List ρ} {i : Nat} {M : Multiset Nat} {f : ρ → Mem β}
    {Q : β → Heap → Prop} (hr : Held record M) (hi : i < recs.length)
    (H : Triple (Own M) (f recs[i]) Q) : Triple (Own M) (recAt record recs i >>= f) Q := by
  unfold recAt
  simp only [bind_assoc]
  apply touch_bind hr
  simp only [hi, List.getElem?_eq_getElem, pure_bind]
  exact H

/-- A loop over the records of a table that frees the blocks of each. -/
theorem recFor_from {record : Ptr} {f : ρ → Mem Unit} {g : ρ → Multiset Nat}
    (hne : record ≠ none) :
    ∀ (recs pre : List ρ) (M : Multiset Nat), blk record ≤ M →
      (∀ r ∈ recs, ∀ M, blk record ≤ M → Triple (Own (g r + M)) (f r) (fun _ => Own M)) →
      Triple (Own (allOf g recs + M))
        (memFor (fun i => recAt record (pre ++ recs) i >>= f)
          (List.range' pre.length recs.length)) (fun _ => Own M) := by
  intro recs
  induction recs with
  | nil =>
    intro pre M _ _
    exact Triple.pure fun h hh => by simpa [allOf] using hh
  | cons r recs ih =>
    intro pre M hM hf
    rw [List.length_cons, List.range'_succ]
    unfold memFor
    rw [bind_assoc]
    apply Triple.of_eq (M := g r + (allOf g recs + M)) _ (by rw [allOf_cons]; abel)
    have hle : blk record ≤ allOf g recs + M := le_trans hM (Multiset.le_add_left _ _)
    apply recAt_bind (held_of_le hne (le_trans hle (Multiset.le_add_left _ _))) (by simp)
    have e : (pre ++ r :: recs)[pre.length]'(by simp) = r := by simp
    rw [e]
    apply Triple.bind (hf r (by simp) _ hle)
    intro _
    have := ih (pre ++ [r]) M hM fun r' hr' => hf r' (List.mem_cons_of_mem _ hr')
    simpa using this

theorem recFor_free {record : Ptr} {recs : List ρ} {n : Nat} {f : ρ → Mem Unit}
    {g : ρ → Multiset Nat} {M : Multiset Nat} (hne : record ≠ none) (hn : recs.length = n)
    (hf : ∀ r ∈ recs, ∀ M, blk record ≤ M → Triple (Own (g r + M)) (f r) (fun _ => Own M)) :
    Triple (Own (blk record + (allOf g recs + M)))
      (memFor (fun i => recAt record recs i >>= f) (List.range n))
      (fun _ => Own (blk record + M)) := by
  subst hn
  have := recFor_from hne recs [] (blk record + M) (Multiset.le_add_right _ _) hf
  rw [List.range_eq_range']
  exact Triple.of_eq this (by abel)

/-- A loop over the records of a table that builds new records. -/
theorem recMap_from {record : Ptr} {f : ρ → Mem σ} {g : ρ → Multiset Nat} {g' : σ → Multiset Nat}
    {S : σ → Prop} (hne : record ≠ none) :
    ∀ (recs pre : List ρ) (M : Multiset Nat), blk record ≤ M →
      (∀ r ∈ recs, ∀ M, blk record ≤ M →
        Triple (Own (g r + M)) (f r) (fun r' h => Own (g' r' + M) h ∧ S r')) →
      Triple (Own (allOf g recs + M))
        (memMap (fun i => recAt record (pre ++ recs) i >>= f)
          (List.range' pre.length recs.length))
        (fun recs' h => Own (allOf g' recs' + M) h ∧ (∀ r ∈ recs', S r) ∧
          recs'.length = recs.length) := by
  intro recs
  induction recs with
  | nil =>
    intro pre M _ _
    exact Triple.pure fun h hh => ⟨by simpa [allOf] using hh, by simp, rfl⟩
  | cons r recs ih =>
    intro pre M hM hf
    rw [List.length_cons, List.range'_succ]
    unfold memMap
    rw [bind_assoc]
    apply Triple.of_eq (M := g r + (allOf g recs + M)) _ (by rw [allOf_cons]; abel)
    have hle : blk record ≤ allOf g recs + M := le_trans hM (Multiset.le_add_left _ _)
    apply recAt_bind (held_of_le hne (le_trans hle (Multiset.le_add_left _ _))) (by simp)
    have e : (pre ++ r :: recs)[pre.length]'(by simp) = r := by simp
    rw [e]
    apply Triple.bind (hf r (by simp) _ hle)
    intro r'
    apply Triple.and
    intro hr'
    have := ih (pre ++ [r]) (g' r' + M) (le_trans hM (Multiset.le_add_left _ _))
      fun r' hr' => hf r' (List.mem_cons_of_mem _ hr')
    simp only [List.append_assoc, List.singleton_append, List.length_append, List.length_cons,
      List.length_nil, Nat.zero_add] at this
    apply Triple.bind (Triple.of_eq this (by abel))
    intro rs
    apply Triple.and
    rintro ⟨h1, h2⟩
    refine Triple.pure fun h hh => ⟨?_, ?_, by simp [h2]⟩
    · rw [allOf_cons]
      have e : g' r' + allOf g' rs + M = allOf g' rs + (g' r' + M) := by abel
      rw [e]; exact hh
    · intro x hx
      rcases List.mem_cons.mp hx with rfl | hx
      · exact hr'
      · exact h1 x hx

end Verif.Mem
