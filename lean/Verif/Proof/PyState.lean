import Verif.Proof.PyScript
import Mathlib.Data.List.Induction

/-! Lemmas about what calls from Python change. -/

namespace Verif
open Outcome Spec Py
variable {R : FP} {α β : Type} {u : Undef R} {today : CStr}

/-! ### Assignments -/

theorem setChars_spec (s : CStr) (store : CStr → FilterSpec R) :
    (s.length ≤ 70 → setChars s store = .ok (.ok (store s))) ∧ (s.length = 71 → setChars s store = .ub) ∧
    (71 < s.length → setChars s store = .ok (.error .type)) := by
  unfold setChars FLEN_VALUE
  refine ⟨fun h => if_pos (by omega), fun h => ?_, fun h => ?_⟩
  · rw [if_neg (by omega), if_pos h]
  · rw [if_neg (by omega), if_neg (by omega)]

theorem setInt_spec (v : Val R) (store : Int → FilterSpec R) :
    (∀ n, IsInt v n → setInt v store = .ok (.ok (store n))) ∧
    (∀ n, v = .int n → ¬ FitsInt n → setInt v store = .ok (.error .overflow)) ∧
    ((∀ n, v ≠ .int n) → setInt v store = .ok (.error .type)) := by
  refine ⟨?_, ?_, ?_⟩
  · rintro n ⟨rfl, h⟩
    exact setInt_ok h store
  · rintro n rfl h
    unfold setInt
    have h : ¬ (-(2 ^ 31) ≤ n ∧ n < 2 ^ 31) := by unfold FitsInt at h; omega
    simp only [if_neg h]
  · intro h
    cases v with
    | int n => exact absurd rfl (h n)
    | float x => rfl
    | other => rfl

theorem setPair_spec {item : Val R → Option (α × Bool)} {conv : R.Dbl → α} (hi : ∀ x, item (.float x) = some (conv x, false))
    (hn : ∀ v, (∀ x, v ≠ .float x) → item v = none) (old : α × α) (a : Arg R) (store : α × α → FilterSpec R) :
    (∀ p, IsPair a p → setPair item old a store = .ok (.ok (store (conv p.1, conv p.2)))) ∧
    (a = .notSeq → setPair item old a store = .ok (.error .type)) ∧
    ((∃ l, a = .seq l) → (∀ p, ¬ IsPair a p) → setPair item old a store = .ok (.error .value)) := by
  refine ⟨?_, ?_, ?_⟩
  · rintro p rfl
    unfold setPair assign convert
    simp only [items, hi, List.length_cons, List.length_nil]
    rfl
  · rintro rfl; rfl
  · rintro ⟨l, rfl⟩ h
    have key : assign item [old.1, old.2] (.seq l) = ⟨[old.1, old.2], some .value, 0⟩ ∨
        assign item [old.1, old.2] (.seq l) = ⟨[old.1, old.2], some .value, 1⟩ := by
      unfold assign convert
      by_cases hl : l.length = 2
      · obtain ⟨v, w, rfl⟩ : ∃ v w, l = [v, w] := by
          match l, hl with
          | [v, w], _ => exact ⟨v, w, rfl⟩
        have : items item [v, w] = none := by
          by_cases hv : ∀ x, v ≠ .float x
          · simp only [items, hn v hv]
          · by_cases hw : ∀ x, w ≠ .float x
            · simp only [items, hn w hw]
              cases item v <;> rfl
            · obtain ⟨x, hx⟩ := not_forall.mp hv
              obtain ⟨y, hy⟩ := not_forall.mp hw
              exact absurd (by rw [not_not.mp hx, not_not.mp hy]; rfl) (h (x, y))
        simp only [this]
        right; rfl
      · simp only [List.length_cons, List.length_nil]
        rw [if_pos hl]
        left; rfl
    unfold setPair
    rcases key with e | e <;> rw [e] <;> rfl

theorem floatItem_other (v : Val R) (h : ∀ x, v ≠ .float x) : floatItem v = none := by
  cases v with
  | float x => exact absurd rfl (h x)
  | int n => rfl
  | other => rfl

theorem doubleItem_other (v : Val R) (h : ∀ x, v ≠ .float x) : doubleItem v = none := by
  cases v with
  | float x => exact absurd rfl (h x)
  | int n => rfl
  | other => rfl

/-- The three ways in which an assignment can end. -/
theorem setAttr_spec (f : FilterSpec R) (a : FilterAttr R) :
    (Acceptable a → ∃ g, setAttr f a = .ok (.ok g)) ∧ (LeavesNoRoom a → setAttr f a = .ub) ∧
    (∀ e, RaisesFor e a → setAttr f a = .ok (.error e)) := by
  have chars : ∀ (s : CStr) (store : CStr → FilterSpec R), (s.length ≤ 70 → ∃ g, setChars s store = .ok (.ok g)) ∧
      (s.length = 71 → setChars s store = .ub) ∧
      (∀ e, 71 < s.length ∧ e = .type → setChars s store = .ok (.error e)) := fun s store =>
    ⟨fun h => ⟨_, (setChars_spec s store).1 h⟩, (setChars_spec s store).2.1,
      fun e h => h.2 ▸ (setChars_spec s store).2.2 h.1⟩
  have int : ∀ (v : Val R) (store : Int → FilterSpec R), ((∃ n, IsInt v n) → ∃ g, setInt v store = .ok (.ok g)) ∧
      (False → setInt v store = .ub) ∧
      (∀ e, (∃ n, v = .int n ∧ ¬ FitsInt n ∧ e = .overflow) ∨ ((∀ n, v ≠ .int n) ∧ e = .type) →
        setInt v store = .ok (.error e)) := by
    intro v store
    refine ⟨fun ⟨n, h⟩ => ⟨_, (setInt_spec v store).1 n h⟩, False.elim, ?_⟩
    rintro e (⟨n, h1, h2, rfl⟩ | ⟨h, rfl⟩)
    · exact (setInt_spec v store).2.1 n h1 h2
    · exact (setInt_spec v store).2.2 h
  have pair : ∀ {α : Type} {item : Val R → Option (α × Bool)} {conv : R.Dbl → α}
      (_ : ∀ x, item (.float x) = some (conv x, false)) (_ : ∀ v, (∀ x, v ≠ .float x) → item v = none) (old : α × α)
      (a : Arg R) (store : α × α → FilterSpec R), ((∃ p, IsPair a p) → ∃ g, setPair item old a store = .ok (.ok g)) ∧
      (False → setPair item old a store = .ub) ∧
      (∀ e, (a = .notSeq ∧ e = .type) ∨ ((∃ l, a = .seq l) ∧ (∀ p, ¬ IsPair a p) ∧ e = .value) →
        setPair item old a store = .ok (.error e)) := by
    intro α item conv hi hn old a store
    have key := setPair_spec hi hn old a store
    refine ⟨fun ⟨n, h⟩ => ⟨_, key.1 n h⟩, False.elim, ?_⟩
    rintro e (⟨h, rfl⟩ | ⟨h1, h2, rfl⟩)
    · exact key.2.1 h
    · exact key.2.2 h1 h2
  cases a with
  | arrname s => exact chars s fun x => { f with arrname := x }
  | insname s => exact chars s fun x => { f with insname := x }
  | corrname s => exact chars s fun x => { f with corrname := x }
  | target_id n => exact int n fun x => { f with target_id := x }
  | mjd_range a => exact pair (fun _ => rfl) doubleItem_other f.mjd_range a fun x => { f with mjd_range := x }
  | wave_range a => exact pair (fun _ => rfl) floatItem_other f.wave_range a fun x => { f with wave_range := x }
  | bas_range a => exact pair (fun _ => rfl) doubleItem_other f.bas_range a fun x => { f with bas_range := x }
  | uvrad_range a => exact ⟨fun _ => ⟨f, rfl⟩, False.elim, fun _ h => h.elim⟩
  | snr_range a => exact pair (fun _ => rfl) floatItem_other f.snr_range a fun x => { f with snr_range := x }
  | accept_vis n => exact int n fun x => { f with accept_vis := x ≠ 0 }
  | accept_vis2 n => exact int n fun x => { f with accept_vis2 := x ≠ 0 }
  | accept_t3amp n => exact int n fun x => { f with accept_t3amp := x ≠ 0 }
  | accept_t3phi n => exact int n fun x => { f with accept_t3phi := x ≠ 0 }
  | accept_flux n => exact int n fun x => { f with accept_flux := x ≠ 0 }
  | accept_flagged n => exact int n fun x => { f with accept_flagged := x ≠ 0 }

/-- One of the three applies. -/
theorem attr_cases (a : FilterAttr R) : Acceptable a ∨ LeavesNoRoom a ∨ ∃ e, RaisesFor e a := by
  have chars : ∀ s : CStr, s.length ≤ 70 ∨ s.length = 71 ∨ ∃ e : Raised, 71 < s.length ∧ e = .type := by
    intro s
    rcases Nat.lt_trichotomy s.length 71 with h | h | h
    · exact .inl (by omega)
    · exact .inr (.inl h)
    · exact .inr (.inr ⟨.type, h, rfl⟩)
  have int : ∀ v : Val R, (∃ n, IsInt v n) ∨ False ∨
      ∃ e, (∃ n, v = .int n ∧ ¬ FitsInt n ∧ e = Raised.overflow) ∨ ((∀ n, v ≠ .int n) ∧ e = Raised.type) := by
    intro v
    cases v with
    | int n =>
      by_cases h : FitsInt n
      · exact .inl ⟨n, rfl, h⟩
      · exact .inr (.inr ⟨_, .inl ⟨n, rfl, h, rfl⟩⟩)
    | float x => exact .inr (.inr ⟨_, .inr ⟨fun n h => (by cases h), rfl⟩⟩)
    | other => exact .inr (.inr ⟨_, .inr ⟨fun n h => (by cases h), rfl⟩⟩)
  have pair : ∀ a : Arg R, (∃ p, IsPair a p) ∨ False ∨
      ∃ e, (a = .notSeq ∧ e = Raised.type) ∨ ((∃ l, a = .seq l) ∧ (∀ p, ¬ IsPair a p) ∧ e = Raised.value) := by
    intro a
    by_cases h : ∃ p, IsPair a p
    · exact .inl h
    · cases a with
      | notSeq => exact .inr (.inr ⟨_, .inl ⟨rfl, rfl⟩⟩)
      | seq l => exact .inr (.inr ⟨_, .inr ⟨⟨l, rfl⟩, fun p hp => h ⟨p, hp⟩, rfl⟩⟩)
  cases a with
  | arrname s => exact chars s
  | insname s => exact chars s
  | corrname s => exact chars s
  | target_id n => exact int n
  | mjd_range a => exact pair a
  | wave_range a => exact pair a
  | bas_range a => exact pair a
  | uvrad_range a => exact .inl trivial
  | snr_range a => exact pair a
  | accept_vis n => exact int n
  | accept_vis2 n => exact int n
  | accept_t3amp n => exact int n
  | accept_t3phi n => exact int n
  | accept_flux n => exact int n
  | accept_flagged n => exact int n

theorem setAll_snoc {f g : FilterSpec R} {as : List (FilterAttr R)} {a : FilterAttr R}
    (h : setAll f (as ++ [a]) = some g) : ∃ f', setAll f as = some f' ∧ setAttr f' a = .ok (.ok g) := by
  induction as generalizing f with
  | nil =>
    rw [List.nil_append, setAll] at h
    split at h
    · rename_i f' hf'
      cases h
      exact ⟨f, rfl, hf'⟩
    · cases h
  | cons b as ih =>
    rw [List.cons_append, setAll] at h
    split at h
    · rename_i f' hf'
      obtain ⟨f'', h1, h2⟩ := ih h
      exact ⟨f'', (setAll_cons hf' as).trans h1, h2⟩
    · cases h

/-- A member which one attribute stores. -/
theorem attrIs_of {attr : α → FilterAttr R} {means : α → β → Prop} {proj : FilterSpec R → β}
    (hs : ∀ f g x, setAttr f (attr x) = .ok (.ok g) → means x (proj g))
    (ho : ∀ f g a, setAttr f a = .ok (.ok g) → (∀ x, a ≠ attr x) → proj g = proj f)
    (hinj : ∀ x y, attr x = attr y → x = y) {f g : FilterSpec R} {as : List (FilterAttr R)} (h : setAll f as = some g) :
    AttrIs attr as means (proj g) (proj f) := by
  induction as using List.reverseRecOn generalizing g with
  | nil =>
    cases h
    refine ⟨?_, fun _ => rfl⟩
    rintro x ⟨before, after, e, -⟩
    exact absurd e.symm (by simp)
  | append_singleton as a ih =>
    obtain ⟨f', h1, h2⟩ := setAll_snoc h
    obtain ⟨i1, i2⟩ := ih h1
    by_cases ha : ∃ x, a = attr x
    · obtain ⟨x, rfl⟩ := ha
      refine ⟨?_, fun hn => absurd (by simp) (hn x)⟩
      rintro y ⟨before, after, e, hy⟩
      rcases List.eq_nil_or_concat after with rfl | ⟨after', b, rfl⟩
      · have := hinj _ _ (List.cons.inj (List.append_inj' e rfl).2).1
        subst this
        exact hs _ _ _ h2
      · rw [List.concat_eq_append, ← List.cons_append, ← List.append_assoc] at e
        have := (List.append_inj' e rfl).2
        injection this with this
        exact absurd (by rw [← this]; simp) (hy x)
    · have ha : ∀ x, a ≠ attr x := fun x e => ha ⟨x, e⟩
      rw [ho _ _ _ h2 ha]
      refine ⟨?_, fun hn => i2 fun x hx => hn x (by simp [hx])⟩
      rintro y ⟨before, after, e, hy⟩
      rcases List.eq_nil_or_concat after with rfl | ⟨after', b, rfl⟩
      · exact absurd (List.cons.inj (List.append_inj' e rfl).2).1 (ha y)
      · rw [List.concat_eq_append, ← List.cons_append, ← List.append_assoc] at e
        exact i1 y ⟨before, after', (List.append_inj' e rfl).1, fun z hz => hy z (by simp [hz])⟩

theorem setChars_inv {s : CStr} {store : CStr → FilterSpec R} {g : FilterSpec R} (h : setChars s store = .ok (.ok g)) :
    g = store s := by
  unfold setChars at h
  split at h
  · cases h; rfl
  · split at h <;> cases h

theorem setInt_inv {v : Val R} {store : Int → FilterSpec R} {g : FilterSpec R} (h : setInt v store = .ok (.ok g)) :
    ∃ n, IsInt v n ∧ g = store n := by
  unfold setInt at h
  split at h
  · rename_i n
    split at h
    · rename_i hn
      cases h
      exact ⟨n, ⟨rfl, by unfold FitsInt; omega⟩, rfl⟩
    · cases h
  · cases h

theorem setPair_inv {item : Val R → Option (α × Bool)} {conv : R.Dbl → α} (hi : ∀ x, item (.float x) = some (conv x, false))
    (hn : ∀ v, (∀ x, v ≠ .float x) → item v = none) {old : α × α} {a : Arg R} {store : α × α → FilterSpec R}
    {g : FilterSpec R} (h : setPair item old a store = .ok (.ok g)) : ∃ p, IsPair a p ∧ g = store (conv p.1, conv p.2) := by
  obtain ⟨h1, h2, h3⟩ := setPair_spec hi hn old a store
  by_cases hp : ∃ p, IsPair a p
  · obtain ⟨p, hp⟩ := hp
    rw [h1 p hp] at h
    cases h
    exact ⟨p, hp, rfl⟩
  · exfalso
    cases a with
    | notSeq => rw [h2 rfl] at h; cases h
    | seq l => rw [h3 ⟨l, rfl⟩ fun p h => hp ⟨p, h⟩] at h; cases h

/-- What an accepted assignment stores. -/
def Stores (f : FilterSpec R) (a : FilterAttr R) (g : FilterSpec R) : Prop :=
  match a with
  | .arrname s => g = { f with arrname := s }
  | .insname s => g = { f with insname := s }
  | .corrname s => g = { f with corrname := s }
  | .target_id v => ∃ n, IsInt v n ∧ g = { f with target_id := n }
  | .mjd_range a => ∃ p, IsPair a p ∧ g = { f with mjd_range := p }
  | .wave_range a => ∃ p, IsPair a p ∧ g = { f with wave_range := (R.toF p.1, R.toF p.2) }
  | .bas_range a => ∃ p, IsPair a p ∧ g = { f with bas_range := p }
  | .uvrad_range _ => g = f
  | .snr_range a => ∃ p, IsPair a p ∧ g = { f with snr_range := (R.toF p.1, R.toF p.2) }
  | .accept_vis v => ∃ n, IsInt v n ∧ g = { f with accept_vis := n ≠ 0 }
  | .accept_vis2 v => ∃ n, IsInt v n ∧ g = { f with accept_vis2 := n ≠ 0 }
  | .accept_t3amp v => ∃ n, IsInt v n ∧ g = { f with accept_t3amp := n ≠ 0 }
  | .accept_t3phi v => ∃ n, IsInt v n ∧ g = { f with accept_t3phi := n ≠ 0 }
  | .accept_flux v => ∃ n, IsInt v n ∧ g = { f with accept_flux := n ≠ 0 }
  | .accept_flagged v => ∃ n, IsInt v n ∧ g = { f with accept_flagged := n ≠ 0 }

theorem setAttr_inv {f g : FilterSpec R} {a : FilterAttr R} (h : setAttr f a = .ok (.ok g)) : Stores f a g := by
  cases a with
  | arrname s => exact setChars_inv (store := fun x => { f with arrname := x }) h
  | insname s => exact setChars_inv (store := fun x => { f with insname := x }) h
  | corrname s => exact setChars_inv (store := fun x => { f with corrname := x }) h
  | target_id n => exact setInt_inv h
  | mjd_range a =>
    exact setPair_inv (conv := id) (store := fun x => { f with mjd_range := x }) (fun _ => rfl) doubleItem_other h
  | wave_range a => exact setPair_inv (store := fun x => { f with wave_range := x }) (fun _ => rfl) floatItem_other h
  | bas_range a =>
    exact setPair_inv (conv := id) (store := fun x => { f with bas_range := x }) (fun _ => rfl) doubleItem_other h
  | uvrad_range a => cases h; rfl
  | snr_range a => exact setPair_inv (store := fun x => { f with snr_range := x }) (fun _ => rfl) floatItem_other h
  | accept_vis n => exact setInt_inv h
  | accept_vis2 n => exact setInt_inv h
  | accept_t3amp n => exact setInt_inv h
  | accept_t3phi n => exact setInt_inv h
  | accept_flux n => exact setInt_inv h
  | accept_flagged n => exact setInt_inv h

/-- The criteria of a filter after assignments, starting from a new one. -/
theorem attrsAre_of {f : FilterSpec R} {as : List (FilterAttr R)} (h : setAll (init_oi_filter R) as = some f) :
    AttrsAre as f := by
  have truth : ∀ {v : Val R} {n : Int}, IsInt v n → IsTruth v (decide (n ≠ 0)) := by
    rintro v n ⟨h1, h2⟩
    exact ⟨n, h1, h2, by simp⟩
  constructor
  · refine attrIs_of (proj := fun f => f.arrname) (fun f g x hs => ?_) (fun f g a hs hn => ?_) (fun x y e => by cases e; rfl) h
    · cases setAttr_inv hs; rfl
    · have := setAttr_inv hs
      cases a <;> first
        | exact absurd rfl (hn _)
        | (obtain ⟨_, _, rfl⟩ := this; rfl)
  · refine attrIs_of (proj := fun f => f.insname) (fun f g x hs => ?_) (fun f g a hs hn => ?_) (fun x y e => by cases e; rfl) h
    · cases setAttr_inv hs; rfl
    · have := setAttr_inv hs
      cases a <;> first
        | exact absurd rfl (hn _)
        | (obtain ⟨_, _, rfl⟩ := this; rfl)
  · refine attrIs_of (proj := fun f => f.corrname) (fun f g x hs => ?_) (fun f g a hs hn => ?_) (fun x y e => by cases e; rfl) h
    · cases setAttr_inv hs; rfl
    · have := setAttr_inv hs
      cases a <;> first
        | exact absurd rfl (hn _)
        | (obtain ⟨_, _, rfl⟩ := this; rfl)
  · refine attrIs_of (proj := fun f => f.target_id) (fun f g x hs => ?_) (fun f g a hs hn => ?_) (fun x y e => by cases e; rfl) h
    · obtain ⟨p, hp, rfl⟩ := setAttr_inv hs
      exact hp
    · have := setAttr_inv hs
      cases a <;> first
        | exact absurd rfl (hn _)
        | (obtain ⟨_, _, rfl⟩ := this; rfl)
  · refine attrIs_of (proj := fun f => f.mjd_range) (fun f g x hs => ?_) (fun f g a hs hn => ?_) (fun x y e => by cases e; rfl) h
    · obtain ⟨p, hp, rfl⟩ := setAttr_inv hs
      exact hp
    · have := setAttr_inv hs
      cases a <;> first
        | exact absurd rfl (hn _)
        | (obtain ⟨_, _, rfl⟩ := this; rfl)
  · refine attrIs_of (proj := fun f => f.wave_range) (fun f g x hs => ?_) (fun f g a hs hn => ?_) (fun x y e => by cases e; rfl) h
    · obtain ⟨p, hp, rfl⟩ := setAttr_inv hs
      exact ⟨p.1, p.2, hp, rfl⟩
    · have := setAttr_inv hs
      cases a <;> first
        | exact absurd rfl (hn _)
        | (obtain ⟨_, _, rfl⟩ := this; rfl)
  · refine attrIs_of (proj := fun f => f.bas_range) (fun f g x hs => ?_) (fun f g a hs hn => ?_) (fun x y e => by cases e; rfl) h
    · obtain ⟨p, hp, rfl⟩ := setAttr_inv hs
      exact hp
    · have := setAttr_inv hs
      cases a <;> first
        | exact absurd rfl (hn _)
        | (obtain ⟨_, _, rfl⟩ := this; rfl)
  · refine attrIs_of (proj := fun f => f.snr_range) (fun f g x hs => ?_) (fun f g a hs hn => ?_) (fun x y e => by cases e; rfl) h
    · obtain ⟨p, hp, rfl⟩ := setAttr_inv hs
      exact ⟨p.1, p.2, hp, rfl⟩
    · have := setAttr_inv hs
      cases a <;> first
        | exact absurd rfl (hn _)
        | (obtain ⟨_, _, rfl⟩ := this; rfl)
  · refine attrIs_of (proj := fun f => f.accept_vis) (fun f g x hs => ?_) (fun f g a hs hn => ?_) (fun x y e => by cases e; rfl) h
    · obtain ⟨p, hp, rfl⟩ := setAttr_inv hs
      exact truth hp
    · have := setAttr_inv hs
      cases a <;> first
        | exact absurd rfl (hn _)
        | (obtain ⟨_, _, rfl⟩ := this; rfl)
  · refine attrIs_of (proj := fun f => f.accept_vis2) (fun f g x hs => ?_) (fun f g a hs hn => ?_) (fun x y e => by cases e; rfl) h
    · obtain ⟨p, hp, rfl⟩ := setAttr_inv hs
      exact truth hp
    · have := setAttr_inv hs
      cases a <;> first
        | exact absurd rfl (hn _)
        | (obtain ⟨_, _, rfl⟩ := this; rfl)
  · refine attrIs_of (proj := fun f => f.accept_t3amp) (fun f g x hs => ?_) (fun f g a hs hn => ?_) (fun x y e => by cases e; rfl) h
    · obtain ⟨p, hp, rfl⟩ := setAttr_inv hs
      exact truth hp
    · have := setAttr_inv hs
      cases a <;> first
        | exact absurd rfl (hn _)
        | (obtain ⟨_, _, rfl⟩ := this; rfl)
  · refine attrIs_of (proj := fun f => f.accept_t3phi) (fun f g x hs => ?_) (fun f g a hs hn => ?_) (fun x y e => by cases e; rfl) h
    · obtain ⟨p, hp, rfl⟩ := setAttr_inv hs
      exact truth hp
    · have := setAttr_inv hs
      cases a <;> first
        | exact absurd rfl (hn _)
        | (obtain ⟨_, _, rfl⟩ := this; rfl)
  · refine attrIs_of (proj := fun f => f.accept_flux) (fun f g x hs => ?_) (fun f g a hs hn => ?_) (fun x y e => by cases e; rfl) h
    · obtain ⟨p, hp, rfl⟩ := setAttr_inv hs
      exact truth hp
    · have := setAttr_inv hs
      cases a <;> first
        | exact absurd rfl (hn _)
        | (obtain ⟨_, _, rfl⟩ := this; rfl)
  · refine attrIs_of (proj := fun f => f.accept_flagged) (fun f g x hs => ?_) (fun f g a hs hn => ?_) (fun x y e => by cases e; rfl) h
    · obtain ⟨p, hp, rfl⟩ := setAttr_inv hs
      exact truth hp
    · have := setAttr_inv hs
      cases a <;> first
        | exact absurd rfl (hn _)
        | (obtain ⟨_, _, rfl⟩ := this; rfl)
/-! ### What calls change -/

theorem obeys_textOf (m : TextM α) : Obeys (R := R) Untouched (textOf m) := fun w => by
  unfold textOf
  cases m w.buffer with
  | ok p => exact ⟨fun e h => (by cases h), fun b w' h => by cases h; rfl⟩
  | abort => exact ⟨fun e h => (by cases h; rfl), fun b w' h => by cases h⟩
  | ub => exact ⟨fun e h => (by cases h; rfl), fun b w' h => by cases h⟩

/-- Functions which change no file. -/
theorem inC_quiet {m : Prog R α} (hm : Obeys Untouched m) (s : Session R) (next : α → Session R → Session R × Ended R) :
    (∃ a b, inC m s next = next a { s with buffer := b }) ∨ ∃ e, inC m s next = (s, .crash e) := by
  have := hm ⟨[], s.files, s.buffer⟩
  rcases inC_cases m s next with ⟨a, w, h1, h2⟩ | ⟨e, h1, h2⟩
  · have hw : w.files = s.files := this.2 _ _ h1
    exact .inl ⟨a, w.buffer, by rw [h2, hw]⟩
  · have hw : e.files = s.files := this.1 _ h1
    exact .inr ⟨e.exit, by rw [h2, hw]⟩

/-- Calls which make and change nothing but the buffer. -/
def Looks (s : Session R) (r : Session R × Ended R) : Prop :=
  ∃ b e, r = ({ s with buffer := b }, e) ∧ ∀ i, e ≠ .value (.data i)

theorem looks_same {s : Session R} {e : Ended R} (h : ∀ i, e ≠ .value (.data i)) : Looks s (s, e) := ⟨s.buffer, e, rfl, h⟩

theorem looks_inC {m : Prog R α} (hm : Obeys Untouched m) {s : Session R} {next : α → Session R → Session R × Ended R}
    (h : ∀ a b, Looks { s with buffer := b } (next a { s with buffer := b })) : Looks s (inC m s next) := by
  rcases inC_quiet hm s next with ⟨a, b, e⟩ | ⟨x, e⟩
  · rw [e]
    obtain ⟨b', e', h1, h2⟩ := h a b
    exact ⟨b', e', h1, h2⟩
  · rw [e]
    exact looks_same fun i h => by cases h

theorem looks_withData {o : Obj} {s : Session R} {next : OiFits R → Session R × Ended R} (h : ∀ oi, Looks s (next oi)) :
    Looks s (withData o s next) := by
  unfold withData
  cases o with
  | other => exact looks_same fun i h => by cases h
  | none => exact looks_same fun i h => by cases h
  | data i =>
    simp only
    cases s.data[i]? with
    | none => exact looks_same fun i h => by cases h
    | some oi => exact h oi

/-- Calls which make a dataset. -/
def Makes (s : Session R) (r : Session R × Ended R) : Prop :=
  Looks s r ∨ ∃ b oi, r = ({ s with buffer := b, data := s.data ++ [oi] }, .value (.data s.data.length))

theorem makes_inC {m : Prog R α} (hm : Obeys Untouched m) {s : Session R} {next : α → Session R → Session R × Ended R}
    (h : ∀ a b, Makes { s with buffer := b } (next a { s with buffer := b })) : Makes s (inC m s next) := by
  rcases inC_quiet hm s next with ⟨a, b, e⟩ | ⟨x, e⟩
  · rw [e]
    rcases h a b with ⟨b', e', h1, h2⟩ | ⟨b', oi, h1⟩
    · exact .inl ⟨b', e', h1, h2⟩
    · exact .inr ⟨b', oi, h1⟩
  · rw [e]
    exact .inl (looks_same fun i h => by cases h)

theorem makes_newData (oi : OiFits R) (s : Session R) : Makes s (newData oi s) := .inr ⟨s.buffer, oi, rfl⟩

theorem objects_no_value (data : List (OiFits R)) (l : List Obj) (v : Value R) : objects data l ≠ .error (.value v) := by
  induction l with
  | nil => intro h; cases h
  | cons o l ih =>
    intro h
    cases o with
    | other => cases h
    | none =>
      rw [objects] at h
      split at h
      · cases h
      · cases h
    | data i =>
      rw [objects] at h
      split at h
      · cases h
      · split at h
        · rename_i e he
          cases h
          exact ih he
        · cases h

/-- What a call does to the session, by kind of call. -/
theorem step_cases (s : Session R) (c : Call R) :
    Makes s (step u today s c) ∨
    (c = .filter ∧ step u today s c = ({ s with filters := s.filters ++ [init_oi_filter R] }, .value (.filter s.filters.length))) ∨
    (∃ k a f g, c = .set k a ∧ s.filters[k]? = some f ∧ setAttr f a = .ok (.ok g) ∧
      step u today s c = ({ s with filters := s.filters.set k g }, .value .nothing)) ∨
    (∃ i name oi, c = .write i name ∧ s.data[i]? = some oi ∧ step u today s c = pyWrite today oi name s) := by
  have hT := untouched_pre (R := R)
  have ends : ∀ {v : Value R} (s : Session R), (∀ i, v ≠ .data i) → Looks s (s, .value v) :=
    fun s hv => looks_same fun i h => by injection h with h; exact hv i h
  cases c with
  | oifits filename =>
    left
    unfold step newOiFits
    cases filename with
    | none => exact makes_newData _ _
    | some name =>
      refine makes_inC (obeys_readFile hT _ _) fun a b => ?_
      unfold constructed
      split
      · exact .inl (looks_same fun i h => by cases h)
      · cases a.1 with
        | none => exact .inl (looks_same fun i h => by cases h)
        | some oi => exact makes_newData _ _
  | write i name =>
    unfold step withData
    simp only
    cases hd : s.data[i]? with
    | none => exact .inl (.inl (looks_same fun i h => by cases h))
    | some oi => exact .inr (.inr (.inr ⟨i, name, oi, rfl, hd, rfl⟩))
  | str i =>
    left; left
    rw [step]
    refine looks_withData fun oi => looks_inC (obeys_textOf _) fun t b => ends _ ?_
    intro i h
    cases h
  | numTargets i =>
    left; left
    rw [step]
    refine looks_withData fun oi => ends _ ?_
    intro i h
    cases h
  | getTarget i id =>
    left; left
    rw [step]
    refine looks_withData fun oi => ends _ ?_
    intro i h
    cases h
  | getNelement i a =>
    left; left
    rw [step]
    refine looks_withData fun oi => looks_inC (obeys_call hT _) fun t b => ends _ ?_
    intro i h
    cases h
  | getElement i a n =>
    left; left
    rw [step]
    refine looks_withData fun oi => ends _ ?_
    intro i h
    cases h
  | getNwave i a =>
    left; left
    rw [step]
    refine looks_withData fun oi => looks_inC (obeys_call hT _) fun t b => ends _ ?_
    intro i h
    cases h
  | getEffWave i a =>
    left; left
    rw [step]
    refine looks_withData fun oi => looks_inC (obeys_call hT _) fun t b => ends _ ?_
    intro i h
    cases h
  | getEffBand i a =>
    left; left
    rw [step]
    refine looks_withData fun oi => looks_inC (obeys_call hT _) fun t b => ends _ ?_
    intro i h
    cases h
  | filter => exact .inr (.inl ⟨rfl, rfl⟩)
  | set k a =>
    cases hf : s.filters[k]? with
    | none =>
      left; left
      rw [step, hf]
      exact looks_same fun i h => by cases h
    | some f =>
      cases ha : setAttr f a with
      | ok r =>
        cases r with
        | ok g => exact .inr (.inr (.inl ⟨k, a, f, g, rfl, hf, ha, step_set_ok hf ha⟩))
        | error e =>
          left; left
          rw [step, hf]
          simp only
          rw [inC_call_ok ha]
          exact looks_same fun i h => by cases h
      | abort =>
        left; left
        rw [step, hf]
        simp only [ha]
        exact looks_same (e := .crash _) fun i h => by cases h
      | ub =>
        left; left
        rw [step, hf]
        simp only [ha]
        exact looks_same (e := .crash _) fun i h => by cases h
  | filterStr k =>
    left; left
    rw [step]
    cases s.filters[k]? with
    | none => exact looks_same fun i h => by cases h
    | some f =>
      refine looks_inC (obeys_textOf _) fun t b => ends _ ?_
      intro i h
      cases h
  | apply k o =>
    left
    rw [step]
    cases s.filters[k]? with
    | none => exact .inl (looks_same fun i h => by cases h)
    | some f =>
      cases o with
      | other => exact .inl (looks_same fun i h => by cases h)
      | none => exact .inl (looks_same fun i h => by cases h)
      | data i =>
        simp only [withData]
        cases s.data[i]? with
        | none => exact .inl (looks_same fun i h => by cases h)
        | some oi => exact makes_inC (obeys_call hT _) fun a b => makes_newData _ _
  | mergelist l =>
    left
    unfold step mergelist
    cases l with
    | notSeq => exact .inl (looks_same fun i h => by cases h)
    | seq l =>
      simp only
      cases ho : objects s.data l with
      | error e =>
        refine .inl (looks_same fun i h => ?_)
        subst h
        exact objects_no_value _ _ _ ho
      | ok ois => exact makes_inC (obeys_call hT _) fun a b => makes_newData _ _
  | check n o =>
    left; left
    rw [step]
    refine looks_withData fun oi => ?_
    unfold pyCheck
    cases checkList[n]? with
    | none => exact looks_same fun i h => by cases h
    | some check =>
      refine looks_inC (obeys_call hT _) fun r b => looks_inC (obeys_textOf _) fun t b => ends _ ?_
      intro i h
      cases h

end Verif
