import Verif.Spec.Check
import Verif.Proof.Loop
import Verif.Proof.File

/-! Lemmas for the conformity checks: each check emits a list of breaches. -/

namespace Verif
open Outcome Spec

variable {R : FP}

/-- Report breaches one after the other. -/
def replay (bs : List Breach) (r : CheckResult) : Outcome CheckResult :=
  bs.foldlM (fun r b => set_result r b.level b.description b.location) r

/-- `m` acts as the reports of `bs`. -/
def Emits (m : CheckM Unit) (bs : List Breach) : Prop :=
  ∀ r, m r = (replay bs r >>= fun r' => .ok ((), r'))

theorem replay_append (a b : List Breach) (r : CheckResult) :
    replay (a ++ b) r = (replay a r >>= replay b) := by
  simp [replay, List.foldlM_append]; rfl

theorem emits_pure : Emits (pure ()) [] := fun _ => rfl

theorem emits_bind {m m' : CheckM Unit} {a b : List Breach} (h : Emits m a) (h' : Emits m' b) :
    Emits (m >>= fun _ => m') (a ++ b) := by
  intro r
  show (m r >>= fun p => m' p.2) = _
  rw [h r, replay_append, bind_assoc, bind_assoc]
  congr 1
  funext r'
  exact h' r'

theorem emits_report (l : Level) (d t : CStr) : Emits (report l d t) [⟨l, d, shown t⟩] := by
  intro r
  simp only [report, replay, List.foldlM_cons, List.foldlM_nil]
  show _ = ((set_result r l d (shown t) >>= pure) >>= _)
  rw [bind_pure]
  rfl

theorem emits_if {c : Prop} [Decidable c] {m m' : CheckM Unit} {a b : List Breach}
    (h : c → Emits m a) (h' : ¬ c → Emits m' b) :
    Emits (if c then m else m') (if c then a else b) := by
  split
  · exact h ‹_›
  · exact h' ‹_›

theorem emits_when {c : Bool} {m : CheckM Unit} {a : List Breach} (h : c = true → Emits m a) :
    Emits (whenM c m) (if c = true then a else []) :=
  emits_if h (fun _ => emits_pure)

theorem emits_breachIf {c : Bool} {p : Prop} [Decidable p] (l : Level) (d t : CStr)
    (h : c = true ↔ p) : Emits (whenM c (report l d t)) (breachIf p l d t) := by
  unfold whenM breachIf
  by_cases hc : c = true
  · rw [if_pos hc, if_pos (h.mp hc)]; exact emits_report l d t
  · rw [if_neg hc, if_neg (fun hp => hc (h.mpr hp))]; exact emits_pure

theorem emits_read {α : Type} {l : List α} {i : Nat} {x : α} {f : α → CheckM Unit}
    {a : List Breach} (h : l[i]? = some x) (hf : Emits (f x) a) : Emits (readAt l i >>= f) a := by
  intro r
  show ((index l i >>= fun y => pure (y, r)) >>= fun p => f p.1 p.2) = _
  rw [index, h]
  exact hf r

theorem emits_congr {m : CheckM Unit} {a b : List Breach} (h : Emits m a) (e : a = b) :
    Emits m b := e ▸ h

theorem emits_enumFrom {α : Type} {f : Nat → α → CheckM Unit} {g : Nat → α → List Breach}
    {l : List α} (h : ∀ k, ∀ x ∈ l, Emits (f k x) (g (k + 1) x)) (k : Nat) :
    Emits (enumFromM k f l) ((l.zipIdx (k + 1)).flatMap fun e => g e.2 e.1) := by
  induction l generalizing k with
  | nil => exact emits_pure
  | cons x l ih =>
    rw [List.zipIdx_cons, List.flatMap_cons]
    exact emits_bind (h k x (by simp)) (ih (fun k y hy => h k y (by simp [hy])) (k + 1))

theorem emits_enum {α : Type} {f : Nat → α → CheckM Unit} {g : Nat → α → List Breach}
    {l : List α} (h : ∀ k, ∀ x ∈ l, Emits (f k x) (g (k + 1) x)) :
    Emits (enumM l f) (numbered g l) := emits_enumFrom h 0

theorem zipIdx_flatMap_const {α β : Type} (g : α → List β) (l : List α) (k : Nat) :
    ((l.zipIdx k).flatMap fun e => g e.1) = l.flatMap g := by
  induction l generalizing k with
  | nil => rfl
  | cons x l ih => rw [List.zipIdx_cons, List.flatMap_cons, List.flatMap_cons, ih]

theorem emits_each {α : Type} {f : Nat → α → CheckM Unit} {g : α → List Breach}
    {l : List α} (h : ∀ k, ∀ x ∈ l, Emits (f k x) (g x)) :
    Emits (enumM l f) (l.flatMap g) :=
  emits_congr (emits_enum (g := fun _ x => g x) h) (zipIdx_flatMap_const g l 1)

theorem emits_range {f : Nat → CheckM Unit} {g : Nat → List Breach} {n : Nat}
    (h : ∀ j, j < n → Emits (f j) (g j)) : Emits (rangeM n f) ((List.range n).flatMap g) :=
  emits_each fun _ j hj => h j (List.mem_range.mp hj)

/-! ### The result of reporting -/

theorem storeLocation_ok {r : CheckResult} {i : Nat} (s : CStr) (h : i < r.location.length) :
    storeLocation r i s = .ok { r with location := r.location.set i (some s) } := by
  simp [storeLocation, h]

/-- One more breach, if the description is the same. -/
theorem reports_snoc {r : CheckResult} {bs : List Breach} {b : Breach} (h : Reports r bs)
    (hd : ∀ c ∈ bs, b.description = c.description) :
    ∃ r', set_result r b.level b.description b.location = .ok r' ∧ Reports r' (bs ++ [b]) := by
  obtain ⟨lvl, desc, n, loc⟩ := r
  obtain ⟨h1, h2, h3, h4, h5, h6, h7⟩ := h
  simp only at h1 h2 h3 h4 h5 h6 h7
  let lvl' := if b.level.toNat > lvl.toNat then b.level else lvl
  have hlvl : lvl.toNat ≤ lvl'.toNat ∧ b.level.toNat ≤ lvl'.toNat := by
    simp only [lvl']; split <;> omega
  have hlvl2 : lvl' = lvl ∨ lvl' = b.level := by
    simp only [lvl']; split <;> simp
  have hset : setLevelDesc ⟨lvl, desc, n, loc⟩ b.level b.description =
      .ok ⟨lvl', some b.description, n, loc⟩ := by
    unfold setLevelDesc
    have e : (if b.level.toNat > lvl.toNat then
        ({ level := b.level, description := desc, numBreach := n, location := loc } : CheckResult)
        else ⟨lvl, desc, n, loc⟩) = ⟨lvl', desc, n, loc⟩ := by
      simp only [lvl']; split <;> rfl
    simp only [e]
    cases bs with
    | nil => simp only [List.head?_nil, Option.map_none] at h4; subst h4; rfl
    | cons c bs =>
      simp only [List.head?_cons, Option.map_some] at h4
      subst h4
      have := hd c (by simp)
      simp [this]
  have hdesc : some b.description = (bs ++ [b]).head?.map (·.description) := by
    cases bs with
    | nil => rfl
    | cons c bs => simp [hd c (by simp)]
  have hat : ∀ c ∈ bs ++ [b], c.level.toNat ≤ lvl'.toNat := by
    intro c hc
    rcases List.mem_append.mp hc with hc | hc
    · exact Nat.le_trans (h1 c hc) hlvl.1
    · simp only [List.mem_singleton] at hc; subst hc; exact hlvl.2
  have hatt : lvl' = .none ∨ ∃ c ∈ bs ++ [b], c.level = lvl' := by
    rcases hlvl2 with e | e
    · rw [e]
      rcases h2 with h2 | ⟨c, hc, h2⟩
      · exact Or.inl h2
      · exact Or.inr ⟨c, by simp [hc], h2⟩
    · exact Or.inr ⟨b, by simp, e.symm⟩
  unfold set_result
  rw [hset, bind_ok]
  simp only
  rw [h3]
  by_cases hlt : bs.length + 1 < MAX_REPORT
  · rw [if_pos hlt]
    simp only [MAX_REPORT] at hlt
    rw [storeLocation_ok _ (by simp only [Nat.add_sub_cancel]; omega)]
    refine ⟨_, rfl, hat, hatt, by simp, hdesc, ?_, ?_, by simp [h7]⟩
    · intro i hi
      simp only [Nat.add_sub_cancel]
      rw [List.getElem?_set]
      by_cases e : bs.length = i
      · subst e
        rw [if_pos rfl, if_pos (by omega)]
        simp
      · rw [if_neg e, h5 i hi]
        congr 2
        by_cases hi' : i < bs.length
        · rw [List.getElem?_append_left hi']
        · rw [List.getElem?_eq_none (by omega), List.getElem?_eq_none (by simp; omega)]
    · simp only [Nat.add_sub_cancel]
      rw [List.getElem?_set, if_neg (by omega), h6, if_neg (by omega), if_neg (by simp; omega)]
  · rw [if_neg hlt]
    have hM : MAX_REPORT = 10 := rfl
    by_cases heq : bs.length + 1 = MAX_REPORT
    · rw [if_pos heq, storeLocation_ok _ (by simp only; omega)]
      rw [hM] at heq ⊢
      refine ⟨_, rfl, hat, hatt, by simp, hdesc, ?_, ?_, by simp [h7]⟩
      · intro i hi
        simp only
        rw [List.getElem?_set, if_neg (by omega), h5 i hi, List.getElem?_append_left (by omega)]
      · simp only
        rw [List.getElem?_set, if_pos (by decide), if_pos (by omega), if_pos (by simp; omega)]
    · rw [if_neg heq]
      refine ⟨_, rfl, hat, hatt, by simp, hdesc, ?_, ?_, h7⟩
      · intro i hi
        simp only
        rw [h5 i hi, List.getElem?_append_left (by omega)]
      · simp only
        rw [h6, if_pos (by omega), if_pos (by simp; omega)]

theorem reports_init : Reports init_check_result [] where
  atLeast := by simp
  attained := Or.inl rfl
  numBreach := rfl
  description := rfl
  stored := by
    intro i hi
    simp only [init_check_result, MAX_REPORT]
    rw [List.getElem?_replicate]
    simp
    omega
  marker := rfl
  size := rfl

theorem replay_reports {bs : List Breach} : ∀ {r : CheckResult} {pre : List Breach},
    Reports r pre → SameDescription (pre ++ bs) →
    ∃ r', replay bs r = .ok r' ∧ Reports r' (pre ++ bs) := by
  induction bs with
  | nil => intro r pre h _; exact ⟨r, rfl, by simpa using h⟩
  | cons b bs ih =>
    intro r pre h hs
    obtain ⟨r', e, hr'⟩ := reports_snoc (b := b) h
      (fun c hc => hs b (by simp) c (by simp [hc]))
    obtain ⟨r'', e', hr''⟩ := ih hr' (by simpa using hs)
    refine ⟨r'', ?_, by simpa using hr''⟩
    rw [← e']
    show (set_result r b.level b.description b.location >>= _) = _
    rw [e]
    rfl

theorem setLevelDesc_abort {r : CheckResult} {l : Level} {d e : CStr} (h : r.description = some e)
    (hne : d ≠ e) : setLevelDesc r l d = .abort := by
  unfold setLevelDesc
  obtain ⟨lvl, desc, n, loc⟩ := r
  simp only at h
  subst h
  simp only
  split <;> rename_i h'
  · split at h' <;> simp at h'
  · split at h' <;> simp only [Option.some.injEq] at h' <;> subst h' <;> rw [if_neg hne]

theorem replay_abort {bs : List Breach} : ∀ {r : CheckResult} {pre : List Breach} {d : CStr},
    Reports r pre → (∀ b ∈ pre, b.description = d) → pre ≠ [] →
    (∃ b ∈ bs, b.description ≠ d) → replay bs r = .abort := by
  induction bs with
  | nil => intro r pre d _ _ _ h; simp at h
  | cons b bs ih =>
    intro r pre d h hp hne hex
    show (set_result r b.level b.description b.location >>= _) = _
    by_cases hb : b.description = d
    · obtain ⟨r', e, hr'⟩ := reports_snoc (b := b) h (fun c hc => by rw [hb, hp c hc])
      rw [e, bind_ok]
      refine ih (d := d) hr' ?_ (by simp) ?_
      · intro c hc
        rcases List.mem_append.mp hc with hc | hc
        · exact hp c hc
        · simp only [List.mem_singleton] at hc; subst hc; exact hb
      · obtain ⟨c, hc, hne⟩ := hex
        rcases List.mem_cons.mp hc with rfl | hc
        · exact absurd hb hne
        · exact ⟨c, hc, hne⟩
    · have hd : r.description = some d := by
        rw [h.description]
        cases pre with
        | nil => exact absurd rfl hne
        | cons c pre => simp [hp c (by simp)]
      unfold set_result
      rw [setLevelDesc_abort hd hb]
      rfl

theorem replay_init_ok {bs : List Breach} (hs : SameDescription bs) :
    ∃ r, replay bs init_check_result = .ok r ∧ Reports r bs :=
  replay_reports (pre := []) reports_init (by simpa using hs)

theorem replay_init_abort {bs : List Breach} (hs : ¬ SameDescription bs) :
    replay bs init_check_result = .abort := by
  cases bs with
  | nil => exact absurd (by simp [SameDescription]) hs
  | cons b bs =>
    obtain ⟨r', e, hr'⟩ := reports_snoc (b := b) reports_init (by simp)
    show (set_result init_check_result b.level b.description b.location >>= _) = _
    rw [e, bind_ok]
    refine replay_abort (d := b.description) hr' (by simp) (by simp) ?_
    apply Classical.byContradiction
    intro hn
    apply hs
    have key : ∀ c ∈ b :: bs, c.description = b.description := by
      intro c hc
      rcases List.mem_cons.mp hc with rfl | hc
      · rfl
      · exact Classical.byContradiction fun hne => hn ⟨c, hc, hne⟩
    intro c hc c' hc'
    rw [key c hc, key c' hc']

theorem runCheck_emits {m : CheckM Unit} {bs : List Breach} (h : Emits m bs) :
    runCheck m = replay bs init_check_result := by
  show (m init_check_result >>= _) = _
  rw [h, bind_assoc]
  show (replay bs init_check_result >>= pure) = _
  rw [bind_pure]

theorem runCheck_ok {m : CheckM Unit} {bs : List Breach} (h : Emits m bs)
    (hs : SameDescription bs) : ∃ r, runCheck m = .ok r ∧ Reports r bs := by
  rw [runCheck_emits h]; exact replay_init_ok hs

theorem sameDescription_of {bs : List Breach} (d : CStr) (h : ∀ b ∈ bs, b.description = d) :
    SameDescription bs := fun b hb c hc => by rw [h b hb, h c hc]

/-- A level other than `none` iff there are breaches. -/
theorem reports_none_iff {r : CheckResult} {bs : List Breach} (h : Reports r bs)
    (hl : ∀ b ∈ bs, b.level ≠ .none) : r.level = .none ↔ bs = [] := by
  constructor
  · intro hr
    cases bs with
    | nil => rfl
    | cons b bs =>
      have h1 := h.atLeast b (by simp)
      have h2 := hl b (by simp)
      rw [hr] at h1
      cases hb : b.level <;> simp_all [Level.toNat]
  · intro e
    subst e
    rcases h.attained with h | ⟨b, hb, _⟩
    · exact h
    · simp at hb

theorem reports_level {r : CheckResult} {bs : List Breach} {l : Level} (h : Reports r bs)
    (hl : ∀ b ∈ bs, b.level = l) : r.level = .none ∨ r.level = l := by
  rcases h.attained with h | ⟨b, hb, h⟩
  · exact Or.inl h
  · exact Or.inr (by rw [← h, hl b hb])

/-! ### Breach lists -/

theorem forall_numbered {α : Type} {P : Breach → Prop} {f : Nat → α → List Breach} {l : List α}
    (h : ∀ k, ∀ x ∈ l, ∀ b ∈ f k x, P b) : ∀ b ∈ numbered f l, P b := by
  intro b hb
  simp only [numbered, List.mem_flatMap] at hb
  obtain ⟨e, he, hb⟩ := hb
  exact h e.2 e.1 (List.fst_mem_of_mem_zipIdx he) b hb

theorem forall_breachIf {P : Breach → Prop} {p : Prop} [Decidable p] {l : Level} {d t : CStr}
    (h : P ⟨l, d, shown t⟩) : ∀ b ∈ breachIf p l d t, P b := by
  intro b hb
  unfold breachIf at hb
  split at hb
  · simp only [List.mem_singleton] at hb; subst hb; exact h
  · simp at hb

theorem forall_append {P : Breach → Prop} {a b : List Breach} (ha : ∀ x ∈ a, P x)
    (hb : ∀ x ∈ b, P x) : ∀ x ∈ a ++ b, P x := by
  intro x hx
  rcases List.mem_append.mp hx with h | h
  · exact ha x h
  · exact hb x h

theorem forall_flatMap {α : Type} {P : Breach → Prop} {f : α → List Breach} {l : List α}
    (h : ∀ x ∈ l, ∀ b ∈ f x, P b) : ∀ b ∈ l.flatMap f, P b := by
  intro b hb
  obtain ⟨x, hx, hb⟩ := List.mem_flatMap.mp hb
  exact h x hx b hb

theorem forall_ite {P : Breach → Prop} {c : Prop} [Decidable c] {a b : List Breach}
    (ha : ∀ x ∈ a, P x) (hb : ∀ x ∈ b, P x) : ∀ x ∈ (if c then a else b), P x := by
  split
  · exact ha
  · exact hb

theorem forall_nil {P : Breach → Prop} : ∀ x ∈ ([] : List Breach), P x := by simp

theorem numbered_eq_nil {α : Type} {f : Nat → α → List Breach} {l : List α} {P : α → Prop}
    (h : ∀ k, ∀ x ∈ l, (f k x = [] ↔ P x)) : numbered f l = [] ↔ ∀ x ∈ l, P x := by
  unfold numbered
  rw [List.flatMap_eq_nil_iff]
  constructor
  · intro hn x hx
    obtain ⟨i, hi, e⟩ := List.getElem_of_mem hx
    have : (x, 1 + i) ∈ l.zipIdx 1 := by
      rw [List.mem_iff_getElem]
      exact ⟨i, by simpa using hi, by simp [e]⟩
    exact (h _ x hx).mp (hn _ this)
  · intro hp e he
    exact (h e.2 e.1 (List.fst_mem_of_mem_zipIdx he)).mpr (hp e.1 (List.fst_mem_of_mem_zipIdx he))

theorem breachIf_eq_nil {p : Prop} [Decidable p] {l : Level} {d t : CStr} :
    breachIf p l d t = [] ↔ ¬ p := by
  unfold breachIf
  split <;> simp_all

/-! ### Texts -/

theorem fmtInt_nat (n : Nat) : fmtInt (n : Int) = dec n := by
  unfold fmtInt dec
  rw [if_neg (by omega)]
  rfl

theorem fmtInt_succ (n : Nat) : fmtInt ((n : Int) + 1) = dec (n + 1) := by
  have : (n : Int) + 1 = ((n + 1 : Nat) : Int) := by omega
  rw [this, fmtInt_nat]

theorem tableText_eq (name : CStr) (k : Nat) : tableText name k = atTable name (k + 1) := by
  simp only [tableText, atTable, fmtInt_succ]

theorem tableText_neg (name : CStr) : tableText name (-1) = atTable name 0 := by
  simp only [tableText, atTable]
  have : fmtInt (-1 + 1) = dec 0 := by decide
  rw [this]

theorem recordText_eq (name : CStr) (k i : Nat) :
    recordText name k i = atRecord name (k + 1) (i + 1) := by
  simp only [recordText, atRecord, fmtInt_succ, tableText_eq]

theorem channelText_eq (name : CStr) (k i j : Nat) :
    channelText name k i j = atChannel name (k + 1) (i + 1) (j + 1) := by
  simp only [channelText, atChannel, fmtInt_succ, recordText_eq]

theorem is_two_iff (oi : OiFits R) : is_oi_fits_two oi = true ↔ V2 oi := by
  simp [is_oi_fits_two, V2]

theorem length_zero_iff (s : CStr) : (s.length == 0) = true ↔ s = [] := by simp

theorem lookup_target_isNone (oi : OiFits R) (id : Int) :
    (oi_fits_lookup_target oi id).isNone = true ↔ ¬ TargetKnown oi id := by
  rw [Option.isNone_iff_eq_none]
  unfold oi_fits_lookup_target TargetKnown
  simp

theorem lookup_element_isNone (oi : OiFits R) (arrname : CStr) (sta : Int) :
    (oi_fits_lookup_element oi arrname sta).isNone = true ↔ ¬ ElementKnown oi arrname sta := by
  rw [Option.isNone_iff_eq_none]
  unfold oi_fits_lookup_element oi_fits_lookup_array ElementKnown
  cases oi.arrayHash.lookup arrname with
  | none => simp
  | some a =>
    simp only [Option.some.injEq, exists_eq_left']
    simp

end Verif
