import Verif.Proof.HeldTables

/-! The same for OI_TARGET, OI_FLUX and OI_VIS tables, of which parts are optional, and for
the primary header. -/

namespace Verif
open Outcome Spec

variable {R : FP} {α β γ ι : Type} {soft : Prop} {h : Hdu R}

theorem FitsM.bind_assoc {m : FitsM R α} {f : α → FitsM R β} {g : β → FitsM R γ} :
    (m >>= f) >>= g = m >>= fun a => f a >>= g := by
  funext s
  change FitsM.bind (FitsM.bind m f) g s = FitsM.bind m (fun a => FitsM.bind (f a) g) s
  unfold FitsM.bind
  cases m s <;> rfl

theorem FitsM.pure_bind (a : α) (f : α → FitsM R β) : (pure a >>= f) = f a := rfl

theorem Sem.mono {m : FitsM R α} {v : Option α} {soft' : Prop} (hs : Sem soft h m v) (hi : soft → soft') :
    Sem soft' h m v :=
  ⟨hs.ok, fun hv s h' => (hs.err hv s h').imp_right fun ⟨a, s', h1, h2⟩ => ⟨a, s', h1, h2.1, fun e => hi (h2.2 e)⟩⟩

/-! ### OI_TARGET -/

theorem valTextOpt_some {name : CStr} {w : Option Nat} {i : Nat} {d x : CStr} {b : Bool} :
    valTextOpt h true name w i d = some (b, x) ↔
      (b = true ∧ hasColumn name h = true ∧ Text h name w i x) ∨ (b = false ∧ hasColumn name h = false ∧ x = d) := by
  unfold valTextOpt
  cases hc : hasColumn name h with
  | false =>
    rw [if_pos ⟨rfl, rfl⟩]
    constructor
    · intro e; cases e; exact .inr ⟨rfl, rfl, rfl⟩
    · rintro (⟨_, e, _⟩ | ⟨rfl, _, rfl⟩)
      · cases e
      · rfl
  | true =>
    rw [if_neg (by simp)]
    constructor
    · intro e
      obtain ⟨y, hy, e⟩ := Option.map_eq_some_iff.mp e
      cases e
      exact .inl ⟨rfl, rfl, valText_some.mp hy⟩
    · rintro (⟨rfl, _, e⟩ | ⟨_, e, _⟩)
      · rw [valText_some.mpr e]; rfl
      · cases e

theorem tells_target (hb : h.type = .binary) (u : Undef R) (i : Nat) :
    Tells True h (readTarget u i) (TargetIn h false i) := by
  unfold readTarget
  apply Tells.mk
  · sem
  · intro a ha
    parts at ha
    obtain ⟨x1, h1, _, ⟨x2, h2, rfl⟩, x3, h3, x4, h4, x5, h5, x6, h6, x7, h7, x8, h8, _, ⟨x9, h9, rfl⟩,
      _, ⟨x10, h10, rfl⟩, x11, h11, x12, h12, x13, h13, x14, h14, x15, h15, x16, h16, _, ⟨x17, h17, rfl⟩, rfl⟩ := ha
    exact ⟨h1, ⟨_, h2, rfl⟩, h3, h4, h5, h6, h7, h8, h9, h10, h11, h12, h13, h14, h15, h16, ⟨_, h17, rfl⟩,
      fun e => by cases e⟩
  · intro a ha
    obtain ⟨x, hx, -⟩ := ha.target
    obtain ⟨y, hy, -⟩ := ha.spectyp
    rw [valOne_some.mpr ha.target_id, valText_some.mpr hx, valOne_some.mpr ha.raep0, valOne_some.mpr ha.decep0,
      valOne_some.mpr ha.equinox, valOne_some.mpr ha.ra_err, valOne_some.mpr ha.dec_err, valOne_some.mpr ha.sysvel,
      valText_some.mpr ha.veltyp, valText_some.mpr ha.veldef, valOne_some.mpr ha.pmra, valOne_some.mpr ha.pmdec,
      valOne_some.mpr ha.pmra_err, valOne_some.mpr ha.pmdec_err, valOne_some.mpr ha.parallax,
      valOne_some.mpr ha.para_err, valText_some.mpr hy]
    exact ⟨_, rfl⟩

theorem sem_category (hb : h.type = .binary) (i : Nat) (t : Target R) : Sem True h (readCategory i t)
    ((valText h "CATEGORY" (some 3) i).map fun x => { t with category := x }) := by
  unfold readCategory
  refine ((sem_col_string hb (.inl trivial) 3 i t.category).bind (fun p => Sem.pure _)
    fun _ => Still.of (Inert.pure _)).congr ?_
  cases valText h "CATEGORY" (some 3) i <;> rfl

theorem inert_category (i : Nat) (t : Target R) : Inert (readCategory i t) := by
  unfold readCategory; inert

/-- `readCategories` of at least one target. -/
theorem sem_categories (hb : h.type = .binary) (rev : Int) (t : Target R) (rest : List (Target R)) :
    Sem True h (readCategories rev (t :: rest)) (if rev ≥ 2 then
      (valTextOpt h true "CATEGORY" (some 3) 1 t.category).bind fun p =>
        if p.1 = true then
          (valRecs (fun i t => (valText h "CATEGORY" (some 3) i).map fun x => { t with category := x }) 2 rest).bind
            fun rest' => some ⟨rev, { t with category := p.2 } :: rest', true⟩
        else some ⟨rev, { t with category := p.2 } :: rest, false⟩
      else some ⟨rev, t :: rest, false⟩) := by
  unfold readCategories
  refine Sem.ite (fun _ => ?_) fun _ => Sem.pure _
  dsimp only
  apply Sem.congr
  · apply (sem_col_string_opt hb 3 1 t.category).bind2
    · intro b v
      dsimp only
      apply Sem.ite
      · intro _
        exact (Sem.forRecs (fun i t => sem_category hb i t) (fun i t => Still.of (inert_category i t)) 2 rest).bind
          (fun _ => Sem.pure _) fun _ => Still.of (Inert.pure _)
      · intro _
        exact Sem.pure _
    · intro b v
      dsimp only
      split
      · exact (Still.forRecs (fun i t => Still.of (inert_category i t)) 2 rest).bind fun _ => Still.of (Inert.pure _)
      · exact Still.of (Inert.pure _)
  · rfl

theorem still_categories (rev : Int) (t : Target R) (rest : List (Target R)) :
    Still soft (readCategories rev (t :: rest)) := by
  unfold readCategories
  split
  · refine (Still.of (inert_col_string _ _ _ _ _)).bind fun p => ?_
    dsimp only
    split
    · exact (Still.forRecs (fun i t => Still.of (inert_category i t)) 2 rest).bind fun _ => Still.of (Inert.pure _)
    · exact Still.of (Inert.pure _)
  · exact Still.of (Inert.pure _)

theorem sem_targets (hb : h.type = .binary) (u : Undef R) : ∃ w : Nat → Option (Target R),
    (∀ i t, w i = some t → TargetIn h false i t) ∧ (∀ i t, TargetIn h false i t → ∃ t', w i = some t') ∧
    ∀ (rev : Int) {n : Nat}, n ≠ 0 → Sem True h (forRows 1 n (readTarget u) >>= readCategories rev)
      ((w 1).bind fun t => (valRows w 2 (n - 1)).bind fun rest => if rev ≥ 2 then
        (valTextOpt h true "CATEGORY" (some 3) 1 t.category).bind fun p =>
          if p.1 = true then
            (valRecs (fun i t => (valText h "CATEGORY" (some 3) i).map fun x => { t with category := x }) 2 rest).bind
              fun rest' => some ⟨rev, { t with category := p.2 } :: rest', true⟩
          else some ⟨rev, { t with category := p.2 } :: rest, false⟩
        else some ⟨rev, t :: rest, false⟩) := by
  have ht := fun i => tells_target hb u i
  have hi : ∀ i, Still True (readTarget u i) := fun i => Still.of (by unfold readTarget; inert)
  refine ⟨fun i => (ht i).choose, fun i => (ht i).choose_spec.2.1, fun i t h' => (ht i).choose_spec.2.2 ⟨t, h'⟩, fun rev n hn => ?_⟩
  obtain ⟨n, rfl⟩ : ∃ k, n = k + 1 := ⟨n - 1, by omega⟩
  rw [forRows, FitsM.bind_assoc]
  have hrows : ∀ k m, Still True (forRows k m (readTarget u)) := fun k m =>
    Still.of (Inert.forRows (fun i => by unfold readTarget; inert) _ _)
  refine (ht 1).choose_spec.1.bind (fun t => ?_) fun t => ?_
  · rw [FitsM.bind_assoc]
    refine (Sem.forRows (fun i => (ht i).choose_spec.1) hi 2 n).bind (fun rest => ?_) fun rest => ?_
    · rw [FitsM.pure_bind]; exact sem_categories hb rev t rest
    · rw [FitsM.pure_bind]; exact still_categories rev t rest
  · rw [FitsM.bind_assoc]
    exact (hrows 2 n).bind fun rest => by rw [FitsM.pure_bind]; exact still_categories rev t rest

theorem targetIn_category {i : Nat} {t : Target R} (ht : TargetIn h false i t) {v : CStr}
    (hv : Text h "CATEGORY" (some 3) i v) : TargetIn h true i { t with category := v } :=
  { ht with category := fun _ => hv }

theorem targetIn_weaken {i : Nat} {t : Target R} {b : Bool} (ht : TargetIn h b i t) : TargetIn h false i t :=
  { ht with category := fun e => by cases e }

theorem targetIn_forget {i : Nat} {t : Target R} (ht : TargetIn h false i t) (v : CStr) :
    TargetIn h false i { t with category := v } :=
  { ht with category := fun e => by cases e }

theorem rows_cons {x : α} {xs : List α} {P : Nat → α → Prop} (hn : h.nrows ≠ 0) (hl : xs.length = h.nrows - 1)
    (h1 : P 1 x) (h2 : ∀ i r, xs[i]? = some r → P (2 + i) r) : Rows h (x :: xs) P := by
  refine ⟨hn, by simp only [List.length_cons]; omega, fun i r hi => ?_⟩
  cases i with
  | zero => cases hi; exact h1
  | succ i =>
    have := h2 i r (by simpa using hi)
    rwa [show 2 + i = i + 1 + 1 by omega] at this

theorem Sem.bindv {m : FitsM R α} {f : α → FitsM R β} {v : Option α} {w : α → Option β}
    (hm : Sem soft h m v) (hf : ∀ a, v = some a → Sem soft h (f a) (w a)) (hs : ∀ a, Still soft (f a)) :
    Sem soft h (m >>= f) (v.bind w) := by
  cases hv : v with
  | none =>
    refine ⟨fun a ha => (by cases ha), fun _ s hs' => ?_⟩
    rcases hm.err hv s hs' with h1 | ⟨a, s', h1, h2⟩
    · left; change FitsM.bind _ _ s = _; simp [FitsM.bind, h1]
    · rw [FitsM.bind_ok h1]; exact (hs a).run s' h2
  | some a =>
    refine ⟨fun b hb s hs' => ?_, fun hb s hs' => ?_⟩
    · rw [FitsM.bind_ok (hm.ok a hv s hs')]; exact (hf a hv).ok b hb s hs'
    · rw [FitsM.bind_ok (hm.ok a hv s hs')]; exact (hf a hv).err hb s hs'

theorem Still.guard (out : α) (m : FitsM R α) : Still soft (guardStatus out m) :=
  Still.of (Inert.guard out m)

theorem Sem.allocv {n : Nat} {f : Unit → FitsM R β} {v : Option β} (hf : n ≠ 0 → Sem soft h (f ()) v) :
    Sem soft h (FitsM.lift (chkmallocN n) >>= f) (if n = 0 then none else v) := by
  by_cases hn : n = 0
  · subst hn
    rw [if_pos rfl]
    exact ⟨fun a ha => (by cases ha), fun _ s _ => .inl rfl⟩
  · exact (Sem.alloc (hf hn)).congr (by rw [if_neg hn])

theorem tells_targets (hb : h.type = .binary) (u : Undef R) (old : OiTarget R) :
    Tells True h (do
      let revision ← fits_read_key_int "OI_REVN" old.revision
      guardStatus { old with revision := revision } do
        let nrows ← fits_get_num_rows 0
        guardStatus { old with revision := revision } do
          FitsM.lift (chkmallocN nrows)
          let targ ← forRows 1 nrows (readTarget u)
          readCategories revision targ) (TargetsIn h) := by
  obtain ⟨w, hw1, hw2, hw⟩ := sem_targets hb u
  apply Tells.mk
  · apply Sem.bind
    · apply sem_key_int
    · intro rev
      apply Sem.guard
      apply Sem.bind
      · apply sem_num_rows hb
      · intro n
        apply Sem.guard
        exact Sem.allocv fun hn => hw rev hn
      · intro n; exact Still.guard _ _
    · intro n; exact Still.guard _ _
  · intro a ha
    parts at ha
    obtain ⟨rev, hrev, _, rfl, hn, t, ht, rest, hrest, ha⟩ := ha
    obtain ⟨hl, hr⟩ := valRows_some.mp hrest
    by_cases h2 : rev ≥ 2
    · rw [if_pos h2] at ha
      parts at ha
      obtain ⟨⟨b, x⟩, hp, ha⟩ := ha
      rcases valTextOpt_some.mp hp with ⟨rfl, hc, hx⟩ | ⟨rfl, hc, hx⟩
      · rw [if_pos rfl] at ha
        parts at ha
        obtain ⟨rest', h', rfl⟩ := ha
        obtain ⟨hl', hr'⟩ := valRecs_some.mp h'
        refine ⟨hrev, by rw [hc, decide_eq_true h2]; rfl, rows_cons hn (by omega) (targetIn_category (hw1 _ _ ht) hx) fun i r hi => ?_⟩
        have hi' : i < rest.length := by
          have := (List.getElem?_eq_some_iff.mp hi).1; omega
        have e := hr' i _ r (List.getElem?_eq_getElem hi') hi
        parts at e
        obtain ⟨v, hv, rfl⟩ := e
        exact targetIn_category (hw1 _ _ (hr i _ (List.getElem?_eq_getElem hi'))) hv
      · rw [if_neg (by simp)] at ha
        cases ha
        exact ⟨hrev, by rw [hc, Bool.and_false], rows_cons hn hl (targetIn_forget (hw1 _ _ ht) _) fun i r hi => hw1 _ _ (hr i r hi)⟩
    · rw [if_neg h2] at ha
      cases ha
      exact ⟨hrev, by rw [decide_eq_false h2, Bool.false_and], rows_cons hn hl (hw1 _ _ ht) fun i r hi => hw1 _ _ (hr i r hi)⟩
  · intro a ha
    have hn := ha.targ.nonempty
    have hex : ∀ i, i < h.nrows → ∃ t, TargetIn h a.usecategory (i + 1) t := fun i hi =>
      ⟨_, ha.targ.row i _ (List.getElem?_eq_getElem (by rw [ha.targ.each]; exact hi))⟩
    have hwx : ∀ i, i < h.nrows → ∃ t, w (i + 1) = some t := fun i hi => by
      obtain ⟨t, ht⟩ := hex i hi
      exact hw2 _ _ (targetIn_weaken ht)
    obtain ⟨t, ht⟩ := hwx 0 (by omega)
    obtain ⟨rest, hrest⟩ := valRows_exists (w := w) (first := 2) (n := h.nrows - 1) fun i hi => by
      have := hwx (i + 1) (by omega)
      rwa [show i + 1 + 1 = 2 + i by omega] at this
    rw [toOption_ok ha.revision]
    simp only [Option.bind_some, if_neg hn]
    rw [ht]
    simp only [Option.bind_some]
    rw [hrest]
    simp only [Option.bind_some]
    by_cases h2 : a.revision ≥ 2
    · rw [if_pos h2]
      have hu := ha.usecategory
      rw [decide_eq_true h2, Bool.true_and] at hu
      cases hc : hasColumn "CATEGORY" h with
      | false =>
        rw [valTextOpt_some.mpr (.inr ⟨rfl, hc, rfl⟩)]
        exact ⟨_, rfl⟩
      | true =>
        rw [hc] at hu
        rw [hu] at hex
        obtain ⟨t1, ht1⟩ := hex 0 (by omega)
        rw [valTextOpt_some.mpr (.inl ⟨rfl, hc, ht1.category rfl⟩)]
        simp only [Option.bind_some, if_true]
        obtain ⟨ys, hys⟩ := valRecs_exists
          (w := fun i t => (valText h "CATEGORY" (some 3) i).map fun x => { t with category := x }) (first := 2)
          (l := rest) fun i t hi => by
            have hl := (valRows_some.mp hrest).1
            have := (List.getElem?_eq_some_iff.mp hi).1
            obtain ⟨t2, ht2⟩ := hex (i + 1) (by omega)
            have e := ht2.category rfl
            rw [show i + 1 + 1 = 2 + i by omega] at e
            rw [valText_some.mpr e]
            exact ⟨_, rfl⟩
        rw [hys]
        exact ⟨_, rfl⟩
    · rw [if_neg h2]
      exact ⟨_, rfl⟩

end Verif
