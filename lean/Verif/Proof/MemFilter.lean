import Verif.Proof.MemRead

/-! Ownership while a dataset is filtered. -/

namespace Verif.Mem

variable {α β σ τ : Type}

theorem memdup_bind' {M : Multiset Nat} {p : Ptr} {n : Nat} {f : Ptr → Mem β}
    {Q : β → Heap → Prop} (hp : 0 < n → Held p M)
    (H : ∀ q, q ≠ none → 0 < n → Triple (Own (blk q + M)) (f q) Q) :
    Triple (Own M) (memdup p n >>= f) Q := by
  unfold memdup
  simp only [bind_assoc, pure_bind]
  apply malloc_bind
  intro q hq hn
  apply touch_bind (held_add.mpr (.inr (hp hn)))
  exact H q hq hn

theorem held_left {p : Ptr} {A B : Multiset Nat} (h : Held p A) : Held p (A + B) :=
  held_add.mpr (.inl h)
theorem held_right {p : Ptr} {A B : Multiset Nat} (h : Held p B) : Held p (A + B) :=
  held_add.mpr (.inr h)

/-! ### OI_TARGET -/

theorem filter_target_loop {t : Target} {F : Multiset Nat} (ht : t.Ok) (hF : t.inner ≤ F)
    (w : Nat → Bool) (C : Prop) (hC : C → ∀ i j, w i = true → w j = true → i = j) :
    ∀ (l : List Nat) (o : Target) (L : Multiset Nat), l.Nodup → (∀ i ∈ l, i < t.ntarget) → o.Ok →
      (C → o.targ ≠ none → ∀ i ∈ l, w i = false) → (C → L = 0) →
      Triple (Own (o.inner + (L + F))) (memFold (fun (o : Target) i => do
        touch t.targ
        if w i then do
          let o' ← alloc_oi_target o 1
          touch o'.targ
          return o'
        else return o) o l)
        (fun o' h => ∃ L', (Own (o'.inner + (L' + F)) h ∧ o'.Ok) ∧ (C → L' = 0)) := by
  intro l
  induction l with
  | nil =>
    intro o L _ _ ho _ hL
    exact Triple.pure fun h hh => ⟨L, ⟨hh, ho⟩, hL⟩
  | cons a l ih =>
    intro o L hnd hlt ho hw hL
    obtain ⟨hna, hnd'⟩ := List.nodup_cons.mp hnd
    unfold memFold
    rw [bind_assoc]
    have hne : t.targ ≠ none := ht (Nat.lt_of_le_of_lt (Nat.zero_le _) (hlt a (by simp)))
    have hheld : Held t.targ F := held_of_le hne hF
    apply touch_bind (held_right (held_right hheld))
    cases hwa : w a with
    | false =>
      simp only [Bool.false_eq_true, if_false, pure_bind]
      exact ih o L hnd' (fun i hi => hlt i (List.mem_cons_of_mem _ hi)) ho
        (fun c h i hi => hw c h i (List.mem_cons_of_mem _ hi)) hL
    | true =>
      simp only [if_true, bind_assoc, pure_bind]
      refine Triple.bind (alloc_target _ _) fun o' => Triple.and fun ⟨h1, _⟩ => ?_
      apply touch_bind (held_left (held_blk h1))
      refine Triple.of_eq (M := o'.inner + ((o.inner + L) + F)) (ih o' (o.inner + L) hnd'
        (fun i hi => hlt i (List.mem_cons_of_mem _ hi)) (fun _ => h1) ?_ ?_) (by simp only [Target.inner]; abel)
      · intro c _ i hi
        cases hwi : w i with
        | false => rfl
        | true => exact absurd (hC c i a hwi hwa ▸ hi) hna
      · intro c
        have : o.targ = none := by
          by_contra hne
          have := hw c hne a (by simp)
          rw [hwa] at this; cases this
        rw [hL c, Target.inner, this]; rfl

theorem filter_target_rule {t : Target} {F : Multiset Nat} (ht : t.Ok) (hF : t.inner ≤ F)
    (target : Option (Nat → Bool)) (C : Prop)
    (hC : C → ∀ w, target = some w → ∀ i j, w i = true → w j = true → i = j) (k : Nat) :
    Triple (Own F) (filter_oi_target t target ⟨none, k⟩)
      (fun o h => ∃ L, (Own (o.inner + (L + F)) h ∧ o.Ok) ∧ (C → L = 0)) := by
  unfold filter_oi_target
  cases target with
  | none =>
    simp only []
    apply memdup_bind' (fun hn => held_of_le (ht hn) hF); intro p hp _
    refine Triple.pure fun h hh => ⟨0, ⟨?_, fun _ => hp⟩, fun _ => rfl⟩
    rw [zero_add]; exact hh
  | some w =>
    simp only []
    have := filter_target_loop (F := F) ht hF w C (fun c => hC c w rfl) (List.range t.ntarget)
      ⟨none, 0⟩ 0 List.nodup_range (fun i hi => List.mem_range.mp hi)
      (fun h => absurd h (Nat.lt_irrefl _)) (fun _ h => absurd rfl h) (fun _ => rfl)
    refine Triple.of_eq this ?_
    simp [Target.inner, blk]

/-! ### Tables with names -/

theorem HashNamed.insert {sf : τ → Ptr} {nameOf : τ → CStr} {l : List τ} {H H' : Hash} {t : τ}
    (h : HashNamed sf nameOf l H) (hi : InsertedIn H (sf t) (nameOf t) (sf t) H') :
    HashNamed sf nameOf (l ++ [t]) H' := by
  obtain ⟨h1, h2, h3, h4⟩ := hi
  have hm : ∀ x ∈ l, x ∈ l ++ [t] := fun x hx => List.mem_append.mpr (.inl hx)
  have ht : t ∈ l ++ [t] := by simp
  refine ⟨h1 ▸ h.self, h2 ▸ h.key, h3 ▸ h.val, ?_, ?_⟩
  · intro e' he'
    rcases h4 e' he' with h5 | ⟨h6, _, h5 | ⟨e, he, h7, h5⟩⟩
    · obtain ⟨x, hx, hx'⟩ := h.owner e' h5; exact ⟨x, hm x hx, hx'⟩
    · exact ⟨t, ht, h5.symm, h6.symm⟩
    · obtain ⟨x, hx, k1, k2⟩ := h.owner e he
      exact ⟨x, hm x hx, k1.trans h5.symm, k2.trans (h7.trans h6.symm)⟩
  · intro e' he'
    rcases h4 e' he' with h5 | ⟨h6, h7, _⟩
    · obtain ⟨x, hx, hx'⟩ := h.value e' h5; exact ⟨x, hm x hx, hx'⟩
    · exact ⟨t, ht, h7.symm, h6.symm⟩

theorem named_array {o : OiFits} {t : Array} {H : Hash} (h : o.Named) (hs : t.self ≠ none)
    (ht : t.Ok) (hi : InsertedIn o.arrayHash t.self t.arrname t.self H) :
    OiFits.Named { o with arrayList := o.arrayList ++ [t], arrayHash := H } :=
  ⟨⟨h.tables.1, mem_snoc h.tables.2 ⟨hs, ht⟩, h.tables.3, h.tables.4, h.tables.5, h.tables.6,
    h.tables.7, h.tables.8, h.tables.9⟩, h.array.insert hi, h.wave, h.corr⟩
theorem named_wave {o : OiFits} {t : Wave} {H : Hash} (h : o.Named) (hs : t.self ≠ none)
    (ht : t.Ok) (hi : InsertedIn o.wavelengthHash t.self t.insname t.self H) :
    OiFits.Named { o with wavelengthList := o.wavelengthList ++ [t], wavelengthHash := H } :=
  ⟨⟨h.tables.1, h.tables.2, mem_snoc h.tables.3 ⟨hs, ht⟩, h.tables.4, h.tables.5, h.tables.6,
    h.tables.7, h.tables.8, h.tables.9⟩, h.array, h.wave.insert hi, h.corr⟩
theorem named_corr {o : OiFits} {t : Corr} {H : Hash} (h : o.Named) (hs : t.self ≠ none)
    (ht : t.Ok) (hi : InsertedIn o.corrHash t.self t.corrname t.self H) :
    OiFits.Named { o with corrList := o.corrList ++ [t], corrHash := H } :=
  ⟨⟨h.tables.1, h.tables.2, h.tables.3, mem_snoc h.tables.4 ⟨hs, ht⟩, h.tables.5, h.tables.6,
    h.tables.7, h.tables.8, h.tables.9⟩, h.array, h.wave, h.corr.insert hi⟩

theorem named_safe {o : OiFits} {M : Multiset Nat} (h : o.Named) (hM : o.blocks ≤ M) :
    o.arrayHash.Safe M ∧ o.wavelengthHash.Safe M ∧ o.corrHash.Safe M :=
  ⟨h.ok.array.safe (le_blocks_hash o).1 hM, h.ok.wave.safe (le_blocks_hash o).2.1 hM,
    h.ok.corr.safe (le_blocks_hash o).2.2 hM⟩

theorem filter_array_rule {inp o : OiFits} {f : FilterPlan} {F : Multiset Nat} (hi : inp.OkIn F)
    (hF : inp.blocks ≤ F) (ho : o.Named) :
    Triple (Own (o.blocks + F)) (filter_all_oi_array inp f o)
      (fun o' h => Own (o'.blocks + F) h ∧ o'.Named) := by
  unfold filter_all_oi_array
  refine Triple.pre (memFold_rule (I := fun (o : OiFits) h => Own (o.blocks + F) h ∧ o.Named) _ _ ?_)
    fun h hh => ⟨hh, ho⟩
  intro o t ht
  refine Triple.and fun ho => ?_
  obtain ⟨hs, hk⟩ := hi.tables.array t ht
  have hle : t.blocks ≤ F := le_trans (array_le ht) hF
  apply touch_bind (held_right (held_self hs hle))
  split
  · refine Triple.bind (dup_array t hs hk (le_trans hle (Multiset.le_add_left _ _))) fun t' =>
      Triple.and fun ⟨h1, h2, _⟩ => ?_
    apply hashInsert_bind
      ((named_safe ho (Multiset.le_add_right _ F)).1.mono (Multiset.le_add_left _ _))
      ho.array.key ho.array.val (held_left (held_self (B := t'.inner) h2 (le_refl _)))
    intro H hH
    refine Triple.pure fun h hh => ⟨?_, named_array ho h2 h1 hH⟩
    rw [blocks_array o t' H hH.1, add_assoc]; exact hh
  · exact Triple.pure fun h hh => ⟨hh, ho⟩

theorem filter_corr_rule {inp o : OiFits} {f : FilterPlan} {F : Multiset Nat} (hi : inp.OkIn F)
    (hF : inp.blocks ≤ F) (ho : o.Named) :
    Triple (Own (o.blocks + F)) (filter_all_oi_corr inp f o)
      (fun o' h => Own (o'.blocks + F) h ∧ o'.Named) := by
  unfold filter_all_oi_corr
  refine Triple.pre (memFold_rule (I := fun (o : OiFits) h => Own (o.blocks + F) h ∧ o.Named) _ _ ?_)
    fun h hh => ⟨hh, ho⟩
  intro o t ht
  refine Triple.and fun ho => ?_
  obtain ⟨hs, hk⟩ := hi.tables.corr t ht
  have hle : t.blocks ≤ F := le_trans (corr_le ht) hF
  apply touch_bind (held_right (held_self hs hle))
  split
  · refine Triple.bind (dup_corr t hs hk (le_trans hle (Multiset.le_add_left _ _))) fun t' =>
      Triple.and fun ⟨h1, h2, _⟩ => ?_
    apply hashInsert_bind
      ((named_safe ho (Multiset.le_add_right _ F)).2.2.mono (Multiset.le_add_left _ _))
      ho.corr.key ho.corr.val (held_left (held_self (B := t'.inner) h2 (le_refl _)))
    intro H hH
    refine Triple.pure fun h hh => ⟨?_, named_corr ho h2 h1 hH⟩
    rw [blocks_corr o t' H hH.1, add_assoc]; exact hh
  · exact Triple.pure fun h hh => ⟨hh, ho⟩

/-! ### OI_WAVELENGTH -/

theorem filter_wave_rule {t : Wave} {n : Nat} {self useWave : Ptr} {M : Multiset Nat}
    (hs : t.self ≠ none) (ht : t.Ok) (hD : t.blocks ≤ M) (hself : Held self M)
    (huse : Held useWave M) :
    Triple (Own M) (filter_oi_wavelength t n self useWave)
      (fun t' h => Own (t'.inner + M) h ∧ t'.self = self ∧ (0 < t'.nwave → t'.Ok) ∧
        (t'.nwave = 0 → t'.inner = 0)) := by
  unfold filter_oi_wavelength
  have h0 : Held t.self M := held_self hs hD
  have h1 : Held t.eff_wave M :=
    Held.mono (held_right (held_left (held_blk ht.1))) hD
  have h2 : Held t.eff_band M :=
    Held.mono (held_right (held_right (held_blk ht.2))) hD
  apply touch_bind h0
  apply touch_bind hself
  apply malloc_bind; intro p hp hn
  apply malloc_bind; intro q hq _
  apply touch_bind (held_right (held_right h1))
  apply touch_bind (held_right (held_right h2))
  apply touch_bind (held_right (held_right huse))
  apply touch_bind (held_right (held_left (held_blk hp)))
  apply touch_bind (held_left (held_blk hq))
  split
  · refine Triple.of_eq (M := blk p + (blk q + M)) ?_ (by abel)
    apply realloc_bind hp; intro p' hp1 hp2
    refine Triple.of_eq (M := blk q + (blk p' + M)) ?_ (by abel)
    apply realloc_bind hq; intro q' hq1 hq2
    refine Triple.pure fun h hh => ⟨?_, rfl, fun h0 => ⟨hp1 h0, hq1 h0⟩, fun h0 => ?_⟩
    · have e : blk p' + blk q' + M = blk q' + (blk p' + M) := by abel
      exact e ▸ hh
    · simp only [Wave.inner, hp2 h0, hq2 h0, blk, add_zero]
  · refine Triple.pure fun h hh => ⟨?_, rfl, fun _ => ⟨hp, hq⟩, fun h0 => ?_⟩
    · have e : blk p + blk q + M = blk q + (blk p + M) := by abel
      exact e ▸ hh
    · have h0' : t.nwave = 0 := h0
      rw [h0'] at hn; exact absurd hn (Nat.lt_irrefl _)

/-- The hash table of accepted channels. -/
structure UseOk (H : Hash) : Prop where
  self : H.self ≠ none
  key : H.keyFree = true
  val : H.valFree = true
  nodup : (H.entries.map Entry.name).Nodup
  owner : ∀ e ∈ H.entries, e.owner ≠ none

theorem UseOk.held {H : Hash} (h : UseOk H) :
    H.Safe H.owned ∧ ∀ e ∈ H.entries, e.value = none ∨ Held e.value H.owned := by
  have hle : ∀ e ∈ H.entries, blk e.owner + blk e.value ≤ H.owned := by
    intro e he
    have : entryOwn H.keyFree H.valFree e ≤ H.owned :=
      le_trans (le_allOf he) (Multiset.le_add_left _ _)
    rw [h.key, h.val] at this
    simpa [entryOwn] using this
  refine ⟨⟨held_left (held_blk h.self), fun e he => ?_⟩, fun e he => ?_⟩
  · exact Held.mono (held_left (held_blk (h.owner e he))) (hle e he)
  · cases hv : e.value with
    | none => exact .inl rfl
    | some i =>
      refine .inr (Held.mono (held_right ?_) (hle e he))
      rw [hv]; exact held_blk (by simp)

theorem UseOk.insert {H H' : Hash} {key : Ptr} {name : CStr} {value : Ptr} (h : UseOk H)
    (hk : key ≠ none) (hi : InsertedIn H key name value H') (hnd : (H'.entries.map Entry.name).Nodup) :
    UseOk H' := by
  obtain ⟨h1, h2, h3, h4⟩ := hi
  refine ⟨h1 ▸ h.self, h2 ▸ h.key, h3 ▸ h.val, hnd, fun e' he' => ?_⟩
  rcases h4 e' he' with h5 | ⟨_, _, h5 | ⟨e, he, _, h5⟩⟩
  · exact h.owner e' h5
  · exact h5 ▸ hk
  · exact h5 ▸ h.owner e he

/-- Inserting into the hash table of accepted channels, which takes over key and value. -/
theorem use_insert_bind {M : Multiset Nat} {H : Hash} {key : Ptr} {name : CStr} {value : Ptr}
    {f : Hash → Mem β} {Q : β → Heap → Prop} (h : UseOk H) (hk : key ≠ none)
    (hf : ∀ H', UseOk H' → Triple (Own (H'.owned + M)) (f H') Q) :
    Triple (Own (blk key + (blk value + (H.owned + M)))) (hashInsert H key name value >>= f) Q := by
  have e : blk key + (blk value + (H.owned + M)) =
      entryOwn H.keyFree H.valFree ⟨key, name, value⟩ + (H.owned + M) := by
    rw [h.key, h.val]; simp only [entryOwn, if_true]; abel
  refine Triple.of_eq (hashInsert_owned (h.held.1.mono (Multiset.le_add_right _ _)) h.nodup ?_
    fun H' hi hnd => hf H' (h.insert hk hi hnd)) e
  rw [← e]; exact held_left (held_blk hk)

theorem filter_all_wave_rule {inp o : OiFits} {f : FilterPlan} {F : Multiset Nat} (hi : inp.OkIn F)
    (hF : inp.blocks ≤ F) (ho : o.Named) :
    Triple (Own (o.blocks + F)) (filter_all_oi_wavelength inp f o)
      (fun s h => Own (s.1.blocks + (s.2.owned + F)) h ∧ s.1.Named ∧ UseOk s.2) := by
  unfold filter_all_oi_wavelength
  apply hashNew_bind; intro use s1 k1 v1 e1
  refine Triple.pre (memFold_rule
    (I := fun (s : OiFits × Hash) h => Own (s.1.blocks + (s.2.owned + F)) h ∧ s.1.Named ∧ UseOk s.2) _ _ ?_) ?_
  swap
  · intro h hh
    refine ⟨?_, ho, ⟨s1, k1, v1, by simp [e1], by simp [e1]⟩⟩
    have e : o.blocks + (use.owned + F) = blk use.self + (o.blocks + F) := by
      simp only [Hash.owned, e1, allOf_nil, add_zero]; abel
    exact e ▸ hh
  intro s x hx
  refine Triple.and fun ⟨ho, hu⟩ => ?_
  have ht : x.1 ∈ inp.wavelengthList := by
    have := List.mem_zipIdx hx
    exact this.2.2 ▸ List.getElem_mem _
  obtain ⟨hs, hk⟩ := hi.tables.wave x.1 ht
  have hle : x.1.blocks ≤ F := le_trans (wave_le ht) hF
  apply touch_bind (held_right (held_right (held_self hs hle)))
  split
  · apply malloc_bind; intro useWave huw _
    apply malloc_bind; intro self hself _
    refine Triple.bind (filter_wave_rule hs hk (le_trans hle ?_) (held_left (held_blk hself))
      (held_right (held_left (held_blk huw)))) fun t' => Triple.and fun ⟨h1, h2, h3⟩ => ?_
    · refine le_trans ?_ (Multiset.le_add_left _ _)
      refine le_trans ?_ (Multiset.le_add_left _ _)
      refine le_trans ?_ (Multiset.le_add_left _ _)
      exact Multiset.le_add_left _ _
    have hs' : t'.self ≠ none := h1 ▸ hself
    split
    · rename_i hpos
      refine Triple.of_eq (M := t'.blocks + (s.1.blocks + (blk useWave + (s.2.owned + F)))) ?_
        (by rw [Wave.blocks, h1]; abel)
      apply hashInsert_bind
        ((named_safe ho (Multiset.le_add_right _ _)).2.1.mono (Multiset.le_add_left _ _))
        ho.wave.key ho.wave.val (held_left (held_self (B := t'.inner) hs' (le_refl _)))
      intro H hH
      apply malloc_bind; intro key hkey _
      refine Triple.of_eq (M := blk key + (blk useWave + (s.2.owned + (t'.blocks +
        (s.1.blocks + F))))) ?_ (by simp only [Wave.blocks]; abel)
      apply use_insert_bind hu hkey; intro use' hu'
      refine Triple.pure fun h hh => ⟨?_, named_wave ho hs' (h2 hpos) hH, hu'⟩
      rw [blocks_wave s.1 t' H hH.1]
      have e : t'.blocks + s.1.blocks + (use'.owned + F) =
        use'.owned + (t'.blocks + (s.1.blocks + F)) := by abel
      exact e ▸ hh
    · rename_i hpos
      have h0 : t'.inner = 0 := h3 (Nat.eq_zero_of_not_pos hpos)
      apply malloc_bind; intro key hkey _
      refine Triple.of_eq (M := blk key + (blk none + (s.2.owned + (blk useWave + (blk self +
        (s.1.blocks + F)))))) ?_ (by rw [h0]; simp only [blk]; abel)
      apply use_insert_bind hu hkey; intro use' hu'
      refine Triple.of_eq (M := blk useWave + (blk self + (s.1.blocks + (use'.owned + F)))) ?_
        (by abel)
      apply free_bind
      apply free_bind
      exact Triple.pure fun h hh => ⟨hh, ho, hu'⟩
  · exact Triple.pure fun h hh => ⟨hh, ho, hu⟩

/-! ### OI_INSPOL -/

/-- The hash table of accepted channels, while the blocks `F` are allocated. -/
def UseSafe (H : Hash) (F : Multiset Nat) : Prop :=
  H.Safe F ∧ ∀ e ∈ H.entries, e.value = none ∨ Held e.value F

theorem use_lookup_bind {F M : Multiset Nat} {H : Hash} {name : CStr} {f : Ptr → Mem β}
    {Q : β → Heap → Prop} (hH : UseSafe H F) (hM : F ≤ M)
    (hf : ∀ v, (v = none ∨ Held v F) → Triple (Own M) (f v) Q) :
    Triple (Own M) (hashLookup H name >>= f) Q := by
  apply hashLookup_bind (hH.1.mono hM)
  rintro v (h | ⟨e, he, _, h⟩)
  · exact hf v (.inl h)
  · exact hf v (h ▸ hH.2 e he)

theorem filter_inspol_rule {t : Inspol} {rec : Nat → Bool × CStr × Nat} {use : Hash} {self : Ptr}
    {F M : Multiset Nat} {C : Prop} (hC : C → ∀ i, (rec i).1 = true → 0 < (rec i).2.2)
    (hs : t.self ≠ none) (ht : t.Ok) (hu : UseSafe use F) (hF : t.blocks ≤ F) (hM : F ≤ M)
    (hself : Held self M) :
    Triple (Own M) (filter_oi_inspol t rec use self)
      (fun t' h => Own (t'.inner + M) h ∧ t'.self = self ∧
        (0 < t'.nwave → 0 < t'.numrec → t'.Ok) ∧ (t'.numrec = 0 → t'.inner = 0) ∧
        (C → 0 < t'.numrec → 0 < t'.nwave)) := by
  unfold filter_oi_inspol
  apply touch_bind ((held_self hs hF).mono hM)
  apply touch_bind hself
  apply malloc_bind; intro record hrec _
  refine Triple.bind (Q := fun out h => Own (out.inner + M) h ∧ out.self = self ∧
    out.record ≠ none ∧ (0 < out.nwave → ∀ r ∈ out.recs, r.Ok) ∧
    (C → out.recs ≠ [] → 0 < out.nwave)) ?_ ?_
  · refine Triple.pre (memFold_rule (I := fun (out : Inspol) h => Own (out.inner + M) h ∧
      out.self = self ∧ out.record ≠ none ∧ (0 < out.nwave → ∀ r ∈ out.recs, r.Ok) ∧
      (C → out.recs ≠ [] → 0 < out.nwave)) _ _ ?_) ?_
    swap
    · intro h hh
      refine ⟨?_, rfl, hrec, by simp, fun _ h => absurd rfl h⟩
      have e : Inspol.inner { t with self := self, record := record, recs := [] } = blk record := by
        simp [Inspol.inner, allOf_nil]
      rw [e]; exact hh
    intro out i hi
    refine Triple.and fun ⟨h1, h2, h3, h4⟩ => ?_
    have hM' : F ≤ out.inner + M := le_trans hM (Multiset.le_add_left _ _)
    have hi' : i < t.recs.length := by rw [ht.2.1]; exact List.mem_range.mp hi
    have hD : t.blocks ≤ out.inner + M := le_trans hF hM'
    unfold filterInspolRec
    apply recAt_bind (held_record ht.1 hD) hi'
    have hm : t.recs[i] ∈ t.recs := List.getElem_mem hi'
    generalize t.recs[i] = r at hm
    have hle : r.blocks ≤ F := le_rec hm hF
    obtain ⟨k1, k2, k3, k4⟩ := ht.2.2 r hm
    have e1 : Held r.jxx M := Held.mono (by simp [InspolRec.blocks, held_add, held_blk k1]) (le_trans hle hM)
    have e2 : Held r.jyy M := Held.mono (by simp [InspolRec.blocks, held_add, held_blk k2]) (le_trans hle hM)
    have e3 : Held r.jxy M := Held.mono (by simp [InspolRec.blocks, held_add, held_blk k3]) (le_trans hle hM)
    have e4 : Held r.jyx M := Held.mono (by simp [InspolRec.blocks, held_add, held_blk k4]) (le_trans hle hM)
    cases hacc : (rec i).1 with
    | false => exact Triple.pure fun h hh => ⟨hh, h1, h2, h3, h4⟩
    | true =>
      simp only [if_true]
      apply use_lookup_bind hu hM'
      intro v hv
      cases v with
      | none => exact Triple.pure fun h hh => ⟨hh, h1, h2, h3, h4⟩
      | some iv =>
        have hv' : Held (some iv) M := (hv.resolve_left (by simp)).mono hM
        simp only []
        apply touch_bind (held_left (held_left (held_blk h2)))
        apply malloc_bind; intro p1 g1 hn
        apply malloc_bind; intro p2 g2 _
        apply malloc_bind; intro p3 g3 _
        apply malloc_bind; intro p4 g4 _
        apply touch_bind (by simp [held_add, hv'])
        apply touch_bind (by simp [held_add, e1])
        apply touch_bind (by simp [held_add, e2])
        apply touch_bind (by simp [held_add, e3])
        apply touch_bind (by simp [held_add, e4])
        apply touch_bind (by simp [held_add, held_blk g1])
        apply touch_bind (by simp [held_add, held_blk g2])
        apply touch_bind (by simp [held_add, held_blk g3])
        apply touch_bind (by simp [held_add, held_blk g4])
        split
        · rename_i hcond
          have hemp : out.recs = [] := by
            have := (Bool.and_eq_true _ _ ▸ hcond).1
            exact List.isEmpty_iff.mp this
          refine Triple.of_eq (M := blk p1 + (blk p2 + (blk p3 + (blk p4 + (out.inner + M))))) ?_
            (by simp only [Inspol.inner]; abel)
          apply realloc_bind g1; intro q1 a1 _
          refine Triple.of_eq (M := blk p2 + (blk q1 + (blk p3 + (blk p4 + (out.inner + M))))) ?_
            (by abel)
          apply realloc_bind g2; intro q2 a2 _
          refine Triple.of_eq (M := blk p3 + (blk q2 + (blk q1 + (blk p4 + (out.inner + M))))) ?_
            (by abel)
          apply realloc_bind g3; intro q3 a3 _
          refine Triple.of_eq (M := blk p4 + (blk q3 + (blk q2 + (blk q1 + (out.inner + M))))) ?_
            (by abel)
          apply realloc_bind g4; intro q4 a4 _
          refine Triple.pure fun h hh => ⟨?_, h1, h2, ?_, ?_⟩
          · have e : Inspol.inner { out with nwave := (rec i).2.2, recs := out.recs ++ [⟨q1, q2, q3, q4⟩] } + M =
              blk q4 + (blk q3 + (blk q2 + (blk q1 + (out.inner + M)))) := by
              simp only [Inspol.inner, allOf_append, allOf_one, InspolRec.blocks]; abel
            rw [e]; exact hh
          · intro hpos
            rw [hemp]
            intro x hx
            have : x = ⟨q1, q2, q3, q4⟩ := by simpa using hx
            rw [this]
            exact ⟨a1 hpos, a2 hpos, a3 hpos, a4 hpos⟩
          · intro c _
            exact hC c i hacc
        · refine Triple.pure fun h hh => ⟨?_, h1, h2, ?_, fun _ _ => hn⟩
          · have e : Inspol.inner { out with recs := out.recs ++ [⟨p1, p2, p3, p4⟩] } + M =
              blk p4 + (blk p3 + (blk p2 + (blk p1 + (out.inner + M)))) := by
              simp only [Inspol.inner, allOf_append, allOf_one, InspolRec.blocks]; abel
            rw [e]; exact hh
          · intro hpos
            exact mem_snoc (h3 hpos) ⟨g1, g2, g3, g4⟩
  · intro out
    refine Triple.and fun ⟨h1, h2, h3, h4⟩ => ?_
    refine Triple.of_eq (M := blk out.record + (allOf InspolRec.blocks out.recs + M)) ?_
      (by rw [Inspol.inner]; abel)
    apply realloc_bind h2; intro record' a b
    refine Triple.pure fun h hh => ⟨?_, h1, ?_, ?_, ?_⟩
    · have e : Inspol.inner { out with record := record', numrec := out.recs.length } + M =
        blk record' + (allOf InspolRec.blocks out.recs + M) := by
        simp only [Inspol.inner]; abel
      rw [e]; exact hh
    · intro hw hn
      exact ⟨a hn, rfl, h3 hw⟩
    · intro h0
      have h0' : out.recs.length = 0 := h0
      have : out.recs = [] := List.length_eq_zero_iff.mp h0'
      simp [Inspol.inner, b h0', this, allOf_nil, blk]
    · intro c hn
      exact h4 c (List.ne_nil_of_length_pos hn)

theorem named_inspol {o : OiFits} {t : Inspol} (h : o.Named) (hs : t.self ≠ none) (ht : t.Ok) :
    OiFits.Named { o with inspolList := o.inspolList ++ [t] } :=
  ⟨tables_inspol h.tables hs ht, h.array, h.wave, h.corr⟩

theorem filter_all_inspol_rule {inp o : OiFits} {f : FilterPlan} {use : Hash} {F : Multiset Nat}
    (hi : inp.OkIn F) (hF : inp.blocks ≤ F) (hu : UseSafe use F) (ho : o.Named) :
    Triple (Own (o.blocks + F)) (filter_all_oi_inspol inp f use o)
      (fun o' h => ∃ L, (Own (o'.blocks + (L + F)) h ∧ o'.Named) ∧ (f.Clean → L = 0)) := by
  unfold filter_all_oi_inspol
  refine Triple.pre (memFold_rule (I := fun (o : OiFits) h => ∃ L, (Own (o.blocks + (L + F)) h ∧ o.Named) ∧
    (f.Clean → L = 0)) _ _ ?_) fun h hh => ⟨0, ⟨by rw [zero_add]; exact hh, ho⟩, fun _ => rfl⟩
  intro o x hx
  refine Triple.exists_pre fun L => Triple.and fun hL => Triple.and fun ho => ?_
  have ht : x.1 ∈ inp.inspolList := by
    have := List.mem_zipIdx hx
    exact this.2.2 ▸ List.getElem_mem _
  obtain ⟨hs, hk⟩ := hi.tables.inspol x.1 ht
  have hle : x.1.blocks ≤ F := le_trans (inspol_le ht) hF
  apply touch_bind (held_right (held_right (held_self hs hle)))
  split
  · apply malloc_bind; intro self hself _
    refine Triple.bind (filter_inspol_rule (C := f.Clean) (fun c i => c.2 x.2 i) hs hk hu hle ?_
      (held_left (held_blk hself))) fun t' => Triple.and fun ⟨h1, h2, h3, h4⟩ => ?_
    · refine le_trans ?_ (Multiset.le_add_left _ _)
      refine le_trans ?_ (Multiset.le_add_left _ _)
      exact Multiset.le_add_left _ _
    split
    · rename_i hpos
      refine Triple.pure fun h hh => ⟨L, ⟨?_, named_inspol ho (h1 ▸ hself) (h2 hpos.1 hpos.2)⟩, hL⟩
      rw [blocks_inspol o t']
      have e : t'.blocks + o.blocks + (L + F) = t'.inner + (blk self + (o.blocks + (L + F))) := by
        rw [Inspol.blocks, h1]; abel
      exact e ▸ hh
    · rename_i hpos
      refine Triple.of_eq (M := blk t'.self + (o.blocks + (t'.inner + L + F))) ?_
        (by rw [h1]; abel)
      apply free_bind
      refine Triple.pure fun h hh => ⟨t'.inner + L, ⟨hh, ho⟩, fun c => ?_⟩
      have : t'.numrec = 0 := by
        by_contra hne
        have hp := Nat.pos_of_ne_zero hne
        exact hpos ⟨h4 c hp, hp⟩
      rw [h3 this, hL c, zero_add]
  · exact Triple.pure fun h hh => ⟨L, ⟨hh, ho⟩, hL⟩

/-! ### Data tables -/

theorem readPWave_bind {inp : OiFits} {M : Multiset Nat} {p : Ptr} {f : Unit → Mem β}
    {Q : β → Heap → Prop} (hi : inp.OkIn M) (hM : inp.blocks ≤ M)
    (hp : p = none ∨ ∃ w ∈ inp.wavelengthList, w.self = p) (hf : Triple (Own M) (f ()) Q) :
    Triple (Own M) (readPWave inp p >>= f) Q := by
  unfold readPWave
  cases p with
  | none => exact hf
  | some i =>
    obtain ⟨w, hw, hwi⟩ := hp.resolve_left (by simp)
    simp only []
    cases hfind : inp.wavelengthList.find? (fun w => w.self == some i) with
    | none =>
      have := List.find?_eq_none.mp hfind w hw
      rw [hwi] at this; simp at this
    | some w' =>
      have hm : w' ∈ inp.wavelengthList := List.mem_of_find?_eq_some hfind
      obtain ⟨hs, hk⟩ := hi.tables.wave w' hm
      have hle := le_trans (wave_le hm) hM
      simp only []
      rw [bind_assoc]
      apply touch_bind (held_self hs hle)
      exact touch_bind (Held.mono (held_right (held_left (held_blk hk.1))) hle) hf

theorem inp_lookup_bind {inp : OiFits} {M : Multiset Nat} {name : CStr} {f : Ptr → Mem β}
    {Q : β → Heap → Prop} (hi : inp.OkIn M) (hM : inp.blocks ≤ M)
    (hf : ∀ p, (p = none ∨ ∃ w ∈ inp.wavelengthList, w.self = p) → Triple (Own M) (f p) Q) :
    Triple (Own M) (hashLookup inp.wavelengthHash name >>= f) Q := by
  apply hashLookup_bind (hi.wave.safe (le_trans (le_blocks_hash inp).2.1 hM) (le_refl _))
  rintro v (h | ⟨e, he, _, h⟩)
  · exact hf v (.inl h)
  · exact hf v (h ▸ hi.wave.value e he)

theorem opt_malloc_bind {M : Multiset Nat} {n : Nat} (b : Bool) {f : Ptr → Mem β}
    {Q : β → Heap → Prop}
    (H : ∀ p, (b = true → p ≠ none) → Triple (Own ((if b then blk p else 0) + M)) (f p) Q) :
    Triple (Own M) ((if b then chkmalloc n else return none) >>= f) Q := by
  cases b with
  | false =>
    have := H none (by simp)
    simp only [Bool.false_eq_true, if_false, zero_add] at this ⊢
    exact this
  | true =>
    simp only [if_true] at H ⊢
    apply malloc_bind; intro p hp _
    exact H p fun _ => hp

theorem filter_vis_record_rule {t : Vis} {r : VisRec} {n : Nat} {M : Multiset Nat}
    (hr : r.Ok t.usevisrefmap t.usecomplex) (hle : r.blocks t.usevisrefmap t.usecomplex ≤ M) :
    Triple (Own M) (filter_oi_vis_record t r n)
      (fun r' h => Own (r'.blocks t.usevisrefmap t.usecomplex + M) h ∧
        r'.Ok t.usevisrefmap t.usecomplex ∧ 0 < n) := by
  unfold filter_oi_vis_record
  obtain ⟨k1, k2, k3, k4, k5, k6, k7⟩ := hr
  have e1 : Held r.visamp M := Held.mono (by simp [VisRec.blocks, held_add, held_blk k1]) hle
  have e2 : Held r.visamperr M := Held.mono (by simp [VisRec.blocks, held_add, held_blk k2]) hle
  have e3 : Held r.visphi M := Held.mono (by simp [VisRec.blocks, held_add, held_blk k3]) hle
  have e4 : Held r.visphierr M := Held.mono (by simp [VisRec.blocks, held_add, held_blk k4]) hle
  have e5 : Held r.flag M := Held.mono (by simp [VisRec.blocks, held_add, held_blk k5]) hle
  have e6 : t.usevisrefmap = true → Held r.visrefmap M := fun h =>
    Held.mono (by simp [VisRec.blocks, held_add, h, held_blk (k6 h)]) hle
  have e7 : t.usecomplex = true → Held r.rvis M := fun h =>
    Held.mono (by simp [VisRec.blocks, held_add, h, held_blk (k7 h).1]) hle
  have e8 : t.usecomplex = true → Held r.rviserr M := fun h =>
    Held.mono (by simp [VisRec.blocks, held_add, h, held_blk (k7 h).2.1]) hle
  have e9 : t.usecomplex = true → Held r.ivis M := fun h =>
    Held.mono (by simp [VisRec.blocks, held_add, h, held_blk (k7 h).2.2.1]) hle
  have e10 : t.usecomplex = true → Held r.iviserr M := fun h =>
    Held.mono (by simp [VisRec.blocks, held_add, h, held_blk (k7 h).2.2.2]) hle
  apply malloc_bind; intro p1 g1 hn
  apply malloc_bind; intro p2 g2 _
  apply malloc_bind; intro p3 g3 _
  apply malloc_bind; intro p4 g4 _
  apply malloc_bind; intro p5 g5 _
  apply opt_malloc_bind; intro p6 g6
  apply opt_malloc_bind; intro p7 g7
  apply opt_malloc_bind; intro p8 g8
  apply opt_malloc_bind; intro p9 g9
  apply opt_malloc_bind; intro p10 g10
  apply touch_bind (by simp [held_add, e1])
  apply touch_bind (by simp [held_add, e2])
  apply touch_bind (by simp [held_add, e3])
  apply touch_bind (by simp [held_add, e4])
  apply touch_bind (by simp [held_add, e5])
  have fin : ∀ h, Own ((if t.usecomplex then blk p10 else 0) + ((if t.usecomplex then blk p9 else 0)
      + ((if t.usecomplex then blk p8 else 0) + ((if t.usecomplex then blk p7 else 0) +
      ((if t.usevisrefmap then blk p6 else 0) + (blk p5 + (blk p4 + (blk p3 + (blk p2 + (blk p1 +
      M)))))))))) h →
      Own (VisRec.blocks t.usevisrefmap t.usecomplex ⟨p1, p2, p3, p4, p5, p6, p7, p8, p9, p10⟩ + M) h ∧
        VisRec.Ok t.usevisrefmap t.usecomplex ⟨p1, p2, p3, p4, p5, p6, p7, p8, p9, p10⟩ ∧ 0 < n := by
    intro h hh
    refine ⟨?_, ⟨g1, g2, g3, g4, g5, g6, fun c => ⟨g7 c, g8 c, g9 c, g10 c⟩⟩, hn⟩
    have e : VisRec.blocks t.usevisrefmap t.usecomplex ⟨p1, p2, p3, p4, p5, p6, p7, p8, p9, p10⟩ + M =
      (if t.usecomplex then blk p10 else 0) + ((if t.usecomplex then blk p9 else 0)
      + ((if t.usecomplex then blk p8 else 0) + ((if t.usecomplex then blk p7 else 0) +
      ((if t.usevisrefmap then blk p6 else 0) + (blk p5 + (blk p4 + (blk p3 + (blk p2 + (blk p1 +
      M))))))))) := by
      simp only [VisRec.blocks]
      cases t.usecomplex <;> simp only [if_true, Bool.false_eq_true, if_false] <;> abel
    rw [e]; exact hh
  have hX : M ≤ ((if t.usecomplex then blk p10 else 0) + ((if t.usecomplex then blk p9 else 0)
      + ((if t.usecomplex then blk p8 else 0) + ((if t.usecomplex then blk p7 else 0) +
      ((if t.usevisrefmap then blk p6 else 0) + (blk p5 + (blk p4 + (blk p3 + (blk p2 + (blk p1 +
      M)))))))))) := by
    have h0 : ∀ {a b c : Multiset Nat}, b ≤ c → b ≤ a + c := fun h =>
      le_trans h (Multiset.le_add_left _ _)
    iterate 10 apply h0
    exact le_refl _
  generalize ((if t.usecomplex then blk p10 else 0) + ((if t.usecomplex then blk p9 else 0)
      + ((if t.usecomplex then blk p8 else 0) + ((if t.usecomplex then blk p7 else 0) +
      ((if t.usevisrefmap then blk p6 else 0) + (blk p5 + (blk p4 + (blk p3 + (blk p2 + (blk p1 +
      M)))))))))) = X at fin hX ⊢
  have f6 := fun h => (e6 h).mono hX
  have f7 := fun h => (e7 h).mono hX
  have f8 := fun h => (e8 h).mono hX
  have f9 := fun h => (e9 h).mono hX
  have f10 := fun h => (e10 h).mono hX
  clear e1 e2 e3 e4 e5 e6 e7 e8 e9 e10 k6 k7 hle g6 g7 g8 g9 g10
  generalize t.usevisrefmap = m at *
  generalize t.usecomplex = c at *
  cases m <;> cases c <;> simp only [if_true, Bool.false_eq_true, if_false]
  · exact Triple.pure fin
  · apply touch_bind (f7 rfl)
    apply touch_bind (f8 rfl)
    apply touch_bind (f9 rfl)
    exact touch_bind (f10 rfl) (Triple.pure fin)
  · exact touch_bind (f6 rfl) (Triple.pure fin)
  · apply touch_bind (f6 rfl)
    apply touch_bind (f7 rfl)
    apply touch_bind (f8 rfl)
    apply touch_bind (f9 rfl)
    exact touch_bind (f10 rfl) (Triple.pure fin)

theorem filter_vis2_record_rule {r : Vis2Rec} {n : Nat} {M : Multiset Nat} (hr : r.Ok)
    (hle : r.blocks ≤ M) :
    Triple (Own M) (filter_oi_vis2_record r n)
      (fun r' h => Own (r'.blocks + M) h ∧ r'.Ok ∧ 0 < n) := by
  unfold filter_oi_vis2_record
  obtain ⟨k1, k2, k3⟩ := hr
  have e1 : Held r.vis2data M := Held.mono (by simp [Vis2Rec.blocks, held_add, held_blk k1]) hle
  have e2 : Held r.vis2err M := Held.mono (by simp [Vis2Rec.blocks, held_add, held_blk k2]) hle
  have e3 : Held r.flag M := Held.mono (by simp [Vis2Rec.blocks, held_add, held_blk k3]) hle
  apply malloc_bind; intro p1 g1 hn
  apply malloc_bind; intro p2 g2 _
  apply malloc_bind; intro p3 g3 _
  apply touch_bind (by simp [held_add, e1])
  apply touch_bind (by simp [held_add, e2])
  apply touch_bind (by simp [held_add, e3])
  refine Triple.pure fun h hh => ⟨?_, ⟨g1, g2, g3⟩, hn⟩
  have e : Vis2Rec.blocks ⟨p1, p2, p3⟩ + M = blk p3 + (blk p2 + (blk p1 + M)) := by
    simp only [Vis2Rec.blocks]; abel
  rw [e]; exact hh

theorem filter_t3_record_rule {r : T3Rec} {n : Nat} {M : Multiset Nat} (hr : r.Ok)
    (hle : r.blocks ≤ M) :
    Triple (Own M) (filter_oi_t3_record r n)
      (fun r' h => Own (r'.blocks + M) h ∧ r'.Ok ∧ 0 < n) := by
  unfold filter_oi_t3_record
  obtain ⟨k1, k2, k3, k4, k5⟩ := hr
  have e1 : Held r.t3amp M := Held.mono (by simp [T3Rec.blocks, held_add, held_blk k1]) hle
  have e2 : Held r.t3amperr M := Held.mono (by simp [T3Rec.blocks, held_add, held_blk k2]) hle
  have e3 : Held r.t3phi M := Held.mono (by simp [T3Rec.blocks, held_add, held_blk k3]) hle
  have e4 : Held r.t3phierr M := Held.mono (by simp [T3Rec.blocks, held_add, held_blk k4]) hle
  have e5 : Held r.flag M := Held.mono (by simp [T3Rec.blocks, held_add, held_blk k5]) hle
  apply malloc_bind; intro p1 g1 hn
  apply malloc_bind; intro p2 g2 _
  apply malloc_bind; intro p3 g3 _
  apply malloc_bind; intro p4 g4 _
  apply malloc_bind; intro p5 g5 _
  apply touch_bind (by simp [held_add, e1])
  apply touch_bind (by simp [held_add, e2])
  apply touch_bind (by simp [held_add, e3])
  apply touch_bind (by simp [held_add, e4])
  apply touch_bind (by simp [held_add, e5])
  refine Triple.pure fun h hh => ⟨?_, ⟨g1, g2, g3, g4, g5⟩, hn⟩
  have e : T3Rec.blocks ⟨p1, p2, p3, p4, p5⟩ + M = blk p5 + (blk p4 + (blk p3 + (blk p2 + (blk p1 + M)))) := by
    simp only [T3Rec.blocks]; abel
  rw [e]; exact hh

theorem filter_flux_record_rule {r : FluxRec} {n : Nat} {M : Multiset Nat} (hr : r.Ok)
    (hle : r.blocks ≤ M) :
    Triple (Own M) (filter_oi_flux_record r n)
      (fun r' h => Own (r'.blocks + M) h ∧ r'.Ok ∧ 0 < n) := by
  unfold filter_oi_flux_record
  obtain ⟨k1, k2, k3⟩ := hr
  have e1 : Held r.fluxdata M := Held.mono (by simp [FluxRec.blocks, held_add, held_blk k1]) hle
  have e2 : Held r.fluxerr M := Held.mono (by simp [FluxRec.blocks, held_add, held_blk k2]) hle
  have e3 : Held r.flag M := Held.mono (by simp [FluxRec.blocks, held_add, held_blk k3]) hle
  apply malloc_bind; intro p1 g1 hn
  apply malloc_bind; intro p2 g2 _
  apply malloc_bind; intro p3 g3 _
  apply touch_bind (by simp [held_add, e1])
  apply touch_bind (by simp [held_add, e2])
  apply touch_bind (by simp [held_add, e3])
  refine Triple.pure fun h hh => ⟨?_, ⟨g1, g2, g3⟩, hn⟩
  have e : FluxRec.blocks ⟨p1, p2, p3⟩ + M = blk p3 + (blk p2 + (blk p1 + M)) := by
    simp only [FluxRec.blocks]; abel
  rw [e]; exact hh

theorem filter_vis_rule {t : Vis} {keep : Nat → Bool} {n : Nat} {useWave self : Ptr}
    {M : Multiset Nat} (hs : t.self ≠ none) (ht : t.Ok) (hM : t.blocks ≤ M) (hself : Held self M)
    (huse : Held useWave M) :
    Triple (Own M) (filter_oi_vis t keep n useWave self)
      (fun t' h => Own (t'.inner + M) h ∧ t'.self = self ∧ (0 < t'.numrec → t'.Ok) ∧
        (t'.numrec = 0 → t'.inner = 0) ∧ (0 < t'.numrec → 0 < t'.nwave)) := by
  unfold filter_oi_vis
  apply touch_bind (held_self hs hM)
  apply touch_bind hself
  apply touch_bind huse
  apply malloc_bind; intro record hrec _
  refine Triple.bind (Q := fun recs h => Own (allOf (VisRec.blocks t.usevisrefmap t.usecomplex) recs + (blk record + M)) h ∧
    (∀ r ∈ recs, r.Ok t.usevisrefmap t.usecomplex) ∧ (recs ≠ [] → 0 < n)) ?_ ?_
  · refine Triple.pre (memFold_rule (I := fun recs h =>
      Own (allOf (VisRec.blocks t.usevisrefmap t.usecomplex) recs + (blk record + M)) h ∧
      (∀ r ∈ recs, r.Ok t.usevisrefmap t.usecomplex) ∧ (recs ≠ [] → 0 < n)) _ _ ?_) ?_
    swap
    · intro h hh
      exact ⟨by rw [allOf_nil, zero_add]; exact hh, by simp, fun h => absurd rfl h⟩
    intro recs i hi
    refine Triple.and fun ⟨h1, h2⟩ => ?_
    have hi' : i < t.recs.length := by rw [ht.2.1]; exact List.mem_range.mp hi
    have hD : t.blocks ≤ allOf (VisRec.blocks t.usevisrefmap t.usecomplex) recs + (blk record + M) :=
      le_trans hM (le_trans (Multiset.le_add_left _ _) (Multiset.le_add_left _ _))
    apply recAt_bind (held_record ht.1 hD) hi'
    have hm : t.recs[i] ∈ t.recs := List.getElem_mem hi'
    generalize t.recs[i] = r at hm
    cases keep i with
    | false => exact Triple.pure fun h hh => ⟨hh, h1, h2⟩
    | true =>
      simp only [if_true]
      apply touch_bind (held_right (held_left (held_blk hrec)))
      have hle : r.blocks t.usevisrefmap t.usecomplex ≤ allOf (VisRec.blocks t.usevisrefmap t.usecomplex) recs + (blk record + M) := le_rec hm hD
      refine Triple.bind (filter_vis_record_rule (ht.2.2 r hm) hle) fun r' =>
        Triple.and fun ⟨g1, g2⟩ => ?_
      refine Triple.pure fun h hh => ⟨?_, mem_snoc h1 g1, fun _ => g2⟩
      rw [allOf_append, allOf_one]
      have e : allOf (VisRec.blocks t.usevisrefmap t.usecomplex) recs + r'.blocks t.usevisrefmap t.usecomplex + (blk record + M) =
        r'.blocks t.usevisrefmap t.usecomplex + (allOf (VisRec.blocks t.usevisrefmap t.usecomplex) recs + (blk record + M)) := by abel
      rw [e]; exact hh
  · intro recs
    refine Triple.and fun ⟨h1, h2⟩ => ?_
    refine Triple.of_eq (M := blk record + (allOf (VisRec.blocks t.usevisrefmap t.usecomplex) recs + M)) ?_ (by abel)
    apply realloc_bind hrec; intro record' a b
    refine Triple.pure fun h hh => ⟨?_, rfl, ?_, ?_, ?_⟩
    · have e : Vis.inner { t with self := self, nwave := n, record := record', recs := recs, numrec := recs.length } + M =
        blk record' + (allOf (VisRec.blocks t.usevisrefmap t.usecomplex) recs + M) := by
        simp only [Vis.inner]; abel
      rw [e]; exact hh
    · intro hn
      exact ⟨a hn, rfl, h1⟩
    · intro h0
      have h0' : recs.length = 0 := h0
      have : recs = [] := List.length_eq_zero_iff.mp h0'
      simp [Vis.inner, b h0', this, allOf_nil, blk]
    · intro hn
      exact h2 (List.ne_nil_of_length_pos hn)

theorem named_vis {o : OiFits} {t : Vis} (h : o.Named) (hs : t.self ≠ none) (ht : t.Ok) :
    OiFits.Named { o with visList := o.visList ++ [t] } :=
  ⟨tables_vis h.tables hs ht, h.array, h.wave, h.corr⟩

theorem filter_all_vis_rule {inp o : OiFits} {f : FilterPlan} {use : Hash} {F : Multiset Nat}
    (hi : inp.OkIn F) (hF : inp.blocks ≤ F) (hu : UseSafe use F) (ho : o.Named) :
    Triple (Own (o.blocks + F)) (filter_all_oi_vis inp f use o)
      (fun o' h => Own (o'.blocks + F) h ∧ o'.Named) := by
  unfold filter_all_oi_vis
  split
  · exact Triple.pure fun h hh => ⟨hh, ho⟩
  refine Triple.pre (memFold_rule (I := fun (o : OiFits) h => Own (o.blocks + F) h ∧ o.Named) _ _ ?_)
    fun h hh => ⟨hh, ho⟩
  intro o x hx
  refine Triple.and fun ho => ?_
  have ht : x.1 ∈ inp.visList := by
    have := List.mem_zipIdx hx
    exact this.2.2 ▸ List.getElem_mem _
  obtain ⟨hs, hk⟩ := hi.tables.vis x.1 ht
  have hle : x.1.blocks ≤ F := le_trans (vis_le ht) hF
  apply touch_bind (held_right (held_self hs hle))
  split
  · apply use_lookup_bind hu (Multiset.le_add_left _ _)
    intro v hv
    cases v with
    | none => exact Triple.pure fun h hh => ⟨hh, ho⟩
    | some iv =>
      have hv' : Held (some iv) F := hv.resolve_left (by simp)
      simp only []
      apply malloc_bind; intro self hself _
      have hFM : F ≤ blk self + (o.blocks + F) :=
        le_trans (Multiset.le_add_left _ _) (Multiset.le_add_left _ _)
      apply inp_lookup_bind (hi.mono hFM) (le_trans hF hFM)
      intro pw hpw
      apply readPWave_bind (hi.mono hFM) (le_trans hF hFM) hpw
      refine Triple.bind (filter_vis_rule hs hk (le_trans hle hFM) (held_left (held_blk hself))
        (hv'.mono hFM)) fun t' => Triple.and fun ⟨h1, h2, h3, h4⟩ => ?_
      split
      · rename_i hpos
        refine Triple.pure fun h hh => ⟨?_, named_vis ho (h1 ▸ hself) (h2 hpos.2)⟩
        rw [blocks_vis o t']
        have e : t'.blocks + o.blocks + F = t'.inner + (blk self + (o.blocks + F)) := by
          rw [Vis.blocks, h1]; abel
        exact e ▸ hh
      · rename_i hpos
        have h0 : t'.numrec = 0 := by
          by_contra hne
          have hp := Nat.pos_of_ne_zero hne
          exact hpos ⟨h4 hp, hp⟩
        refine Triple.of_eq (M := blk t'.self + (o.blocks + F)) ?_
          (by rw [h1, h3 h0, zero_add])
        apply free_bind
        exact Triple.pure fun h hh => ⟨hh, ho⟩
  · exact Triple.pure fun h hh => ⟨hh, ho⟩

theorem filter_vis2_rule {t : Vis2} {keep : Nat → Bool} {n : Nat} {useWave self : Ptr}
    {M : Multiset Nat} (hs : t.self ≠ none) (ht : t.Ok) (hM : t.blocks ≤ M) (hself : Held self M)
    (huse : Held useWave M) :
    Triple (Own M) (filter_oi_vis2 t keep n useWave self)
      (fun t' h => Own (t'.inner + M) h ∧ t'.self = self ∧ (0 < t'.numrec → t'.Ok) ∧
        (t'.numrec = 0 → t'.inner = 0) ∧ (0 < t'.numrec → 0 < t'.nwave)) := by
  unfold filter_oi_vis2
  apply touch_bind (held_self hs hM)
  apply touch_bind hself
  apply touch_bind huse
  apply malloc_bind; intro record hrec _
  refine Triple.bind (Q := fun recs h => Own (allOf Vis2Rec.blocks recs + (blk record + M)) h ∧
    (∀ r ∈ recs, r.Ok) ∧ (recs ≠ [] → 0 < n)) ?_ ?_
  · refine Triple.pre (memFold_rule (I := fun recs h =>
      Own (allOf Vis2Rec.blocks recs + (blk record + M)) h ∧
      (∀ r ∈ recs, r.Ok) ∧ (recs ≠ [] → 0 < n)) _ _ ?_) ?_
    swap
    · intro h hh
      exact ⟨by rw [allOf_nil, zero_add]; exact hh, by simp, fun h => absurd rfl h⟩
    intro recs i hi
    refine Triple.and fun ⟨h1, h2⟩ => ?_
    have hi' : i < t.recs.length := by rw [ht.2.1]; exact List.mem_range.mp hi
    have hD : t.blocks ≤ allOf Vis2Rec.blocks recs + (blk record + M) :=
      le_trans hM (le_trans (Multiset.le_add_left _ _) (Multiset.le_add_left _ _))
    apply recAt_bind (held_record ht.1 hD) hi'
    have hm : t.recs[i] ∈ t.recs := List.getElem_mem hi'
    generalize t.recs[i] = r at hm
    cases keep i with
    | false => exact Triple.pure fun h hh => ⟨hh, h1, h2⟩
    | true =>
      simp only [if_true]
      apply touch_bind (held_right (held_left (held_blk hrec)))
      have hle : r.blocks ≤ allOf Vis2Rec.blocks recs + (blk record + M) := le_rec hm hD
      refine Triple.bind (filter_vis2_record_rule (ht.2.2 r hm) hle) fun r' =>
        Triple.and fun ⟨g1, g2⟩ => ?_
      refine Triple.pure fun h hh => ⟨?_, mem_snoc h1 g1, fun _ => g2⟩
      rw [allOf_append, allOf_one]
      have e : allOf Vis2Rec.blocks recs + r'.blocks + (blk record + M) =
        r'.blocks + (allOf Vis2Rec.blocks recs + (blk record + M)) := by abel
      rw [e]; exact hh
  · intro recs
    refine Triple.and fun ⟨h1, h2⟩ => ?_
    refine Triple.of_eq (M := blk record + (allOf Vis2Rec.blocks recs + M)) ?_ (by abel)
    apply realloc_bind hrec; intro record' a b
    refine Triple.pure fun h hh => ⟨?_, rfl, ?_, ?_, ?_⟩
    · have e : Vis2.inner { t with self := self, nwave := n, record := record', recs := recs, numrec := recs.length } + M =
        blk record' + (allOf Vis2Rec.blocks recs + M) := by
        simp only [Vis2.inner]; abel
      rw [e]; exact hh
    · intro hn
      exact ⟨a hn, rfl, h1⟩
    · intro h0
      have h0' : recs.length = 0 := h0
      have : recs = [] := List.length_eq_zero_iff.mp h0'
      simp [Vis2.inner, b h0', this, allOf_nil, blk]
    · intro hn
      exact h2 (List.ne_nil_of_length_pos hn)

theorem named_vis2 {o : OiFits} {t : Vis2} (h : o.Named) (hs : t.self ≠ none) (ht : t.Ok) :
    OiFits.Named { o with vis2List := o.vis2List ++ [t] } :=
  ⟨tables_vis2 h.tables hs ht, h.array, h.wave, h.corr⟩

theorem filter_all_vis2_rule {inp o : OiFits} {f : FilterPlan} {use : Hash} {F : Multiset Nat}
    (hi : inp.OkIn F) (hF : inp.blocks ≤ F) (hu : UseSafe use F) (ho : o.Named) :
    Triple (Own (o.blocks + F)) (filter_all_oi_vis2 inp f use o)
      (fun o' h => Own (o'.blocks + F) h ∧ o'.Named) := by
  unfold filter_all_oi_vis2
  split
  · exact Triple.pure fun h hh => ⟨hh, ho⟩
  refine Triple.pre (memFold_rule (I := fun (o : OiFits) h => Own (o.blocks + F) h ∧ o.Named) _ _ ?_)
    fun h hh => ⟨hh, ho⟩
  intro o x hx
  refine Triple.and fun ho => ?_
  have ht : x.1 ∈ inp.vis2List := by
    have := List.mem_zipIdx hx
    exact this.2.2 ▸ List.getElem_mem _
  obtain ⟨hs, hk⟩ := hi.tables.vis2 x.1 ht
  have hle : x.1.blocks ≤ F := le_trans (vis2_le ht) hF
  apply touch_bind (held_right (held_self hs hle))
  split
  · apply use_lookup_bind hu (Multiset.le_add_left _ _)
    intro v hv
    cases v with
    | none => exact Triple.pure fun h hh => ⟨hh, ho⟩
    | some iv =>
      have hv' : Held (some iv) F := hv.resolve_left (by simp)
      simp only []
      apply malloc_bind; intro self hself _
      have hFM : F ≤ blk self + (o.blocks + F) :=
        le_trans (Multiset.le_add_left _ _) (Multiset.le_add_left _ _)
      apply inp_lookup_bind (hi.mono hFM) (le_trans hF hFM)
      intro pw hpw
      apply readPWave_bind (hi.mono hFM) (le_trans hF hFM) hpw
      refine Triple.bind (filter_vis2_rule hs hk (le_trans hle hFM) (held_left (held_blk hself))
        (hv'.mono hFM)) fun t' => Triple.and fun ⟨h1, h2, h3, h4⟩ => ?_
      split
      · rename_i hpos
        refine Triple.pure fun h hh => ⟨?_, named_vis2 ho (h1 ▸ hself) (h2 hpos.2)⟩
        rw [blocks_vis2 o t']
        have e : t'.blocks + o.blocks + F = t'.inner + (blk self + (o.blocks + F)) := by
          rw [Vis2.blocks, h1]; abel
        exact e ▸ hh
      · rename_i hpos
        have h0 : t'.numrec = 0 := by
          by_contra hne
          have hp := Nat.pos_of_ne_zero hne
          exact hpos ⟨h4 hp, hp⟩
        refine Triple.of_eq (M := blk t'.self + (o.blocks + F)) ?_
          (by rw [h1, h3 h0, zero_add])
        apply free_bind
        exact Triple.pure fun h hh => ⟨hh, ho⟩
  · exact Triple.pure fun h hh => ⟨hh, ho⟩

theorem filter_t3_rule {t : T3} {keep : Nat → Bool} {n : Nat} {useWave self : Ptr}
    {M : Multiset Nat} (hs : t.self ≠ none) (ht : t.Ok) (hM : t.blocks ≤ M) (hself : Held self M)
    (huse : Held useWave M) :
    Triple (Own M) (filter_oi_t3 t keep n useWave self)
      (fun t' h => Own (t'.inner + M) h ∧ t'.self = self ∧ (0 < t'.numrec → t'.Ok) ∧
        (t'.numrec = 0 → t'.inner = 0) ∧ (0 < t'.numrec → 0 < t'.nwave)) := by
  unfold filter_oi_t3
  apply touch_bind (held_self hs hM)
  apply touch_bind hself
  apply touch_bind huse
  apply malloc_bind; intro record hrec _
  refine Triple.bind (Q := fun recs h => Own (allOf T3Rec.blocks recs + (blk record + M)) h ∧
    (∀ r ∈ recs, r.Ok) ∧ (recs ≠ [] → 0 < n)) ?_ ?_
  · refine Triple.pre (memFold_rule (I := fun recs h =>
      Own (allOf T3Rec.blocks recs + (blk record + M)) h ∧
      (∀ r ∈ recs, r.Ok) ∧ (recs ≠ [] → 0 < n)) _ _ ?_) ?_
    swap
    · intro h hh
      exact ⟨by rw [allOf_nil, zero_add]; exact hh, by simp, fun h => absurd rfl h⟩
    intro recs i hi
    refine Triple.and fun ⟨h1, h2⟩ => ?_
    have hi' : i < t.recs.length := by rw [ht.2.1]; exact List.mem_range.mp hi
    have hD : t.blocks ≤ allOf T3Rec.blocks recs + (blk record + M) :=
      le_trans hM (le_trans (Multiset.le_add_left _ _) (Multiset.le_add_left _ _))
    apply recAt_bind (held_record ht.1 hD) hi'
    have hm : t.recs[i] ∈ t.recs := List.getElem_mem hi'
    generalize t.recs[i] = r at hm
    cases keep i with
    | false => exact Triple.pure fun h hh => ⟨hh, h1, h2⟩
    | true =>
      simp only [if_true]
      apply touch_bind (held_right (held_left (held_blk hrec)))
      have hle : r.blocks ≤ allOf T3Rec.blocks recs + (blk record + M) := le_rec hm hD
      refine Triple.bind (filter_t3_record_rule (ht.2.2 r hm) hle) fun r' =>
        Triple.and fun ⟨g1, g2⟩ => ?_
      refine Triple.pure fun h hh => ⟨?_, mem_snoc h1 g1, fun _ => g2⟩
      rw [allOf_append, allOf_one]
      have e : allOf T3Rec.blocks recs + r'.blocks + (blk record + M) =
        r'.blocks + (allOf T3Rec.blocks recs + (blk record + M)) := by abel
      rw [e]; exact hh
  · intro recs
    refine Triple.and fun ⟨h1, h2⟩ => ?_
    refine Triple.of_eq (M := blk record + (allOf T3Rec.blocks recs + M)) ?_ (by abel)
    apply realloc_bind hrec; intro record' a b
    refine Triple.pure fun h hh => ⟨?_, rfl, ?_, ?_, ?_⟩
    · have e : T3.inner { t with self := self, nwave := n, record := record', recs := recs, numrec := recs.length } + M =
        blk record' + (allOf T3Rec.blocks recs + M) := by
        simp only [T3.inner]; abel
      rw [e]; exact hh
    · intro hn
      exact ⟨a hn, rfl, h1⟩
    · intro h0
      have h0' : recs.length = 0 := h0
      have : recs = [] := List.length_eq_zero_iff.mp h0'
      simp [T3.inner, b h0', this, allOf_nil, blk]
    · intro hn
      exact h2 (List.ne_nil_of_length_pos hn)

theorem named_t3 {o : OiFits} {t : T3} (h : o.Named) (hs : t.self ≠ none) (ht : t.Ok) :
    OiFits.Named { o with t3List := o.t3List ++ [t] } :=
  ⟨tables_t3 h.tables hs ht, h.array, h.wave, h.corr⟩

theorem filter_all_t3_rule {inp o : OiFits} {f : FilterPlan} {use : Hash} {F : Multiset Nat}
    (hi : inp.OkIn F) (hF : inp.blocks ≤ F) (hu : UseSafe use F) (ho : o.Named) :
    Triple (Own (o.blocks + F)) (filter_all_oi_t3 inp f use o)
      (fun o' h => Own (o'.blocks + F) h ∧ o'.Named) := by
  unfold filter_all_oi_t3
  split
  · exact Triple.pure fun h hh => ⟨hh, ho⟩
  refine Triple.pre (memFold_rule (I := fun (o : OiFits) h => Own (o.blocks + F) h ∧ o.Named) _ _ ?_)
    fun h hh => ⟨hh, ho⟩
  intro o x hx
  refine Triple.and fun ho => ?_
  have ht : x.1 ∈ inp.t3List := by
    have := List.mem_zipIdx hx
    exact this.2.2 ▸ List.getElem_mem _
  obtain ⟨hs, hk⟩ := hi.tables.t3 x.1 ht
  have hle : x.1.blocks ≤ F := le_trans (t3_le ht) hF
  apply touch_bind (held_right (held_self hs hle))
  split
  · apply use_lookup_bind hu (Multiset.le_add_left _ _)
    intro v hv
    cases v with
    | none => exact Triple.pure fun h hh => ⟨hh, ho⟩
    | some iv =>
      have hv' : Held (some iv) F := hv.resolve_left (by simp)
      simp only []
      apply malloc_bind; intro self hself _
      have hFM : F ≤ blk self + (o.blocks + F) :=
        le_trans (Multiset.le_add_left _ _) (Multiset.le_add_left _ _)
      apply inp_lookup_bind (hi.mono hFM) (le_trans hF hFM)
      intro pw hpw
      apply readPWave_bind (hi.mono hFM) (le_trans hF hFM) hpw
      refine Triple.bind (filter_t3_rule hs hk (le_trans hle hFM) (held_left (held_blk hself))
        (hv'.mono hFM)) fun t' => Triple.and fun ⟨h1, h2, h3, h4⟩ => ?_
      split
      · rename_i hpos
        refine Triple.pure fun h hh => ⟨?_, named_t3 ho (h1 ▸ hself) (h2 hpos.2)⟩
        rw [blocks_t3 o t']
        have e : t'.blocks + o.blocks + F = t'.inner + (blk self + (o.blocks + F)) := by
          rw [T3.blocks, h1]; abel
        exact e ▸ hh
      · rename_i hpos
        have h0 : t'.numrec = 0 := by
          by_contra hne
          have hp := Nat.pos_of_ne_zero hne
          exact hpos ⟨h4 hp, hp⟩
        refine Triple.of_eq (M := blk t'.self + (o.blocks + F)) ?_
          (by rw [h1, h3 h0, zero_add])
        apply free_bind
        exact Triple.pure fun h hh => ⟨hh, ho⟩
  · exact Triple.pure fun h hh => ⟨hh, ho⟩

theorem filter_flux_rule {t : Flux} {keep : Nat → Bool} {n : Nat} {useWave self : Ptr}
    {M : Multiset Nat} (hs : t.self ≠ none) (ht : t.Ok) (hM : t.blocks ≤ M) (hself : Held self M)
    (huse : Held useWave M) :
    Triple (Own M) (filter_oi_flux t keep n useWave self)
      (fun t' h => Own (t'.inner + M) h ∧ t'.self = self ∧ (0 < t'.numrec → t'.Ok) ∧
        (t'.numrec = 0 → t'.inner = 0) ∧ (0 < t'.numrec → 0 < t'.nwave)) := by
  unfold filter_oi_flux
  apply touch_bind (held_self hs hM)
  apply touch_bind hself
  apply touch_bind huse
  apply malloc_bind; intro record hrec _
  refine Triple.bind (Q := fun recs h => Own (allOf FluxRec.blocks recs + (blk record + M)) h ∧
    (∀ r ∈ recs, r.Ok) ∧ (recs ≠ [] → 0 < n)) ?_ ?_
  · refine Triple.pre (memFold_rule (I := fun recs h =>
      Own (allOf FluxRec.blocks recs + (blk record + M)) h ∧
      (∀ r ∈ recs, r.Ok) ∧ (recs ≠ [] → 0 < n)) _ _ ?_) ?_
    swap
    · intro h hh
      exact ⟨by rw [allOf_nil, zero_add]; exact hh, by simp, fun h => absurd rfl h⟩
    intro recs i hi
    refine Triple.and fun ⟨h1, h2⟩ => ?_
    have hi' : i < t.recs.length := by rw [ht.2.1]; exact List.mem_range.mp hi
    have hD : t.blocks ≤ allOf FluxRec.blocks recs + (blk record + M) :=
      le_trans hM (le_trans (Multiset.le_add_left _ _) (Multiset.le_add_left _ _))
    apply recAt_bind (held_record ht.1 hD) hi'
    have hm : t.recs[i] ∈ t.recs := List.getElem_mem hi'
    generalize t.recs[i] = r at hm
    cases keep i with
    | false => exact Triple.pure fun h hh => ⟨hh, h1, h2⟩
    | true =>
      simp only [if_true]
      apply touch_bind (held_right (held_left (held_blk hrec)))
      have hle : r.blocks ≤ allOf FluxRec.blocks recs + (blk record + M) := le_rec hm hD
      refine Triple.bind (filter_flux_record_rule (ht.2.2 r hm) hle) fun r' =>
        Triple.and fun ⟨g1, g2⟩ => ?_
      refine Triple.pure fun h hh => ⟨?_, mem_snoc h1 g1, fun _ => g2⟩
      rw [allOf_append, allOf_one]
      have e : allOf FluxRec.blocks recs + r'.blocks + (blk record + M) =
        r'.blocks + (allOf FluxRec.blocks recs + (blk record + M)) := by abel
      rw [e]; exact hh
  · intro recs
    refine Triple.and fun ⟨h1, h2⟩ => ?_
    refine Triple.of_eq (M := blk record + (allOf FluxRec.blocks recs + M)) ?_ (by abel)
    apply realloc_bind hrec; intro record' a b
    refine Triple.pure fun h hh => ⟨?_, rfl, ?_, ?_, ?_⟩
    · have e : Flux.inner { t with self := self, nwave := n, record := record', recs := recs, numrec := recs.length } + M =
        blk record' + (allOf FluxRec.blocks recs + M) := by
        simp only [Flux.inner]; abel
      rw [e]; exact hh
    · intro hn
      exact ⟨a hn, rfl, h1⟩
    · intro h0
      have h0' : recs.length = 0 := h0
      have : recs = [] := List.length_eq_zero_iff.mp h0'
      simp [Flux.inner, b h0', this, allOf_nil, blk]
    · intro hn
      exact h2 (List.ne_nil_of_length_pos hn)

theorem named_flux {o : OiFits} {t : Flux} (h : o.Named) (hs : t.self ≠ none) (ht : t.Ok) :
    OiFits.Named { o with fluxList := o.fluxList ++ [t] } :=
  ⟨tables_flux h.tables hs ht, h.array, h.wave, h.corr⟩

theorem filter_all_flux_rule {inp o : OiFits} {f : FilterPlan} {use : Hash} {F : Multiset Nat}
    (hi : inp.OkIn F) (hF : inp.blocks ≤ F) (hu : UseSafe use F) (ho : o.Named) :
    Triple (Own (o.blocks + F)) (filter_all_oi_flux inp f use o)
      (fun o' h => Own (o'.blocks + F) h ∧ o'.Named) := by
  unfold filter_all_oi_flux
  split
  · exact Triple.pure fun h hh => ⟨hh, ho⟩
  refine Triple.pre (memFold_rule (I := fun (o : OiFits) h => Own (o.blocks + F) h ∧ o.Named) _ _ ?_)
    fun h hh => ⟨hh, ho⟩
  intro o x hx
  refine Triple.and fun ho => ?_
  have ht : x.1 ∈ inp.fluxList := by
    have := List.mem_zipIdx hx
    exact this.2.2 ▸ List.getElem_mem _
  obtain ⟨hs, hk⟩ := hi.tables.flux x.1 ht
  have hle : x.1.blocks ≤ F := le_trans (flux_le ht) hF
  apply touch_bind (held_right (held_self hs hle))
  split
  · apply use_lookup_bind hu (Multiset.le_add_left _ _)
    intro v hv
    cases v with
    | none => exact Triple.pure fun h hh => ⟨hh, ho⟩
    | some iv =>
      have hv' : Held (some iv) F := hv.resolve_left (by simp)
      simp only []
      apply malloc_bind; intro self hself _
      have hFM : F ≤ blk self + (o.blocks + F) :=
        le_trans (Multiset.le_add_left _ _) (Multiset.le_add_left _ _)
      refine Triple.bind (filter_flux_rule hs hk (le_trans hle hFM) (held_left (held_blk hself))
        (hv'.mono hFM)) fun t' => Triple.and fun ⟨h1, h2, h3, h4⟩ => ?_
      split
      · rename_i hpos
        refine Triple.pure fun h hh => ⟨?_, named_flux ho (h1 ▸ hself) (h2 hpos.2)⟩
        rw [blocks_flux o t']
        have e : t'.blocks + o.blocks + F = t'.inner + (blk self + (o.blocks + F)) := by
          rw [Flux.blocks, h1]; abel
        exact e ▸ hh
      · rename_i hpos
        have h0 : t'.numrec = 0 := by
          by_contra hne
          have hp := Nat.pos_of_ne_zero hne
          exact hpos ⟨h4 hp, hp⟩
        refine Triple.of_eq (M := blk t'.self + (o.blocks + F)) ?_
          (by rw [h1, h3 h0, zero_add])
        apply free_bind
        exact Triple.pure fun h hh => ⟨hh, ho⟩
  · exact Triple.pure fun h hh => ⟨hh, ho⟩

end Verif.Mem
