import Verif.Proof.MemPrune

/-! Ownership while datasets are merged. -/

namespace Verif.Mem

variable {α β σ τ : Type}

/-- The datasets to be merged are in order and allocated. -/
def InsOk (ins : List OiFits) (F : Multiset Nat) : Prop := ∀ d ∈ ins, d.OkIn F ∧ d.blocks ≤ F

theorem mem_of_zipIdx {l : List τ} {x : τ × Nat} (h : x ∈ l.zipIdx) :
    x.1 ∈ l ∧ x.2 < l.length := by
  have := List.mem_zipIdx h
  refine ⟨this.2.2 ▸ List.getElem_mem _, ?_⟩
  have := this.2.1
  omega

/-! ### OI_TARGET -/

/-- The hash table from target names to new numbers. -/
structure IdOk (F : Multiset Nat) (H : Hash) : Prop where
  self : H.self ≠ none
  key : H.keyFree = false
  val : H.valFree = true
  nodup : (H.entries.map Entry.name).Nodup
  owner : ∀ e ∈ H.entries, Held e.owner F
  value : ∀ e ∈ H.entries, e.value ≠ none

theorem IdOk.held {F : Multiset Nat} {H : Hash} (h : IdOk F H) :
    H.Safe (H.owned + F) ∧ ∀ e ∈ H.entries, Held e.value (H.owned + F) := by
  refine ⟨⟨held_left (held_left (held_blk h.self)), fun e he => held_right (h.owner e he)⟩,
    fun e he => held_left (held_right (Held.mono ?_ (le_allOf he)))⟩
  rw [h.key, h.val]
  simp only [entryOwn, Bool.false_eq_true, if_false, if_true, zero_add]
  exact held_blk (h.value e he)

theorem IdOk.insert {F : Multiset Nat} {H H' : Hash} {owner : Ptr} {name : CStr} {value : Ptr}
    (h : IdOk F H) (ho : Held owner F) (hv : value ≠ none)
    (hi : InsertedIn H owner name value H') (hnd : (H'.entries.map Entry.name).Nodup) :
    IdOk F H' := by
  obtain ⟨h1, h2, h3, h4⟩ := hi
  refine ⟨h1 ▸ h.self, h2 ▸ h.key, h3 ▸ h.val, hnd, fun e' he' => ?_, fun e' he' => ?_⟩
  · rcases h4 e' he' with h5 | ⟨_, _, h5 | ⟨e, he, _, h5⟩⟩
    · exact h.owner e' h5
    · exact h5 ▸ ho
    · exact h5 ▸ h.owner e he
  · rcases h4 e' he' with h5 | ⟨_, h6, _⟩
    · exact h.value e' h5
    · exact h6 ▸ hv

theorem merge_target_rule {ins : List OiFits} {p : MergePlan} {F M : Multiset Nat}
    (hi : InsOk ins F) (hFM : F ≤ M) :
    Triple (Own M) (merge_oi_target ins p)
      (fun s h => Own (s.1.inner + (s.2.owned + M)) h ∧ s.1.Ok ∧ IdOk F s.2) := by
  unfold merge_oi_target
  apply malloc_bind; intro targ htarg _
  apply hashNew_bind; intro H s1 k1 v1 e1
  refine Triple.bind (Q := fun (s : Nat × Hash) h => Own (s.2.owned + (blk targ + M)) h ∧ IdOk F s.2)
    ?_ ?_
  · refine Triple.pre (memFold_rule (I := fun (s : Nat × Hash) h =>
      Own (s.2.owned + (blk targ + M)) h ∧ IdOk F s.2) _ _ ?_) ?_
    swap
    · intro h hh
      refine ⟨?_, ⟨s1, k1, v1, by simp [e1], by simp [e1], by simp [e1]⟩⟩
      have e : H.owned = blk H.self := by simp [Hash.owned, e1, allOf_nil]
      simp only [e]; exact hh
    intro s x hx
    obtain ⟨hok, hle⟩ := hi x.1 (mem_of_zipIdx hx).1
    refine memFold_rule (I := fun (s : Nat × Hash) h =>
      Own (s.2.owned + (blk targ + M)) h ∧ IdOk F s.2) _ _ ?_
    intro s i hi
    refine Triple.and fun hid => ?_
    have hne : x.1.targets.targ ≠ none :=
      hok.tables.targets (Nat.lt_of_le_of_lt (Nat.zero_le _) (List.mem_range.mp hi))
    have hheld : Held x.1.targets.targ F := held_of_le hne (le_trans (le_blocks_targets _) hle)
    have hmono : s.2.owned + F ≤ s.2.owned + (blk targ + M) :=
      add_le_add_right (le_trans hFM (Multiset.le_add_left _ _)) _
    apply touch_bind (held_right (held_right (hheld.mono hFM)))
    apply hashSearch_bind (hid.held.1.mono hmono)
    split
    · apply malloc_bind; intro v hv _
      apply touch_bind (held_left (held_blk hv))
      split
      · have e : blk v + (s.2.owned + (blk targ + M)) =
            entryOwn s.2.keyFree s.2.valFree ⟨x.1.targets.targ, p.targName x.2 i, v⟩ +
              (s.2.owned + (blk targ + M)) := by
          rw [hid.key, hid.val]; simp [entryOwn]
        refine Triple.of_eq (hashInsert_owned (hid.held.1.mono hmono) hid.nodup
          (held_right (held_right (held_right (hheld.mono hFM)))) fun H' hi hnd => ?_) e
        apply touch_bind (held_right (held_left (held_blk htarg)))
        exact Triple.pure fun h hh => ⟨hh, hid.insert hheld hv hi hnd⟩
      · exact triple_abort
    · exact Triple.pure fun h hh => ⟨hh, hid⟩
  · intro s
    refine Triple.and fun hid => ?_
    refine Triple.of_eq (M := blk targ + (s.2.owned + M)) ?_ (by abel)
    apply realloc_bind htarg; intro targ' h1 _
    exact Triple.pure fun h hh => ⟨hh, h1, hid⟩

/-! ### Tables with names -/

/-- A hash table from old names to tables of the output. -/
structure MapOk (sf : τ → Ptr) (l : List τ) (F : Multiset Nat) (H : Hash) : Prop where
  self : H.self ≠ none
  key : H.keyFree = false
  val : H.valFree = false
  owner : ∀ e ∈ H.entries, Held e.owner F
  value : ∀ e ∈ H.entries, ∃ t ∈ l, sf t = e.value

theorem MapOk.mono {sf : τ → Ptr} {l l' : List τ} {F : Multiset Nat} {H : Hash}
    (h : MapOk sf l F H) (hl : ∀ t ∈ l, t ∈ l') : MapOk sf l' F H :=
  ⟨h.self, h.key, h.val, h.owner, fun e he => by
    obtain ⟨t, ht, e⟩ := h.value e he
    exact ⟨t, hl t ht, e⟩⟩

theorem MapOk.insert {sf : τ → Ptr} {l : List τ} {F : Multiset Nat} {H H' : Hash} {owner : Ptr}
    {name : CStr} {value : Ptr} (h : MapOk sf l F H) (ho : Held owner F)
    (hv : ∃ t ∈ l, sf t = value) (hi : InsertedIn H owner name value H') : MapOk sf l F H' := by
  obtain ⟨h1, h2, h3, h4⟩ := hi
  refine ⟨h1 ▸ h.self, h2 ▸ h.key, h3 ▸ h.val, fun e' he' => ?_, fun e' he' => ?_⟩
  · rcases h4 e' he' with h5 | ⟨_, _, h5 | ⟨e, he, _, h5⟩⟩
    · exact h.owner e' h5
    · exact h5 ▸ ho
    · exact h5 ▸ h.owner e he
  · rcases h4 e' he' with h5 | ⟨_, h6, _⟩
    · exact h.value e' h5
    · exact h6 ▸ hv

theorem MapOk.safe {sf : τ → Ptr} {l : List τ} {F M : Multiset Nat} {H : Hash}
    (h : MapOk sf l F H) (hF : F ≤ M) (hs : Held H.self M) : H.Safe M :=
  ⟨hs, fun e he => (h.owner e he).mono hF⟩

theorem maps_snoc {sf : τ → Ptr} {l : List τ} {F : Multiset Nat} {hs : List Hash} {H : Hash}
    (h : ∀ H ∈ hs, MapOk sf l F H) (hH : MapOk sf l F H) : ∀ x ∈ hs ++ [H], MapOk sf l F x :=
  mem_snoc h hH

/-- One turn of the inner loop. -/
def mergeArrayStep (p : MergePlan) (xi : Nat) (s : OiFits × Hash) (y : Array × Nat) :
    Mem (OiFits × Hash) := do
      let t := y.1
      touch t.self
      touch t.elem
      memFor (fun (o : Array) => do touch o.self; touch o.elem) s.1.arrayList
      match (p.arrMatch xi y.2).bind (fun j => s.1.arrayList[j]?) with
      | some o => do
        let hash' ← hashInsert s.2 t.self t.arrname o.self
        return (s.1, hash')
      | none => do
        let t1 ← dup_oi_array t
        touch t1.elem
        let _ ← hashLookup s.1.arrayHash t1.arrname
        touch t1.self
        let t' := { t1 with arrname := p.arrName xi y.2 }
        let H ← hashInsert s.1.arrayHash t'.self t'.arrname t'.self
        let hash' ← hashInsert s.2 t.self t.arrname t'.self
        return ({ s.1 with arrayList := s.1.arrayList ++ [t'], arrayHash := H }, hash')

/-- What merging tables of this kind leaves alone. -/
def SameArray (o o' : OiFits) : Prop :=
  o'.wavelengthList = o.wavelengthList ∧ o'.corrList = o.corrList

theorem SameArray.refl {o : OiFits} : SameArray o o := ⟨rfl, rfl⟩

theorem merge_array_step {p : MergePlan} {xi : Nat} {s : OiFits × Hash} {y : Array × Nat}
    {F : Multiset Nat} {hs : List Hash} {o : OiFits} (hy : y.1.self ≠ none ∧ y.1.Ok)
    (hle : y.1.blocks ≤ F) (ho : s.1.Named) (hmap : MapOk Array.self s.1.arrayList F s.2)
    (hmaps : ∀ H ∈ hs, MapOk Array.self s.1.arrayList F H) (hsame : SameArray o s.1) :
    Triple (Own (s.1.blocks + (blk s.2.self + (allOf Hash.owned hs + F)))) (mergeArrayStep p xi s y)
      (fun r h => Own (r.1.blocks + (blk r.2.self + (allOf Hash.owned hs + F))) h ∧ r.1.Named ∧
        MapOk Array.self r.1.arrayList F r.2 ∧ (∀ H ∈ hs, MapOk Array.self r.1.arrayList F H) ∧
        SameArray o r.1) := by
  unfold mergeArrayStep
  have hFM : F ≤ s.1.blocks + (blk s.2.self + (allOf Hash.owned hs + F)) :=
    le_trans (le_trans (Multiset.le_add_left _ _) (Multiset.le_add_left _ _))
      (Multiset.le_add_left _ _)
  have hle' := le_trans hle hFM
  have howner : Held y.1.self F := held_self hy.1 hle
  obtain ⟨hs1, hk⟩ := hy
  apply touch_bind (held_self hs1 hle')
  apply touch_bind (Held.mono (held_right (held_blk hk)) hle')
  refine Triple.bind (memFor_touch (M := s.1.blocks + (blk s.2.self + (allOf Hash.owned hs + F))) _ ?_) fun _ => ?_
  · intro t2 ht2
    obtain ⟨hs2, hk2⟩ := ho.tables.array t2 ht2
    apply touch_bind (held_left (held_self hs2 (array_le ht2)))
    exact touch_rule (held_left (Held.mono (held_right (held_blk hk2)) (array_le ht2)))
  cases hmatch : (p.arrMatch xi y.2).bind (fun j => s.1.arrayList[j]?) with
  | some o2 =>
    have hm2 : o2 ∈ s.1.arrayList := by
      cases hp : p.arrMatch xi y.2 with
      | none => rw [hp] at hmatch; cases hmatch
      | some j => rw [hp] at hmatch; exact List.mem_of_getElem? hmatch
    simp only []
    apply hashInsert_bind (hmap.safe hFM (held_right (held_left (held_blk hmap.self)))) hmap.key hmap.val
      (howner.mono hFM)
    intro H' hi'
    refine Triple.pure fun h hh => ⟨?_, ho, hmap.insert howner ⟨o2, hm2, rfl⟩ hi', hmaps, hsame⟩
    simp only [hi'.1]; exact hh
  | none =>
    simp only []
    refine Triple.bind (dup_array y.1 hs1 hk hle') fun t1 => Triple.and fun ⟨h1, h2, _⟩ => ?_
    apply touch_bind (held_left (held_right (held_blk h1)))
    apply hashLookup_bind ((named_safe ho (Multiset.le_add_right _ _)).1.mono (Multiset.le_add_left _ _))
    intro _ _
    apply touch_bind (held_left (held_left (held_blk h2)))
    obtain ⟨t', ht'⟩ : ∃ t', t' = ({ t1 with arrname := p.arrName xi y.2 } : Array) := ⟨_, rfl⟩
    have h1' : t'.Ok := by rw [ht']; exact h1
    have h2' : t'.self ≠ none := by rw [ht']; exact h2
    have hse : t'.self = t1.self := by rw [ht']
    have hb' : t1.blocks = t'.blocks := by rw [ht']; rfl
    refine Triple.of_eq (M := t'.blocks + (s.1.blocks + (blk s.2.self + (allOf Hash.owned hs + F)))) ?_
      (by rw [← hb']; rfl)
    simp only [← ht']
    apply hashInsert_bind ((named_safe ho (Multiset.le_add_right _ _)).1.mono (Multiset.le_add_left _ _))
      ho.array.key ho.array.val (hse ▸ held_left (held_left (held_blk h2')))
    intro H hH
    apply hashInsert_bind (hmap.safe (le_trans hFM (Multiset.le_add_left _ _))
      (held_right (held_right (held_left (held_blk hmap.self))))) hmap.key hmap.val
      (howner.mono (le_trans hFM (Multiset.le_add_left _ _)))
    intro H' hi'
    have hgrow : ∀ t ∈ s.1.arrayList, t ∈ s.1.arrayList ++ [t'] := fun t ht => List.mem_append.mpr (.inl ht)
    refine Triple.pure fun h hh => ⟨?_, named_array ho h2' h1' (by rw [ht']; exact hH),
      (hmap.mono hgrow).insert howner ⟨t', by simp, hse⟩ hi', fun X hX => (hmaps X hX).mono hgrow, hsame⟩
    simp only [hi'.1]
    rw [blocks_array s.1 t' H hH.1, add_assoc]; exact hh

theorem merge_array_rule {ins : List OiFits} {p : MergePlan} {o : OiFits} {F : Multiset Nat}
    (hins : InsOk ins F) (ho : o.Named) :
    Triple (Own (o.blocks + F)) (merge_all_oi_array ins p o)
      (fun s h => Own (s.1.blocks + (allOf Hash.owned s.2 + F)) h ∧ s.1.Named ∧
        (∀ H ∈ s.2, MapOk Array.self s.1.arrayList F H) ∧ s.2.length = ins.length ∧ SameArray o s.1) := by
  unfold merge_all_oi_array
  have key : ∀ (l : List (OiFits × Nat)) (s : OiFits × List Hash), (∀ x ∈ l, x.1 ∈ ins) →
      s.1.Named → (∀ H ∈ s.2, MapOk Array.self s.1.arrayList F H) → SameArray o s.1 →
      Triple (Own (s.1.blocks + (allOf Hash.owned s.2 + F)))
        (memFold (fun (s : OiFits × List Hash) (x : OiFits × Nat) => do
          let hash ← hashNew false false
          let r ← memFold (mergeArrayStep p x.2) (s.1, hash) x.1.arrayList.zipIdx
          return (r.1, s.2 ++ [r.2])) s l)
        (fun s' h => Own (s'.1.blocks + (allOf Hash.owned s'.2 + F)) h ∧ s'.1.Named ∧
          (∀ H ∈ s'.2, MapOk Array.self s'.1.arrayList F H) ∧
          s'.2.length = s.2.length + l.length ∧ SameArray o s'.1) := by
    intro l
    induction l with
    | nil => intro s _ h1 h2 h3; exact Triple.pure fun h hh => ⟨hh, h1, h2, rfl, h3⟩
    | cons x l ih =>
      intro s hl h1 h2 h3
      unfold memFold
      rw [bind_assoc]
      apply hashNew_bind; intro hash a1 a2 a3 a4
      rw [bind_assoc]
      obtain ⟨hs, hsEq⟩ : ∃ hs, hs = s.2 := ⟨_, rfl⟩
      obtain ⟨hok, hle⟩ := hins x.1 (hl x (by simp))
      refine Triple.bind (Q := fun (r : OiFits × Hash) h => Own (r.1.blocks + (blk r.2.self +
        (allOf Hash.owned hs + F))) h ∧ r.1.Named ∧ MapOk Array.self r.1.arrayList F r.2 ∧
        (∀ H ∈ hs, MapOk Array.self r.1.arrayList F H) ∧ SameArray o r.1) ?_ ?_
      · refine Triple.pre (memFold_rule (I := fun (r : OiFits × Hash) h => Own (r.1.blocks +
          (blk r.2.self + (allOf Hash.owned hs + F))) h ∧ r.1.Named ∧
          MapOk Array.self r.1.arrayList F r.2 ∧ (∀ H ∈ hs, MapOk Array.self r.1.arrayList F H) ∧
          SameArray o r.1) _ _ ?_) ?_
        swap
        · intro h hh
          refine ⟨?_, h1, ⟨a1, a2, a3, by simp [a4], by simp [a4]⟩, hsEq ▸ h2, h3⟩
          have e : s.1.blocks + (blk hash.self + (allOf Hash.owned hs + F)) =
            blk hash.self + (s.1.blocks + (allOf Hash.owned s.2 + F)) := by rw [hsEq]; abel
          exact e ▸ hh
        intro r y hy
        refine Triple.and fun ⟨b1, b2, b3, b4⟩ => ?_
        exact merge_array_step (hok.tables.array y.1 (mem_of_zipIdx hy).1)
          (le_trans (array_le (mem_of_zipIdx hy).1) hle) b1 b2 b3 b4
      · intro r
        refine Triple.and fun ⟨b1, b2, b3, b4⟩ => ?_
        rw [pure_bind]
        refine Triple.post (Triple.of_eq (ih (r.1, s.2 ++ [r.2])
          (fun x hx => hl x (List.mem_cons_of_mem _ hx)) b1 (maps_snoc (hsEq ▸ b3) b2) b4) ?_) ?_
        · simp only [allOf_append, allOf_one, owned_plain b2.key b2.val, hsEq]; abel
        · rintro s' h ⟨c1, c2, c3, c4, c5⟩
          refine ⟨c1, c2, c3, ?_, c5⟩
          rw [c4]; simp; omega
  refine Triple.post (Triple.of_eq (key ins.zipIdx (o, []) (fun x hx => (mem_of_zipIdx hx).1) ho
    (by simp) SameArray.refl) ?_) ?_
  · simp [allOf_nil]
  · rintro s h ⟨c1, c2, c3, c4, c5⟩
    refine ⟨c1, c2, c3, ?_, c5⟩
    rw [c4]; simp

/-- One turn of the inner loop. -/
def mergeWaveStep (p : MergePlan) (xi : Nat) (s : OiFits × Hash) (y : Wave × Nat) :
    Mem (OiFits × Hash) := do
      let t := y.1
      touch t.self
      touch t.eff_wave
      touch t.eff_band
      memFor (fun (o : Wave) => do touch o.self; touch o.eff_wave; touch o.eff_band) s.1.wavelengthList
      match (p.waveMatch xi y.2).bind (fun j => s.1.wavelengthList[j]?) with
      | some o => do
        let hash' ← hashInsert s.2 t.self t.insname o.self
        return (s.1, hash')
      | none => do
        let t1 ← dup_oi_wavelength t
        let _ ← hashLookup s.1.wavelengthHash t1.insname
        touch t1.self
        let t' := { t1 with insname := p.waveName xi y.2 }
        let H ← hashInsert s.1.wavelengthHash t'.self t'.insname t'.self
        let hash' ← hashInsert s.2 t.self t.insname t'.self
        return ({ s.1 with wavelengthList := s.1.wavelengthList ++ [t'], wavelengthHash := H }, hash')

/-- What merging tables of this kind leaves alone. -/
def SameWave (o o' : OiFits) : Prop :=
  o'.arrayList = o.arrayList ∧ o'.corrList = o.corrList

theorem SameWave.refl {o : OiFits} : SameWave o o := ⟨rfl, rfl⟩

theorem merge_wave_step {p : MergePlan} {xi : Nat} {s : OiFits × Hash} {y : Wave × Nat}
    {F : Multiset Nat} {hs : List Hash} {o : OiFits} (hy : y.1.self ≠ none ∧ y.1.Ok)
    (hle : y.1.blocks ≤ F) (ho : s.1.Named) (hmap : MapOk Wave.self s.1.wavelengthList F s.2)
    (hmaps : ∀ H ∈ hs, MapOk Wave.self s.1.wavelengthList F H) (hsame : SameWave o s.1) :
    Triple (Own (s.1.blocks + (blk s.2.self + (allOf Hash.owned hs + F)))) (mergeWaveStep p xi s y)
      (fun r h => Own (r.1.blocks + (blk r.2.self + (allOf Hash.owned hs + F))) h ∧ r.1.Named ∧
        MapOk Wave.self r.1.wavelengthList F r.2 ∧ (∀ H ∈ hs, MapOk Wave.self r.1.wavelengthList F H) ∧
        SameWave o r.1) := by
  unfold mergeWaveStep
  have hFM : F ≤ s.1.blocks + (blk s.2.self + (allOf Hash.owned hs + F)) :=
    le_trans (le_trans (Multiset.le_add_left _ _) (Multiset.le_add_left _ _))
      (Multiset.le_add_left _ _)
  have hle' := le_trans hle hFM
  have howner : Held y.1.self F := held_self hy.1 hle
  obtain ⟨hs1, hk⟩ := hy
  apply touch_bind (held_self hs1 hle')
  apply touch_bind (Held.mono (held_right (held_left (held_blk hk.1))) hle')
  apply touch_bind (Held.mono (held_right (held_right (held_blk hk.2))) hle')
  refine Triple.bind (memFor_touch (M := s.1.blocks + (blk s.2.self + (allOf Hash.owned hs + F))) _ ?_) fun _ => ?_
  · intro t2 ht2
    obtain ⟨hs2, hk2⟩ := ho.tables.wave t2 ht2
    apply touch_bind (held_left (held_self hs2 (wave_le ht2)))
    apply touch_bind (held_left (Held.mono (held_right (held_left (held_blk hk2.1))) (wave_le ht2)))
    exact touch_rule (held_left (Held.mono (held_right (held_right (held_blk hk2.2))) (wave_le ht2)))
  cases hmatch : (p.waveMatch xi y.2).bind (fun j => s.1.wavelengthList[j]?) with
  | some o2 =>
    have hm2 : o2 ∈ s.1.wavelengthList := by
      cases hp : p.waveMatch xi y.2 with
      | none => rw [hp] at hmatch; cases hmatch
      | some j => rw [hp] at hmatch; exact List.mem_of_getElem? hmatch
    simp only []
    apply hashInsert_bind (hmap.safe hFM (held_right (held_left (held_blk hmap.self)))) hmap.key hmap.val
      (howner.mono hFM)
    intro H' hi'
    refine Triple.pure fun h hh => ⟨?_, ho, hmap.insert howner ⟨o2, hm2, rfl⟩ hi', hmaps, hsame⟩
    simp only [hi'.1]; exact hh
  | none =>
    simp only []
    refine Triple.bind (dup_wave y.1 hs1 hk hle') fun t1 => Triple.and fun ⟨h1, h2, _⟩ => ?_
    apply hashLookup_bind ((named_safe ho (Multiset.le_add_right _ _)).2.1.mono (Multiset.le_add_left _ _))
    intro _ _
    apply touch_bind (held_left (held_left (held_blk h2)))
    obtain ⟨t', ht'⟩ : ∃ t', t' = ({ t1 with insname := p.waveName xi y.2 } : Wave) := ⟨_, rfl⟩
    have h1' : t'.Ok := by rw [ht']; exact h1
    have h2' : t'.self ≠ none := by rw [ht']; exact h2
    have hse : t'.self = t1.self := by rw [ht']
    have hb' : t1.blocks = t'.blocks := by rw [ht']; rfl
    refine Triple.of_eq (M := t'.blocks + (s.1.blocks + (blk s.2.self + (allOf Hash.owned hs + F)))) ?_
      (by rw [← hb']; rfl)
    simp only [← ht']
    apply hashInsert_bind ((named_safe ho (Multiset.le_add_right _ _)).2.1.mono (Multiset.le_add_left _ _))
      ho.wave.key ho.wave.val (hse ▸ held_left (held_left (held_blk h2')))
    intro H hH
    apply hashInsert_bind (hmap.safe (le_trans hFM (Multiset.le_add_left _ _))
      (held_right (held_right (held_left (held_blk hmap.self))))) hmap.key hmap.val
      (howner.mono (le_trans hFM (Multiset.le_add_left _ _)))
    intro H' hi'
    have hgrow : ∀ t ∈ s.1.wavelengthList, t ∈ s.1.wavelengthList ++ [t'] := fun t ht => List.mem_append.mpr (.inl ht)
    refine Triple.pure fun h hh => ⟨?_, named_wave ho h2' h1' (by rw [ht']; exact hH),
      (hmap.mono hgrow).insert howner ⟨t', by simp, hse⟩ hi', fun X hX => (hmaps X hX).mono hgrow, hsame⟩
    simp only [hi'.1]
    rw [blocks_wave s.1 t' H hH.1, add_assoc]; exact hh

theorem merge_wave_rule {ins : List OiFits} {p : MergePlan} {o : OiFits} {F : Multiset Nat}
    (hins : InsOk ins F) (ho : o.Named) :
    Triple (Own (o.blocks + F)) (merge_all_oi_wavelength ins p o)
      (fun s h => Own (s.1.blocks + (allOf Hash.owned s.2 + F)) h ∧ s.1.Named ∧
        (∀ H ∈ s.2, MapOk Wave.self s.1.wavelengthList F H) ∧ s.2.length = ins.length ∧ SameWave o s.1) := by
  unfold merge_all_oi_wavelength
  have key : ∀ (l : List (OiFits × Nat)) (s : OiFits × List Hash), (∀ x ∈ l, x.1 ∈ ins) →
      s.1.Named → (∀ H ∈ s.2, MapOk Wave.self s.1.wavelengthList F H) → SameWave o s.1 →
      Triple (Own (s.1.blocks + (allOf Hash.owned s.2 + F)))
        (memFold (fun (s : OiFits × List Hash) (x : OiFits × Nat) => do
          let hash ← hashNew false false
          let r ← memFold (mergeWaveStep p x.2) (s.1, hash) x.1.wavelengthList.zipIdx
          return (r.1, s.2 ++ [r.2])) s l)
        (fun s' h => Own (s'.1.blocks + (allOf Hash.owned s'.2 + F)) h ∧ s'.1.Named ∧
          (∀ H ∈ s'.2, MapOk Wave.self s'.1.wavelengthList F H) ∧
          s'.2.length = s.2.length + l.length ∧ SameWave o s'.1) := by
    intro l
    induction l with
    | nil => intro s _ h1 h2 h3; exact Triple.pure fun h hh => ⟨hh, h1, h2, rfl, h3⟩
    | cons x l ih =>
      intro s hl h1 h2 h3
      unfold memFold
      rw [bind_assoc]
      apply hashNew_bind; intro hash a1 a2 a3 a4
      rw [bind_assoc]
      obtain ⟨hs, hsEq⟩ : ∃ hs, hs = s.2 := ⟨_, rfl⟩
      obtain ⟨hok, hle⟩ := hins x.1 (hl x (by simp))
      refine Triple.bind (Q := fun (r : OiFits × Hash) h => Own (r.1.blocks + (blk r.2.self +
        (allOf Hash.owned hs + F))) h ∧ r.1.Named ∧ MapOk Wave.self r.1.wavelengthList F r.2 ∧
        (∀ H ∈ hs, MapOk Wave.self r.1.wavelengthList F H) ∧ SameWave o r.1) ?_ ?_
      · refine Triple.pre (memFold_rule (I := fun (r : OiFits × Hash) h => Own (r.1.blocks +
          (blk r.2.self + (allOf Hash.owned hs + F))) h ∧ r.1.Named ∧
          MapOk Wave.self r.1.wavelengthList F r.2 ∧ (∀ H ∈ hs, MapOk Wave.self r.1.wavelengthList F H) ∧
          SameWave o r.1) _ _ ?_) ?_
        swap
        · intro h hh
          refine ⟨?_, h1, ⟨a1, a2, a3, by simp [a4], by simp [a4]⟩, hsEq ▸ h2, h3⟩
          have e : s.1.blocks + (blk hash.self + (allOf Hash.owned hs + F)) =
            blk hash.self + (s.1.blocks + (allOf Hash.owned s.2 + F)) := by rw [hsEq]; abel
          exact e ▸ hh
        intro r y hy
        refine Triple.and fun ⟨b1, b2, b3, b4⟩ => ?_
        exact merge_wave_step (hok.tables.wave y.1 (mem_of_zipIdx hy).1)
          (le_trans (wave_le (mem_of_zipIdx hy).1) hle) b1 b2 b3 b4
      · intro r
        refine Triple.and fun ⟨b1, b2, b3, b4⟩ => ?_
        rw [pure_bind]
        refine Triple.post (Triple.of_eq (ih (r.1, s.2 ++ [r.2])
          (fun x hx => hl x (List.mem_cons_of_mem _ hx)) b1 (maps_snoc (hsEq ▸ b3) b2) b4) ?_) ?_
        · simp only [allOf_append, allOf_one, owned_plain b2.key b2.val, hsEq]; abel
        · rintro s' h ⟨c1, c2, c3, c4, c5⟩
          refine ⟨c1, c2, c3, ?_, c5⟩
          rw [c4]; simp; omega
  refine Triple.post (Triple.of_eq (key ins.zipIdx (o, []) (fun x hx => (mem_of_zipIdx hx).1) ho
    (by simp) SameWave.refl) ?_) ?_
  · simp [allOf_nil]
  · rintro s h ⟨c1, c2, c3, c4, c5⟩
    refine ⟨c1, c2, c3, ?_, c5⟩
    rw [c4]; simp

/-- One turn of the inner loop. -/
def mergeCorrStep (p : MergePlan) (xi : Nat) (s : OiFits × Hash) (y : Corr × Nat) :
    Mem (OiFits × Hash) := do
  let t := y.1
  let t1 ← dup_oi_corr t
  let _ ← hashLookup s.1.corrHash t1.corrname
  touch t1.self
  let t' := { t1 with corrname := p.corrName xi y.2 }
  let H ← hashInsert s.1.corrHash t'.self t'.corrname t'.self
  let hash' ← hashInsert s.2 t.self t.corrname t'.self
  return ({ s.1 with corrList := s.1.corrList ++ [t'], corrHash := H }, hash')

/-- What merging tables of this kind leaves alone. -/
def SameCorr (o o' : OiFits) : Prop :=
  o'.arrayList = o.arrayList ∧ o'.wavelengthList = o.wavelengthList

theorem SameCorr.refl {o : OiFits} : SameCorr o o := ⟨rfl, rfl⟩

theorem merge_corr_step {p : MergePlan} {xi : Nat} {s : OiFits × Hash} {y : Corr × Nat}
    {F : Multiset Nat} {hs : List Hash} {o : OiFits} (hy : y.1.self ≠ none ∧ y.1.Ok)
    (hle : y.1.blocks ≤ F) (ho : s.1.Named) (hmap : MapOk Corr.self s.1.corrList F s.2)
    (hmaps : ∀ H ∈ hs, MapOk Corr.self s.1.corrList F H) (hsame : SameCorr o s.1) :
    Triple (Own (s.1.blocks + (blk s.2.self + (allOf Hash.owned hs + F)))) (mergeCorrStep p xi s y)
      (fun r h => Own (r.1.blocks + (blk r.2.self + (allOf Hash.owned hs + F))) h ∧ r.1.Named ∧
        MapOk Corr.self r.1.corrList F r.2 ∧ (∀ H ∈ hs, MapOk Corr.self r.1.corrList F H) ∧
        SameCorr o r.1) := by
  unfold mergeCorrStep
  have hFM : F ≤ s.1.blocks + (blk s.2.self + (allOf Hash.owned hs + F)) :=
    le_trans (le_trans (Multiset.le_add_left _ _) (Multiset.le_add_left _ _))
      (Multiset.le_add_left _ _)
  have hle' := le_trans hle hFM
  have howner : Held y.1.self F := held_self hy.1 hle
  obtain ⟨hs1, hk⟩ := hy
  refine Triple.bind (dup_corr y.1 hs1 hk hle') fun t1 => Triple.and fun ⟨h1, h2, _⟩ => ?_
  apply hashLookup_bind ((named_safe ho (Multiset.le_add_right _ _)).2.2.mono (Multiset.le_add_left _ _))
  intro _ _
  apply touch_bind (held_left (held_left (held_blk h2)))
  obtain ⟨t', ht'⟩ : ∃ t', t' = ({ t1 with corrname := p.corrName xi y.2 } : Corr) := ⟨_, rfl⟩
  have h1' : t'.Ok := by rw [ht']; exact h1
  have h2' : t'.self ≠ none := by rw [ht']; exact h2
  have hse : t'.self = t1.self := by rw [ht']
  have hb' : t1.blocks = t'.blocks := by rw [ht']; rfl
  refine Triple.of_eq (M := t'.blocks + (s.1.blocks + (blk s.2.self + (allOf Hash.owned hs + F)))) ?_
    (by rw [← hb']; rfl)
  simp only [← ht']
  apply hashInsert_bind ((named_safe ho (Multiset.le_add_right _ _)).2.2.mono (Multiset.le_add_left _ _))
    ho.corr.key ho.corr.val (hse ▸ held_left (held_left (held_blk h2')))
  intro H hH
  apply hashInsert_bind (hmap.safe (le_trans hFM (Multiset.le_add_left _ _))
    (held_right (held_right (held_left (held_blk hmap.self))))) hmap.key hmap.val
    (howner.mono (le_trans hFM (Multiset.le_add_left _ _)))
  intro H' hi'
  have hgrow : ∀ t ∈ s.1.corrList, t ∈ s.1.corrList ++ [t'] := fun t ht => List.mem_append.mpr (.inl ht)
  refine Triple.pure fun h hh => ⟨?_, named_corr ho h2' h1' (by rw [ht']; exact hH),
    (hmap.mono hgrow).insert howner ⟨t', by simp, hse⟩ hi', fun X hX => (hmaps X hX).mono hgrow, hsame⟩
  simp only [hi'.1]
  rw [blocks_corr s.1 t' H hH.1, add_assoc]; exact hh

theorem merge_corr_rule {ins : List OiFits} {p : MergePlan} {o : OiFits} {F : Multiset Nat}
    (hins : InsOk ins F) (ho : o.Named) :
    Triple (Own (o.blocks + F)) (merge_all_oi_corr ins p o)
      (fun s h => Own (s.1.blocks + (allOf Hash.owned s.2 + F)) h ∧ s.1.Named ∧
        (∀ H ∈ s.2, MapOk Corr.self s.1.corrList F H) ∧ s.2.length = ins.length ∧ SameCorr o s.1) := by
  unfold merge_all_oi_corr
  have key : ∀ (l : List (OiFits × Nat)) (s : OiFits × List Hash), (∀ x ∈ l, x.1 ∈ ins) →
      s.1.Named → (∀ H ∈ s.2, MapOk Corr.self s.1.corrList F H) → SameCorr o s.1 →
      Triple (Own (s.1.blocks + (allOf Hash.owned s.2 + F)))
        (memFold (fun (s : OiFits × List Hash) (x : OiFits × Nat) => do
          let hash ← hashNew false false
          let r ← memFold (mergeCorrStep p x.2) (s.1, hash) x.1.corrList.zipIdx
          return (r.1, s.2 ++ [r.2])) s l)
        (fun s' h => Own (s'.1.blocks + (allOf Hash.owned s'.2 + F)) h ∧ s'.1.Named ∧
          (∀ H ∈ s'.2, MapOk Corr.self s'.1.corrList F H) ∧
          s'.2.length = s.2.length + l.length ∧ SameCorr o s'.1) := by
    intro l
    induction l with
    | nil => intro s _ h1 h2 h3; exact Triple.pure fun h hh => ⟨hh, h1, h2, rfl, h3⟩
    | cons x l ih =>
      intro s hl h1 h2 h3
      unfold memFold
      rw [bind_assoc]
      apply hashNew_bind; intro hash a1 a2 a3 a4
      rw [bind_assoc]
      obtain ⟨hs, hsEq⟩ : ∃ hs, hs = s.2 := ⟨_, rfl⟩
      obtain ⟨hok, hle⟩ := hins x.1 (hl x (by simp))
      refine Triple.bind (Q := fun (r : OiFits × Hash) h => Own (r.1.blocks + (blk r.2.self +
        (allOf Hash.owned hs + F))) h ∧ r.1.Named ∧ MapOk Corr.self r.1.corrList F r.2 ∧
        (∀ H ∈ hs, MapOk Corr.self r.1.corrList F H) ∧ SameCorr o r.1) ?_ ?_
      · refine Triple.pre (memFold_rule (I := fun (r : OiFits × Hash) h => Own (r.1.blocks +
          (blk r.2.self + (allOf Hash.owned hs + F))) h ∧ r.1.Named ∧
          MapOk Corr.self r.1.corrList F r.2 ∧ (∀ H ∈ hs, MapOk Corr.self r.1.corrList F H) ∧
          SameCorr o r.1) _ _ ?_) ?_
        swap
        · intro h hh
          refine ⟨?_, h1, ⟨a1, a2, a3, by simp [a4], by simp [a4]⟩, hsEq ▸ h2, h3⟩
          have e : s.1.blocks + (blk hash.self + (allOf Hash.owned hs + F)) =
            blk hash.self + (s.1.blocks + (allOf Hash.owned s.2 + F)) := by rw [hsEq]; abel
          exact e ▸ hh
        intro r y hy
        refine Triple.and fun ⟨b1, b2, b3, b4⟩ => ?_
        exact merge_corr_step (hok.tables.corr y.1 (mem_of_zipIdx hy).1)
          (le_trans (corr_le (mem_of_zipIdx hy).1) hle) b1 b2 b3 b4
      · intro r
        refine Triple.and fun ⟨b1, b2, b3, b4⟩ => ?_
        rw [pure_bind]
        refine Triple.post (Triple.of_eq (ih (r.1, s.2 ++ [r.2])
          (fun x hx => hl x (List.mem_cons_of_mem _ hx)) b1 (maps_snoc (hsEq ▸ b3) b2) b4) ?_) ?_
        · simp only [allOf_append, allOf_one, owned_plain b2.key b2.val, hsEq]; abel
        · rintro s' h ⟨c1, c2, c3, c4, c5⟩
          refine ⟨c1, c2, c3, ?_, c5⟩
          rw [c4]; simp; omega
  refine Triple.post (Triple.of_eq (key ins.zipIdx (o, []) (fun x hx => (mem_of_zipIdx hx).1) ho
    (by simp) SameCorr.refl) ?_) ?_
  · simp [allOf_nil]
  · rintro s h ⟨c1, c2, c3, c4, c5⟩
    refine ⟨c1, c2, c3, ?_, c5⟩
    rw [c4]; simp

/-! ### Data tables -/

/-- The hash tables which the merging of data tables uses, while `F` is allocated. -/
structure Maps (ins : List OiFits) (o : OiFits) (G F : Multiset Nat) (ids : Hash)
    (arrs waves corrs : List Hash) : Prop where
  le : G ≤ F
  id : ids.Safe F ∧ ∀ e ∈ ids.entries, Held e.value F
  arr : ∀ H ∈ arrs, MapOk Array.self o.arrayList G H ∧ Held H.self F
  wave : ∀ H ∈ waves, MapOk Wave.self o.wavelengthList G H ∧ Held H.self F
  corr : ∀ H ∈ corrs, MapOk Corr.self o.corrList G H ∧ Held H.self F
  larr : arrs.length = ins.length
  lwave : waves.length = ins.length
  lcorr : corrs.length = ins.length

theorem hashAt_bind {M : Multiset Nat} {l : List Hash} {i : Nat} {f : Hash → Mem β}
    {Q : β → Heap → Prop} (hi : i < l.length) (hf : ∀ H ∈ l, Triple (Own M) (f H) Q) :
    Triple (Own M) (hashAt l i >>= f) Q := by
  unfold hashAt
  rw [List.getElem?_eq_getElem hi]
  exact hf _ (List.getElem_mem hi)

theorem replaceName_bind {M : Multiset Nat} {H : Hash} {self : Ptr} {f : Unit → Mem β}
    {Q : β → Heap → Prop} (hH : H.Safe M) (hv : ∀ e ∈ H.entries, Held e.value M)
    (hs : Held self M) (hf : Triple (Own M) (f ()) Q) :
    Triple (Own M) (replaceName H self >>= f) Q := by
  unfold replaceName
  rw [bind_assoc]
  apply hashSearch_bind hH
  rw [bind_assoc]
  refine Triple.bind (memFor_touch _ fun e he => touch_rule (hv e he)) fun _ => ?_
  exact touch_bind hs hf

theorem replaceTargetId_bind {M B : Multiset Nat} {inp : OiFits} {H : Hash} {n : Nat} {record : Ptr}
    {f : Unit → Mem β} {Q : β → Heap → Prop} (hi : inp.OkIn B) (hM : inp.blocks ≤ M) (hH : H.Safe M)
    (hv : ∀ e ∈ H.entries, Held e.value M) (hr : Held record M) (hf : Triple (Own M) (f ()) Q) :
    Triple (Own M) (replaceTargetId inp H n record >>= f) Q := by
  unfold replaceTargetId
  refine Triple.bind (memFor_touch _ fun _ _ => ?_) fun _ => hf
  refine Triple.bind (memFor_touch (M := M) _ fun i hi' => touch_rule ?_) fun _ => ?_
  · exact held_of_le (hi.tables.targets (Nat.lt_of_le_of_lt (Nat.zero_le _) (List.mem_range.mp hi')))
      (le_trans (le_blocks_targets _) hM)
  apply hashSearch_bind hH
  refine Triple.bind (memFor_touch _ fun e he => touch_rule (hv e he)) fun _ => ?_
  exact touch_rule hr

theorem map_held {sf : τ → Ptr} {l : List τ} {G F B M : Multiset Nat} {H : Hash}
    (h : MapOk sf l G H) (hs : Held H.self F) (hG : G ≤ F) (hl : ∀ t ∈ l, Held (sf t) B)
    (hF : F ≤ M) (hB : B ≤ M) : H.Safe M ∧ ∀ e ∈ H.entries, Held e.value M :=
  ⟨h.safe (le_trans hG hF) (hs.mono hF), fun e he => by
    obtain ⟨t, ht, e⟩ := h.value e he
    exact e ▸ (hl t ht).mono hB⟩

theorem merge_inspol_rule {ins : List OiFits} {o : OiFits} {G F : Multiset Nat} {ids : Hash}
    {arrs waves corrs : List Hash} (hins : InsOk ins F) (ho : o.Named)
    (hm : Maps ins o G F ids arrs waves corrs) :
    Triple (Own (o.blocks + F)) (merge_all_oi_inspol ins ids arrs waves o)
      (fun o' h => Own (o'.blocks + F) h ∧ o'.Named ∧ Maps ins o' G F ids arrs waves corrs) := by
  unfold merge_all_oi_inspol
  refine Triple.pre (memFold_rule (I := fun (o : OiFits) h => Own (o.blocks + F) h ∧ o.Named ∧
    Maps ins o G F ids arrs waves corrs) _ _ ?_) fun h hh => ⟨hh, ho, hm⟩
  intro o x hx
  refine Triple.and fun ⟨ho, hm⟩ => ?_
  obtain ⟨hmem, hlen⟩ := mem_of_zipIdx hx
  obtain ⟨hok, hle⟩ := hins x.1 hmem
  apply hashAt_bind (hm.larr ▸ hlen); intro ah hah
  apply hashAt_bind (hm.lwave ▸ hlen); intro wh hwh
  refine Triple.pre (memFold_rule (I := fun (o : OiFits) h => Own (o.blocks + F) h ∧ o.Named ∧
    Maps ins o G F ids arrs waves corrs) _ _ ?_) fun h hh => ⟨hh, ho, hm⟩
  intro o t ht
  refine Triple.and fun ⟨ho, hm⟩ => ?_
  obtain ⟨hs, hk⟩ := hok.tables.inspol t ht
  refine Triple.bind (dup_inspol t hs hk (le_trans (le_trans (inspol_le ht) hle) (Multiset.le_add_left _ _)))
    fun t' => Triple.and fun ⟨h1, h2⟩ => ?_
  have hF : F ≤ t'.blocks + (o.blocks + F) :=
    le_trans (Multiset.le_add_left _ _) (Multiset.le_add_left _ _)
  have hB : o.blocks ≤ t'.blocks + (o.blocks + F) :=
    le_trans (Multiset.le_add_right _ _) (Multiset.le_add_left _ _)
  obtain ⟨l1, l2, l3⟩ := ok_held ho.ok
  obtain ⟨a1, a2⟩ := map_held (hm.arr ah hah).1 (hm.arr ah hah).2 hm.le l1 hF hB
  obtain ⟨b1, b2⟩ := map_held (hm.wave wh hwh).1 (hm.wave wh hwh).2 hm.le l2 hF hB
  have hself : Held t'.self (t'.blocks + (o.blocks + F)) := held_left (held_left (held_blk h2))
  have hrec : Held t'.record (t'.blocks + (o.blocks + F)) :=
    held_left (held_right (held_left (held_blk h1.1)))
  apply replaceName_bind a1 a2 hself
  apply replaceTargetId_bind hok (le_trans hle hF) (hm.id.1.mono hF)
    (fun e he => (hm.id.2 e he).mono hF) hrec
  refine Triple.bind (memFor_touch _ fun _ _ => ?_) fun _ => ?_
  · rw [← bind_pure_unit (replaceName _ _)]
    exact replaceName_bind b1 b2 hrec (Triple.pure fun _ h => h)
  refine Triple.pure fun h hh => ⟨?_, named_inspol ho h2 h1,
    ⟨hm.le, hm.id, hm.arr, hm.wave, hm.corr, hm.larr, hm.lwave, hm.lcorr⟩⟩
  rw [blocks_inspol o t', add_assoc]; exact hh

theorem merge_vis_rule {ins : List OiFits} {o : OiFits} {G F : Multiset Nat} {ids : Hash}
    {arrs waves corrs : List Hash} (hins : InsOk ins F) (ho : o.Named)
    (hm : Maps ins o G F ids arrs waves corrs) :
    Triple (Own (o.blocks + F)) (merge_all_oi_vis ins ids arrs waves corrs o)
      (fun o' h => Own (o'.blocks + F) h ∧ o'.Named ∧ Maps ins o' G F ids arrs waves corrs) := by
  unfold merge_all_oi_vis
  refine Triple.pre (memFold_rule (I := fun (o : OiFits) h => Own (o.blocks + F) h ∧ o.Named ∧
    Maps ins o G F ids arrs waves corrs) _ _ ?_) fun h hh => ⟨hh, ho, hm⟩
  intro o x hx
  refine Triple.and fun ⟨ho, hm⟩ => ?_
  obtain ⟨hmem, hlen⟩ := mem_of_zipIdx hx
  obtain ⟨hok, hle⟩ := hins x.1 hmem
  apply hashAt_bind (hm.larr ▸ hlen); intro ah hah
  apply hashAt_bind (hm.lwave ▸ hlen); intro wh hwh
  apply hashAt_bind (hm.lcorr ▸ hlen); intro ch hch
  refine Triple.pre (memFold_rule (I := fun (o : OiFits) h => Own (o.blocks + F) h ∧ o.Named ∧
    Maps ins o G F ids arrs waves corrs) _ _ ?_) fun h hh => ⟨hh, ho, hm⟩
  intro o t ht
  refine Triple.and fun ⟨ho, hm⟩ => ?_
  obtain ⟨hs, hk⟩ := hok.tables.vis t ht
  refine Triple.bind (dup_vis t hs hk (le_trans (le_trans (vis_le ht) hle) (Multiset.le_add_left _ _)))
    fun t' => Triple.and fun ⟨h1, h2⟩ => ?_
  have hF : F ≤ t'.blocks + (o.blocks + F) :=
    le_trans (Multiset.le_add_left _ _) (Multiset.le_add_left _ _)
  have hB : o.blocks ≤ t'.blocks + (o.blocks + F) :=
    le_trans (Multiset.le_add_right _ _) (Multiset.le_add_left _ _)
  obtain ⟨l1, l2, l3⟩ := ok_held ho.ok
  obtain ⟨a1, a2⟩ := map_held (hm.arr ah hah).1 (hm.arr ah hah).2 hm.le l1 hF hB
  obtain ⟨b1, b2⟩ := map_held (hm.wave wh hwh).1 (hm.wave wh hwh).2 hm.le l2 hF hB
  obtain ⟨c1, c2⟩ := map_held (hm.corr ch hch).1 (hm.corr ch hch).2 hm.le l3 hF hB
  have hself : Held t'.self (t'.blocks + (o.blocks + F)) := held_left (held_left (held_blk h2))
  have hrec : Held t'.record (t'.blocks + (o.blocks + F)) :=
    held_left (held_right (held_left (held_blk h1.1)))
  apply replaceName_bind a1 a2 hself
  apply replaceName_bind b1 b2 hself
  apply replaceName_bind c1 c2 hself
  apply replaceTargetId_bind hok (le_trans hle hF) (hm.id.1.mono hF)
    (fun e he => (hm.id.2 e he).mono hF) hrec
  refine Triple.pure fun h hh => ⟨?_, named_vis ho h2 h1,
    ⟨hm.le, hm.id, hm.arr, hm.wave, hm.corr, hm.larr, hm.lwave, hm.lcorr⟩⟩
  rw [blocks_vis o t', add_assoc]; exact hh

theorem merge_vis2_rule {ins : List OiFits} {o : OiFits} {G F : Multiset Nat} {ids : Hash}
    {arrs waves corrs : List Hash} (hins : InsOk ins F) (ho : o.Named)
    (hm : Maps ins o G F ids arrs waves corrs) :
    Triple (Own (o.blocks + F)) (merge_all_oi_vis2 ins ids arrs waves corrs o)
      (fun o' h => Own (o'.blocks + F) h ∧ o'.Named ∧ Maps ins o' G F ids arrs waves corrs) := by
  unfold merge_all_oi_vis2
  refine Triple.pre (memFold_rule (I := fun (o : OiFits) h => Own (o.blocks + F) h ∧ o.Named ∧
    Maps ins o G F ids arrs waves corrs) _ _ ?_) fun h hh => ⟨hh, ho, hm⟩
  intro o x hx
  refine Triple.and fun ⟨ho, hm⟩ => ?_
  obtain ⟨hmem, hlen⟩ := mem_of_zipIdx hx
  obtain ⟨hok, hle⟩ := hins x.1 hmem
  apply hashAt_bind (hm.larr ▸ hlen); intro ah hah
  apply hashAt_bind (hm.lwave ▸ hlen); intro wh hwh
  apply hashAt_bind (hm.lcorr ▸ hlen); intro ch hch
  refine Triple.pre (memFold_rule (I := fun (o : OiFits) h => Own (o.blocks + F) h ∧ o.Named ∧
    Maps ins o G F ids arrs waves corrs) _ _ ?_) fun h hh => ⟨hh, ho, hm⟩
  intro o t ht
  refine Triple.and fun ⟨ho, hm⟩ => ?_
  obtain ⟨hs, hk⟩ := hok.tables.vis2 t ht
  refine Triple.bind (dup_vis2 t hs hk (le_trans (le_trans (vis2_le ht) hle) (Multiset.le_add_left _ _)))
    fun t' => Triple.and fun ⟨h1, h2⟩ => ?_
  have hF : F ≤ t'.blocks + (o.blocks + F) :=
    le_trans (Multiset.le_add_left _ _) (Multiset.le_add_left _ _)
  have hB : o.blocks ≤ t'.blocks + (o.blocks + F) :=
    le_trans (Multiset.le_add_right _ _) (Multiset.le_add_left _ _)
  obtain ⟨l1, l2, l3⟩ := ok_held ho.ok
  obtain ⟨a1, a2⟩ := map_held (hm.arr ah hah).1 (hm.arr ah hah).2 hm.le l1 hF hB
  obtain ⟨b1, b2⟩ := map_held (hm.wave wh hwh).1 (hm.wave wh hwh).2 hm.le l2 hF hB
  obtain ⟨c1, c2⟩ := map_held (hm.corr ch hch).1 (hm.corr ch hch).2 hm.le l3 hF hB
  have hself : Held t'.self (t'.blocks + (o.blocks + F)) := held_left (held_left (held_blk h2))
  have hrec : Held t'.record (t'.blocks + (o.blocks + F)) :=
    held_left (held_right (held_left (held_blk h1.1)))
  apply replaceName_bind a1 a2 hself
  apply replaceName_bind b1 b2 hself
  apply replaceName_bind c1 c2 hself
  apply replaceTargetId_bind hok (le_trans hle hF) (hm.id.1.mono hF)
    (fun e he => (hm.id.2 e he).mono hF) hrec
  refine Triple.pure fun h hh => ⟨?_, named_vis2 ho h2 h1,
    ⟨hm.le, hm.id, hm.arr, hm.wave, hm.corr, hm.larr, hm.lwave, hm.lcorr⟩⟩
  rw [blocks_vis2 o t', add_assoc]; exact hh

theorem merge_t3_rule {ins : List OiFits} {o : OiFits} {G F : Multiset Nat} {ids : Hash}
    {arrs waves corrs : List Hash} (hins : InsOk ins F) (ho : o.Named)
    (hm : Maps ins o G F ids arrs waves corrs) :
    Triple (Own (o.blocks + F)) (merge_all_oi_t3 ins ids arrs waves corrs o)
      (fun o' h => Own (o'.blocks + F) h ∧ o'.Named ∧ Maps ins o' G F ids arrs waves corrs) := by
  unfold merge_all_oi_t3
  refine Triple.pre (memFold_rule (I := fun (o : OiFits) h => Own (o.blocks + F) h ∧ o.Named ∧
    Maps ins o G F ids arrs waves corrs) _ _ ?_) fun h hh => ⟨hh, ho, hm⟩
  intro o x hx
  refine Triple.and fun ⟨ho, hm⟩ => ?_
  obtain ⟨hmem, hlen⟩ := mem_of_zipIdx hx
  obtain ⟨hok, hle⟩ := hins x.1 hmem
  apply hashAt_bind (hm.larr ▸ hlen); intro ah hah
  apply hashAt_bind (hm.lwave ▸ hlen); intro wh hwh
  apply hashAt_bind (hm.lcorr ▸ hlen); intro ch hch
  refine Triple.pre (memFold_rule (I := fun (o : OiFits) h => Own (o.blocks + F) h ∧ o.Named ∧
    Maps ins o G F ids arrs waves corrs) _ _ ?_) fun h hh => ⟨hh, ho, hm⟩
  intro o t ht
  refine Triple.and fun ⟨ho, hm⟩ => ?_
  obtain ⟨hs, hk⟩ := hok.tables.t3 t ht
  refine Triple.bind (dup_t3 t hs hk (le_trans (le_trans (t3_le ht) hle) (Multiset.le_add_left _ _)))
    fun t' => Triple.and fun ⟨h1, h2⟩ => ?_
  have hF : F ≤ t'.blocks + (o.blocks + F) :=
    le_trans (Multiset.le_add_left _ _) (Multiset.le_add_left _ _)
  have hB : o.blocks ≤ t'.blocks + (o.blocks + F) :=
    le_trans (Multiset.le_add_right _ _) (Multiset.le_add_left _ _)
  obtain ⟨l1, l2, l3⟩ := ok_held ho.ok
  obtain ⟨a1, a2⟩ := map_held (hm.arr ah hah).1 (hm.arr ah hah).2 hm.le l1 hF hB
  obtain ⟨b1, b2⟩ := map_held (hm.wave wh hwh).1 (hm.wave wh hwh).2 hm.le l2 hF hB
  obtain ⟨c1, c2⟩ := map_held (hm.corr ch hch).1 (hm.corr ch hch).2 hm.le l3 hF hB
  have hself : Held t'.self (t'.blocks + (o.blocks + F)) := held_left (held_left (held_blk h2))
  have hrec : Held t'.record (t'.blocks + (o.blocks + F)) :=
    held_left (held_right (held_left (held_blk h1.1)))
  apply replaceName_bind a1 a2 hself
  apply replaceName_bind b1 b2 hself
  apply replaceName_bind c1 c2 hself
  apply replaceTargetId_bind hok (le_trans hle hF) (hm.id.1.mono hF)
    (fun e he => (hm.id.2 e he).mono hF) hrec
  refine Triple.pure fun h hh => ⟨?_, named_t3 ho h2 h1,
    ⟨hm.le, hm.id, hm.arr, hm.wave, hm.corr, hm.larr, hm.lwave, hm.lcorr⟩⟩
  rw [blocks_t3 o t', add_assoc]; exact hh

theorem merge_flux_rule {ins : List OiFits} {o : OiFits} {G F : Multiset Nat} {ids : Hash}
    {arrs waves corrs : List Hash} (hins : InsOk ins F) (ho : o.Named)
    (hm : Maps ins o G F ids arrs waves corrs) :
    Triple (Own (o.blocks + F)) (merge_all_oi_flux ins ids arrs waves corrs o)
      (fun o' h => Own (o'.blocks + F) h ∧ o'.Named ∧ Maps ins o' G F ids arrs waves corrs) := by
  unfold merge_all_oi_flux
  refine Triple.pre (memFold_rule (I := fun (o : OiFits) h => Own (o.blocks + F) h ∧ o.Named ∧
    Maps ins o G F ids arrs waves corrs) _ _ ?_) fun h hh => ⟨hh, ho, hm⟩
  intro o x hx
  refine Triple.and fun ⟨ho, hm⟩ => ?_
  obtain ⟨hmem, hlen⟩ := mem_of_zipIdx hx
  obtain ⟨hok, hle⟩ := hins x.1 hmem
  apply hashAt_bind (hm.larr ▸ hlen); intro ah hah
  apply hashAt_bind (hm.lwave ▸ hlen); intro wh hwh
  apply hashAt_bind (hm.lcorr ▸ hlen); intro ch hch
  refine Triple.pre (memFold_rule (I := fun (o : OiFits) h => Own (o.blocks + F) h ∧ o.Named ∧
    Maps ins o G F ids arrs waves corrs) _ _ ?_) fun h hh => ⟨hh, ho, hm⟩
  intro o t ht
  refine Triple.and fun ⟨ho, hm⟩ => ?_
  obtain ⟨hs, hk⟩ := hok.tables.flux t ht
  refine Triple.bind (dup_flux t hs hk (le_trans (le_trans (flux_le ht) hle) (Multiset.le_add_left _ _)))
    fun t' => Triple.and fun ⟨h1, h2⟩ => ?_
  have hF : F ≤ t'.blocks + (o.blocks + F) :=
    le_trans (Multiset.le_add_left _ _) (Multiset.le_add_left _ _)
  have hB : o.blocks ≤ t'.blocks + (o.blocks + F) :=
    le_trans (Multiset.le_add_right _ _) (Multiset.le_add_left _ _)
  obtain ⟨l1, l2, l3⟩ := ok_held ho.ok
  obtain ⟨a1, a2⟩ := map_held (hm.arr ah hah).1 (hm.arr ah hah).2 hm.le l1 hF hB
  obtain ⟨b1, b2⟩ := map_held (hm.wave wh hwh).1 (hm.wave wh hwh).2 hm.le l2 hF hB
  obtain ⟨c1, c2⟩ := map_held (hm.corr ch hch).1 (hm.corr ch hch).2 hm.le l3 hF hB
  have hself : Held t'.self (t'.blocks + (o.blocks + F)) := held_left (held_left (held_blk h2))
  have hrec : Held t'.record (t'.blocks + (o.blocks + F)) :=
    held_left (held_right (held_left (held_blk h1.1)))
  apply replaceName_bind a1 a2 hself
  apply replaceName_bind b1 b2 hself
  apply replaceName_bind c1 c2 hself
  apply replaceTargetId_bind hok (le_trans hle hF) (hm.id.1.mono hF)
    (fun e he => (hm.id.2 e he).mono hF) hrec
  refine Triple.pure fun h hh => ⟨?_, named_flux ho h2 h1,
    ⟨hm.le, hm.id, hm.arr, hm.wave, hm.corr, hm.larr, hm.lwave, hm.lcorr⟩⟩
  rw [blocks_flux o t', add_assoc]; exact hh

theorem destroy_all_rule {M : Multiset Nat} (l : List Hash) :
    Triple (Own (allOf Hash.owned l + M)) (memFor hashDestroy l) (fun _ => Own M) :=
  memFor_free (D := 0) l M (Multiset.zero_le _) fun H _ _ _ => hashDestroy_rule H

theorem InsOk.mono {ins : List OiFits} {F F' : Multiset Nat} (h : InsOk ins F) (hF : F ≤ F') :
    InsOk ins F' := fun d hd => ⟨(h d hd).1.mono hF, le_trans (h d hd).2 hF⟩

theorem MapOk.up {sf : τ → Ptr} {l : List τ} {F F' : Multiset Nat} {H : Hash}
    (h : MapOk sf l F H) (hF : F ≤ F') : MapOk sf l F' H :=
  ⟨h.self, h.key, h.val, fun e he => (h.owner e he).mono hF, h.value⟩

theorem held_map {sf : τ → Ptr} {l : List τ} {F : Multiset Nat} {hs : List Hash}
    (h : ∀ H ∈ hs, MapOk sf l F H) : ∀ H ∈ hs, Held H.self (allOf Hash.owned hs) := fun H hH =>
  Held.mono (held_left (held_blk (h H hH).self)) (le_allOf hH)

theorem merge_rule {ins : List OiFits} {p : MergePlan} {F : Multiset Nat} (hins : InsOk ins F) :
    Triple (Own F) (merge_oi_fits_list ins p)
      (fun o h => Own (o.blocks + F) h ∧ o.Ok) := by
  unfold merge_oi_fits_list
  have h0 : ∀ {a b c : Multiset Nat}, b ≤ c → b ≤ a + c := fun h =>
    le_trans h (Multiset.le_add_left _ _)
  apply init_bind; intro o ho hemp
  refine Triple.bind (merge_target_rule hins (h0 (le_refl _))) fun s => ?_
  obtain ⟨tg, ids⟩ := s
  refine Triple.and fun ⟨htg, hid⟩ => ?_
  simp only [] at htg hid ⊢
  have het : o.targets = ⟨none, 0⟩ := hemp.1
  have hn1 : OiFits.Named { o with targets := tg } :=
    ⟨⟨htg, ho.tables.2, ho.tables.3, ho.tables.4, ho.tables.5, ho.tables.6, ho.tables.7,
      ho.tables.8, ho.tables.9⟩, ho.array, ho.wave, ho.corr⟩
  have eb : OiFits.blocks { o with targets := tg } = tg.inner + o.blocks := by
    simp only [OiFits.blocks, het, Target.inner, blk]; abel
  refine Triple.of_eq (M := OiFits.blocks { o with targets := tg } + (ids.owned + F)) ?_
    (by rw [eb]; abel)
  refine Triple.bind (merge_array_rule (hins.mono (h0 (le_refl _))) hn1) fun s => ?_
  obtain ⟨o1, arrs⟩ := s
  refine Triple.and fun ⟨hn2, hma, hla, _⟩ => ?_
  simp only [] at hn2 hma hla ⊢
  refine Triple.bind (merge_wave_rule (hins.mono (h0 (h0 (le_refl _)))) hn2) fun s => ?_
  obtain ⟨o2, waves⟩ := s
  refine Triple.and fun ⟨hn3, hmw, hlw, hsw⟩ => ?_
  simp only [] at hn3 hmw hlw hsw ⊢
  refine Triple.bind (merge_corr_rule (hins.mono (h0 (h0 (h0 (le_refl _))))) hn3) fun s => ?_
  obtain ⟨o3, corrs⟩ := s
  refine Triple.and fun ⟨hn4, hmc, hlc, hsc⟩ => ?_
  simp only [] at hn4 hmc hlc hsc ⊢
  have ea : o3.arrayList = o1.arrayList := by rw [hsc.1, hsw.1]
  have ew : o3.wavelengthList = o2.wavelengthList := hsc.2
  have hins4 := hins.mono (h0 (a := allOf Hash.owned corrs) (h0 (a := allOf Hash.owned waves)
    (h0 (a := allOf Hash.owned arrs) (h0 (a := ids.owned) (le_refl F)))))
  have hm : Maps ins o3 (allOf Hash.owned waves + (allOf Hash.owned arrs + (ids.owned + F)))
      (allOf Hash.owned corrs + (allOf Hash.owned waves + (allOf Hash.owned arrs +
        (ids.owned + F)))) ids arrs waves corrs := by
    have hup : ids.owned + F ≤ allOf Hash.owned corrs + (allOf Hash.owned waves +
      (allOf Hash.owned arrs + (ids.owned + F))) := h0 (h0 (h0 (le_refl _)))
    refine ⟨h0 (le_refl _), ⟨hid.held.1.mono hup, fun e he => (hid.held.2 e he).mono hup⟩,
      fun H hH => ⟨?_, ?_⟩, fun H hH => ⟨?_, ?_⟩, fun H hH => ⟨hmc H hH, ?_⟩, hla, hlw, hlc⟩
    · rw [ea]; exact (hma H hH).up (h0 (h0 (le_refl _)))
    · exact held_right (held_right (held_left (held_map hma H hH)))
    · rw [ew]; exact (hmw H hH).up (h0 (le_refl _))
    · exact held_right (held_left (held_map hmw H hH))
    · exact held_left (held_map hmc H hH)
  refine Triple.bind (merge_inspol_rule hins4 hn4 hm) fun o4 => Triple.and fun ⟨k4, m4⟩ => ?_
  refine Triple.bind (merge_vis_rule hins4 k4 m4) fun o5 => Triple.and fun ⟨k5, m5⟩ => ?_
  refine Triple.bind (merge_vis2_rule hins4 k5 m5) fun o6 => Triple.and fun ⟨k6, m6⟩ => ?_
  refine Triple.bind (merge_t3_rule hins4 k6 m6) fun o7 => Triple.and fun ⟨k7, m7⟩ => ?_
  refine Triple.bind (merge_flux_rule hins4 k7 m7) fun o8 => Triple.and fun ⟨k8, m8⟩ => ?_
  refine Triple.of_eq (M := ids.owned + (allOf Hash.owned arrs + (allOf Hash.owned waves +
    (allOf Hash.owned corrs + (o8.blocks + F))))) ?_ (by abel)
  refine Triple.bind (hashDestroy_rule ids) fun _ => ?_
  refine Triple.bind (destroy_all_rule arrs) fun _ => ?_
  refine Triple.bind (destroy_all_rule waves) fun _ => ?_
  refine Triple.bind (destroy_all_rule corrs) fun _ => ?_
  exact Triple.pure fun h hh => ⟨hh, k8.ok⟩

end Verif.Mem
