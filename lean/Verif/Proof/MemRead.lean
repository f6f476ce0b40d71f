import Verif.Proof.MemHash

/-! Ownership while a file is read. -/

namespace Verif.Mem

variable {α β σ τ : Type}

theorem held_refl {p : Ptr} {M : Multiset Nat} (hp : p ≠ none) : Held p (blk p + M) :=
  held_add.mpr (.inl (held_blk hp))

/-! ### Loops over tables -/

theorem readStrict_rule {alloc : α → Ptr → Mem τ} {sf : τ → Ptr} {inner : τ → Multiset Nat}
    {S : τ → Prop}
    (ha : ∀ a self M, Triple (Own M) (alloc a self)
      (fun t h => Own (inner t + M) h ∧ S t ∧ sf t = self)) {M : Multiset Nat} :
    ∀ (as : List (Attempt α)) (done : List τ), (∀ t ∈ done, sf t ≠ none ∧ S t) →
    Triple (Own (allOf (fun t => blk (sf t) + inner t) done + M)) (readStrict alloc done as)
      (fun r h => (∃ l, r = some l ∧ Own (allOf (fun t => blk (sf t) + inner t) l + M) h ∧
          ∀ t ∈ l, sf t ≠ none ∧ S t) ∨
        (r = none ∧ (∃ L, Own (L + M) h) ∧ ¬ ∀ a ∈ as, a.Good)) := by
  intro as
  induction as with
  | nil =>
    intro done hd
    unfold readStrict
    apply malloc_bind; intro p _ _
    apply free_bind
    exact Triple.pure fun h hh => .inl ⟨done, rfl, hh, hd⟩
  | cons a as ih =>
    intro done hd
    cases a with
    | good a =>
      unfold readStrict
      apply malloc_bind; intro p hp _
      refine Triple.bind (ha a p _) fun t => Triple.and fun ⟨hS, hs⟩ => ?_
      refine Triple.post (Triple.of_eq (ih (done ++ [t]) ?_) ?_) ?_
      · intro t' ht'
        rcases List.mem_append.mp ht' with h | h
        · exact hd t' h
        · rw [List.mem_singleton.mp h]; exact ⟨by rw [hs]; exact hp, hS⟩
      · rw [allOf_append, allOf_one, hs]; abel
      · rintro r h (h1 | ⟨h1, h2, h3⟩)
        · exact .inl h1
        · exact .inr ⟨h1, h2, fun hall => h3 fun x hx => hall x (List.mem_cons_of_mem _ hx)⟩
    | early =>
      unfold readStrict
      apply malloc_bind; intro p _ _
      apply free_bind
      exact Triple.pure fun h hh => .inr ⟨rfl, ⟨_, hh⟩, fun hall => hall .early (by simp)⟩
    | late a =>
      unfold readStrict
      apply malloc_bind; intro p hp _
      refine Triple.bind (ha a p _) fun t => Triple.and fun _ => ?_
      refine Triple.of_eq (M := blk p + (inner t +
        (allOf (fun t => blk (sf t) + inner t) done + M))) ?_ (by abel)
      apply free_bind
      refine Triple.pure fun h hh => .inr ⟨rfl, ⟨inner t +
        allOf (fun t => blk (sf t) + inner t) done, ?_⟩, fun hall => hall (.late a) (by simp)⟩
      rw [add_assoc]; exact hh

theorem readSkip_rule {alloc : α → Ptr → Mem τ} {enter : σ → τ → Mem σ} {sf : τ → Ptr}
    {inner : τ → Multiset Nat} {S : τ → Prop} {B : σ → Multiset Nat} {K : σ → Prop} {C : Prop}
    {F : Multiset Nat}
    (ha : ∀ a self M, Triple (Own M) (alloc a self)
      (fun t h => Own (inner t + M) h ∧ S t ∧ sf t = self))
    (he : ∀ s t M, K s → S t → sf t ≠ none →
      Triple (Own (blk (sf t) + (inner t + (B s + M)))) (enter s t)
        (fun s' h => Own (B s' + M) h ∧ K s')) :
    ∀ (as : List (Attempt α)) (s : σ) (L : Multiset Nat), (C → ∀ a ∈ as, a.NotLate) → K s →
    (C → L = 0) →
    Triple (Own (B s + (L + F))) (readSkip alloc enter s as)
      (fun s' h => ∃ L', (Own (B s' + (L' + F)) h ∧ K s') ∧ (C → L' = 0)) := by
  intro as
  induction as with
  | nil =>
    intro s L _ hK hL
    unfold readSkip
    apply malloc_bind; intro p _ _
    apply free_bind
    exact Triple.pure fun h hh => ⟨L, ⟨hh, hK⟩, hL⟩
  | cons a as ih =>
    intro s L hC hK hL
    have hC' : C → ∀ a ∈ as, a.NotLate := fun c x hx => hC c x (List.mem_cons_of_mem _ hx)
    cases a with
    | good a =>
      unfold readSkip
      apply malloc_bind; intro p hp _
      refine Triple.bind (ha a p _) fun t => Triple.and fun ⟨hS, hs⟩ => ?_
      refine Triple.of_eq (M := blk (sf t) + (inner t + (B s + (L + F)))) ?_ (by rw [hs]; abel)
      refine Triple.bind (he s t _ hK hS (by rw [hs]; exact hp)) fun s' => Triple.and fun hK' => ?_
      exact ih s' L hC' hK' hL
    | early =>
      unfold readSkip
      apply malloc_bind; intro p _ _
      apply free_bind
      exact ih s L hC' hK hL
    | late a =>
      unfold readSkip
      apply malloc_bind; intro p hp _
      refine Triple.bind (ha a p _) fun t => Triple.and fun _ => ?_
      refine Triple.of_eq (M := blk p + (B s + ((inner t + L) + F))) ?_ (by abel)
      apply free_bind
      exact ih s (inner t + L) hC' hK fun c => absurd (hC c (.late a) (by simp)) (by simp [Attempt.NotLate])

/-! ### Entering names -/

theorem findNamed_bind {M : Multiset Nat} {sf : τ → Ptr} {nameOf : τ → CStr} {name : CStr}
    {f : Ptr → Mem β} {Q : β → Heap → Prop} :
    ∀ (l : List τ), (∀ t ∈ l, Held (sf t) M) →
      (∀ p, (p = none ∨ ∃ t ∈ l, sf t = p) → Triple (Own M) (f p) Q) →
      Triple (Own M) (findNamed sf nameOf name l >>= f) Q := by
  intro l
  induction l with
  | nil => intro _ hf; exact hf none (.inl rfl)
  | cons t l ih =>
    intro hl hf
    unfold findNamed
    rw [bind_assoc]
    apply touch_bind (hl t (by simp))
    by_cases hn : (nameOf t == name) = true
    · simp only [hn, if_true]
      exact hf (sf t) (.inr ⟨t, by simp, rfl⟩)
    · simp only [hn]
      exact ih (fun t ht => hl t (List.mem_cons_of_mem _ ht)) fun p hp =>
        hf p (hp.imp id fun ⟨t, ht, e⟩ => ⟨t, List.mem_cons_of_mem _ ht, e⟩)

theorem HashTo.insert {sf : τ → Ptr} {l : List τ} {B : Multiset Nat} {H H' : Hash} {owner : Ptr}
    {name : CStr} {value : Ptr} (h : HashTo sf l B H) (hi : InsertedIn H owner name value H')
    (ho : Held owner B) (hv : value = none ∨ ∃ t ∈ l, sf t = value) : HashTo sf l B H' := by
  obtain ⟨h1, h2, h3, h4⟩ := hi
  refine ⟨h1 ▸ h.self, h2 ▸ h.key, h3 ▸ h.val, ?_, ?_⟩
  · intro e' he'
    rcases h4 e' he' with h5 | ⟨_, _, h5 | ⟨e, he, _, h5⟩⟩
    · exact h.owner e' h5
    · exact h5 ▸ ho
    · exact h5 ▸ h.owner e he
  · intro e' he'
    rcases h4 e' he' with h5 | ⟨_, h6, _⟩
    · exact h.value e' h5
    · exact h6 ▸ hv

theorem enterName_bind {B M : Multiset Nat} {sf : τ → Ptr} {nameOf : τ → CStr} {l : List τ}
    {optional : Bool} {H : Hash} {owner : Ptr} {name : CStr} {f : Hash → Mem β}
    {Q : β → Heap → Prop} (hH : HashTo sf l B H) (hs : blk H.self ≤ B) (hM : B ≤ M)
    (hl : ∀ t ∈ l, Held (sf t) B) (ho : Held owner B)
    (hf : ∀ H', HashTo sf l B H' → H'.self = H.self → Triple (Own M) (f H') Q) :
    Triple (Own M) (enterName sf nameOf l optional H owner name >>= f) Q := by
  unfold enterName
  split
  · exact hf H hH rfl
  · rw [bind_assoc]
    apply hashLookup_bind (hH.safe hs hM)
    intro v _
    cases v with
    | some i => exact hf H hH rfl
    | none =>
      simp only []
      rw [bind_assoc]
      apply findNamed_bind l (fun t ht => (hl t ht).mono hM)
      intro p hp
      apply hashInsert_bind (hH.safe hs hM) hH.key hH.val (ho.mono hM)
      intro H' hi
      exact hf H' (hH.insert hi ho hp) hi.1

theorem ok_held {d : OiFits} (h : d.Ok) :
    (∀ t ∈ d.arrayList, Held t.self d.blocks) ∧ (∀ t ∈ d.wavelengthList, Held t.self d.blocks) ∧
    (∀ t ∈ d.corrList, Held t.self d.blocks) :=
  ⟨fun t ht => held_self (h.tables.array t ht).1 (array_le ht),
   fun t ht => held_self (h.tables.wave t ht).1 (wave_le ht),
   fun t ht => held_self (h.tables.corr t ht).1 (corr_le ht)⟩

/-- Replacing the hash tables by others with the same blocks. -/
theorem OiFits.Ok.hashes {d : OiFits} {ah wh ch : Hash} (h : d.Ok)
    (ha : HashTo Array.self d.arrayList d.blocks ah)
    (hw : HashTo Wave.self d.wavelengthList d.blocks wh)
    (hc : HashTo Corr.self d.corrList d.blocks ch) (ea : ah.self = d.arrayHash.self)
    (ew : wh.self = d.wavelengthHash.self) (ec : ch.self = d.corrHash.self) :
    OiFits.Ok { d with arrayHash := ah, wavelengthHash := wh, corrHash := ch } ∧
    OiFits.blocks { d with arrayHash := ah, wavelengthHash := wh, corrHash := ch } = d.blocks := by
  have e : OiFits.blocks { d with arrayHash := ah, wavelengthHash := wh, corrHash := ch } =
      d.blocks := by
    simp only [OiFits.blocks, ea, ew, ec]
  have ht := h.tables
  refine ⟨⟨⟨ht.1, ht.2, ht.3, ht.4, ht.5, ht.6, ht.7, ht.8, ht.9⟩, ?_, ?_, ?_⟩, e⟩
  · rw [e]; exact ha
  · rw [e]; exact hw
  · rw [e]; exact hc

theorem enterThree_rule {M : Multiset Nat} {d : OiFits} {owner : Ptr} {a i c : CStr} (h : d.Ok)
    (ho : Held owner d.blocks) :
    Triple (Own (d.blocks + M)) (enterThree d owner a i c)
      (fun d' h => Own (d'.blocks + M) h ∧ d'.Ok) := by
  unfold enterThree
  have hM : d.blocks ≤ d.blocks + M := Multiset.le_add_right _ _
  obtain ⟨b1, b2, b3⟩ := le_blocks_hash d
  obtain ⟨l1, l2, l3⟩ := ok_held h
  apply enterName_bind h.array b1 hM l1 ho; intro ah ha ea
  apply enterName_bind h.wave b2 hM l2 ho; intro wh hw ew
  apply enterName_bind h.corr b3 hM l3 ho; intro ch hc ec
  obtain ⟨h1, h2⟩ := h.hashes ha hw hc ea ew ec
  exact Triple.pure fun s hs => ⟨h2 ▸ hs, h1⟩

/-- Growing a dataset by tables of which no hash table knows. -/
theorem OiFits.Ok.grow {d d' : OiFits} (h : d.Ok) (hT : d'.Tables) (hB : d.blocks ≤ d'.blocks)
    (ha : d'.arrayHash = d.arrayHash) (hw : d'.wavelengthHash = d.wavelengthHash)
    (hc : d'.corrHash = d.corrHash) (la : d'.arrayList = d.arrayList)
    (lw : d'.wavelengthList = d.wavelengthList) (lc : d'.corrList = d.corrList) : d'.Ok := by
  refine ⟨hT, ?_, ?_, ?_⟩
  · rw [ha, la]; exact h.array.mono hB fun _ h => h
  · rw [hw, lw]; exact h.wave.mono hB fun _ h => h
  · rw [hc, lc]; exact h.corr.mono hB fun _ h => h

theorem mem_snoc {p : τ → Prop} {l : List τ} {t : τ} (hl : ∀ x ∈ l, p x) (ht : p t) :
    ∀ x ∈ l ++ [t], p x := by
  intro x hx
  rcases List.mem_append.mp hx with h | h
  · exact hl x h
  · rw [List.mem_singleton.mp h]; exact ht

theorem blocks_array (d : OiFits) (t : Array) (H : Hash) (e : H.self = d.arrayHash.self) :
    OiFits.blocks { d with arrayList := d.arrayList ++ [t], arrayHash := H } =
      t.blocks + d.blocks := by
  simp only [OiFits.blocks, allOf_append, allOf_one, e]; abel
theorem blocks_wave (d : OiFits) (t : Wave) (H : Hash) (e : H.self = d.wavelengthHash.self) :
    OiFits.blocks { d with wavelengthList := d.wavelengthList ++ [t], wavelengthHash := H } =
      t.blocks + d.blocks := by
  simp only [OiFits.blocks, allOf_append, allOf_one, e]; abel
theorem blocks_corr (d : OiFits) (t : Corr) (H : Hash) (e : H.self = d.corrHash.self) :
    OiFits.blocks { d with corrList := d.corrList ++ [t], corrHash := H } =
      t.blocks + d.blocks := by
  simp only [OiFits.blocks, allOf_append, allOf_one, e]; abel
theorem blocks_inspol (d : OiFits) (t : Inspol) :
    OiFits.blocks { d with inspolList := d.inspolList ++ [t] } = t.blocks + d.blocks := by
  simp only [OiFits.blocks, allOf_append, allOf_one]; abel
theorem blocks_vis (d : OiFits) (t : Vis) :
    OiFits.blocks { d with visList := d.visList ++ [t] } = t.blocks + d.blocks := by
  simp only [OiFits.blocks, allOf_append, allOf_one]; abel
theorem blocks_vis2 (d : OiFits) (t : Vis2) :
    OiFits.blocks { d with vis2List := d.vis2List ++ [t] } = t.blocks + d.blocks := by
  simp only [OiFits.blocks, allOf_append, allOf_one]; abel
theorem blocks_t3 (d : OiFits) (t : T3) :
    OiFits.blocks { d with t3List := d.t3List ++ [t] } = t.blocks + d.blocks := by
  simp only [OiFits.blocks, allOf_append, allOf_one]; abel
theorem blocks_flux (d : OiFits) (t : Flux) :
    OiFits.blocks { d with fluxList := d.fluxList ++ [t] } = t.blocks + d.blocks := by
  simp only [OiFits.blocks, allOf_append, allOf_one]; abel

theorem tables_inspol {d : OiFits} {t : Inspol} (h : d.Tables) (hs : t.self ≠ none) (ht : t.Ok) :
    OiFits.Tables { d with inspolList := d.inspolList ++ [t] } :=
  ⟨h.1, h.2, h.3, h.4, mem_snoc h.5 ⟨hs, ht⟩, h.6, h.7, h.8, h.9⟩
theorem tables_vis {d : OiFits} {t : Vis} (h : d.Tables) (hs : t.self ≠ none) (ht : t.Ok) :
    OiFits.Tables { d with visList := d.visList ++ [t] } :=
  ⟨h.1, h.2, h.3, h.4, h.5, mem_snoc h.6 ⟨hs, ht⟩, h.7, h.8, h.9⟩
theorem tables_vis2 {d : OiFits} {t : Vis2} (h : d.Tables) (hs : t.self ≠ none) (ht : t.Ok) :
    OiFits.Tables { d with vis2List := d.vis2List ++ [t] } :=
  ⟨h.1, h.2, h.3, h.4, h.5, h.6, mem_snoc h.7 ⟨hs, ht⟩, h.8, h.9⟩
theorem tables_t3 {d : OiFits} {t : T3} (h : d.Tables) (hs : t.self ≠ none) (ht : t.Ok) :
    OiFits.Tables { d with t3List := d.t3List ++ [t] } :=
  ⟨h.1, h.2, h.3, h.4, h.5, h.6, h.7, mem_snoc h.8 ⟨hs, ht⟩, h.9⟩
theorem tables_flux {d : OiFits} {t : Flux} (h : d.Tables) (hs : t.self ≠ none) (ht : t.Ok) :
    OiFits.Tables { d with fluxList := d.fluxList ++ [t] } :=
  ⟨h.1, h.2, h.3, h.4, h.5, h.6, h.7, h.8, mem_snoc h.9 ⟨hs, ht⟩⟩

theorem enterVis_rule (d : OiFits) (t : Vis) (M : Multiset Nat) (h : d.Ok) (ht : t.Ok)
    (hs : t.self ≠ none) :
    Triple (Own (blk t.self + (t.inner + (d.blocks + M)))) (enterVis d t)
      (fun d' h => Own (d'.blocks + M) h ∧ d'.Ok) := by
  unfold enterVis
  have e := blocks_vis d t
  refine Triple.of_eq (enterThree_rule (M := M) ?_ ?_) ?_
  · exact h.grow (tables_vis h.tables hs ht) (e ▸ Multiset.le_add_left _ _) rfl rfl rfl rfl rfl rfl
  · rw [e]; exact held_add.mpr (.inl (held_self (B := t.inner) hs (le_refl _)))
  · rw [e, Vis.blocks]; abel

theorem enterVis2_rule (d : OiFits) (t : Vis2) (M : Multiset Nat) (h : d.Ok) (ht : t.Ok)
    (hs : t.self ≠ none) :
    Triple (Own (blk t.self + (t.inner + (d.blocks + M)))) (enterVis2 d t)
      (fun d' h => Own (d'.blocks + M) h ∧ d'.Ok) := by
  unfold enterVis2
  have e := blocks_vis2 d t
  refine Triple.of_eq (enterThree_rule (M := M) ?_ ?_) ?_
  · exact h.grow (tables_vis2 h.tables hs ht) (e ▸ Multiset.le_add_left _ _) rfl rfl rfl rfl rfl rfl
  · rw [e]; exact held_add.mpr (.inl (held_self (B := t.inner) hs (le_refl _)))
  · rw [e, Vis2.blocks]; abel

theorem enterT3_rule (d : OiFits) (t : T3) (M : Multiset Nat) (h : d.Ok) (ht : t.Ok)
    (hs : t.self ≠ none) :
    Triple (Own (blk t.self + (t.inner + (d.blocks + M)))) (enterT3 d t)
      (fun d' h => Own (d'.blocks + M) h ∧ d'.Ok) := by
  unfold enterT3
  have e := blocks_t3 d t
  refine Triple.of_eq (enterThree_rule (M := M) ?_ ?_) ?_
  · exact h.grow (tables_t3 h.tables hs ht) (e ▸ Multiset.le_add_left _ _) rfl rfl rfl rfl rfl rfl
  · rw [e]; exact held_add.mpr (.inl (held_self (B := t.inner) hs (le_refl _)))
  · rw [e, T3.blocks]; abel

theorem enterFlux_rule (d : OiFits) (t : Flux) (M : Multiset Nat) (h : d.Ok) (ht : t.Ok)
    (hs : t.self ≠ none) :
    Triple (Own (blk t.self + (t.inner + (d.blocks + M)))) (enterFlux d t)
      (fun d' h => Own (d'.blocks + M) h ∧ d'.Ok) := by
  unfold enterFlux
  have e := blocks_flux d t
  have h1 : OiFits.Ok { d with fluxList := d.fluxList ++ [t] } :=
    h.grow (tables_flux h.tables hs ht) (e ▸ Multiset.le_add_left _ _) rfl rfl rfl rfl rfl rfl
  have ho : Held t.self (OiFits.blocks { d with fluxList := d.fluxList ++ [t] }) := by
    rw [e]; exact held_add.mpr (.inl (held_self (B := t.inner) hs (le_refl _)))
  refine Triple.of_eq (M := OiFits.blocks { d with fluxList := d.fluxList ++ [t] } + M) ?_
    (by rw [e, Flux.blocks]; abel)
  have hM := Multiset.le_add_right (OiFits.blocks { d with fluxList := d.fluxList ++ [t] }) M
  obtain ⟨b1, b2, b3⟩ := le_blocks_hash { d with fluxList := d.fluxList ++ [t] }
  obtain ⟨l1, l2, l3⟩ := ok_held h1
  apply enterName_bind h1.array b1 hM l1 ho; intro ah ha ea
  apply enterName_bind h1.wave b2 hM l2 ho; intro wh hw ew
  obtain ⟨h1, h2⟩ := h1.hashes ha hw h1.corr ea ew rfl
  exact Triple.pure fun s hs => ⟨h2 ▸ hs, h1⟩

/-! ### One table -/

theorem allOf_append_record {M : Multiset Nat} (t : Vis) (refmap complex : Bool) (ht : t.Ok)
    (hr : t.usevisrefmap = false) (hc : t.usecomplex = false) :
    Triple (Own (t.inner + M)) (readVisOpt t refmap complex)
      (fun t' h => Own (t'.inner + M) h ∧ t'.Ok ∧ t'.self = t.self) := by
  obtain ⟨hrec, hlen, hok⟩ := ht
  rw [hr, hc] at hok
  unfold readVisOpt
  -- the first loop
  have step1 : Triple (Own (t.inner + M)) (if refmap then memMap (fun i => do
      let r ← recAt t.record t.recs i
      let visrefmap ← chkmalloc (t.nwave * t.nwave)
      return { r with visrefmap := visrefmap }) (List.range t.numrec)
    else return t.recs)
      (fun recs h => Own (blk t.record + allOf (VisRec.blocks refmap false) recs + M) h ∧
        (∀ r ∈ recs, r.Ok refmap false) ∧ recs.length = t.numrec) := by
    cases refmap with
    | false =>
      refine Triple.pure fun h hh => ⟨?_, hok, hlen⟩
      have e : t.inner = blk t.record + allOf (VisRec.blocks false false) t.recs := by
        rw [Vis.inner, hr, hc]
      rw [← e]; exact hh
    | true =>
      simp only [if_true]
      have key := recMap_from (record := t.record) hrec
        (f := fun r : VisRec => chkmalloc (t.nwave * t.nwave) >>= fun p =>
          (return { r with visrefmap := p }))
        (g := VisRec.blocks false false) (g' := VisRec.blocks true false)
        (S := VisRec.Ok true false) t.recs [] (blk t.record + M) (Multiset.le_add_right _ _) (by
          intro r hr' M _
          obtain ⟨k1, k2, k3, k4, k5, _, _⟩ := hok r hr'
          apply malloc_bind; intro p hp _
          refine Triple.pure fun h hh => ⟨?_, k1, k2, k3, k4, k5, fun _ => hp, by simp⟩
          have e : VisRec.blocks true false { r with visrefmap := p } + M =
              blk p + (VisRec.blocks false false r + M) := by
            simp only [VisRec.blocks, if_true, Bool.false_eq_true, if_false]; abel
          rw [e]; exact hh)
      simp only [List.nil_append, List.length_nil, ← List.range_eq_range', hlen] at key
      refine Triple.post (Triple.of_eq key ?_) ?_
      · rw [Vis.inner, hr, hc]; abel
      · rintro recs h ⟨h1, h2, h3⟩
        refine ⟨?_, h2, h3⟩
        have e : blk t.record + allOf (VisRec.blocks true false) recs + M =
          allOf (VisRec.blocks true false) recs + (blk t.record + M) := by abel
        rw [e]; exact h1
  refine Triple.bind step1 fun recs1 => Triple.and fun ⟨hok1, hlen1⟩ => ?_
  have step2 : Triple (Own (blk t.record + allOf (VisRec.blocks refmap false) recs1 + M))
      (if complex then memMap (fun i => do
      let r ← recAt t.record recs1 i
      let rvis ← chkmalloc t.nwave
      let rviserr ← chkmalloc t.nwave
      let ivis ← chkmalloc t.nwave
      let iviserr ← chkmalloc t.nwave
      return { r with rvis := rvis, rviserr := rviserr, ivis := ivis, iviserr := iviserr })
      (List.range t.numrec)
    else return recs1)
      (fun recs h => Own (blk t.record + allOf (VisRec.blocks refmap complex) recs + M) h ∧
        (∀ r ∈ recs, r.Ok refmap complex) ∧ recs.length = t.numrec) := by
    cases complex with
    | false => exact Triple.pure fun h hh => ⟨hh, hok1, hlen1⟩
    | true =>
      simp only [if_true]
      have key := recMap_from (record := t.record) hrec
        (f := fun r : VisRec => chkmalloc t.nwave >>= fun p1 => chkmalloc t.nwave >>= fun p2 =>
          chkmalloc t.nwave >>= fun p3 => chkmalloc t.nwave >>= fun p4 =>
          (return { r with rvis := p1, rviserr := p2, ivis := p3, iviserr := p4 }))
        (g := VisRec.blocks refmap false) (g' := VisRec.blocks refmap true)
        (S := VisRec.Ok refmap true) recs1 [] (blk t.record + M) (Multiset.le_add_right _ _) (by
          intro r hr' M _
          obtain ⟨k1, k2, k3, k4, k5, k6, _⟩ := hok1 r hr'
          apply malloc_bind; intro p1 h1 _
          apply malloc_bind; intro p2 h2 _
          apply malloc_bind; intro p3 h3 _
          apply malloc_bind; intro p4 h4 _
          refine Triple.pure fun h hh => ⟨?_, k1, k2, k3, k4, k5, k6, fun _ => ⟨h1, h2, h3, h4⟩⟩
          have e : VisRec.blocks refmap true
              { r with rvis := p1, rviserr := p2, ivis := p3, iviserr := p4 } + M =
              blk p4 + (blk p3 + (blk p2 + (blk p1 + (VisRec.blocks refmap false r + M)))) := by
            simp only [VisRec.blocks, if_true, Bool.false_eq_true, if_false]; abel
          rw [e]; exact hh)
      simp only [List.nil_append, List.length_nil, ← List.range_eq_range', hlen1] at key
      refine Triple.post (Triple.of_eq key ?_) ?_
      · abel
      · rintro recs h ⟨h1, h2, h3⟩
        refine ⟨?_, h2, h3⟩
        have e : blk t.record + allOf (VisRec.blocks refmap true) recs + M =
          allOf (VisRec.blocks refmap true) recs + (blk t.record + M) := by abel
        rw [e]; exact h1
  refine Triple.bind step2 fun recs2 => Triple.and fun ⟨hok2, hlen2⟩ => ?_
  exact Triple.pure fun h hh => ⟨hh, ⟨hrec, hlen2, hok2⟩, rfl⟩

theorem readArray_rule (a : NamedShape) (self : Ptr) (M : Multiset Nat) :
    Triple (Own M) (readArray a self) (fun t h => Own (t.inner + M) h ∧ t.Ok ∧ t.self = self) :=
  Triple.post (alloc_array _ _) fun _ _ h => ⟨h.1, h.2.1, h.2.2.1⟩
theorem readWave_rule (a : NamedShape) (self : Ptr) (M : Multiset Nat) :
    Triple (Own M) (readWave a self) (fun t h => Own (t.inner + M) h ∧ t.Ok ∧ t.self = self) :=
  Triple.post (alloc_wave _ _) fun _ _ h => ⟨h.1, h.2.1, h.2.2.1⟩
theorem readCorr_rule (a : NamedShape) (self : Ptr) (M : Multiset Nat) :
    Triple (Own M) (readCorr a self) (fun t h => Own (t.inner + M) h ∧ t.Ok ∧ t.self = self) :=
  Triple.post (alloc_corr _ _) fun _ _ h => ⟨h.1, h.2.1, h.2.2.1⟩
theorem readInspol_rule (a : DataShape) (self : Ptr) (M : Multiset Nat) :
    Triple (Own M) (readInspol a self) (fun t h => Own (t.inner + M) h ∧ t.Ok ∧ t.self = self) :=
  Triple.post (alloc_inspol _ _ _) fun _ _ h => ⟨h.1, h.2.1, h.2.2.1⟩
theorem readVis_rule (a : DataShape) (self : Ptr) (M : Multiset Nat) :
    Triple (Own M) (readVis a self) (fun t h => Own (t.inner + M) h ∧ t.Ok ∧ t.self = self) := by
  unfold readVis
  refine Triple.bind (alloc_vis _ _ _) fun t => Triple.and fun ⟨h1, h2, h3, h4, _⟩ => ?_
  exact Triple.post (allOf_append_record t _ _ h1 h3 h4) fun _ _ h => ⟨h.1, h.2.1, h.2.2.trans h2⟩
theorem readVis2_rule (a : DataShape) (self : Ptr) (M : Multiset Nat) :
    Triple (Own M) (readVis2 a self) (fun t h => Own (t.inner + M) h ∧ t.Ok ∧ t.self = self) :=
  Triple.post (alloc_vis2 _ _ _) fun _ _ h => ⟨h.1, h.2.1, h.2.2.1⟩
theorem readT3_rule (a : DataShape) (self : Ptr) (M : Multiset Nat) :
    Triple (Own M) (readT3 a self) (fun t h => Own (t.inner + M) h ∧ t.Ok ∧ t.self = self) :=
  Triple.post (alloc_t3 _ _ _) fun _ _ h => ⟨h.1, h.2.1, h.2.2.1⟩
theorem readFlux_rule (a : DataShape) (self : Ptr) (M : Multiset Nat) :
    Triple (Own M) (readFlux a self) (fun t h => Own (t.inner + M) h ∧ t.Ok ∧ t.self = self) :=
  Triple.post (alloc_flux _ _ _) fun _ _ h => ⟨h.1, h.2.1, h.2.2.1⟩

theorem read_rule (p : ReadPlan) (F : Multiset Nat) :
    Triple (Own F) (read_oi_fits p)
      (fun r h => ∃ L, (Own ((match r with | some d => d.blocks | none => 0) + (L + F)) h ∧
        ∀ d, r = some d → d.Ok) ∧ (p.Clean → L = 0)) := by
  unfold read_oi_fits
  cases hpt : p.targets with
  | none => exact Triple.pure fun h hh => ⟨0, ⟨by simpa using hh, by simp⟩, fun _ => rfl⟩
  | some targets =>
    simp only []
    apply init_bind; intro d0 hd0 hemp
    have bad : ∀ (h : Heap) (X : Multiset Nat), Own (X + F) h → ¬ p.Clean →
        ∃ L, (Own ((match (none : Option OiFits) with | some d => d.blocks | none => 0) +
          (L + F)) h ∧ ∀ d, (none : Option OiFits) = some d → d.Ok) ∧ (p.Clean → L = 0) :=
      fun h X hX hn => ⟨X, ⟨by simpa using hX, by simp⟩, fun c => absurd c hn⟩
    cases targets with
    | early =>
      refine Triple.pure fun h hh => bad h _ hh ?_
      rintro (h | ⟨⟨n, h⟩, _⟩) <;> rw [hpt] at h <;> cases h
    | late n =>
      simp only []
      refine Triple.bind (alloc_target _ _) fun t => Triple.and fun _ => ?_
      refine Triple.pure fun h hh => bad h (t.inner + d0.blocks) (by rw [add_assoc]; exact hh) ?_
      rintro (h | ⟨⟨n, h⟩, _⟩) <;> rw [hpt] at h <;> cases h
    | good n =>
      simp only []
      refine Triple.bind (alloc_target _ _) fun tg => Triple.and fun ⟨htg, _⟩ => ?_
      have hcl : p.Clean → (∀ a ∈ p.arrays, a.Good) ∧ (∀ a ∈ p.waves, a.Good) ∧
          (∀ a ∈ p.corrs, a.NotLate) ∧ (∀ a ∈ p.inspols, a.NotLate) ∧
          (∀ a ∈ p.viss, a.NotLate) ∧ (∀ a ∈ p.vis2s, a.NotLate) ∧ (∀ a ∈ p.t3s, a.NotLate) ∧
          (∀ a ∈ p.fluxs, a.NotLate) := by
        rintro (h | ⟨_, h⟩)
        · rw [hpt] at h; cases h
        · exact h
      refine Triple.bind (Triple.of_eq (readStrict_rule readArray_rule p.arrays [] (by simp))
        (by rw [allOf_nil, zero_add])) fun ra => ?_
      intro h hh
      rcases hh with ⟨la, rfl, hh, hla⟩ | ⟨rfl, ⟨L, hh⟩, hn⟩
      swap
      · exact bad h (L + (tg.inner + d0.blocks)) (by rw [add_assoc, add_assoc]; exact hh)
          fun c => hn (hcl c).1
      revert h
      simp only []
      refine Triple.bind (Triple.of_eq (readStrict_rule readWave_rule p.waves [] (by simp))
        (by rw [allOf_nil, zero_add])) fun ra => ?_
      intro h hh
      rcases hh with ⟨lw, rfl, hh, hlw⟩ | ⟨rfl, ⟨L, hh⟩, hn⟩
      swap
      · exact bad h (L + (allOf Array.blocks la + (tg.inner + d0.blocks)))
          (by rw [add_assoc, add_assoc, add_assoc]; exact hh) fun c => hn (hcl c).2.1
      revert h
      simp only []
      -- OI_CORR
      refine Triple.bind (Triple.of_eq (M := allOf Corr.blocks [] + (0 + (allOf Wave.blocks lw +
          (allOf Array.blocks la + (tg.inner + (d0.blocks + F))))))
        (readSkip_rule (sf := Corr.self) (inner := Corr.inner) (S := Corr.Ok)
          (B := fun l => allOf Corr.blocks l) (K := fun l => ∀ t ∈ l, t.self ≠ none ∧ t.Ok)
          (C := p.Clean) readCorr_rule ?_ p.corrs [] 0
          (fun c => (hcl c).2.2.1) (by simp) (fun _ => rfl)) (by rw [allOf_nil, zero_add, zero_add]; rfl))
        fun lc => Triple.exists_pre fun L1 => Triple.and fun hL1 => Triple.and fun hlc => ?_
      · intro l t M hl ht hs
        refine Triple.pure fun h hh => ⟨?_, mem_snoc hl ⟨hs, ht⟩⟩
        have e : allOf Corr.blocks (l ++ [t]) + M =
            blk t.self + (t.inner + (allOf Corr.blocks l + M)) := by
          rw [allOf_append, allOf_one, Corr.blocks]; abel
        rw [e]; exact hh
      -- OI_INSPOL
      refine Triple.bind (Triple.of_eq (M := allOf Inspol.blocks [] + (L1 + (allOf Corr.blocks lc +
          (allOf Wave.blocks lw + (allOf Array.blocks la + (tg.inner + (d0.blocks + F)))))))
        (readSkip_rule (sf := Inspol.self) (inner := Inspol.inner) (S := Inspol.Ok)
          (B := fun l => allOf Inspol.blocks l) (K := fun l => ∀ t ∈ l, t.self ≠ none ∧ t.Ok)
          (C := p.Clean) readInspol_rule ?_ p.inspols [] L1
          (fun c => (hcl c).2.2.2.1) (by simp) hL1) (by rw [allOf_nil]; abel))
        fun li => Triple.exists_pre fun L2 => Triple.and fun hL2 => Triple.and fun hli => ?_
      · intro l t M hl ht hs
        refine Triple.pure fun h hh => ⟨?_, mem_snoc hl ⟨hs, ht⟩⟩
        have e : allOf Inspol.blocks (l ++ [t]) + M =
            blk t.self + (t.inner + (allOf Inspol.blocks l + M)) := by
          rw [allOf_append, allOf_one, Inspol.blocks]; abel
        rw [e]; exact hh
      generalize hd1 : ({ d0 with targets := tg, arrayList := la, wavelengthList := lw, corrList := lc, inspolList := li } : OiFits) = d1
      obtain ⟨e0, e1, e2, e3, e4, e5, e6, e7, e8, e9, e10, e11⟩ := hemp
      have hb1 : d1.blocks = allOf Inspol.blocks li + (allOf Corr.blocks lc +
          (allOf Wave.blocks lw + (allOf Array.blocks la + (tg.inner + d0.blocks)))) := by
        subst hd1
        simp only [OiFits.blocks, e0, e1, e2, e3, e4, e5, e6, e7, e8, allOf_nil, Target.inner, blk]
        abel
      have hok1 : d1.Ok := by
        subst hd1
        refine ⟨⟨fun _ => htg, hla, hlw, hlc, hli, ?_, ?_, ?_, ?_⟩,
          ⟨hd0.array.self, hd0.array.key, hd0.array.val, ?_, ?_⟩,
          ⟨hd0.wave.self, hd0.wave.key, hd0.wave.val, ?_, ?_⟩,
          ⟨hd0.corr.self, hd0.corr.key, hd0.corr.val, ?_, ?_⟩⟩
        all_goals simp [e5, e6, e7, e8, e9, e10, e11]
      refine Triple.bind (Triple.of_eq (M := d1.blocks + (L2 + F))
        (readSkip_rule (B := OiFits.blocks) (K := OiFits.Ok) (C := p.Clean) readVis_rule
          enterVis_rule p.viss d1 L2
          (fun c => (hcl c).2.2.2.2.1) hok1 hL2) (by rw [hb1]; abel))
        fun d2 => Triple.exists_pre fun L3 => Triple.and fun hL3 => Triple.and fun hok2 => ?_
      refine Triple.bind (readSkip_rule (B := OiFits.blocks) (K := OiFits.Ok) (C := p.Clean)
          readVis2_rule enterVis2_rule p.vis2s d2 L3
          (fun c => (hcl c).2.2.2.2.2.1) hok2 hL3)
        fun d3 => Triple.exists_pre fun L4 => Triple.and fun hL4 => Triple.and fun hok3 => ?_
      refine Triple.bind (readSkip_rule (B := OiFits.blocks) (K := OiFits.Ok) (C := p.Clean)
          readT3_rule enterT3_rule p.t3s d3 L4
          (fun c => (hcl c).2.2.2.2.2.2.1) hok3 hL4)
        fun d4 => Triple.exists_pre fun L5 => Triple.and fun hL5 => Triple.and fun hok4 => ?_
      refine Triple.bind (readSkip_rule (B := OiFits.blocks) (K := OiFits.Ok) (C := p.Clean)
          readFlux_rule enterFlux_rule p.fluxs d4 L5
          (fun c => (hcl c).2.2.2.2.2.2.2) hok4 hL5)
        fun d5 => Triple.exists_pre fun L6 => Triple.and fun hL6 => Triple.and fun hok5 => ?_
      exact Triple.pure fun h hh => ⟨L6, ⟨hh, fun d hd => Option.some.inj hd ▸ hok5⟩, hL6⟩

end Verif.Mem
