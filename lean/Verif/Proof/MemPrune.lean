import Verif.Proof.MemFilter

/-! Ownership while tables that are not referred to are removed; filtering as a whole. -/

namespace Verif.Mem

variable {α β σ τ : Type}

theorem findRef_bind {M : Multiset Nat} {refs : List (Ptr × CStr)} {name : CStr}
    {f : Bool → Mem β} {Q : β → Heap → Prop} (hr : ∀ r ∈ refs, Held r.1 M)
    (hf : ∀ b, Triple (Own M) (f b) Q) : Triple (Own M) (findRef refs name >>= f) Q := by
  unfold findRef
  rw [bind_assoc]
  exact Triple.bind (memFor_touch _ fun r h => touch_rule (hr r h)) fun _ => hf _

theorem firstOrphan_rule {M : Multiset Nat} {sf : τ → Ptr} {nameOf : τ → CStr}
    {refs : List (Ptr × CStr)} (hr : ∀ r ∈ refs, Held r.1 M) :
    ∀ (l before : List τ), (∀ t ∈ l, Held (sf t) M) →
      Triple (Own M) (firstOrphan sf nameOf refs before l)
        (fun r h => Own M h ∧ ∀ b t a, r = some (b, t, a) → before ++ l = b ++ t :: a) := by
  intro l
  induction l with
  | nil => intro before _; exact Triple.pure fun h hh => ⟨hh, by simp⟩
  | cons t l ih =>
    intro before hl
    unfold firstOrphan
    apply touch_bind (hl t (by simp))
    apply findRef_bind hr
    intro found
    cases found with
    | true =>
      simp only [if_true]
      have := ih (before ++ [t]) fun t ht => hl t (List.mem_cons_of_mem _ ht)
      refine Triple.post this fun r h hh => ⟨hh.1, fun b t' a e => ?_⟩
      rw [← hh.2 b t' a e]; simp
    | false =>
      refine Triple.pure fun h hh => ⟨hh, fun b t' a e => ?_⟩
      cases e; rfl

/-- Names lie in data tables of the dataset. -/
def RefsIn (d : OiFits) (refs : List (Ptr × CStr)) : Prop :=
  ∀ r ∈ refs, (∃ t ∈ d.visList, t.self = r.1) ∨ (∃ t ∈ d.vis2List, t.self = r.1) ∨
    (∃ t ∈ d.t3List, t.self = r.1) ∨ (∃ t ∈ d.fluxList, t.self = r.1)

theorem RefsIn.held {d : OiFits} {refs : List (Ptr × CStr)} (h : RefsIn d refs) (hd : d.Tables) :
    ∀ r ∈ refs, Held r.1 d.blocks := by
  intro r hr
  rcases h r hr with ⟨t, ht, e⟩ | ⟨t, ht, e⟩ | ⟨t, ht, e⟩ | ⟨t, ht, e⟩
  · exact e ▸ held_self (hd.vis t ht).1 (vis_le ht)
  · exact e ▸ held_self (hd.vis2 t ht).1 (vis2_le ht)
  · exact e ▸ held_self (hd.t3 t ht).1 (t3_le ht)
  · exact e ▸ held_self (hd.flux t ht).1 (flux_le ht)

theorem refsIn_nameRefs (d : OiFits) (v : Vis → CStr) (v2 : Vis2 → CStr) (t3 : T3 → CStr)
    (fl : Flux → CStr) : RefsIn d (nameRefs d v v2 t3 fl) := by
  intro r hr
  unfold nameRefs at hr
  simp only [List.mem_append, List.mem_map] at hr
  rcases hr with ((⟨t, ht, e⟩ | ⟨t, ht, e⟩) | ⟨t, ht, e⟩) | ⟨t, ht, e⟩
  · exact .inl ⟨t, ht, by rw [← e]⟩
  · exact .inr (.inl ⟨t, ht, by rw [← e]⟩)
  · exact .inr (.inr (.inl ⟨t, ht, by rw [← e]⟩))
  · exact .inr (.inr (.inr ⟨t, ht, by rw [← e]⟩))

theorem HashNamed.remove {sf : τ → Ptr} {nameOf : τ → CStr} {b a : List τ} {t : τ} {H : Hash}
    (h : HashNamed sf nameOf (b ++ t :: a) H) :
    HashNamed sf nameOf (b ++ a)
      { H with entries := H.entries.filter (fun e => !(e.name == nameOf t)) } := by
  have hm : ∀ x ∈ b ++ t :: a, ∀ e : Entry, nameOf x = e.name → (!(e.name == nameOf t)) = true →
      x ∈ b ++ a := by
    intro x hx e hn he
    rcases List.mem_append.mp hx with hx | hx
    · exact List.mem_append.mpr (.inl hx)
    · rcases List.mem_cons.mp hx with rfl | hx
      · rw [hn] at he; simp at he
      · exact List.mem_append.mpr (.inr hx)
  refine ⟨h.self, h.key, h.val, ?_, ?_⟩
  · intro e he
    obtain ⟨he1, he2⟩ := List.mem_filter.mp he
    obtain ⟨x, hx, k1, k2⟩ := h.owner e he1
    exact ⟨x, hm x hx e k2 he2, k1, k2⟩
  · intro e he
    obtain ⟨he1, he2⟩ := List.mem_filter.mp he
    obtain ⟨x, hx, k1, k2⟩ := h.value e he1
    exact ⟨x, hm x hx e k2 he2, k1, k2⟩

theorem mem_without {p : τ → Prop} {l b a : List τ} {t : τ} (h : ∀ x ∈ l, p x)
    (e : l = b ++ t :: a) : ∀ x ∈ b ++ a, p x := by
  intro x hx
  apply h
  rw [e]
  rcases List.mem_append.mp hx with hx | hx
  · exact List.mem_append.mpr (.inl hx)
  · exact List.mem_append.mpr (.inr (List.mem_cons_of_mem _ hx))

theorem prune_array_rule {F : Multiset Nat} {refs : List (Ptr × CStr)} :
    ∀ (n : Nat) (d : OiFits), d.Named → RefsIn d refs →
      Triple (Own (d.blocks + F)) (prune_oi_array refs n d)
        (fun d' h => Own (d'.blocks + F) h ∧ d'.Named ∧ RefsIn d' refs) := by
  intro n
  induction n with
  | zero => intro d hd hr; exact Triple.pure fun h hh => ⟨hh, hd, hr⟩
  | succ n ih =>
    intro d hd hr
    unfold prune_oi_array
    refine Triple.bind (firstOrphan_rule
      (fun r h => held_left (hr.held hd.tables r h)) d.arrayList []
      (fun t ht => held_left (held_self (hd.tables.array t ht).1 (array_le ht)))) fun r => ?_
    refine Triple.and fun h => ?_
    cases r with
    | none => exact Triple.pure fun h hh => ⟨hh, hd, hr⟩
    | some x =>
      obtain ⟨b, t, a⟩ := x
      have e : d.arrayList = b ++ t :: a := h b t a rfl
      have ht : t ∈ d.arrayList := by rw [e]; simp
      obtain ⟨hs, hk⟩ := hd.tables.array t ht
      simp only []
      unfold hashRemove
      rw [bind_assoc]
      apply hashSearch_bind (named_safe hd (Multiset.le_add_right _ F)).1
      rw [pure_bind]
      have hrem := (e ▸ hd.array : HashNamed _ _ (b ++ t :: a) _).remove
      have eb : d.blocks = t.blocks + OiFits.blocks { d with arrayHash := { d.arrayHash with entries := d.arrayHash.entries.filter (fun e => !(e.name == t.arrname)) }, arrayList := b ++ a } := by
        simp only [OiFits.blocks, e, allOf_append, allOf_cons]; abel
      refine Triple.of_eq (M := t.inner + (blk t.self + (OiFits.blocks { d with arrayHash := { d.arrayHash with entries := d.arrayHash.entries.filter (fun e => !(e.name == t.arrname)) }, arrayList := b ++ a } + F))) ?_
        (by rw [eb, Array.blocks]; abel)
      refine Triple.bind (free_array t) fun _ => ?_
      apply free_bind
      refine ih _ ⟨⟨hd.tables.1, mem_without hd.tables.2 e, hd.tables.3, hd.tables.4, hd.tables.5, hd.tables.6, hd.tables.7, hd.tables.8, hd.tables.9⟩, hrem, hd.wave, hd.corr⟩ hr

theorem prune_wave_rule {F : Multiset Nat} {refs : List (Ptr × CStr)} :
    ∀ (n : Nat) (d : OiFits), d.Named → RefsIn d refs →
      Triple (Own (d.blocks + F)) (prune_oi_wavelength refs n d)
        (fun d' h => Own (d'.blocks + F) h ∧ d'.Named ∧ RefsIn d' refs) := by
  intro n
  induction n with
  | zero => intro d hd hr; exact Triple.pure fun h hh => ⟨hh, hd, hr⟩
  | succ n ih =>
    intro d hd hr
    unfold prune_oi_wavelength
    refine Triple.bind (firstOrphan_rule
      (fun r h => held_left (hr.held hd.tables r h)) d.wavelengthList []
      (fun t ht => held_left (held_self (hd.tables.wave t ht).1 (wave_le ht)))) fun r => ?_
    refine Triple.and fun h => ?_
    cases r with
    | none => exact Triple.pure fun h hh => ⟨hh, hd, hr⟩
    | some x =>
      obtain ⟨b, t, a⟩ := x
      have e : d.wavelengthList = b ++ t :: a := h b t a rfl
      have ht : t ∈ d.wavelengthList := by rw [e]; simp
      obtain ⟨hs, hk⟩ := hd.tables.wave t ht
      simp only []
      unfold hashRemove
      rw [bind_assoc]
      apply hashSearch_bind (named_safe hd (Multiset.le_add_right _ F)).2.1
      rw [pure_bind]
      have hrem := (e ▸ hd.wave : HashNamed _ _ (b ++ t :: a) _).remove
      have eb : d.blocks = t.blocks + OiFits.blocks { d with wavelengthHash := { d.wavelengthHash with entries := d.wavelengthHash.entries.filter (fun e => !(e.name == t.insname)) }, wavelengthList := b ++ a } := by
        simp only [OiFits.blocks, e, allOf_append, allOf_cons]; abel
      refine Triple.of_eq (M := t.inner + (blk t.self + (OiFits.blocks { d with wavelengthHash := { d.wavelengthHash with entries := d.wavelengthHash.entries.filter (fun e => !(e.name == t.insname)) }, wavelengthList := b ++ a } + F))) ?_
        (by rw [eb, Wave.blocks]; abel)
      refine Triple.bind (free_wave t) fun _ => ?_
      apply free_bind
      refine ih _ ⟨⟨hd.tables.1, hd.tables.2, mem_without hd.tables.3 e, hd.tables.4, hd.tables.5, hd.tables.6, hd.tables.7, hd.tables.8, hd.tables.9⟩, hd.array, hrem, hd.corr⟩ hr

theorem prune_corr_rule {F : Multiset Nat} {refs : List (Ptr × CStr)} :
    ∀ (n : Nat) (d : OiFits), d.Named → RefsIn d refs →
      Triple (Own (d.blocks + F)) (prune_oi_corr refs n d)
        (fun d' h => Own (d'.blocks + F) h ∧ d'.Named ∧ RefsIn d' refs) := by
  intro n
  induction n with
  | zero => intro d hd hr; exact Triple.pure fun h hh => ⟨hh, hd, hr⟩
  | succ n ih =>
    intro d hd hr
    unfold prune_oi_corr
    refine Triple.bind (firstOrphan_rule
      (fun r h => held_left (hr.held hd.tables r h)) d.corrList []
      (fun t ht => held_left (held_self (hd.tables.corr t ht).1 (corr_le ht)))) fun r => ?_
    refine Triple.and fun h => ?_
    cases r with
    | none => exact Triple.pure fun h hh => ⟨hh, hd, hr⟩
    | some x =>
      obtain ⟨b, t, a⟩ := x
      have e : d.corrList = b ++ t :: a := h b t a rfl
      have ht : t ∈ d.corrList := by rw [e]; simp
      obtain ⟨hs, hk⟩ := hd.tables.corr t ht
      simp only []
      unfold hashRemove
      rw [bind_assoc]
      apply hashSearch_bind (named_safe hd (Multiset.le_add_right _ F)).2.2
      rw [pure_bind]
      have hrem := (e ▸ hd.corr : HashNamed _ _ (b ++ t :: a) _).remove
      have eb : d.blocks = t.blocks + OiFits.blocks { d with corrHash := { d.corrHash with entries := d.corrHash.entries.filter (fun e => !(e.name == t.corrname)) }, corrList := b ++ a } := by
        simp only [OiFits.blocks, e, allOf_append, allOf_cons]; abel
      refine Triple.of_eq (M := t.inner + (blk t.self + (OiFits.blocks { d with corrHash := { d.corrHash with entries := d.corrHash.entries.filter (fun e => !(e.name == t.corrname)) }, corrList := b ++ a } + F))) ?_
        (by rw [eb, Corr.blocks]; abel)
      refine Triple.bind (free_corr t) fun _ => ?_
      apply free_bind
      refine ih _ ⟨⟨hd.tables.1, hd.tables.2, hd.tables.3, mem_without hd.tables.4 e, hd.tables.5, hd.tables.6, hd.tables.7, hd.tables.8, hd.tables.9⟩, hd.array, hd.wave, hrem⟩ hr

theorem prune_inspol_rule {F : Multiset Nat} {refs : List (Ptr × CStr)} :
    ∀ (n : Nat) (d : OiFits), d.Named → RefsIn d refs →
      Triple (Own (d.blocks + F)) (prune_oi_inspol refs n d)
        (fun d' h => Own (d'.blocks + F) h ∧ d'.Named ∧ RefsIn d' refs) := by
  intro n
  induction n with
  | zero => intro d hd hr; exact Triple.pure fun h hh => ⟨hh, hd, hr⟩
  | succ n ih =>
    intro d hd hr
    unfold prune_oi_inspol
    refine Triple.bind (firstOrphan_rule
      (fun r h => held_left (hr.held hd.tables r h)) d.inspolList []
      (fun t ht => held_left (held_self (hd.tables.inspol t ht).1 (inspol_le ht)))) fun r => ?_
    refine Triple.and fun h => ?_
    cases r with
    | none => exact Triple.pure fun h hh => ⟨hh, hd, hr⟩
    | some x =>
      obtain ⟨b, t, a⟩ := x
      have e : d.inspolList = b ++ t :: a := h b t a rfl
      have ht : t ∈ d.inspolList := by rw [e]; simp
      obtain ⟨hs, hk⟩ := hd.tables.inspol t ht
      simp only []
      have eb : d.blocks = t.blocks + OiFits.blocks { d with inspolList := b ++ a } := by
        simp only [OiFits.blocks, e, allOf_append, allOf_cons]; abel
      refine Triple.of_eq (M := t.inner + (blk t.self + (OiFits.blocks { d with inspolList := b ++ a } + F))) ?_
        (by rw [eb, Inspol.blocks]; abel)
      refine Triple.bind (free_inspol t hk) fun _ => ?_
      apply free_bind
      refine ih _ ⟨⟨hd.tables.1, hd.tables.2, hd.tables.3, hd.tables.4, mem_without hd.tables.5 e, hd.tables.6, hd.tables.7, hd.tables.8, hd.tables.9⟩, hd.array, hd.wave, hd.corr⟩ hr

theorem apply_filter_rule {inp : OiFits} {f : FilterPlan} {F : Multiset Nat} (hi : inp.OkIn F)
    (hF : inp.blocks ≤ F) :
    Triple (Own F) (apply_oi_filter inp f)
      (fun o h => ∃ L, (Own (o.blocks + (L + F)) h ∧ o.Ok) ∧ (f.Clean → L = 0)) := by
  unfold apply_oi_filter
  apply init_bind; intro o ho hemp
  apply malloc_bind; intro p1 _ _
  apply malloc_bind; intro p2 _ _
  apply malloc_bind; intro p3 _ _
  have h0 : ∀ {a b c : Multiset Nat}, b ≤ c → b ≤ a + c := fun h =>
    le_trans h (Multiset.le_add_left _ _)
  have het : o.targets = ⟨none, 0⟩ := hemp.1
  rw [het]
  refine Triple.bind (filter_target_rule hi.tables.targets
    (h0 (h0 (h0 (h0 (le_trans (le_blocks_targets inp) hF))))) f.target f.Clean
    (fun c w e => c.1 w e) 0) fun tg => Triple.exists_pre fun L1 => Triple.and fun hL1 =>
    Triple.and fun htg => ?_
  have hn1 : OiFits.Named { o with targets := tg } :=
    ⟨⟨htg, ho.tables.2, ho.tables.3, ho.tables.4, ho.tables.5, ho.tables.6, ho.tables.7,
      ho.tables.8, ho.tables.9⟩, ho.array, ho.wave, ho.corr⟩
  have eb : OiFits.blocks { o with targets := tg } = tg.inner + o.blocks := by
    simp only [OiFits.blocks, het, Target.inner, blk]; abel
  obtain ⟨G, hG⟩ : ∃ G, G = blk p1 + (blk p2 + (blk p3 + (L1 + F))) := ⟨_, rfl⟩
  have hFG : F ≤ G := hG ▸ h0 (h0 (h0 (h0 (le_refl _))))
  refine Triple.bind (Triple.of_eq (M := OiFits.blocks { o with targets := tg } + G)
    (filter_array_rule (hi.mono hFG) (le_trans hF hFG) hn1) (by rw [eb, hG]; abel)) fun o =>
    Triple.and fun ho => ?_
  refine Triple.bind (filter_corr_rule (hi.mono hFG) (le_trans hF hFG) ho) fun o => Triple.and fun ho => ?_
  refine Triple.bind (filter_all_wave_rule (hi.mono hFG) (le_trans hF hFG) ho) fun s =>
    Triple.and fun ⟨ho, hu⟩ => ?_
  obtain ⟨o, use⟩ := s
  simp only [] at ho hu ⊢
  have hus : UseSafe use (use.owned + G) :=
    ⟨hu.held.1.mono (Multiset.le_add_right _ _), fun e he => (hu.held.2 e he).imp id held_left⟩
  have hFU : inp.blocks ≤ use.owned + G := h0 (le_trans hF hFG)
  refine Triple.bind (filter_all_inspol_rule (hi.mono (h0 hFG)) hFU hus ho) fun o =>
    Triple.exists_pre fun L2 => Triple.and fun hL2 => Triple.and fun ho => ?_
  have hus2 : UseSafe use (L2 + (use.owned + G)) :=
    ⟨hus.1.mono (Multiset.le_add_left _ _), fun e he => (hus.2 e he).imp id held_right⟩
  have hFU2 : inp.blocks ≤ L2 + (use.owned + G) := h0 hFU
  refine Triple.bind (filter_all_vis_rule (hi.mono (h0 (h0 hFG))) hFU2 hus2 ho) fun o => Triple.and fun ho => ?_
  refine Triple.bind (filter_all_vis2_rule (hi.mono (h0 (h0 hFG))) hFU2 hus2 ho) fun o => Triple.and fun ho => ?_
  refine Triple.bind (filter_all_t3_rule (hi.mono (h0 (h0 hFG))) hFU2 hus2 ho) fun o => Triple.and fun ho => ?_
  refine Triple.bind (filter_all_flux_rule (hi.mono (h0 (h0 hFG))) hFU2 hus2 ho) fun o => Triple.and fun ho => ?_
  refine Triple.bind (prune_array_rule _ _ ho (refsIn_nameRefs _ _ _ _ _)) fun o2 =>
    Triple.and fun ⟨ho2, hr2⟩ => ?_
  refine Triple.bind (prune_inspol_rule _ _ ho2 hr2) fun o3 => Triple.and fun ⟨ho3, _⟩ => ?_
  refine Triple.bind (prune_wave_rule _ _ ho3 (refsIn_nameRefs _ _ _ _ _)) fun o4 =>
    Triple.and fun ⟨ho4, _⟩ => ?_
  refine Triple.bind (prune_corr_rule _ _ ho4 (refsIn_nameRefs _ _ _ _ _)) fun o5 =>
    Triple.and fun ⟨ho5, _⟩ => ?_
  refine Triple.of_eq (M := blk p1 + (blk p2 + (blk p3 + (use.owned +
    (o5.blocks + ((L1 + L2) + F)))))) ?_ (by rw [hG]; abel)
  apply free_bind
  apply free_bind
  apply free_bind
  refine Triple.bind (hashDestroy_rule use) fun _ => ?_
  refine Triple.pure fun h hh => ⟨L1 + L2, ⟨hh, ho5.ok⟩, fun c => ?_⟩
  rw [hL1 c, hL2 c, zero_add]

end Verif.Mem
