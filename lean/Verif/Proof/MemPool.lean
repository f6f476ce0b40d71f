import Verif.Proof.MemMerge

/-! Ownership in a program that makes calls to the library. -/

namespace Verif.Mem

variable {α β σ τ : Type}

/-! ### Looking up -/

theorem find_self {sf : τ → Ptr} {l : List τ} {i : Nat} (h : ∃ t ∈ l, sf t = some i) :
    ∃ t ∈ l, l.find? (fun t => sf t == some i) = some t := by
  obtain ⟨t, ht, e⟩ := h
  cases hfind : l.find? (fun t => sf t == some i) with
  | none =>
    have := List.find?_eq_none.mp hfind t ht
    rw [e] at this; simp at this
  | some t' => exact ⟨t', List.mem_of_find?_eq_some hfind, rfl⟩

theorem value_of {H : Hash} {sf : τ → Ptr} {l : List τ} {B : Multiset Nat} {name : CStr} {i : Nat}
    (h : HashTo sf l B H)
    (hv : (some i : Ptr) = none ∨ ∃ e ∈ H.entries, e.name = name ∧ e.value = some i) :
    ∃ t ∈ l, sf t = some i := by
  rcases hv with hv | ⟨e, he, _, hv⟩
  · cases hv
  · rcases h.value e he with h' | h'
    · rw [h'] at hv; cases hv
    · exact hv ▸ h'

theorem lookup_array_rule {d : OiFits} {M : Multiset Nat} {n : CStr} (hd : d.OkIn M)
    (hM : d.blocks ≤ M) : Triple (Own M) (use_lookup_array d n) (fun _ => Own M) := by
  unfold use_lookup_array
  apply hashLookup_bind (hd.array.safe (le_trans (le_blocks_hash d).1 hM) (le_refl _))
  intro v hv
  cases v with
  | none => exact Triple.pure fun _ h => h
  | some i =>
    obtain ⟨t, ht, e⟩ := find_self (value_of hd.array hv)
    simp only [e]
    obtain ⟨hs, hk⟩ := hd.tables.array t ht
    have hle := le_trans (array_le ht) hM
    apply touch_bind (held_self hs hle)
    exact touch_rule (Held.mono (held_right (held_blk hk)) hle)

theorem lookup_wavelength_rule {d : OiFits} {M : Multiset Nat} {n : CStr} (hd : d.OkIn M)
    (hM : d.blocks ≤ M) : Triple (Own M) (use_lookup_wavelength d n) (fun _ => Own M) := by
  unfold use_lookup_wavelength
  apply hashLookup_bind (hd.wave.safe (le_trans (le_blocks_hash d).2.1 hM) (le_refl _))
  intro v hv
  cases v with
  | none => exact Triple.pure fun _ h => h
  | some i =>
    obtain ⟨t, ht, e⟩ := find_self (value_of hd.wave hv)
    simp only [e]
    obtain ⟨hs, hk⟩ := hd.tables.wave t ht
    have hle := le_trans (wave_le ht) hM
    apply touch_bind (held_self hs hle)
    apply touch_bind (Held.mono (held_right (held_left (held_blk hk.1))) hle)
    exact touch_rule (Held.mono (held_right (held_right (held_blk hk.2))) hle)

theorem lookup_corr_rule {d : OiFits} {M : Multiset Nat} {n : CStr} (hd : d.OkIn M)
    (hM : d.blocks ≤ M) : Triple (Own M) (use_lookup_corr d n) (fun _ => Own M) := by
  unfold use_lookup_corr
  apply hashLookup_bind (hd.corr.safe (le_trans (le_blocks_hash d).2.2 hM) (le_refl _))
  intro v hv
  cases v with
  | none => exact Triple.pure fun _ h => h
  | some i =>
    obtain ⟨t, ht, e⟩ := find_self (value_of hd.corr hv)
    simp only [e]
    obtain ⟨hs, hk⟩ := hd.tables.corr t ht
    have hle := le_trans (corr_le ht) hM
    apply touch_bind (held_self hs hle)
    apply touch_bind (Held.mono (held_right (held_left (held_blk hk.1))) hle)
    apply touch_bind (Held.mono (held_right (held_right (held_left (held_blk hk.2.1)))) hle)
    exact touch_rule (Held.mono (held_right (held_right (held_right (held_blk hk.2.2)))) hle)

/-! ### The datasets held -/

/-- The blocks of one place among the datasets held. -/
def slot : Option OiFits → Multiset Nat
  | some d => d.blocks
  | none => 0

theorem pool_eq (ds : List (Option OiFits)) : poolBlocks ds = allOf slot ds := by
  unfold poolBlocks
  congr 1

theorem pool_snoc (ds : List (Option OiFits)) (d : Option OiFits) :
    poolBlocks (ds ++ [d]) = slot d + poolBlocks ds := by
  simp only [pool_eq, allOf_append, allOf_one]; abel

theorem pool_le {ds : List (Option OiFits)} {d : OiFits} (h : some d ∈ ds) :
    d.blocks ≤ poolBlocks ds := by
  rw [pool_eq]; exact le_allOf (f := slot) h

theorem pool_set {ds : List (Option OiFits)} {d : OiFits} {i : Nat} (h : ds[i]? = some (some d)) :
    poolBlocks ds = d.blocks + poolBlocks (ds.set i none) := by
  simp only [pool_eq]
  induction ds generalizing i with
  | nil => simp at h
  | cons x xs ih =>
    cases i with
    | zero =>
      simp only [List.getElem?_cons_zero, Option.some.injEq] at h
      subst h
      simp only [List.set_cons_zero, allOf_cons, slot, zero_add]
    | succ i =>
      simp only [List.getElem?_cons_succ] at h
      simp only [List.set_cons_succ, allOf_cons]
      rw [ih h]; abel

/-- What holds between calls. -/
def PoolInv (C : Prop) (M0 : Multiset Nat) (ds : List (Option OiFits)) (h : Heap) : Prop :=
  ∃ L, (Own (poolBlocks ds + (L + M0)) h ∧ ∀ d, some d ∈ ds → d.Ok) ∧ (C → L = 0)

theorem all_snoc {P : OiFits → Prop} {ds : List (Option OiFits)} {o : Option OiFits}
    (h : ∀ d, some d ∈ ds → P d) (ho : ∀ d, o = some d → P d) :
    ∀ d, some d ∈ ds ++ [o] → P d := by
  intro d hd
  rcases List.mem_append.mp hd with hd | hd
  · exact h d hd
  · exact ho d (List.mem_singleton.mp hd).symm

theorem run_call_rule {C : Prop} {M0 : Multiset Nat} (ds : List (Option OiFits)) (c : Call)
    (hc : C → c.Clean) :
    Triple (PoolInv C M0 ds) (runCall ds c) (PoolInv C M0) := by
  refine Triple.exists_pre fun L => ?_
  refine Triple.pre (P := fun h => Own (poolBlocks ds + (L + M0)) h ∧
    ((∀ d, some d ∈ ds → d.Ok) ∧ (C → L = 0))) (Triple.and ?_) fun h ⟨⟨a, b⟩, c⟩ => ⟨a, b, c⟩
  rintro ⟨hok, hL⟩
  have same : ∀ h, Own (poolBlocks ds + (L + M0)) h → PoolInv C M0 ds h :=
    fun h hh => ⟨L, ⟨hh, hok⟩, hL⟩
  have hle : ∀ d, some d ∈ ds → d.blocks ≤ poolBlocks ds + (L + M0) :=
    fun d hd => le_trans (pool_le hd) (Multiset.le_add_right _ _)
  cases c with
  | read p =>
    simp only [runCall]
    refine Triple.bind (read_rule p _) fun r => Triple.exists_pre fun L' => ?_
    refine Triple.pure fun h ⟨⟨hh, hr⟩, hcl⟩ => ⟨L + L', ⟨?_, all_snoc hok hr⟩, fun hC => ?_⟩
    · have e : poolBlocks (ds ++ [r]) + (L + L' + M0) =
        slot r + (L' + (poolBlocks ds + (L + M0))) := by rw [pool_snoc]; abel
      rw [e]
      cases r <;> exact hh
    · rw [hL hC, hcl (hc hC)]; rfl
  | filter i f =>
    simp only [runCall]
    cases hget : ds[i]? with
    | none => exact Triple.pure same
    | some x =>
      cases x with
      | none => exact Triple.pure same
      | some d =>
        have hd := List.mem_of_getElem? hget
        refine Triple.bind (apply_filter_rule ((hok d hd).mono (hle d hd)) (hle d hd)) fun o =>
          Triple.exists_pre fun L' => ?_
        refine Triple.pure fun h ⟨⟨hh, ho⟩, hcl⟩ => ⟨L + L', ⟨?_, all_snoc hok ?_⟩, fun hC => ?_⟩
        · have e : poolBlocks (ds ++ [some o]) + (L + L' + M0) =
            o.blocks + (L' + (poolBlocks ds + (L + M0))) := by
            rw [pool_snoc, slot]; abel
          rw [e]; exact hh
        · rintro d' h'; cases h'; exact ho
        · rw [hL hC, hcl (hc hC)]; rfl
  | merge is p =>
    simp only [runCall]
    cases hget : is.mapM (fun i => (ds[i]?).bind id) with
    | none => exact Triple.pure same
    | some ins =>
      have hins : InsOk ins (poolBlocks ds + (L + M0)) := by
        have : ∀ d ∈ ins, some d ∈ ds := by
          clear same hle hok hc
          induction is generalizing ins with
          | nil =>
            simp only [List.mapM_nil, Option.pure_def, Option.some.injEq] at hget
            subst hget; simp
          | cons j js ih =>
            rw [List.mapM_cons] at hget
            cases hj : (ds[j]?).bind id with
            | none => rw [hj] at hget; cases hget
            | some d0 =>
              rw [hj] at hget
              cases hjs : js.mapM (fun i => (ds[i]?).bind id) with
              | none => rw [hjs] at hget; cases hget
              | some rest =>
                rw [hjs] at hget
                have : ins = d0 :: rest := by cases hget; rfl
                subst this
                intro d hd
                rcases List.mem_cons.mp hd with rfl | hd
                · cases hx : ds[j]? with
                  | none => rw [hx] at hj; cases hj
                  | some x =>
                    rw [hx] at hj
                    have : x = some d := hj
                    exact this ▸ List.mem_of_getElem? hx
                · exact ih rest hjs d hd
        exact fun d hd => ⟨(hok d (this d hd)).mono (hle d (this d hd)), hle d (this d hd)⟩
      refine Triple.bind (merge_rule hins) fun o => Triple.and fun ho => ?_
      refine Triple.pure fun h hh => ⟨L, ⟨?_, all_snoc hok ?_⟩, hL⟩
      · have e : poolBlocks (ds ++ [some o]) + (L + M0) =
          o.blocks + (poolBlocks ds + (L + M0)) := by rw [pool_snoc, slot]; abel
        rw [e]; exact hh
      · rintro d' h'; cases h'; exact ho
  | lookupArray i n =>
    simp only [runCall]
    cases hget : ds[i]? with
    | none => exact Triple.pure same
    | some x =>
      cases x with
      | none => exact Triple.pure same
      | some d =>
        have hd := List.mem_of_getElem? hget
        exact Triple.bind (lookup_array_rule ((hok d hd).mono (hle d hd)) (hle d hd)) fun _ => Triple.pure same
  | lookupWavelength i n =>
    simp only [runCall]
    cases hget : ds[i]? with
    | none => exact Triple.pure same
    | some x =>
      cases x with
      | none => exact Triple.pure same
      | some d =>
        have hd := List.mem_of_getElem? hget
        exact Triple.bind (lookup_wavelength_rule ((hok d hd).mono (hle d hd)) (hle d hd)) fun _ => Triple.pure same
  | lookupCorr i n =>
    simp only [runCall]
    cases hget : ds[i]? with
    | none => exact Triple.pure same
    | some x =>
      cases x with
      | none => exact Triple.pure same
      | some d =>
        have hd := List.mem_of_getElem? hget
        exact Triple.bind (lookup_corr_rule ((hok d hd).mono (hle d hd)) (hle d hd)) fun _ => Triple.pure same
  | free i =>
    simp only [runCall]
    cases hget : ds[i]? with
    | none => exact Triple.pure same
    | some x =>
      cases x with
      | none => exact Triple.pure same
      | some d =>
        have hd := List.mem_of_getElem? hget
        refine Triple.of_eq (M := d.blocks + (poolBlocks (ds.set i none) + (L + M0))) ?_
          (by rw [pool_set hget]; abel)
        refine Triple.bind (free_oi_fits_rule d (hok d hd)) fun _ => ?_
        refine Triple.pure fun h hh => ⟨L, ⟨hh, fun d' hd' => ?_⟩, hL⟩
        rcases List.mem_or_eq_of_mem_set hd' with h' | h'
        · exact hok d' h'
        · cases h'

theorem run_calls_rule {C : Prop} {M0 : Multiset Nat} (cs : List Call)
    (hc : C → ∀ c ∈ cs, c.Clean) (ds : List (Option OiFits)) :
    Triple (PoolInv C M0 ds) (runCalls ds cs) (PoolInv C M0) :=
  memFold_rule _ _ fun ds c hm => run_call_rule ds c fun h => hc h c hm

end Verif.Mem
