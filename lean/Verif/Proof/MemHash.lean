import Verif.Proof.MemTables

/-! Rules for hash tables, and for datasets as a whole. -/

namespace Verif.Mem

variable {α β σ τ : Type}

/-- A hash table which can be searched while the blocks `B` are allocated. -/
def Hash.Safe (H : Hash) (B : Multiset Nat) : Prop :=
  Held H.self B ∧ ∀ e ∈ H.entries, Held e.owner B

theorem Hash.Safe.mono {H : Hash} {A B : Multiset Nat} (h : H.Safe A) (hAB : A ≤ B) : H.Safe B :=
  ⟨h.1.mono hAB, fun e he => (h.2 e he).mono hAB⟩

theorem hashSearch_bind {M : Multiset Nat} {H : Hash} {f : Unit → Mem β} {Q : β → Heap → Prop}
    (hH : H.Safe M) (hf : Triple (Own M) (f ()) Q) :
    Triple (Own M) (hashSearch H >>= f) Q := by
  unfold hashSearch
  rw [bind_assoc]
  apply touch_bind hH.1
  exact Triple.bind (memFor_touch _ fun e he => touch_rule (hH.2 e he)) fun _ => hf

theorem hashLookup_bind {M : Multiset Nat} {H : Hash} {name : CStr} {f : Ptr → Mem β}
    {Q : β → Heap → Prop} (hH : H.Safe M)
    (hf : ∀ v, (v = none ∨ ∃ e ∈ H.entries, e.name = name ∧ e.value = v) →
      Triple (Own M) (f v) Q) :
    Triple (Own M) (hashLookup H name >>= f) Q := by
  unfold hashLookup
  rw [bind_assoc]
  apply hashSearch_bind hH
  cases hfind : H.entries.find? (fun e => e.name == name) with
  | none => exact hf none (.inl rfl)
  | some e =>
    refine hf e.value (.inr ⟨e, List.mem_of_find?_eq_some hfind, ?_, rfl⟩)
    have := List.find?_some hfind
    exact beq_iff_eq.mp this

/-- Where the entries of a table come from after an insertion. -/
def InsertedIn (H : Hash) (owner : Ptr) (name : CStr) (value : Ptr) (H' : Hash) : Prop :=
  H'.self = H.self ∧ H'.keyFree = H.keyFree ∧ H'.valFree = H.valFree ∧
  ∀ e' ∈ H'.entries, e' ∈ H.entries ∨ (e'.name = name ∧ e'.value = value ∧
    (e'.owner = owner ∨ ∃ e ∈ H.entries, e.name = name ∧ e'.owner = e.owner))

theorem replaced_entry {H : Hash} {owner : Ptr} {name : CStr} {value : Ptr} {e : Entry}
    (he : e ∈ H.entries) :
    (if e.name == name then { e with value := value } else e) ∈ H.entries ∨
      ((if e.name == name then { e with value := value } else e).name = name ∧
        (if e.name == name then { e with value := value } else e).value = value ∧
        ((if e.name == name then { e with value := value } else e).owner = owner ∨
          ∃ e₀ ∈ H.entries, e₀.name = name ∧
            (if e.name == name then { e with value := value } else e).owner = e₀.owner)) := by
  by_cases hn : (e.name == name) = true
  · rw [if_pos hn]
    exact .inr ⟨beq_iff_eq.mp hn, rfl, .inr ⟨e, he, beq_iff_eq.mp hn, rfl⟩⟩
  · rw [if_neg hn]
    exact .inl he

theorem hashInsert_bind {M : Multiset Nat} {H : Hash} {owner : Ptr} {name : CStr} {value : Ptr}
    {f : Hash → Mem β} {Q : β → Heap → Prop} (hH : H.Safe M) (hk : H.keyFree = false)
    (hv : H.valFree = false) (ho : Held owner M)
    (hf : ∀ H', InsertedIn H owner name value H' → Triple (Own M) (f H') Q) :
    Triple (Own M) (hashInsert H owner name value >>= f) Q := by
  unfold hashInsert
  rw [bind_assoc]
  apply touch_bind ho
  rw [bind_assoc]
  apply hashSearch_bind hH
  cases hfind : H.entries.find? (fun e => e.name == name) with
  | none =>
    refine hf _ ⟨rfl, rfl, rfl, fun e' he' => ?_⟩
    rcases List.mem_append.mp he' with h | h
    · exact .inl h
    · rw [List.mem_singleton.mp h]
      exact .inr ⟨rfl, rfl, .inl rfl⟩
  | some old =>
    simp only [hk, hv, Bool.false_eq_true, if_false]
    refine hf _ ⟨rfl, hk.symm, hv.symm, fun e' he' => ?_⟩
    obtain ⟨e, he, rfl⟩ := List.mem_map.mp he'
    exact replaced_entry he

/-! ### Tables which own keys or values -/

/-- The blocks of one entry which the table frees. -/
def entryOwn (k v : Bool) (e : Entry) : Multiset Nat :=
  (if k then blk e.owner else 0) + (if v then blk e.value else 0)

/-- The blocks which `g_hash_table_destroy` frees. -/
def Hash.owned (H : Hash) : Multiset Nat :=
  blk H.self + allOf (entryOwn H.keyFree H.valFree) H.entries

theorem owned_plain {H : Hash} (hk : H.keyFree = false) (hv : H.valFree = false) :
    H.owned = blk H.self := by
  unfold Hash.owned
  have : allOf (entryOwn H.keyFree H.valFree) H.entries = 0 := by
    rw [hk, hv]
    induction H.entries with
    | nil => rfl
    | cons e l ih => rw [allOf_cons, ih]; simp [entryOwn]
  rw [this, add_zero]

theorem hashDestroy_rule {M : Multiset Nat} (H : Hash) :
    Triple (Own (H.owned + M)) (hashDestroy H) (fun _ => Own M) := by
  unfold hashDestroy Hash.owned
  apply Triple.of_eq (M := allOf (entryOwn H.keyFree H.valFree) H.entries + (blk H.self + M)) _
    (by abel)
  refine Triple.bind (memFor_free (g := entryOwn H.keyFree H.valFree) (D := 0) _ _
    (Multiset.zero_le _) ?_) (fun _ => free_rule)
  intro e _ M _
  unfold entryOwn
  rw [add_assoc]
  cases H.keyFree <;> cases H.valFree <;> simp only [if_true, Bool.false_eq_true, if_false, zero_add]
  · exact Triple.pure fun _ h => h
  · exact free_rule
  · exact free_bind (Triple.pure fun _ h => h)
  · exact free_bind free_rule

theorem owned_replace {k v : Bool} {name : CStr} {value : Ptr} :
    ∀ (l : List Entry) (old : Entry), (l.map Entry.name).Nodup →
      l.find? (fun e => e.name == name) = some old →
      allOf (entryOwn k v) (l.map fun e => if e.name == name then { e with value := value } else e) +
        (if v then blk old.value else 0) =
      allOf (entryOwn k v) l + (if v then blk value else 0) := by
  intro l
  induction l with
  | nil => intro old _ h; cases h
  | cons a l ih =>
    intro old hnd hfind
    rw [List.map_cons, List.nodup_cons] at hnd
    rw [List.map_cons, allOf_cons, allOf_cons]
    by_cases ha : (a.name == name) = true
    · have e1 : old = a := by
        rw [List.find?_cons, ha] at hfind
        exact (Option.some.inj hfind).symm
      subst e1
      have hid : (l.map fun e => if e.name == name then { e with value := value } else e) = l := by
        conv => rhs; rw [← List.map_id l]
        apply List.map_congr_left
        intro e he
        have : (e.name == name) = false := by
          rw [beq_eq_false_iff_ne]
          intro h
          exact hnd.1 (List.mem_map.mpr ⟨e, he, by rw [h]; exact (beq_iff_eq.mp ha).symm⟩)
        simp [this]
      rw [hid]
      simp only [ha, if_true, entryOwn]
      abel
    · have hf : (a.name == name) = false := by simpa using ha
      rw [List.find?_cons, hf] at hfind
      have := ih old hnd.2 hfind
      simp only [hf, Bool.false_eq_true, if_false]
      rw [add_assoc, this, add_assoc]

/-- Insertion into a table which may own keys and values. -/
theorem hashInsert_owned {M : Multiset Nat} {H : Hash} {owner : Ptr} {name : CStr} {value : Ptr}
    {f : Hash → Mem β} {Q : β → Heap → Prop}
    (hH : H.Safe (H.owned + M)) (hnd : (H.entries.map Entry.name).Nodup)
    (ho : Held owner (entryOwn H.keyFree H.valFree ⟨owner, name, value⟩ + (H.owned + M)))
    (hf : ∀ H', InsertedIn H owner name value H' → (H'.entries.map Entry.name).Nodup →
      Triple (Own (H'.owned + M)) (f H') Q) :
    Triple (Own (entryOwn H.keyFree H.valFree ⟨owner, name, value⟩ + (H.owned + M)))
      (hashInsert H owner name value >>= f) Q := by
  unfold hashInsert
  rw [bind_assoc]
  apply touch_bind ho
  rw [bind_assoc]
  apply hashSearch_bind (hH.mono (Multiset.le_add_left _ _))
  cases hfind : H.entries.find? (fun e => e.name == name) with
  | none =>
    refine Triple.of_eq (hf _ ⟨rfl, rfl, rfl, fun e' he' => ?_⟩ ?_) ?_
    · rcases List.mem_append.mp he' with h | h
      · exact .inl h
      · rw [List.mem_singleton.mp h]
        exact .inr ⟨rfl, rfl, .inl rfl⟩
    · rw [List.map_append, List.nodup_append]
      refine ⟨hnd, by simp, ?_⟩
      intro a ha b hb
      obtain ⟨e, he, rfl⟩ := List.mem_map.mp ha
      have hb' : b = name := by simpa using hb
      rw [hb']
      have := List.find?_eq_none.mp hfind e he
      intro h
      exact this (beq_iff_eq.mpr h)
    · simp only [Hash.owned, allOf_append, allOf_one]
      abel
  | some old =>
    have key := owned_replace (k := H.keyFree) (v := H.valFree) (value := value) H.entries old hnd
      hfind
    have hold : old ∈ H.entries := List.mem_of_find?_eq_some hfind
    have hf' := hf { H with entries := H.entries.map fun e =>
        if e.name == name then { e with value := value } else e } ⟨rfl, rfl, rfl, fun e' he' => by
          obtain ⟨e, he, rfl⟩ := List.mem_map.mp he'
          exact replaced_entry he⟩ (by
        rw [List.map_map]
        have : (Entry.name ∘ fun e : Entry => if e.name == name then { e with value := value } else e)
            = Entry.name := by
          funext e
          change (if e.name == name then { e with value := value } else e).name = e.name
          by_cases hn : (e.name == name) = true
          · rw [if_pos hn]
          · rw [if_neg hn]
        rw [this]; exact hnd)
    generalize hG : (allOf (entryOwn H.keyFree H.valFree) (H.entries.map fun e =>
      if e.name == name then { e with value := value } else e)) = G at key
    have hf'' : Triple (Own (blk H.self + G + M)) (f { H with entries := H.entries.map fun e =>
        if e.name == name then { e with value := value } else e }) Q := by
      rw [← hG]; exact hf'
    have e0 : entryOwn H.keyFree H.valFree ⟨owner, name, value⟩ + (H.owned + M) =
        (if H.valFree then blk old.value else 0) + ((if H.keyFree then blk owner else 0) +
          (blk H.self + G + M)) := by
      calc _ = (if H.keyFree then blk owner else 0) + (blk H.self +
            (allOf (entryOwn H.keyFree H.valFree) H.entries + (if H.valFree then blk value else 0)))
            + M := by simp only [entryOwn, Hash.owned]; abel
        _ = _ := by rw [← key]; abel
    refine Triple.of_eq ?_ e0
    clear hf hf' key hG hH hnd ho e0
    generalize hH' : ({ H with entries := H.entries.map fun e =>
        if e.name == name then { e with value := value } else e } : Hash) = H' at hf''
    cases hk : H.keyFree <;> cases hv : H.valFree <;>
      simp only [if_true, Bool.false_eq_true, if_false, zero_add, bind_assoc, pure_bind]
    all_goals rw [hk, hv] at hH'; rw [hH']
    · exact hf''
    · exact free_bind hf''
    · exact free_bind hf''
    · exact free_bind (free_bind hf'')

/-! ### Datasets in order -/

/-- All tables of the dataset have their pointers in order. -/
structure OiFits.Tables (d : OiFits) : Prop where
  targets : d.targets.Ok
  array : ∀ t ∈ d.arrayList, t.self ≠ none ∧ t.Ok
  wave : ∀ t ∈ d.wavelengthList, t.self ≠ none ∧ t.Ok
  corr : ∀ t ∈ d.corrList, t.self ≠ none ∧ t.Ok
  inspol : ∀ t ∈ d.inspolList, t.self ≠ none ∧ t.Ok
  vis : ∀ t ∈ d.visList, t.self ≠ none ∧ t.Ok
  vis2 : ∀ t ∈ d.vis2List, t.self ≠ none ∧ t.Ok
  t3 : ∀ t ∈ d.t3List, t.self ≠ none ∧ t.Ok
  flux : ∀ t ∈ d.fluxList, t.self ≠ none ∧ t.Ok

/-- A hash table of a dataset: keys lie in blocks of `B`, values are NULL or tables of `l`. -/
structure HashTo (sf : τ → Ptr) (l : List τ) (B : Multiset Nat) (H : Hash) : Prop where
  self : H.self ≠ none
  key : H.keyFree = false
  val : H.valFree = false
  owner : ∀ e ∈ H.entries, Held e.owner B
  value : ∀ e ∈ H.entries, e.value = none ∨ ∃ t ∈ l, sf t = e.value

/-- A hash table whose keys lie in tables of that name, as do the tables found. -/
structure HashNamed (sf : τ → Ptr) (nameOf : τ → CStr) (l : List τ) (H : Hash) : Prop where
  self : H.self ≠ none
  key : H.keyFree = false
  val : H.valFree = false
  owner : ∀ e ∈ H.entries, ∃ t ∈ l, sf t = e.owner ∧ nameOf t = e.name
  value : ∀ e ∈ H.entries, ∃ t ∈ l, sf t = e.value ∧ nameOf t = e.name

/-- A dataset in order, where the keys of its hash tables lie in blocks of `B`. -/
structure OiFits.OkIn (d : OiFits) (B : Multiset Nat) : Prop where
  tables : d.Tables
  array : HashTo Array.self d.arrayList B d.arrayHash
  wave : HashTo Wave.self d.wavelengthList B d.wavelengthHash
  corr : HashTo Corr.self d.corrList B d.corrHash

/-- A dataset in order, whose hash tables refer to its own blocks. -/
abbrev OiFits.Ok (d : OiFits) : Prop := d.OkIn d.blocks

structure OiFits.Named (d : OiFits) : Prop where
  tables : d.Tables
  array : HashNamed Array.self Array.arrname d.arrayList d.arrayHash
  wave : HashNamed Wave.self Wave.insname d.wavelengthList d.wavelengthHash
  corr : HashNamed Corr.self Corr.corrname d.corrList d.corrHash

theorem HashTo.mono {self : τ → Ptr} {l l' : List τ} {B B' : Multiset Nat} {H : Hash}
    (h : HashTo self l B H) (hB : B ≤ B') (hl : ∀ t ∈ l, t ∈ l') : HashTo self l' B' H :=
  ⟨h.self, h.key, h.val, fun e he => (h.owner e he).mono hB, fun e he =>
    (h.value e he).imp id fun ⟨t, ht, e⟩ => ⟨t, hl t ht, e⟩⟩

theorem OiFits.OkIn.mono {d : OiFits} {B B' : Multiset Nat} (h : d.OkIn B) (hB : B ≤ B') :
    d.OkIn B' :=
  ⟨h.tables, h.array.mono hB fun _ h => h, h.wave.mono hB fun _ h => h, h.corr.mono hB fun _ h => h⟩

/-! ### The blocks of a dataset, part by part -/

theorem le_blocks_targets (d : OiFits) : d.targets.inner ≤ d.blocks := by
  have h0 : ∀ {a b c : Multiset Nat}, b ≤ c → b ≤ a + c := fun h =>
    le_trans h (Multiset.le_add_left _ _)
  unfold OiFits.blocks
  iterate 3 apply h0
  exact Multiset.le_add_right _ _

theorem le_blocks_hash (d : OiFits) : blk d.arrayHash.self ≤ d.blocks ∧
    blk d.wavelengthHash.self ≤ d.blocks ∧ blk d.corrHash.self ≤ d.blocks := by
  unfold OiFits.blocks
  refine ⟨Multiset.le_add_right _ _, ?_, ?_⟩
  · exact le_trans (Multiset.le_add_right _ _) (Multiset.le_add_left _ _)
  · exact le_trans (Multiset.le_add_right _ _)
      (le_trans (Multiset.le_add_left _ _) (Multiset.le_add_left _ _))

theorem le_blocks_lists (d : OiFits) :
    allOf Array.blocks d.arrayList ≤ d.blocks ∧ allOf Wave.blocks d.wavelengthList ≤ d.blocks ∧
    allOf Corr.blocks d.corrList ≤ d.blocks ∧ allOf Inspol.blocks d.inspolList ≤ d.blocks ∧
    allOf Vis.blocks d.visList ≤ d.blocks ∧ allOf Vis2.blocks d.vis2List ≤ d.blocks ∧
    allOf T3.blocks d.t3List ≤ d.blocks ∧ allOf Flux.blocks d.fluxList ≤ d.blocks := by
  have h0 : ∀ {a b c : Multiset Nat}, b ≤ c → b ≤ a + c := fun h =>
    le_trans h (Multiset.le_add_left _ _)
  unfold OiFits.blocks
  refine ⟨?_, ?_, ?_, ?_, ?_, ?_, ?_, ?_⟩
  · iterate 4 apply h0
    exact Multiset.le_add_right _ _
  · iterate 5 apply h0
    exact Multiset.le_add_right _ _
  · iterate 6 apply h0
    exact Multiset.le_add_right _ _
  · iterate 7 apply h0
    exact Multiset.le_add_right _ _
  · iterate 8 apply h0
    exact Multiset.le_add_right _ _
  · iterate 9 apply h0
    exact Multiset.le_add_right _ _
  · iterate 10 apply h0
    exact Multiset.le_add_right _ _
  · iterate 11 apply h0
    exact le_refl _

theorem array_le {d : OiFits} {t : Array} (h : t ∈ d.arrayList) : t.blocks ≤ d.blocks :=
  le_trans (le_allOf h) (le_blocks_lists d).1
theorem wave_le {d : OiFits} {t : Wave} (h : t ∈ d.wavelengthList) : t.blocks ≤ d.blocks :=
  le_trans (le_allOf h) (le_blocks_lists d).2.1
theorem corr_le {d : OiFits} {t : Corr} (h : t ∈ d.corrList) : t.blocks ≤ d.blocks :=
  le_trans (le_allOf h) (le_blocks_lists d).2.2.1
theorem inspol_le {d : OiFits} {t : Inspol} (h : t ∈ d.inspolList) : t.blocks ≤ d.blocks :=
  le_trans (le_allOf h) (le_blocks_lists d).2.2.2.1
theorem vis_le {d : OiFits} {t : Vis} (h : t ∈ d.visList) : t.blocks ≤ d.blocks :=
  le_trans (le_allOf h) (le_blocks_lists d).2.2.2.2.1
theorem vis2_le {d : OiFits} {t : Vis2} (h : t ∈ d.vis2List) : t.blocks ≤ d.blocks :=
  le_trans (le_allOf h) (le_blocks_lists d).2.2.2.2.2.1
theorem t3_le {d : OiFits} {t : T3} (h : t ∈ d.t3List) : t.blocks ≤ d.blocks :=
  le_trans (le_allOf h) (le_blocks_lists d).2.2.2.2.2.2.1
theorem flux_le {d : OiFits} {t : Flux} (h : t ∈ d.fluxList) : t.blocks ≤ d.blocks :=
  le_trans (le_allOf h) (le_blocks_lists d).2.2.2.2.2.2.2

theorem HashNamed.to {self : τ → Ptr} {nameOf : τ → CStr} {l : List τ} {B : Multiset Nat}
    {H : Hash} (h : HashNamed self nameOf l H) (hl : ∀ t ∈ l, Held (self t) B) :
    HashTo self l B H :=
  ⟨h.self, h.key, h.val, fun e he => by
    obtain ⟨t, ht, e1, _⟩ := h.owner e he
    exact e1 ▸ hl t ht, fun e he => by
    obtain ⟨t, ht, e1, _⟩ := h.value e he
    exact .inr ⟨t, ht, e1⟩⟩

theorem OiFits.Named.ok {d : OiFits} (h : d.Named) : d.Ok :=
  ⟨h.tables, h.array.to fun t ht => held_self (h.tables.array t ht).1 (array_le ht),
    h.wave.to fun t ht => held_self (h.tables.wave t ht).1 (wave_le ht),
    h.corr.to fun t ht => held_self (h.tables.corr t ht).1 (corr_le ht)⟩

theorem HashTo.safe {self : τ → Ptr} {l : List τ} {B M : Multiset Nat} {H : Hash}
    (h : HashTo self l B H) (hs : blk H.self ≤ B) (hM : B ≤ M) : H.Safe M :=
  ⟨held_of_le h.self (le_trans hs hM), fun e he => (h.owner e he).mono hM⟩

/-! ### init_oi_fits and free_oi_fits -/

theorem hashNew_bind {M : Multiset Nat} {k v : Bool} {f : Hash → Mem β} {Q : β → Heap → Prop}
    (hf : ∀ H : Hash, H.self ≠ none → H.keyFree = k → H.valFree = v → H.entries = [] →
      Triple (Own (blk H.self + M)) (f H) Q) : Triple (Own M) (hashNew k v >>= f) Q := by
  unfold hashNew
  rw [bind_assoc]
  apply malloc_bind
  intro p hp _
  exact hf ⟨p, k, v, []⟩ hp rfl rfl rfl

/-- A dataset with no tables. -/
def OiFits.IsEmpty (d : OiFits) : Prop :=
  d.targets = ⟨none, 0⟩ ∧ d.arrayList = [] ∧ d.wavelengthList = [] ∧ d.corrList = [] ∧
  d.inspolList = [] ∧ d.visList = [] ∧ d.vis2List = [] ∧ d.t3List = [] ∧ d.fluxList = [] ∧
  d.arrayHash.entries = [] ∧ d.wavelengthHash.entries = [] ∧ d.corrHash.entries = []

theorem init_bind {M : Multiset Nat} {f : OiFits → Mem β} {Q : β → Heap → Prop}
    (hf : ∀ d : OiFits, d.Named → d.IsEmpty → Triple (Own (d.blocks + M)) (f d) Q) :
    Triple (Own M) (init_oi_fits >>= f) Q := by
  unfold init_oi_fits
  rw [bind_assoc]
  apply hashNew_bind; intro H1 s1 k1 v1 e1
  rw [bind_assoc]
  apply hashNew_bind; intro H2 s2 k2 v2 e2
  rw [bind_assoc]
  apply hashNew_bind; intro H3 s3 k3 v3 e3
  rw [pure_bind]
  refine Triple.of_eq (hf ⟨⟨none, 0⟩, [], [], [], [], [], [], [], [], H1, H2, H3⟩ ?_ ?_) ?_
  · refine ⟨⟨?_, ?_, ?_, ?_, ?_, ?_, ?_, ?_, ?_⟩, ⟨s1, k1, v1, ?_, ?_⟩, ⟨s2, k2, v2, ?_, ?_⟩,
      ⟨s3, k3, v3, ?_, ?_⟩⟩ <;> simp [e1, e2, e3, Target.Ok]
  · exact ⟨rfl, rfl, rfl, rfl, rfl, rfl, rfl, rfl, rfl, e1, e2, e3⟩
  · simp only [OiFits.blocks, allOf_nil, Target.inner, blk]
    abel

theorem free_list_rule {M : Multiset Nat} {self : τ → Ptr} {internalFree : τ → Mem Unit}
    {inner : τ → Multiset Nat} {g : τ → Multiset Nat} (l : List τ)
    (hg : ∀ t ∈ l, g t = blk (self t) + inner t) (hs : ∀ t ∈ l, self t ≠ none)
    (hf : ∀ t ∈ l, ∀ M, Triple (Own (inner t + M)) (internalFree t) (fun _ => Own M)) :
    Triple (Own (allOf g l + M)) (free_list self internalFree l) (fun _ => Own M) := by
  unfold free_list
  refine memFor_free (D := 0) l M (Multiset.zero_le _) ?_
  intro t ht M _
  rw [hg t ht]
  apply touch_bind (held_add.mpr (.inl (held_add.mpr (.inl (held_blk (hs t ht))))))
  apply Triple.of_eq (M := inner t + (blk (self t) + M)) _ (by abel)
  exact Triple.bind (hf t ht _) fun _ => free_rule

theorem free_oi_fits_rule {M B : Multiset Nat} (d : OiFits) (h : d.OkIn B) :
    Triple (Own (d.blocks + M)) (free_oi_fits d) (fun _ => Own M) := by
  unfold free_oi_fits OiFits.blocks
  rw [← owned_plain h.array.key h.array.val, ← owned_plain h.wave.key h.wave.val,
    ← owned_plain h.corr.key h.corr.val]
  simp only [add_assoc]
  refine Triple.bind (hashDestroy_rule _) fun _ => ?_
  refine Triple.bind (hashDestroy_rule _) fun _ => ?_
  refine Triple.bind (hashDestroy_rule _) fun _ => ?_
  refine Triple.bind (free_target _) fun _ => ?_
  refine Triple.bind (free_list_rule _ (fun _ _ => rfl) (fun t ht => (h.tables.array t ht).1)
    fun t _ M => free_array t) fun _ => ?_
  refine Triple.bind (free_list_rule _ (fun _ _ => rfl) (fun t ht => (h.tables.wave t ht).1)
    fun t _ M => free_wave t) fun _ => ?_
  refine Triple.bind (free_list_rule _ (fun _ _ => rfl) (fun t ht => (h.tables.corr t ht).1)
    fun t _ M => free_corr t) fun _ => ?_
  refine Triple.bind (free_list_rule _ (fun _ _ => rfl) (fun t ht => (h.tables.inspol t ht).1)
    fun t ht M => free_inspol t (h.tables.inspol t ht).2) fun _ => ?_
  refine Triple.bind (free_list_rule _ (fun _ _ => rfl) (fun t ht => (h.tables.vis t ht).1)
    fun t ht M => free_vis t (h.tables.vis t ht).2) fun _ => ?_
  refine Triple.bind (free_list_rule _ (fun _ _ => rfl) (fun t ht => (h.tables.vis2 t ht).1)
    fun t ht M => free_vis2 t (h.tables.vis2 t ht).2) fun _ => ?_
  refine Triple.bind (free_list_rule _ (fun _ _ => rfl) (fun t ht => (h.tables.t3 t ht).1)
    fun t ht M => free_t3 t (h.tables.t3 t ht).2) fun _ => ?_
  exact free_list_rule _ (fun _ _ => rfl) (fun t ht => (h.tables.flux t ht).1)
    fun t ht M => free_flux t (h.tables.flux t ht).2

end Verif.Mem
