import Verif.Proof.MergeSteps

/-! Merging the data tables of an earlier merge again. -/

namespace Verif
open Outcome Spec
variable {R : FP} {ids ids' : HMap Int}

theorem targetId_mono (hext : ∀ n k, ids.lookup n = some k → ids'.lookup n = some k)
    {inp : OiFits R} {id k : Int} (h : mergedTargetId inp ids id = .ok k) :
    mergedTargetId inp ids' id = .ok k := by
  unfold mergedTargetId at h ⊢
  obtain ⟨t, ht, h⟩ := bind_eq_ok.mp h
  rw [ht, bind_ok]
  cases hl : ids.lookup t.target with
  | none => rw [hl] at h; cases h
  | some k' =>
    rw [hl] at h
    cases h
    rw [hext _ _ hl]
    rfl

theorem targetId_again {done : List (Target R)} {st : List (Target R) × HMap Int} (ht : TInv done st)
    {m : OiFits R} (hm : m.targets.targ = st.1)
    (hext : ∀ n k, st.2.lookup n = some k → ids'.lookup n = some k)
    {inp : OiFits R} {id k : Int} (h : mergedTargetId inp st.2 id = .ok k) :
    mergedTargetId m ids' k = .ok k := by
  unfold mergedTargetId at h
  obtain ⟨t, -, h⟩ := bind_eq_ok.mp h
  cases hl : st.2.lookup t.target with
  | none => rw [hl] at h; cases h
  | some k' =>
    rw [hl] at h
    cases h
    obtain ⟨i, u, hu, hn, rfl⟩ := (ht.hash _ _).mp hl
    have hfw : FirstWith (fun t => t.target_id = (i : Int) + 1) m.targets.targ u := by
      rw [hm]
      obtain ⟨hi, rfl⟩ := List.getElem?_eq_some_iff.mp hu
      refine ⟨st.1.take i, st.1.drop (i + 1), ?_, ht.ids i _ hu, ?_⟩
      · rw [List.getElem_cons_drop, List.take_append_drop]
      · intro y hy
        obtain ⟨j, hj, rfl⟩ := List.mem_iff_getElem.mp hy
        rw [List.length_take] at hj
        have := ht.ids j _ (List.getElem?_eq_getElem (by omega))
        simp only [List.getElem_take]
        omega
    have hf : oi_fits_lookup_target m ((i : Int) + 1) = some u :=
      (find?_firstWith (by simp) _ _).mpr hfw
    unfold mergedTargetId
    rw [hf, deref_some, bind_ok, hn, hext _ _ hl]
    rfl

theorem ids_mono {ρ : Type} {inp : OiFits R}
    (hext : ∀ id k, mergedTargetId inp ids id = .ok k → mergedTargetId inp ids' id = .ok k)
    {get : ρ → Int} {set : ρ → Int → ρ} {l l' : List ρ}
    (h : (l.mapM fun r => do
      let id ← mergedTargetId inp ids (get r)
      return set r id) = .ok l') :
    (l.mapM fun r => do
      let id ← mergedTargetId inp ids' (get r)
      return set r id) = .ok l' := by
  refine mapM_mono ?_ h
  intro r _ r' hr
  obtain ⟨id, h1, h2⟩ := bind_eq_ok.mp hr
  rw [hext _ _ h1, bind_ok]
  exact h2

theorem ids_again {ρ : Type} {m : OiFits R} {get : ρ → Int} {set : ρ → Int → ρ} {l : List ρ}
    (hset : ∀ r, set r (get r) = r) (h : ∀ r ∈ l, mergedTargetId m ids' (get r) = .ok (get r)) :
    (l.mapM fun r => do
      let id ← mergedTargetId m ids' (get r)
      return set r id) = .ok l := by
  refine mapM_ok_id ?_
  intro r hr
  rw [h r hr, bind_ok, hset]
  rfl

/-! ### Further targets change nothing -/

theorem mergedInspol_mono {inp : OiFits R}
    (hext : ∀ id k, mergedTargetId inp ids id = .ok k → mergedTargetId inp ids' id = .ok k)
    {a i c : HMap CStr} {t t' : OiInspol R}
    (h : mergedInspol ids inp a i c t = .ok t') : mergedInspol ids' inp a i c t = .ok t' := by
  unfold mergedInspol at h ⊢
  obtain ⟨d, hd, h⟩ := bind_eq_ok.mp h
  rw [hd, bind_ok]
  obtain ⟨rs, hrs, h⟩ := bind_eq_ok.mp h
  rw [ids_mono (get := OiInspolRecord.target_id) (set := fun (r : OiInspolRecord R) id => { r with target_id := id }) hext hrs,
    bind_ok]
  exact h

theorem mergedVis_mono {inp : OiFits R}
    (hext : ∀ id k, mergedTargetId inp ids id = .ok k → mergedTargetId inp ids' id = .ok k)
    {a i c : HMap CStr} {t t' : OiVis R}
    (h : mergedVis ids inp a i c t = .ok t') : mergedVis ids' inp a i c t = .ok t' := by
  unfold mergedVis at h ⊢
  obtain ⟨d, hd, h⟩ := bind_eq_ok.mp h
  rw [hd, bind_ok]
  obtain ⟨rs, hrs, h⟩ := bind_eq_ok.mp h
  rw [ids_mono (get := OiVisRecord.target_id) (set := fun (r : OiVisRecord R) id => { r with target_id := id }) hext hrs,
    bind_ok]
  exact h

theorem mergedVis2_mono {inp : OiFits R}
    (hext : ∀ id k, mergedTargetId inp ids id = .ok k → mergedTargetId inp ids' id = .ok k)
    {a i c : HMap CStr} {t t' : OiVis2 R}
    (h : mergedVis2 ids inp a i c t = .ok t') : mergedVis2 ids' inp a i c t = .ok t' := by
  unfold mergedVis2 at h ⊢
  obtain ⟨d, hd, h⟩ := bind_eq_ok.mp h
  rw [hd, bind_ok]
  obtain ⟨rs, hrs, h⟩ := bind_eq_ok.mp h
  rw [ids_mono (get := OiVis2Record.target_id) (set := fun (r : OiVis2Record R) id => { r with target_id := id }) hext hrs,
    bind_ok]
  exact h

theorem mergedT3_mono {inp : OiFits R}
    (hext : ∀ id k, mergedTargetId inp ids id = .ok k → mergedTargetId inp ids' id = .ok k)
    {a i c : HMap CStr} {t t' : OiT3 R}
    (h : mergedT3 ids inp a i c t = .ok t') : mergedT3 ids' inp a i c t = .ok t' := by
  unfold mergedT3 at h ⊢
  obtain ⟨d, hd, h⟩ := bind_eq_ok.mp h
  rw [hd, bind_ok]
  obtain ⟨rs, hrs, h⟩ := bind_eq_ok.mp h
  rw [ids_mono (get := OiT3Record.target_id) (set := fun (r : OiT3Record R) id => { r with target_id := id }) hext hrs,
    bind_ok]
  exact h

theorem mergedFlux_mono {inp : OiFits R}
    (hext : ∀ id k, mergedTargetId inp ids id = .ok k → mergedTargetId inp ids' id = .ok k)
    {a i c : HMap CStr} {t t' : OiFlux R}
    (h : mergedFlux ids inp a i c t = .ok t') : mergedFlux ids' inp a i c t = .ok t' := by
  unfold mergedFlux at h ⊢
  obtain ⟨d, hd, h⟩ := bind_eq_ok.mp h
  rw [hd, bind_ok]
  obtain ⟨rs, hrs, h⟩ := bind_eq_ok.mp h
  rw [ids_mono (get := OiFluxRecord.target_id) (set := fun (r : OiFluxRecord R) id => { r with target_id := id }) hext hrs,
    bind_ok]
  exact h

/-! ### A merged table is merged as it is -/

variable {inp m : OiFits R} {a i c ha hi hc : HMap CStr}

theorem upgradedTime_again (r : Int) (x : R.Dbl) : upgradedTime (upgraded r) x = x := by
  unfold upgradedTime
  rw [if_neg (upgraded_ne_one r)]

theorem map_id_mem {α : Type} {f : α → α} {l : List α} (h : ∀ x ∈ l, f x = x) : l.map f = l := by
  conv => rhs; rw [← List.map_id l]
  exact List.map_congr_left h

theorem mergedInspol_again (hid : ∀ id k, mergedTargetId inp ids id = .ok k → mergedTargetId m ids' k = .ok k)
    (na : ∀ n, replaceOptName ha n = n) (ni : ∀ n, replaceName hi n = n)
    {t t' : OiInspol R} (hw : t.WF) (h : mergedInspol ids inp a i c t = .ok t') :
    mergedInspol ids' m ha hi hc t' = .ok t' := by
  obtain ⟨h1, h2, -, -⟩ := mergedInspol_spec hw h
  unfold mergedInspol
  rw [C22_dup_oi_inspol t' (inspolSame_wf h1 hw), bind_ok,
    ids_again (get := OiInspolRecord.target_id) (set := fun (r : OiInspolRecord R) id => { r with target_id := id })
      (fun _ => rfl) (all_records h2 fun r _ r' hr => hid _ _ hr), bind_ok]
  simp only [na, ni, pure_eq, Outcome.ok.injEq]
  rw [map_id_mem fun _ _ => rfl]

theorem mergedVis_again (hid : ∀ id k, mergedTargetId inp ids id = .ok k → mergedTargetId m ids' k = .ok k)
    (na : ∀ n, replaceOptName ha n = n) (ni : ∀ n, replaceName hi n = n)
    (nc : ∀ n, replaceOptName hc n = n)
    {t t' : OiVis R} (hw : t.WF) (h : mergedVis ids inp a i c t = .ok t') :
    mergedVis ids' m ha hi hc t' = .ok t' := by
  obtain ⟨h1, -, h2, -, -, -⟩ := mergedVis_spec hw h
  have hrev : t'.revision = upgraded t.revision := by rw [h1.1]
  have hcx : t'.usecomplex = t.usecomplex := by rw [h1.1]
  have hrec : ∀ r ∈ t'.record, (if t'.usecomplex = true then r.rviserr else r.iviserr) = r.iviserr := by
    refine all_records h1.2 ?_
    intro r _ r' e
    rw [hcx, e]
    split <;> simp_all
  have hdup : dup_oi_vis t' = .ok t' := by
    rw [C22_dup_oi_vis_partial t' (visSame_wf h1 hw), map_id_mem]
    intro r hr
    rw [hrec r hr]
  unfold mergedVis
  rw [hdup, bind_ok, upgrade_vis_eq]
  have ht : t'.record.map (fun r => { r with time := upgradedTime t'.revision r.time }) = t'.record :=
    map_id_mem fun r _ => by rw [hrev, upgradedTime_again]
  simp only [ht]
  rw [ids_again (get := OiVisRecord.target_id) (set := fun (r : OiVisRecord R) id => { r with target_id := id })
      (fun _ => rfl) (all_records h2 fun r _ r' hr => hid _ _ hr), bind_ok]
  simp only [na, ni, nc, pure_eq, Outcome.ok.injEq]
  rw [show upgraded t'.revision = t'.revision by rw [hrev, upgraded_again]]

theorem mergedVis2_again (hid : ∀ id k, mergedTargetId inp ids id = .ok k → mergedTargetId m ids' k = .ok k)
    (na : ∀ n, replaceOptName ha n = n) (ni : ∀ n, replaceName hi n = n)
    (nc : ∀ n, replaceOptName hc n = n)
    {t t' : OiVis2 R} (hw : t.WF) (h : mergedVis2 ids inp a i c t = .ok t') :
    mergedVis2 ids' m ha hi hc t' = .ok t' := by
  obtain ⟨h1, h2, -, -, -⟩ := mergedVis2_spec hw h
  have hrev : t'.revision = upgraded t.revision := by rw [h1.1]
  unfold mergedVis2
  rw [C22_dup_oi_vis2 t' (vis2Same_wf h1 hw), bind_ok, upgrade_vis2_eq]
  have ht : t'.record.map (fun r => { r with time := upgradedTime t'.revision r.time }) = t'.record :=
    map_id_mem fun r _ => by rw [hrev, upgradedTime_again]
  simp only [ht]
  rw [ids_again (get := OiVis2Record.target_id) (set := fun (r : OiVis2Record R) id => { r with target_id := id })
      (fun _ => rfl) (all_records h2 fun r _ r' hr => hid _ _ hr), bind_ok]
  simp only [na, ni, nc, pure_eq, Outcome.ok.injEq]
  rw [show upgraded t'.revision = t'.revision by rw [hrev, upgraded_again]]

theorem mergedT3_again (hid : ∀ id k, mergedTargetId inp ids id = .ok k → mergedTargetId m ids' k = .ok k)
    (na : ∀ n, replaceOptName ha n = n) (ni : ∀ n, replaceName hi n = n)
    (nc : ∀ n, replaceOptName hc n = n)
    {t t' : OiT3 R} (hw : t.WF) (h : mergedT3 ids inp a i c t = .ok t') :
    mergedT3 ids' m ha hi hc t' = .ok t' := by
  obtain ⟨h1, h2, -, -, -⟩ := mergedT3_spec hw h
  have hrev : t'.revision = upgraded t.revision := by rw [h1.1]
  unfold mergedT3
  rw [C22_dup_oi_t3 t' (t3Same_wf h1 hw), bind_ok, upgrade_t3_eq]
  have ht : t'.record.map (fun r => { r with time := upgradedTime t'.revision r.time }) = t'.record :=
    map_id_mem fun r _ => by rw [hrev, upgradedTime_again]
  simp only [ht]
  rw [ids_again (get := OiT3Record.target_id) (set := fun (r : OiT3Record R) id => { r with target_id := id })
      (fun _ => rfl) (all_records h2 fun r _ r' hr => hid _ _ hr), bind_ok]
  simp only [na, ni, nc, pure_eq, Outcome.ok.injEq]
  rw [show upgraded t'.revision = t'.revision by rw [hrev, upgraded_again]]

theorem mergedFlux_again (hid : ∀ id k, mergedTargetId inp ids id = .ok k → mergedTargetId m ids' k = .ok k)
    (na : ∀ n, replaceOptName ha n = n) (ni : ∀ n, replaceName hi n = n)
    (nc : ∀ n, replaceOptName hc n = n)
    {t t' : OiFlux R} (hw : t.WF) (h : mergedFlux ids inp a i c t = .ok t') :
    mergedFlux ids' m ha hi hc t' = .ok t' := by
  obtain ⟨h1, h2, -, -, -⟩ := mergedFlux_spec hw h
  unfold mergedFlux
  rw [C22_dup_oi_flux t' (fluxSame_wf h1 hw), bind_ok,
    ids_again (get := OiFluxRecord.target_id) (set := fun (r : OiFluxRecord R) id => { r with target_id := id })
      (fun _ => rfl) (all_records h2 fun r _ r' hr => hid _ _ hr), bind_ok]
  simp only [na, ni, nc, pure_eq]

/-! ### The header -/

theorem mergeKey_unique {unset : CStr} {vals : List CStr} {v w : CStr} (h : Summarises unset vals v)
    (h' : Summarises unset vals w) : v = w := by
  rcases h with ⟨a, rfl⟩ | ⟨a, b, c⟩ | ⟨⟨x, hx, y, hy, hx0, hy0, hxy⟩, rfl⟩ <;>
    rcases h' with ⟨a', rfl⟩ | ⟨a', b', c'⟩ | ⟨⟨x', hx', y', hy', hx0', hy0', hxy'⟩, rfl⟩
  · rfl
  · exact absurd (a _ b') a'
  · exact absurd (a _ hx') hx0'
  · exact absurd (a' _ b) a
  · exact ((c' _ b).resolve_left a)
  · exact absurd (((c _ hx').resolve_left hx0').trans ((c _ hy').resolve_left hy0').symm) hxy'
  · exact absurd (a' _ hx) hx0
  · exact absurd (((c' _ hx).resolve_left hx0).trans ((c' _ hy).resolve_left hy0).symm) hxy
  · rfl

theorem summarises_append_nil {unset : CStr} {l l' : List CStr} {v : CStr} (h : ∀ x ∈ l, x = []) :
    Summarises unset (l ++ l') v ↔ Summarises unset l' v := by
  have key : ∀ x, x ≠ [] → (x ∈ l ++ l' ↔ x ∈ l') := by
    intro x hx
    simp only [List.mem_append, or_iff_right_iff_imp]
    intro hl
    exact absurd (h x hl) hx
  unfold Summarises
  refine or_congr (and_congr_left' ?_) (or_congr ?_ (and_congr_left' ?_))
  · constructor
    · intro hh x hx; exact hh x (by simp [hx])
    · intro hh x hx
      rcases List.mem_append.mp hx with hx | hx
      · exact h x hx
      · exact hh x hx
  · refine and_congr_right fun hv => and_congr (key v hv) ?_
    constructor
    · intro hh x hx; exact hh x (by simp [hx])
    · intro hh x hx
      rcases List.mem_append.mp hx with hx | hx
      · exact Or.inl (h x hx)
      · exact hh x hx
  · constructor
    · rintro ⟨x, hx, y, hy, hx0, hy0, r⟩
      exact ⟨x, (key x hx0).mp hx, y, (key y hy0).mp hy, hx0, hy0, r⟩
    · rintro ⟨x, hx, y, hy, r⟩
      exact ⟨x, by simp [hx], y, by simp [hy], r⟩

/-- A summary in two steps: `v` of the first values, then `w` of `v` and the others. -/
theorem summarises_step {unset : CStr} {l l' : List CStr} {v w : CStr} (hv : Summarises unset l v)
    (hne : ¬ ∀ x ∈ l, x = []) (hw : Summarises unset (v :: l') w) : Summarises unset (l ++ l') w := by
  rcases hv with ⟨a, -⟩ | ⟨a, b, c⟩ | ⟨⟨x, hx, y, hy, hx0, hy0, hxy⟩, rfl⟩
  · exact absurd a hne
  · rcases hw with ⟨a', -⟩ | ⟨a', b', c'⟩ | ⟨⟨x', hx', y', hy', hx0', hy0', hxy'⟩, rfl⟩
    · exact absurd (a' v (by simp)) a
    · have e : v = w := (c' v (by simp)).resolve_left a
      subst e
      refine Or.inr (Or.inl ⟨a, by simp [b], ?_⟩)
      intro z hz
      rcases List.mem_append.mp hz with hz | hz
      · exact c z hz
      · exact c' z (by simp [hz])
    · refine Or.inr (Or.inr ⟨⟨x', ?_, y', ?_, hx0', hy0', hxy'⟩, rfl⟩)
      · rcases List.mem_cons.mp hx' with rfl | h
        · simp [b]
        · simp [h]
      · rcases List.mem_cons.mp hy' with rfl | h
        · simp [b]
        · simp [h]
  · have : w = ("MULTIPLE" : CStr) := by
      rcases hw with ⟨a', -⟩ | ⟨a', b', c'⟩ | ⟨-, rfl⟩
      · exact absurd (a' _ (List.mem_cons_self ..)) (by decide)
      · exact ((c' _ (List.mem_cons_self ..)).resolve_left (by decide)).symm
      · rfl
    exact Or.inr (Or.inr ⟨⟨x, by simp [hx], y, by simp [hy], hx0, hy0, hxy⟩, this⟩)

/-- Values all fit their buffers. -/
def Fits (l : List CStr) : Prop := ∀ v ∈ l, v.length < FLEN_VALUE

theorem mergeKey_fits {l : List CStr} (hl : Fits l) (required : Bool) :
    (mergeKey l required []).length < FLEN_VALUE := by
  rcases mergeKey_summarises required hl with ⟨-, h⟩ | ⟨-, h, -⟩ | ⟨-, h⟩
  · rw [h]; cases required <;> decide
  · exact hl _ h
  · rw [h]; decide

/-- An optional keyword, in two steps. -/
theorem optionalKey_steps {l l' : List CStr} (hl : Fits l) (hl' : Fits l') :
    mergeKey (mergeKey l false [] :: l') false [] = mergeKey (l ++ l') false [] := by
  have hfit : Fits (l ++ l') := by
    intro v hv
    rcases List.mem_append.mp hv with h | h
    · exact hl v h
    · exact hl' v h
  have hfit' : Fits (mergeKey l false [] :: l') := by
    intro v hv
    rcases List.mem_cons.mp hv with rfl | h
    · exact mergeKey_fits hl false
    · exact hl' v h
  have s := mergeKey_summarises false hl
  have s1 := mergeKey_summarises false hfit'
  have s2 := mergeKey_summarises false hfit
  by_cases hn : ∀ x ∈ l, x = []
  · have e : mergeKey l false [] = [] := by
      refine mergeKey_unique s ?_
      exact Or.inl ⟨hn, rfl⟩
    rw [summarises_append_nil hn] at s2
    rw [e, show ([] : CStr) :: l' = [[]] ++ l' from rfl, summarises_append_nil (by simp)] at s1
    exact mergeKey_unique (by rw [e]; exact s1) s2
  · exact mergeKey_unique (summarises_step s hn s1) s2

/-- A mandatory keyword, in two steps. -/
theorem mandatoryKey_steps {l l' : List CStr} (hl : Fits l) (hl' : Fits l') :
    mergeKey (mergeKey l true [] :: l') true [] =
      if (∀ x ∈ l, x = []) ∧ mergeKey (l ++ l') true [] ≠ ("UNKNOWN" : CStr) then ("MULTIPLE" : CStr)
      else mergeKey (l ++ l') true [] := by
  have hfit : Fits (l ++ l') := by
    intro v hv
    rcases List.mem_append.mp hv with h | h
    · exact hl v h
    · exact hl' v h
  have hfit' : Fits (mergeKey l true [] :: l') := by
    intro v hv
    rcases List.mem_cons.mp hv with rfl | h
    · exact mergeKey_fits hl true
    · exact hl' v h
  have s := mergeKey_summarises true hl
  have s1 := mergeKey_summarises true hfit'
  have s2 := mergeKey_summarises true hfit
  by_cases hn : ∀ x ∈ l, x = []
  · have e : mergeKey l true [] = ("UNKNOWN" : CStr) := by
      refine mergeKey_unique s ?_
      exact Or.inl ⟨hn, rfl⟩
    rw [summarises_append_nil hn] at s2
    rw [e] at s1 ⊢
    generalize mergeKey (("UNKNOWN" : CStr) :: l') true [] = w at s1
    generalize mergeKey (l ++ l') true [] = v at s2
    have u0 : ("UNKNOWN" : CStr) ≠ [] := by decide
    by_cases hv : v = ("UNKNOWN" : CStr)
    · rw [if_neg (by simp [hv]), hv]
      subst hv
      rcases s1 with ⟨a, -⟩ | ⟨-, -, a⟩ | ⟨⟨x, hx, y, hy, hx0, hy0, hxy⟩, rfl⟩
      · exact absurd (a _ (List.mem_cons_self ..)) u0
      · exact ((a _ (List.mem_cons_self ..)).resolve_left u0).symm
      · exfalso
        have hall : ∀ z ∈ (("UNKNOWN" : CStr) :: l'), z = [] ∨ z = ("UNKNOWN" : CStr) := by
          intro z hz
          rcases List.mem_cons.mp hz with rfl | hz
          · exact Or.inr rfl
          · rcases s2 with ⟨a, -⟩ | ⟨-, -, a⟩ | ⟨-, a⟩
            · exact Or.inl (a z hz)
            · exact a z hz
            · exact absurd a (by decide)
        exact hxy (((hall x hx).resolve_left hx0).trans ((hall y hy).resolve_left hy0).symm)
    · rw [if_pos ⟨hn, hv⟩]
      rcases s1 with ⟨a, -⟩ | ⟨-, -, a⟩ | ⟨-, rfl⟩
      · exact absurd (a _ (List.mem_cons_self ..)) u0
      · exfalso
        have ew : w = ("UNKNOWN" : CStr) := ((a _ (List.mem_cons_self ..)).resolve_left u0).symm
        subst ew
        rcases s2 with ⟨-, b⟩ | ⟨b0, b1, -⟩ | ⟨⟨x, hx, y, hy, hx0, hy0, hxy⟩, -⟩
        · exact hv b
        · exact hv ((a v (by simp [b1])).resolve_left b0)
        · exact hxy (((a x (by simp [hx])).resolve_left hx0).trans
            ((a y (by simp [hy])).resolve_left hy0).symm)
      · rfl
  · rw [if_neg (by simp [hn])]
    exact mergeKey_unique (summarises_step s hn s1) s2

end Verif
