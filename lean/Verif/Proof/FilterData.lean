import Verif.Proof.FilterTab

/-! Filtering of whole datasets meets its specification. -/

namespace Verif
open Outcome Spec Classical

variable {R : FP}

/-! ### OI_INSPOL -/

section inspol
variable {f : FilterSpec R} {oi : OiFits R} {h : UseWave}

theorem inspolUse_eq (hm : MasksOk f oi h) (r : OiInspolRecord R) :
    inspolUse f h r = if InspolKept f oi r then h.get r.insname else none := by
  unfold inspolUse
  have hg : (globMatch f.insname r.insname = true) ↔ Glob f.insname r.insname := globMatch_iff _ _
  have hk : InspolKept f oi r ↔ TargetOk f r.target_id ∧
      (R.lt r.mjd_end f.mjd_range.1 = false ∧ R.lt f.mjd_range.2 r.mjd_obs = false) ∧
      instChans f oi r.insname ≠ [] := ⟨fun h => ⟨h.1, h.2, h.3⟩, fun h => ⟨h.1, h.2.1, h.2.2⟩⟩
  have ht : (f.target_id ≥ 0 ∧ r.target_id ≠ f.target_id) ↔ ¬ TargetOk f r.target_id := by
    unfold TargetOk; omega
  by_cases h1 : TargetOk f r.target_id
  · rw [if_neg (by rw [ht]; simpa using h1)]
    by_cases h2 : Glob f.insname r.insname
    · rw [hg.mpr h2]
      simp only [Bool.not_true, Bool.false_eq_true, if_false]
      cases h3 : R.lt r.mjd_end f.mjd_range.1 with
      | true => simp [hk, h3]
      | false =>
        cases h4 : R.lt f.mjd_range.2 r.mjd_obs with
        | true => simp [hk, h4]
        | false =>
          simp only [Bool.or_self, Bool.false_eq_true, if_false]
          by_cases h5 : instChans f oi r.insname ≠ []
          · rw [if_pos (hk.mpr ⟨h1, ⟨h3, h4⟩, h5⟩)]
          · rw [if_neg (fun hc => h5 (hk.mp hc).2.2), hm]
            simp only [instChans, h2, if_true, ne_eq, not_not] at h5
            cases hi : instTable oi r.insname with
            | none => rfl
            | some w =>
              rw [hi] at h5
              dsimp only at h5 ⊢
              simp [h2, h5]
    · have : globMatch f.insname r.insname = false := by
        simpa using fun hc => h2 (hg.mp hc)
      rw [this, if_neg (c := InspolKept f oi r)]
      · simp
      · intro hc
        apply (hk.mp hc).2.2
        unfold instChans
        cases instTable oi r.insname <;> simp [h2]
  · rw [if_pos (ht.mpr h1), if_neg (fun hc => h1 (hk.mp hc).1)]

theorem inspolKept_get (hm : MasksOk f oi h) {r : OiInspolRecord R} (hk : InspolKept f oi r) :
    ∃ w, instTable oi r.insname = some w ∧ instChans f oi r.insname = keptChans f w ∧
      h.get r.insname = some (maskOf f w) := by
  have hc := hk.chan
  rw [hm]
  unfold instChans at hc ⊢
  cases hi : instTable oi r.insname with
  | none => rw [hi] at hc; exact absurd rfl hc
  | some w =>
    rw [hi] at hc
    by_cases hg : Glob f.insname r.insname
    · simp only [hg, if_true] at hc ⊢
      refine ⟨w, rfl, rfl, ?_⟩
      rw [if_neg hc]
    · simp [hg] at hc

theorem filterInspolRecord_ok {r : OiInspolRecord R} {w : OiWavelength R} {n m : Nat}
    (hr : r.WF n) (hw : w.WF) (hn : w.nwave = n) (hc : instChans f oi r.insname = keptChans f w)
    (hne : keptChans f w ≠ []) (hm : (keptChans f w).length ≤ m) :
    filterInspolRecord f n m (maskOf f w) r = .ok (inspolRecOut f oi r) := by
  have hu : (maskOf f w).length = n := by simp [maskOf, hw.eff_wave, hn]
  have hk : usedIdx n (maskOf f w) = keptChans f w := by rw [← hn]; exact usedIdx_mask
  have hp : 0 < (keptChans f w).length := List.length_pos_iff.mpr hne
  unfold filterInspolRecord
  rw [chkmallocN_ok (by omega), bind_ok]
  have hloop := useLoop_ok (n := n) (u := maskOf f w) (by omega)
    (body := fun j (s : InspolBuf R) => do
      checkWrite s.k m
      let xx ← index r.jxx j
      let yy ← index r.jyy j
      let xy ← index r.jxy j
      let yx ← index r.jyx j
      return ⟨s.k + 1, s.jxx ++ [xx], s.jyy ++ [yy], s.jxy ++ [xy], s.jyx ++ [yx]⟩)
    (fun pre => ⟨pre.length, pick pre r.jxx, pick pre r.jyy, pick pre r.jxy, pick pre r.jyx⟩)
    (fun pre j post h => by
      have hj : j < n := (mem_usedIdx.mp (h ▸ List.mem_append_right pre (List.mem_cons_self ..))).1
      have e1 : j < r.jxx.length := hr.jxx ▸ hj
      have e2 : j < r.jyy.length := hr.jyy ▸ hj
      have e3 : j < r.jxy.length := hr.jxy ▸ hj
      have e4 : j < r.jyx.length := hr.jyx ▸ hj
      have e5 : checkWrite pre.length m = .ok () := by
        unfold checkWrite
        rw [if_pos]
        have : (usedIdx n (maskOf f w)).length = (pre ++ j :: post).length := by rw [h]
        rw [hk] at this
        simp at this
        omega
      simp only [e5, bind_ok, index_of_lt e1, index_of_lt e2, index_of_lt e3, index_of_lt e4,
        pick_snoc e1, pick_snoc e2, pick_snoc e3, pick_snoc e4, List.length_append]
      rfl)
  simp only [pick_nil, List.length_nil] at hloop
  rw [hloop, bind_ok, hk]
  unfold inspolRecOut
  rw [hc]
  unfold targetIdOut
  by_cases ht : f.target_id < 0
  · have : ¬ f.target_id ≥ 0 := by omega
    simp [ht, this]
  · have : f.target_id ≥ 0 := by omega
    simp [ht, this]

theorem keptChans_length_le (w : OiWavelength R) : (keptChans f w).length ≤ w.nwave := by
  have := List.length_filter_le (fun j => decide (WaveOk f w j)) (List.range w.nwave)
  simpa [keptChans] using this

theorem filterInspolLoop_ok (hwf : oi.WF) (hm : MasksOk f oi h) {n c : Nat}
    (rs : List (OiInspolRecord R)) (hrs : ∀ r ∈ rs, r.WF n)
    (hn : ∀ r ∈ rs, InspolKept f oi r → (∀ w, instTable oi r.insname = some w → w.nwave = n) ∧
      (instChans f oi r.insname).length = c)
    (m : Nat) (out : List (OiInspolRecord R))
    (hmo : m = if out = [] then n else c) :
    filterInspolLoop f h n m out rs = .ok
      (if out ++ rs.filter (fun r => decide (InspolKept f oi r)) = [] then n else c,
        out ++ (rs.filter fun r => decide (InspolKept f oi r)).map (inspolRecOut f oi)) := by
  induction rs generalizing m out with
  | nil => unfold filterInspolLoop; simp [hmo]
  | cons r rs ih =>
    have ih := ih (fun r hr => hrs r (by simp [hr])) (fun r hr => hn r (by simp [hr]))
    unfold filterInspolLoop
    rw [inspolUse_eq hm]
    by_cases hk : InspolKept f oi r
    · obtain ⟨w, hi, hc, hg⟩ := inspolKept_get hm hk
      obtain ⟨hnw, hlen⟩ := hn r (by simp) hk
      have hnw := hnw w hi
      rw [if_pos hk, hg]
      dsimp only
      have hle : (keptChans f w).length ≤ m := by
        rw [hc] at hlen
        have := keptChans_length_le (f := f) w
        subst hmo
        split <;> omega
      have hne : keptChans f w ≠ [] := hc ▸ hk.chan
      rw [filterInspolRecord_ok (hrs r (by simp)) (instTable_wf hwf hi) hnw hc hne hle, bind_ok]
      have hjl : (inspolRecOut f oi r).jxx.length = c := by
        unfold inspolRecOut
        dsimp only
        rw [hc, pick_length, ← hc, hlen]
        intro j hj
        rw [(hrs r (by simp)).jxx, ← hnw]
        exact (mem_keptChans.mp hj).1
      rw [ih]
      · simp [hk]
      · rw [hjl]
        rw [hc] at hlen
        have := keptChans_length_le (f := f) w
        subst hmo
        by_cases ho : out = []
        · simp only [ho, List.isEmpty_nil, Bool.true_and, decide_eq_true_eq, if_true,
            List.nil_append, List.cons_ne_nil, if_false]
          split <;> omega
        · simp [ho]
    · rw [if_neg hk]
      dsimp only
      rw [ih m out hmo]
      simp [hk]

theorem filter_oi_inspol_ok (hwf : oi.WF) (hm : MasksOk f oi h) {t : OiInspol R} (ht : t.WF)
    (hun : InspolUniform f oi t) : filter_oi_inspol t f h = .ok (inspolOut f oi t) := by
  unfold filter_oi_inspol
  rw [chkmallocN_ok (by simpa using ht.rows), bind_ok]
  have hmem : ∀ r, r ∈ inspolRecs f oi t ↔ r ∈ t.record ∧ InspolKept f oi r := by
    intro r; simp [inspolRecs]
  cases hrec : inspolRecs f oi t with
  | nil =>
    rw [filterInspolLoop_ok (c := 0) hwf hm t.record ht.recs ?_ t.nwave [] (by simp), bind_ok]
    · unfold inspolOut
      rw [hrec]
      unfold inspolRecs at hrec
      simp only [hrec, List.nil_append, if_true]
      rfl
    · intro r hr hk
      have := (hmem r).mpr ⟨hr, hk⟩
      rw [hrec] at this
      cases this
  | cons r0 rs =>
    have h0 : r0 ∈ inspolRecs f oi t := by rw [hrec]; simp
    rw [filterInspolLoop_ok (c := (instChans f oi r0.insname).length) hwf hm t.record ht.recs ?_
      t.nwave [] (by simp), bind_ok]
    · unfold inspolOut
      rw [hrec]
      unfold inspolRecs at hrec
      simp only [hrec, List.nil_append, List.cons_ne_nil, if_false]
      rfl
    · intro r hr hk
      have hr' := (hmem r).mpr ⟨hr, hk⟩
      exact ⟨(hun r hr').1, (hun r0 h0).2 r hr'⟩

theorem filter_all_oi_inspol_ok {out : OiFits R} (hf : Filterable f oi)
    (hun : ∀ t ∈ oi.inspolList, InspolUniform f oi t) (hm : MasksOk f oi h) :
    filter_all_oi_inspol oi f h out = .ok { out with
      inspolList := out.inspolList ++
        (oi.inspolList.filter fun t => decide (InspolRemains f oi t)).map (inspolOut f oi)
      numInspol := out.numInspol +
        ((oi.inspolList.filter fun t => decide (InspolRemains f oi t)).map
          (inspolOut f oi)).length } := by
  unfold filter_all_oi_inspol
  have hrem : ∀ t, InspolRemains f oi t ↔ Glob f.arrname t.arrname ∧
      ∃ r ∈ t.record, InspolKept f oi r := fun t => ⟨fun h => ⟨h.1, h.2⟩, fun h => ⟨h.1, h.2⟩⟩
  rw [filterTabs_ok (g := fun t => if InspolRemains f oi t then some (inspolOut f oi t) else none),
    bind_ok]
  · have : oi.inspolList.filterMap
        (fun t => if InspolRemains f oi t then some (inspolOut f oi t) else none) =
        (oi.inspolList.filter fun t => decide (InspolRemains f oi t)).map (inspolOut f oi) := by
      induction oi.inspolList with
      | nil => rfl
      | cons t l ih =>
        by_cases hr : InspolRemains f oi t
        · simp [hr, ih]
        · simp [hr, ih]
    rw [this]
    rfl
  · intro t _ hs
    rw [if_neg]
    intro hr
    have := (globMatch_iff _ _).mpr hr.name
    rcases hs with hs | hs
    · rw [hs] at this; cases this
    · cases hs
  · intro t ht ha u _
    refine ⟨inspolOut f oi t, filter_oi_inspol_ok hf.wf hm (hf.wf.inspol t ht) (hun t ht), ?_⟩
    have ha := (globMatch_iff _ _).mp ha
    unfold inspolOut
    dsimp only
    by_cases hx : ∃ r ∈ t.record, InspolKept f oi r
    · rw [if_pos ((hrem t).mpr ⟨ha, hx⟩)]
      cases hrec : inspolRecs f oi t with
      | nil =>
        obtain ⟨r, hr, hk⟩ := hx
        have : r ∈ inspolRecs f oi t := by simp [inspolRecs, hr, hk]
        rw [hrec] at this; cases this
      | cons r0 rs =>
        have h0 : r0 ∈ inspolRecs f oi t := by rw [hrec]; simp
        have hk0 : InspolKept f oi r0 := by simpa [inspolRecs] using (List.mem_filter.mp h0).2
        have := List.length_pos_iff.mpr hk0.chan
        simp [this]
    · rw [if_neg (fun hc => hx ((hrem t).mp hc).2)]
      have : inspolRecs f oi t = [] := by
        unfold inspolRecs
        rw [List.filter_eq_nil_iff]
        intro r hr hk
        exact hx ⟨r, hr, by simpa using hk⟩
      rw [this]
      simp

theorem filter_all_oi_inspol_shape {inp out x : OiFits R}
    (hx : filter_all_oi_inspol inp f h out = .ok x) :
    ∃ ts, x = { out with
      inspolList := out.inspolList ++ ts, numInspol := out.numInspol + ts.length } := by
  unfold filter_all_oi_inspol at hx
  obtain ⟨ts, _, hx⟩ := bind_eq_ok.mp hx
  cases hx
  exact ⟨ts, rfl⟩

end inspol

/-! ### Removing orphans -/

theorem removeFirst_none {τ : Type} {name : τ → CStr} {names : List CStr} {l : List τ} :
    removeFirst name names l = none ↔ ∀ t ∈ l, names.contains (name t) = true := by
  induction l with
  | nil => simp [removeFirst]
  | cons t l ih =>
    unfold removeFirst
    cases h : names.contains (name t) with
    | false =>
      have : name t ∉ names := by simpa using h
      simp [this]
    | true =>
      simp only [if_true, List.mem_cons, forall_eq_or_imp, h, true_and, ← ih]
      cases removeFirst name names l <;> simp

theorem removeFirst_some {τ : Type} {name : τ → CStr} {names : List CStr} {l rest : List τ} {t : τ}
    (h : removeFirst name names l = some (t, rest)) :
    names.contains (name t) = false ∧
      rest.filter (fun t => names.contains (name t)) = l.filter (fun t => names.contains (name t)) ∧
      (∀ x, x ∈ l ↔ x = t ∨ x ∈ rest) ∧ l.length = rest.length + 1 := by
  induction l generalizing rest with
  | nil => cases h
  | cons x l ih =>
    unfold removeFirst at h
    cases hx : names.contains (name x) with
    | false =>
      simp only [hx, Bool.false_eq_true, if_false, Option.some.injEq, Prod.mk.injEq] at h
      obtain ⟨rfl, rfl⟩ := h
      have : name x ∉ names := by simpa using hx
      simp [this]
    | true =>
      simp only [hx, if_true] at h
      cases hr : removeFirst name names l with
      | none => rw [hr] at h; cases h
      | some p =>
        obtain ⟨y, rest'⟩ := p
        rw [hr] at h
        cases h
        obtain ⟨h1, h2, h3, h4⟩ := ih hr
        refine ⟨h1, ?_, ?_, ?_⟩
        · rw [List.filter_cons, List.filter_cons, h2]
        · intro z
          rw [List.mem_cons, List.mem_cons, h3]
          tauto
        · simp [h4]

theorem pruneAll_ok {τ : Type} (name : τ → CStr) (names : List CStr) (s : Tabs τ) :
    (pruneAll name names s).list = s.list.filter (fun t => names.contains (name t)) ∧
      (pruneAll name names s).num =
        s.num - s.list.length + (s.list.filter (fun t => names.contains (name t))).length ∧
      ∀ n, (pruneAll name names s).hash.lookup n =
        if names.contains n = false ∧ ∃ t ∈ s.list, name t = n then none else s.hash.lookup n := by
  induction hl : s.list.length using Nat.strongRecOn generalizing s with
  | ind k ih =>
    subst hl
    unfold pruneAll
    split
    · rename_i h
      unfold pruneOne at h
      split at h
      · rename_i hr
        have := removeFirst_none.mp hr
        have hf : s.list.filter (fun t => names.contains (name t)) = s.list :=
          List.filter_eq_self.mpr this
        refine ⟨hf.symm, by rw [hf]; omega, ?_⟩
        intro n
        rw [if_neg]
        rintro ⟨hc, t, ht, rfl⟩
        rw [this t ht] at hc
        cases hc
      · cases h
    · rename_i s' h
      unfold pruneOne at h
      split at h
      · cases h
      · rename_i t rest hr
        cases h
        obtain ⟨h1, h2, h3, h4⟩ := removeFirst_some hr
        obtain ⟨i1, i2, i3⟩ := ih rest.length (by omega)
          ⟨rest, s.hash.remove (name t), s.num - 1⟩ rfl
        dsimp only at i1 i2 i3
        refine ⟨i1.trans h2, ?_, ?_⟩
        · rw [i2, h2, h4]; push_cast; omega
        · intro n
          rw [i3, HMap.lookup_remove]
          by_cases hn : n = name t
          · subst hn
            have : name t ∉ names := by simpa using h1
            simp [this, h3]
          · have : (∃ x ∈ s.list, name x = n) ↔ ∃ x ∈ rest, name x = n := by
              constructor
              · rintro ⟨x, hx, rfl⟩
                rcases (h3 x).mp hx with rfl | hx
                · exact absurd rfl hn
                · exact ⟨x, hx, rfl⟩
              · rintro ⟨x, hx, rfl⟩
                exact ⟨x, (h3 x).mpr (Or.inr hx), rfl⟩
            simp only [this, hn, if_false]

theorem lastNamed_filter {τ : Type} (name : τ → CStr) (p : CStr → Bool) (l : List τ) (n : CStr) :
    lastNamed name (l.filter fun t => p (name t)) n = if p n then lastNamed name l n else none := by
  unfold lastNamed
  rw [← List.filter_reverse]
  generalize l.reverse = l
  induction l with
  | nil => simp
  | cons t l ih =>
    rw [List.filter_cons]
    by_cases ht : name t = n
    · subst ht
      cases hp : p (name t) with
      | true => simp [hp]
      | false => simpa [hp] using ih
    · have hb : (name t == n) = false := by simpa using ht
      cases hp : p (name t) with
      | true => simp only [if_true, List.find?_cons, hb]; exact ih
      | false => simp only [Bool.false_eq_true, if_false, List.find?_cons, hb]; exact ih

theorem lastNamed_none {τ : Type} {name : τ → CStr} {l : List τ} {n : CStr}
    (h : ¬ ∃ t ∈ l, name t = n) : lastNamed name l n = none := by
  unfold lastNamed
  rw [List.find?_eq_none]
  intro t ht hc
  exact h ⟨t, by simpa using ht, by simpa using hc⟩

theorem pruneAll_lookup {τ : Type} (name : τ → CStr) (names : List CStr) (l : List τ) (k : Int)
    (n : CStr) :
    (pruneAll name names ⟨l, insertAll name l HMap.empty, k⟩).hash.lookup n =
      lastNamed name (l.filter fun t => names.contains (name t)) n := by
  rw [(pruneAll_ok name names _).2.2, lookup_insertAll, lastNamed_filter]
  cases hc : names.contains n with
  | true => simp
  | false =>
    by_cases hx : ∃ t ∈ l, name t = n
    · simp [hx]
    · simp [lastNamed_none hx]

theorem mem_addNames (b : Bool) (l names : List CStr) (n : CStr) :
    n ∈ addNames b l names ↔ n ∈ l ∨ (n ∈ names ∧ (b = true → n ≠ [])) := by
  unfold addNames
  induction names generalizing l with
  | nil => simp
  | cons x names ih =>
    rw [List.foldl_cons, ih]
    by_cases hx : x ∈ l
    · simp only [List.contains_eq_mem, hx, decide_true, Bool.not_true, Bool.and_false,
        Bool.false_eq_true, if_false, List.mem_cons]
      constructor
      · rintro (h | h)
        · exact Or.inl h
        · exact Or.inr ⟨Or.inr h.1, h.2⟩
      · rintro (h | ⟨h | h, h'⟩)
        · exact Or.inl h
        · exact Or.inl (h ▸ hx)
        · exact Or.inr ⟨h, h'⟩
    · cases b with
      | false =>
        simp [hx]; tauto
      | true =>
        by_cases he : x = []
        · subst he
          simp only [Bool.not_true, List.isEmpty_nil, Bool.or_self, Bool.false_and,
            Bool.false_eq_true, if_false, List.mem_cons]
          constructor
          · rintro (h | h)
            · exact Or.inl h
            · exact Or.inr ⟨Or.inr h.1, h.2⟩
          · rintro (h | ⟨h | h, h'⟩)
            · exact Or.inl h
            · exact absurd h (h' trivial)
            · exact Or.inr ⟨h, h'⟩
        · have : x.isEmpty = false := by simpa using he
          simp only [this, List.contains_eq_mem, hx, decide_false, Bool.not_false, Bool.or_true,
            Bool.and_self, if_true, List.mem_cons]
          constructor
          · rintro ((h | h) | h)
            · exact Or.inr ⟨Or.inl h, fun _ => h ▸ he⟩
            · exact Or.inl h
            · exact Or.inr ⟨Or.inr h.1, h.2⟩
          · rintro (h | ⟨h | h, h'⟩)
            · exact Or.inl (Or.inr h)
            · exact Or.inl (Or.inl h)
            · exact Or.inr ⟨h, h'⟩

theorem named_or {A B C D N : Prop} :
    (((A ∧ N) ∨ (B ∧ N)) ∨ (C ∧ N)) ∨ (D ∧ N) ↔ N ∧ (A ∨ B ∨ C ∨ D) := by tauto

theorem mem_get_arrname_list {oi : OiFits R} {n : CStr} :
    (get_arrname_list oi).contains n = true ↔ ArrReferenced oi n := by
  simp only [get_arrname_list, List.contains_eq_mem, decide_eq_true_eq, List.mem_reverse,
    mem_addNames, List.mem_map, ArrReferenced, List.not_mem_nil, false_or, forall_const]
  exact named_or

theorem mem_get_insname_list {oi : OiFits R} {n : CStr} :
    (get_insname_list oi).contains n = true ↔ InsReferenced oi n := by
  simp only [get_insname_list, List.contains_eq_mem, decide_eq_true_eq, List.mem_reverse,
    mem_addNames, List.mem_map, InsReferenced, List.not_mem_nil, false_or, Bool.false_eq_true,
    false_imp_iff, and_true, or_assoc]

theorem mem_get_corrname_list {oi : OiFits R} {n : CStr} :
    (get_corrname_list oi).contains n = true ↔ CorrReferenced oi n := by
  simp only [get_corrname_list, List.contains_eq_mem, decide_eq_true_eq, List.mem_reverse,
    mem_addNames, List.mem_map, CorrReferenced, List.not_mem_nil, false_or, forall_const]
  exact named_or

theorem filter_ref {τ : Type} {l : List τ} {b q : τ → Bool} {P Q : τ → Prop}
    (hb : ∀ t, b t = true ↔ P t) (hq : ∀ t, q t = true ↔ Q t) :
    (l.filter b).filter q = l.filter fun t => decide (P t ∧ Q t) := by
  rw [List.filter_filter]
  apply List.filter_congr
  intro t _
  rw [Bool.eq_iff_iff]
  simp [hb, hq, and_comm]

theorem filter_map_ref {τ : Type} {l : List τ} {q : τ → Bool} {c : τ → τ} {P Q : τ → Prop}
    (hq : ∀ t, q (c t) = true ↔ Q t) :
    ((l.filter fun t => decide (P t)).map c).filter q =
      (l.filter fun t => decide (P t ∧ Q t)).map c := by
  rw [List.filter_map, List.filter_filter]
  congr 1
  apply List.filter_congr
  intro t _
  rw [Bool.eq_iff_iff]
  simp [hq, and_comm]

/-- The output once the OI_INSPOL tables `ts` have been made. -/
noncomputable def outWith (f : FilterSpec R) (oi : OiFits R) (ts : List (OiInspol R)) : OiFits R :=
  let arr := oi.arrayList.filter (fun t => globMatch f.arrname t.arrname)
  let cor := oi.corrList.filter (fun t => globMatch f.corrname t.corrname)
  let wav := wavesKept f oi.wavelengthList
  { header := oi.header
    targets := targetsOut f oi.targets
    arrayList := arr
    numArray := arr.length
    arrayHash := insertAll OiArray.arrname arr HMap.empty
    wavelengthList := wav
    numWavelength := wav.length
    wavelengthHash := insertAll OiWavelength.insname wav HMap.empty
    corrList := cor
    numCorr := cor.length
    corrHash := insertAll OiCorr.corrname cor HMap.empty
    inspolList := ts
    numInspol := ts.length
    visList := visTables f oi
    numVis := (visTables f oi).length
    vis2List := vis2Tables f oi
    numVis2 := (vis2Tables f oi).length
    t3List := t3Tables f oi
    numT3 := (t3Tables f oi).length
    fluxList := fluxTables f oi
    numFlux := (fluxTables f oi).length }

/-- The order of steps up to the OI_INSPOL tables. -/
noncomputable def beforeInspol (f : FilterSpec R) (oi : OiFits R) : OiFits R :=
  let arr := oi.arrayList.filter (fun t => globMatch f.arrname t.arrname)
  let cor := oi.corrList.filter (fun t => globMatch f.corrname t.corrname)
  let wav := wavesKept f oi.wavelengthList
  { init_oi_fits R with
    header := oi.header
    targets := targetsOut f oi.targets
    arrayList := arr
    numArray := arr.length
    arrayHash := insertAll OiArray.arrname arr HMap.empty
    wavelengthList := wav
    numWavelength := wav.length
    wavelengthHash := insertAll OiWavelength.insname wav HMap.empty
    corrList := cor
    numCorr := cor.length
    corrHash := insertAll OiCorr.corrname cor HMap.empty }

theorem apply_oi_filter_eq {f : FilterSpec R} {oi : OiFits R} (hf : Filterable f oi) :
    apply_oi_filter oi f = (do
      let out ← filter_all_oi_inspol oi f (maskAll f oi.wavelengthList HMap.empty)
        (beforeInspol f oi)
      let out ← filter_all_oi_vis oi f (maskAll f oi.wavelengthList HMap.empty) out
      let out ← filter_all_oi_vis2 oi f (maskAll f oi.wavelengthList HMap.empty) out
      let out ← filter_all_oi_t3 oi f (maskAll f oi.wavelengthList HMap.empty) out
      let out ← filter_all_oi_flux oi f (maskAll f oi.wavelengthList HMap.empty) out
      return pruneOrphans out) := by
  unfold apply_oi_filter beforeInspol
  simp only [filter_oi_target_ok hf.targets (out := (init_oi_fits R).targets) rfl, bind_ok,
    filter_all_oi_array_ok hf.wf.array, filter_all_oi_corr_ok hf.wf.corr,
    filter_all_oi_wavelength_ok hf.wf.wavelength hf.fits]
  simp [init_oi_fits, filter_oi_header]

theorem apply_oi_filter_rest {f : FilterSpec R} {oi : OiFits R} (hf : Filterable f oi)
    {ts : List (OiInspol R)}
    (h : filter_all_oi_inspol oi f (maskAll f oi.wavelengthList HMap.empty) (beforeInspol f oi) =
      .ok { beforeInspol f oi with inspolList := ts, numInspol := ts.length }) :
    apply_oi_filter oi f = .ok (pruneOrphans (outWith f oi ts)) := by
  have hm := masksOk (f := f) hf.unique
  rw [apply_oi_filter_eq hf, h]
  simp only [bind_ok, filter_all_oi_vis_ok hf hm, filter_all_oi_vis2_ok hf hm,
    filter_all_oi_t3_ok hf hm, filter_all_oi_flux_ok hf hm, pure_eq, beforeInspol, init_oi_fits]
  simp only [List.nil_append, Int.zero_add]
  rfl

theorem filtered_prune (f : FilterSpec R) (oi : OiFits R) (ts : List (OiInspol R)) :
    Filtered f oi (pruneOrphans (outWith f oi ts)) := by
  unfold pruneOrphans outWith
  constructor
  · rfl
  · rfl
  · rfl
  · rfl
  · rfl
  · rfl
  · simp only [(pruneAll_ok _ _ _).1]
    exact filter_ref (fun t => globMatch_iff _ _) (fun t => mem_get_arrname_list)
  · simp only [(pruneAll_ok _ _ _).1]
    exact filter_ref (fun t => globMatch_iff _ _) (fun t => mem_get_corrname_list)
  · simp only [(pruneAll_ok _ _ _).1]
    exact filter_map_ref (fun t => mem_get_insname_list)
  · intro t ht
    simp only [(pruneAll_ok _ _ _).1] at ht
    exact mem_get_arrname_list.mp (List.mem_filter.mp ht).2
  · constructor <;>
      simp only [(pruneAll_ok _ _ _).1, (pruneAll_ok _ _ _).2.1] <;> omega
  · intro n
    unfold oi_fits_lookup_array
    simp only [(pruneAll_ok _ _ _).1]
    exact pruneAll_lookup OiArray.arrname _ _ _ n
  · intro n
    unfold oi_fits_lookup_wavelength
    simp only [(pruneAll_ok _ _ _).1]
    exact pruneAll_lookup OiWavelength.insname _ _ _ n
  · intro n
    unfold oi_fits_lookup_corr
    simp only [(pruneAll_ok _ _ _).1]
    exact pruneAll_lookup OiCorr.corrname _ _ _ n

/-- The result of filtering, if there is one. -/
theorem apply_oi_filter_spec {f : FilterSpec R} {oi out : OiFits R} (hf : Filterable f oi)
    (h : apply_oi_filter oi f = .ok out) : Filtered f oi out := by
  have h0 := h
  rw [apply_oi_filter_eq hf] at h
  obtain ⟨x, hx, _⟩ := bind_eq_ok.mp h
  obtain ⟨ts, hts⟩ := filter_all_oi_inspol_shape hx
  subst hts
  have : (beforeInspol f oi).inspolList = [] := rfl
  rw [this, List.nil_append] at hx
  have h2 : (beforeInspol f oi).numInspol = 0 := rfl
  rw [h2, Int.zero_add] at hx
  rw [apply_oi_filter_rest hf hx] at h0
  cases h0
  exact filtered_prune f oi ts

/-- The result of filtering, OI_INSPOL tables included. -/
theorem apply_oi_filter_ok {f : FilterSpec R} {oi : OiFits R} (hf : Filterable f oi)
    (hun : ∀ t ∈ oi.inspolList, InspolUniform f oi t) :
    ∃ out, apply_oi_filter oi f = .ok out ∧ Filtered f oi out ∧ InspolFiltered f oi out := by
  have hm := masksOk (f := f) hf.unique
  have hx := filter_all_oi_inspol_ok (out := beforeInspol f oi) hf hun hm
  have : (beforeInspol f oi).inspolList = [] := rfl
  rw [this, List.nil_append] at hx
  have h2 : (beforeInspol f oi).numInspol = 0 := rfl
  rw [h2, Int.zero_add] at hx
  refine ⟨_, apply_oi_filter_rest hf hx, filtered_prune _ _ _, ?_⟩
  unfold InspolFiltered pruneOrphans outWith
  simp only [(pruneAll_ok _ _ _).1]
  exact filter_map_ref (fun t => mem_get_arrname_list)

end Verif
