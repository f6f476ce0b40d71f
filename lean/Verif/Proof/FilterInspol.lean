import Verif.Spec.FilterInspol
import Verif.Proof.FilterAgain

/-! When filtering OI_INSPOL tables stays in bounds. -/

namespace Verif
open Outcome Spec Classical

variable {R : FP} {f : FilterSpec R} {oi : OiFits R} {h : UseWave}

/-- What the loop that fills the arrays of one record has done. -/
def InspolLoopInv (m c : Nat) (o : Outcome (InspolBuf R)) : Prop :=
  match o with
  | .ok s => s.k = c ∧ c ≤ m
  | .ub => True
  | .abort => False

theorem filterInspolRecord_ub {r : OiInspolRecord R} {w : OiWavelength R} {n m : Nat}
    (hr : r.WF n) (hw : w.WF) (hn : w.nwave = n) (h0 : m ≠ 0)
    (hm : m < (keptChans f w).length) :
    filterInspolRecord f n m (maskOf f w) r = .ub := by
  have hu : (maskOf f w).length = n := by simp [maskOf, hw.eff_wave, hn]
  have hk : usedIdx n (maskOf f w) = keptChans f w := by rw [← hn]; exact usedIdx_mask
  unfold filterInspolRecord
  rw [chkmallocN_ok h0, bind_ok]
  have key : ∀ p, p ≤ n → InspolLoopInv m (usedIdx p (maskOf f w)).length
      (useLoop p (maskOf f w) (fun j (s : InspolBuf R) => do
        checkWrite s.k m
        let xx ← index r.jxx j
        let yy ← index r.jyy j
        let xy ← index r.jxy j
        let yx ← index r.jyx j
        return ⟨s.k + 1, s.jxx ++ [xx], s.jyy ++ [yy], s.jxy ++ [xy], s.jyx ++ [yx]⟩)
        ⟨0, [], [], [], []⟩) := by
    intro p
    induction p with
    | zero => intro _; exact ⟨rfl, Nat.zero_le _⟩
    | succ p ih =>
      intro hp
      have ih := ih (by omega)
      unfold useLoop at ih ⊢
      rw [loopN_succ]
      generalize loopN p _ _ = o at ih ⊢
      cases o with
      | ub => trivial
      | abort => exact ih.elim
      | ok s =>
        obtain ⟨ik, im⟩ := ih
        have hlt : p < (maskOf f w).length := by omega
        rw [bind_ok, index_of_lt hlt, bind_ok, usedIdx_succ]
        cases hb : (maskOf f w)[p] with
        | false =>
          have hq : (maskOf f w)[p]? = some false := by rw [List.getElem?_eq_getElem hlt, hb]
          simp only [hq, Bool.false_eq_true, if_false, Option.some.injEq, List.append_nil]
          exact ⟨ik, im⟩
        | true =>
          have hq : (maskOf f w)[p]? = some true := by rw [List.getElem?_eq_getElem hlt, hb]
          simp only [hq, if_true]
          unfold checkWrite
          by_cases hs : s.k < m
          · rw [if_pos hs, bind_ok]
            have e1 : p < r.jxx.length := hr.jxx ▸ hp
            have e2 : p < r.jyy.length := hr.jyy ▸ hp
            have e3 : p < r.jxy.length := hr.jxy ▸ hp
            have e4 : p < r.jyx.length := hr.jyx ▸ hp
            simp only [bind_ok, index_of_lt e1, index_of_lt e2, index_of_lt e3, index_of_lt e4]
            refine ⟨?_, ?_⟩
            · simp [ik]
            · simp; omega
          · rw [if_neg hs]
            trivial
  have := key n (Nat.le_refl n)
  generalize useLoop n _ _ _ = o at this ⊢
  cases o with
  | ub => rfl
  | abort => exact this.elim
  | ok s =>
    rw [hk] at this
    have := this.2
    omega

/-- The loop over the records after the first output record. -/
theorem filterInspolLoop_rest (hwf : oi.WF) (hm : MasksOk f oi h) {n m : Nat} (h0 : m ≠ 0)
    (rs : List (OiInspolRecord R)) (hrs : ∀ r ∈ rs, r.WF n)
    (hn : ∀ r ∈ rs, InspolKept f oi r → ∀ w, instTable oi r.insname = some w → w.nwave = n)
    (out : List (OiInspolRecord R)) (ho : out ≠ []) :
    filterInspolLoop f h n m out rs =
      if ∀ r ∈ rs, InspolKept f oi r → (instChans f oi r.insname).length ≤ m then
        .ok (m, out ++ (rs.filter fun r => decide (InspolKept f oi r)).map (inspolRecOut f oi))
      else .ub := by
  induction rs generalizing out with
  | nil => unfold filterInspolLoop; simp
  | cons r rs ih =>
    have ih := ih (fun r hr => hrs r (by simp [hr])) (fun r hr => hn r (by simp [hr]))
    unfold filterInspolLoop
    rw [inspolUse_eq hm]
    by_cases hk : InspolKept f oi r
    · obtain ⟨w, hi, hc, hg⟩ := inspolKept_get hm hk
      have hnw := hn r (by simp) hk w hi
      rw [if_pos hk, hg]
      dsimp only
      by_cases hle : (keptChans f w).length ≤ m
      · rw [filterInspolRecord_ok (hrs r (by simp)) (instTable_wf hwf hi) hnw hc
          (hc ▸ hk.chan) hle, bind_ok]
        have he : out.isEmpty = false := by simpa using ho
        rw [he, Bool.false_and]
        simp only [Bool.false_eq_true, if_false]
        rw [ih _ (by simp)]
        have hiff : (∀ x ∈ r :: rs, InspolKept f oi x → (instChans f oi x.insname).length ≤ m) ↔
            (∀ x ∈ rs, InspolKept f oi x → (instChans f oi x.insname).length ≤ m) := by
          constructor
          · exact fun H x hx => H x (by simp [hx])
          · intro H x hx hkx
            rcases List.mem_cons.mp hx with rfl | hx
            · rw [hc]; exact hle
            · exact H x hx hkx
        by_cases hall : ∀ x ∈ rs, InspolKept f oi x → (instChans f oi x.insname).length ≤ m
        · rw [if_pos hall, if_pos (hiff.mpr hall)]
          simp [hk]
        · rw [if_neg hall, if_neg (fun x => hall (hiff.mp x))]
      · rw [filterInspolRecord_ub (hrs r (by simp)) (instTable_wf hwf hi) hnw h0 (by omega),
          if_neg]
        · rfl
        · intro H
          have := H r (by simp) hk
          rw [hc] at this
          exact hle this
    · rw [if_neg hk]
      dsimp only
      rw [ih out ho]
      have hiff : (∀ x ∈ r :: rs, InspolKept f oi x → (instChans f oi x.insname).length ≤ m) ↔
          (∀ x ∈ rs, InspolKept f oi x → (instChans f oi x.insname).length ≤ m) := by
        constructor
        · exact fun H x hx => H x (by simp [hx])
        · intro H x hx hkx
          rcases List.mem_cons.mp hx with rfl | hx
          · exact absurd hkx hk
          · exact H x hx hkx
      by_cases hall : ∀ x ∈ rs, InspolKept f oi x → (instChans f oi x.insname).length ≤ m
      · rw [if_pos hall, if_pos (hiff.mpr hall)]
        simp [hk]
      · rw [if_neg hall, if_neg (fun x => hall (hiff.mp x))]

/-- The loop over all records. -/
theorem filterInspolLoop_first (hwf : oi.WF) (hm : MasksOk f oi h) {n : Nat}
    (rs : List (OiInspolRecord R)) (hrs : ∀ r ∈ rs, r.WF n)
    (hn : ∀ r ∈ rs, InspolKept f oi r → ∀ w, instTable oi r.insname = some w → w.nwave = n) :
    filterInspolLoop f h n n [] rs =
      match rs.filter fun r => decide (InspolKept f oi r) with
      | [] => .ok (n, [])
      | r0 :: l =>
        if ∀ r ∈ r0 :: l, (instChans f oi r.insname).length ≤
            (instChans f oi r0.insname).length then
          .ok ((instChans f oi r0.insname).length, (r0 :: l).map (inspolRecOut f oi))
        else .ub := by
  induction rs with
  | nil => unfold filterInspolLoop; rfl
  | cons r rs ih =>
    have hrs' := fun r hr => hrs r (List.mem_cons_of_mem _ hr)
    have hn' := fun r hr => hn r (List.mem_cons_of_mem _ hr)
    have ih := ih hrs' hn'
    unfold filterInspolLoop
    rw [inspolUse_eq hm]
    by_cases hk : InspolKept f oi r
    · obtain ⟨w, hi, hc, hg⟩ := inspolKept_get hm hk
      have hnw := hn r (by simp) hk w hi
      rw [if_pos hk, hg]
      dsimp only
      have hkl := keptChans_length_le (f := f) w
      rw [filterInspolRecord_ok (hrs r (by simp)) (instTable_wf hwf hi) hnw hc
          (hc ▸ hk.chan) (by omega), bind_ok]
      have hjl : (inspolRecOut f oi r).jxx.length = (instChans f oi r.insname).length := by
        unfold inspolRecOut
        dsimp only
        rw [hc, pick_length]
        intro j hj
        rw [(hrs r (by simp)).jxx, ← hnw]
        exact (mem_keptChans.mp hj).1
      have hmm : (if ([] : List (OiInspolRecord R)).isEmpty &&
          decide ((inspolRecOut f oi r).jxx.length < n) then (inspolRecOut f oi r).jxx.length
          else n) = (instChans f oi r.insname).length := by
        rw [hjl, hc]
        simp only [List.isEmpty_nil, Bool.true_and, decide_eq_true_eq]
        split <;> omega
      rw [hmm, filterInspolLoop_rest hwf hm
        (List.length_pos_iff.mpr hk.chan).ne' rs hrs' hn' _ (by simp)]
      have hfil : (r :: rs).filter (fun r => decide (InspolKept f oi r)) =
          r :: rs.filter (fun r => decide (InspolKept f oi r)) := by simp [hk]
      rw [hfil]
      dsimp only
      have hiff : (∀ x ∈ rs, InspolKept f oi x → (instChans f oi x.insname).length ≤
            (instChans f oi r.insname).length) ↔
          (∀ x ∈ r :: rs.filter (fun r => decide (InspolKept f oi r)),
            (instChans f oi x.insname).length ≤ (instChans f oi r.insname).length) := by
        constructor
        · intro H x hx
          rcases List.mem_cons.mp hx with rfl | hx
          · exact Nat.le_refl _
          · obtain ⟨h1, h2⟩ := List.mem_filter.mp hx
            exact H x h1 (by simpa using h2)
        · intro H x hx hkx
          exact H x (List.mem_cons_of_mem _ (List.mem_filter.mpr ⟨hx, by simpa using hkx⟩))
      by_cases hall : ∀ x ∈ rs, InspolKept f oi x → (instChans f oi x.insname).length ≤
            (instChans f oi r.insname).length
      · rw [if_pos hall, if_pos (hiff.mp hall)]
        rfl
      · rw [if_neg hall, if_neg (fun x => hall (hiff.mpr x))]
    · rw [if_neg hk]
      dsimp only
      rw [ih]
      have hfil : (r :: rs).filter (fun r => decide (InspolKept f oi r)) =
          rs.filter (fun r => decide (InspolKept f oi r)) := by simp [hk]
      rw [hfil]

theorem filter_oi_inspol_exact (hwf : oi.WF) (hm : MasksOk f oi h) {t : OiInspol R} (ht : t.WF)
    (hal : InspolAligned f oi t) :
    filter_oi_inspol t f h = if InspolFits f oi t then .ok (inspolOut f oi t) else .ub := by
  unfold filter_oi_inspol
  rw [chkmallocN_ok (by simpa using ht.rows), bind_ok]
  rw [filterInspolLoop_first hwf hm t.record ht.recs (fun r hr hk =>
    hal r (mem_inspolRecs.mpr ⟨hr, hk⟩))]
  have hdef : (t.record.filter fun r => decide (InspolKept f oi r)) = inspolRecs f oi t := rfl
  rw [hdef]
  unfold InspolFits inspolOut
  cases hrec : inspolRecs f oi t with
  | nil =>
    rw [if_pos (by intro r0 h0; cases h0)]
    rfl
  | cons r0 l =>
    dsimp only
    have hiff : (∀ r ∈ r0 :: l, (instChans f oi r.insname).length ≤
            (instChans f oi r0.insname).length) ↔
        (∀ x, (r0 :: l).head? = some x → ∀ r ∈ r0 :: l,
          (instChans f oi r.insname).length ≤ (instChans f oi x.insname).length) := by
      constructor
      · intro H x hx
        simp only [List.head?_cons, Option.some.injEq] at hx
        subst hx
        exact H
      · exact fun H => H r0 rfl
    by_cases hall : ∀ r ∈ r0 :: l, (instChans f oi r.insname).length ≤
            (instChans f oi r0.insname).length
    · rw [if_pos hall, if_pos (hiff.mp hall)]
      rfl
    · rw [if_neg hall, if_neg (fun x => hall (hiff.mpr x))]
      rfl

theorem filterTabs_ub {τ : Type} {accept : τ → Bool} {useWave : τ → Option (List Bool)}
    {filt : τ → List Bool → Outcome τ} {nonempty : τ → Bool} {l : List τ}
    (hno : ∀ t ∈ l, ∀ u, filt t u ≠ .abort)
    (hex : ∃ t ∈ l, accept t = true ∧ ∃ u, useWave t = some u ∧ filt t u = .ub) :
    filterTabs accept useWave filt nonempty l = .ub := by
  have noab : ∀ l : List τ, (∀ t ∈ l, ∀ u, filt t u ≠ .abort) →
      filterTabs accept useWave filt nonempty l ≠ .abort := by
    intro l
    induction l with
    | nil => intro _ hc; cases hc
    | cons t l ih =>
      intro hno
      have ih := ih (fun r hr => hno r (by simp [hr]))
      unfold filterTabs
      cases accept t with
      | false => exact ih
      | true =>
        simp only [Bool.not_true, Bool.false_eq_true, if_false]
        cases useWave t with
        | none => exact ih
        | some u =>
          have h1 := hno t (by simp) u
          dsimp only
          cases hft : filt t u with
          | ub => intro hc; cases hc
          | abort => exact absurd hft h1
          | ok t' =>
            rw [bind_ok]
            cases hrest : filterTabs accept useWave filt nonempty l with
            | ub => intro hc; cases hc
            | abort => exact absurd hrest ih
            | ok ts =>
              rw [bind_ok]
              cases nonempty t' <;> intro hc <;> cases hc
  induction l with
  | nil => obtain ⟨t, ht, _⟩ := hex; cases ht
  | cons t l ih =>
    obtain ⟨x, hx, ha, u, hu, hub⟩ := hex
    have hrest := noab l (fun r hr => hno r (by simp [hr]))
    unfold filterTabs
    rcases List.mem_cons.mp hx with rfl | hx
    · rw [ha, hu]
      simp only [Bool.not_true, Bool.false_eq_true, if_false, hub]
      rfl
    · have ih := ih (fun r hr => hno r (by simp [hr])) ⟨x, hx, ha, u, hu, hub⟩
      cases accept t with
      | false => simpa using ih
      | true =>
        simp only [Bool.not_true, Bool.false_eq_true, if_false]
        cases useWave t with
        | none => exact ih
        | some u =>
          dsimp only
          cases hft : filt t u with
          | ub => rfl
          | abort => exact absurd hft (hno t (by simp) u)
          | ok t' =>
            rw [bind_ok, ih]
            rfl

theorem filter_all_oi_inspol_fits {out : OiFits R} (hf : Filterable f oi)
    (hal : ∀ t ∈ oi.inspolList, InspolAligned f oi t)
    (hfit : ∀ t ∈ oi.inspolList, Glob f.arrname t.arrname → InspolFits f oi t)
    (hm : MasksOk f oi h) :
    filter_all_oi_inspol oi f h out = .ok { out with
      inspolList := out.inspolList ++
        (oi.inspolList.filter fun t => decide (InspolRemains f oi t)).map (inspolOut f oi)
      numInspol := out.numInspol +
        ((oi.inspolList.filter fun t => decide (InspolRemains f oi t)).map
          (inspolOut f oi)).length } := by
  unfold filter_all_oi_inspol
  have hrem : ∀ t, InspolRemains f oi t ↔ Glob f.arrname t.arrname ∧
      ∃ r ∈ t.record, InspolKept f oi r := fun t => ⟨fun h => ⟨h.1, h.2⟩, fun h => ⟨h.1, h.2⟩⟩
  rw [filterTabs_ok (g := fun t => if InspolRemains f oi t then some (inspolOut f oi t) else none),
    bind_ok]
  · have : oi.inspolList.filterMap
        (fun t => if InspolRemains f oi t then some (inspolOut f oi t) else none) =
        (oi.inspolList.filter fun t => decide (InspolRemains f oi t)).map (inspolOut f oi) := by
      induction oi.inspolList with
      | nil => rfl
      | cons t l ih =>
        by_cases hr : InspolRemains f oi t
        · simp [hr, ih]
        · simp [hr, ih]
    rw [this]
    rfl
  · intro t _ hs
    rw [if_neg]
    intro hr
    have := (globMatch_iff _ _).mpr hr.name
    rcases hs with hs | hs
    · rw [hs] at this; cases this
    · cases hs
  · intro t ht ha u _
    have ha := (globMatch_iff _ _).mp ha
    refine ⟨inspolOut f oi t, ?_, ?_⟩
    · rw [filter_oi_inspol_exact hf.wf hm (hf.wf.inspol t ht) (hal t ht), if_pos (hfit t ht ha)]
    unfold inspolOut
    dsimp only
    by_cases hx : ∃ r ∈ t.record, InspolKept f oi r
    · rw [if_pos ((hrem t).mpr ⟨ha, hx⟩)]
      cases hrec : inspolRecs f oi t with
      | nil =>
        obtain ⟨r, hr, hk⟩ := hx
        have : r ∈ inspolRecs f oi t := by simp [inspolRecs, hr, hk]
        rw [hrec] at this; cases this
      | cons r0 rs =>
        have h0 : r0 ∈ inspolRecs f oi t := by rw [hrec]; simp
        have hk0 : InspolKept f oi r0 := by simpa [inspolRecs] using (List.mem_filter.mp h0).2
        have := List.length_pos_iff.mpr hk0.chan
        simp [this]
    · rw [if_neg (fun hc => hx ((hrem t).mp hc).2)]
      have : inspolRecs f oi t = [] := by
        unfold inspolRecs
        rw [List.filter_eq_nil_iff]
        intro r hr hk
        exact hx ⟨r, hr, by simpa using hk⟩
      rw [this]
      simp

theorem apply_oi_filter_fits (hf : Filterable f oi)
    (hal : ∀ t ∈ oi.inspolList, InspolAligned f oi t)
    (hfit : ∀ t ∈ oi.inspolList, Glob f.arrname t.arrname → InspolFits f oi t) :
    ∃ out, apply_oi_filter oi f = .ok out ∧ Filtered f oi out ∧ InspolFiltered f oi out := by
  have hm := masksOk (f := f) hf.unique
  have hx := filter_all_oi_inspol_fits (out := beforeInspol f oi) hf hal hfit hm
  have : (beforeInspol f oi).inspolList = [] := rfl
  rw [this, List.nil_append] at hx
  have h2 : (beforeInspol f oi).numInspol = 0 := rfl
  rw [h2, Int.zero_add] at hx
  refine ⟨_, apply_oi_filter_rest hf hx, filtered_prune _ _ _, ?_⟩
  unfold InspolFiltered pruneOrphans outWith
  simp only [(pruneAll_ok _ _ _).1]
  exact filter_map_ref (fun t => mem_get_arrname_list)

theorem apply_oi_filter_unfit (hf : Filterable f oi)
    (hal : ∀ t ∈ oi.inspolList, InspolAligned f oi t)
    (hex : ∃ t ∈ oi.inspolList, Glob f.arrname t.arrname ∧ ¬ InspolFits f oi t) :
    apply_oi_filter oi f = .ub := by
  have hm := masksOk (f := f) hf.unique
  rw [apply_oi_filter_eq hf, filter_all_oi_inspol, filterTabs_ub]
  · rfl
  · intro t ht u
    rw [filter_oi_inspol_exact hf.wf hm (hf.wf.inspol t ht) (hal t ht)]
    split <;> intro hc <;> cases hc
  · obtain ⟨t, ht, hg, hn⟩ := hex
    refine ⟨t, ht, (globMatch_iff _ _).mpr hg, [], rfl, ?_⟩
    rw [filter_oi_inspol_exact hf.wf hm (hf.wf.inspol t ht) (hal t ht), if_neg hn]

end Verif
