import Verif.Proof.CheckEmit
import Verif.Spec.Example

/-! Properties C04-C14: conformity checks (oicheck.c). -/

namespace Verif
open Outcome Spec

variable {R : FP}

/-! ### C04: check results -/

/-- C04. Breaches with one description, reported in turn to a fresh result, give
the result that the specification `Reports` demands. -/
theorem C04_reports (bs : List Breach) (h : SameDescription bs) :
    ∃ r, bs.foldlM (fun r b => set_result r b.level b.description b.location)
        init_check_result = .ok r ∧ Reports r bs :=
  replay_init_ok h

/-- C04. Breaches with different descriptions abort the process. -/
theorem C04_aborts (bs : List Breach) (h : ¬ SameDescription bs) :
    bs.foldlM (fun r b => set_result r b.level b.description b.location)
        init_check_result = .abort :=
  replay_init_abort h

/-- C04. The text for the user: nothing without a breach, else the severity, the
description, the number of breaches and one line per stored location. -/
theorem C04_format (r : CheckResult) (bs : List Breach) (h : Reports r bs)
    (hl : ∀ b ∈ bs, b.level ≠ .none) :
    format_check_result r = .ok (match bs with
      | [] => none
      | b :: _ => some (
          ("*** " : CStr) ++ oi_breach_level_desc r.level ++ (":\n" : CStr) ++ b.description ++
          (", " : CStr) ++ dec bs.length ++ (" occurrences:-\n" : CStr) ++
          (((bs.take 9).map (·.location) ++
            if 10 ≤ bs.length then [("[List truncated]" : CStr)] else []).flatMap
              fun s => ("    " : CStr) ++ s ++ ("\n" : CStr)))) := by
  have hnone := reports_none_iff h hl
  unfold format_check_result
  cases bs with
  | nil => rw [if_pos (hnone.mpr rfl)]
  | cons b bs =>
    rw [if_neg (fun e => by simpa using hnone.mp e), h.description]
    simp only [List.head?_cons, Option.map_some, deref_some, bind_ok]
    rw [h.numBreach, fmtInt_nat]
    generalize hhead : ("*** " : CStr) ++ oi_breach_level_desc r.level ++ (":\n" : CStr) ++
      b.description ++ (", " : CStr) ++ dec (b :: bs).length ++ (" occurrences:-\n" : CStr) = head
    generalize hlines : (((b :: bs).take 9).map (·.location) ++
            if 10 ≤ (b :: bs).length then [("[List truncated]" : CStr)] else []) = lines
    have hlen : (if (b :: bs).length < MAX_REPORT then (b :: bs).length else MAX_REPORT) =
        lines.length := by
      rw [← hlines]
      have hM : MAX_REPORT = 10 := rfl
      rw [hM]
      simp only [List.length_append, List.length_map, List.length_take]
      generalize (b :: bs).length = n
      by_cases h10 : 10 ≤ n
      · rw [if_neg (by omega), if_pos h10]; simp; omega
      · rw [if_pos (by omega), if_neg h10]; simp; omega
    have hat : ∀ i, i < lines.length → r.location[i]? = some lines[i]? := by
      intro i hi
      rw [← hlines] at hi ⊢
      generalize b :: bs = bs at *
      simp only [List.length_append, List.length_map, List.length_take] at hi
      by_cases h9 : i < 9
      · rw [h.stored i h9]
        congr 1
        by_cases hb : i < bs.length
        · rw [List.getElem?_append_left (by simp; omega)]
          simp [List.getElem?_take, h9]
        · exfalso
          split at hi <;> simp at hi <;> omega
      · have h10 : 10 ≤ bs.length := by
          split at hi
          · assumption
          · simp at hi; omega
        rw [if_pos h10] at hi ⊢
        have : i = 9 := by simp at hi; omega
        subst this
        rw [h.marker, if_pos h10, List.getElem?_append_right (by simp)]
        have : 9 - (List.map (fun x => x.location) (List.take 9 bs)).length = 0 := by simp; omega
        rw [this]
        rfl
    have key : ∀ n, n ≤ lines.length → loopN n (fun i text => do
        let p ← index r.location i
        let s ← deref p
        return text ++ (("    " : CStr) ++ s ++ ("\n" : CStr))) head =
        .ok (head ++ (lines.take n).flatMap fun s => ("    " : CStr) ++ s ++ ("\n" : CStr)) := by
      intro n
      induction n with
      | zero => intro _; simp [loopN]
      | succ n ih =>
        intro hn
        unfold loopN at ih ⊢
        rw [List.range_succ, List.foldlM_append, ih (by omega), bind_ok, List.foldlM_cons]
        have e := hat n (by omega)
        rw [List.getElem?_eq_getElem (show n < lines.length by omega)] at e
        simp only [index, e, deref_some, bind_ok, pure_eq, List.foldlM_nil]
        rw [List.take_succ_eq_append_getElem (by omega), List.flatMap_append, List.append_assoc]
        simp
    rw [hlen]
    have k := key _ (Nat.le_refl _)
    rw [List.take_length] at k
    simp only [pure_eq] at k ⊢
    rw [k]
    rfl

example : SameDescription (List.replicate 12 ⟨.warning, "d", "somewhere"⟩) := by
  intro b hb c hc
  rw [List.eq_of_mem_replicate hb, List.eq_of_mem_replicate hc]
example : ¬ SameDescription [⟨.warning, "d", "here"⟩, ⟨.notOifits, "e", "there"⟩] := by
  intro h
  exact absurd (h ⟨.warning, "d", "here"⟩ (by decide) ⟨.notOifits, "e", "there"⟩ (by decide))
    (by decide)

/-! ### C05: unique targets -/

/-- C05. `check_unique_targets` warns once for each record which repeats an earlier
name, and reports nothing iff names are pairwise distinct. -/
theorem C05_check_unique_targets (oi : OiFits R) :
    ∃ r, check_unique_targets oi = .ok r ∧ Reports r (uniqueBreaches oi) ∧
      r.numBreach = (repeats [] oi.targets.targ).length ∧
      (r.level = .none ↔ (oi.targets.targ.map (·.target)).Nodup) ∧
      (r.level = .none ∨ r.level = .warning) := by
  have hall : ∀ b ∈ uniqueBreaches oi, b.level = .warning ∧
      b.description = ("Duplicate value in TARGET column of OI_TARGET" : CStr) := by
    intro b hb
    obtain ⟨t, _, rfl⟩ := List.mem_map.mp hb
    exact ⟨rfl, rfl⟩
  obtain ⟨r, hr, hrep⟩ := runCheck_ok (emits_unique oi.targets.targ [])
    (sameDescription_of _ fun b hb => (hall b hb).2)
  refine ⟨r, hr, hrep, by simpa using hrep.numBreach, ?_, reports_level hrep fun b hb => (hall b hb).1⟩
  rw [reports_none_iff hrep (fun b hb => by rw [(hall b hb).1]; decide), List.map_eq_nil_iff,
    repeats_eq_nil]
  simp

example : (Ex.oi.targets.targ.map (·.target)).Nodup := by decide +kernel
-- three records of the same name: two breaches
example : (repeats [] [Ex.targ 1 "A", Ex.targ 2 "A", Ex.targ 3 "B", Ex.targ 4 "A"]).length = 2 := by
  decide +kernel

/-! ### C06: targets present -/

/-- C06. `check_targets_present` reports exactly the records whose TARGET_ID is not
in OI_TARGET. -/
theorem C06_check_targets_present (oi : OiFits R) :
    ∃ r, check_targets_present oi = .ok r ∧ Reports r (targetBreaches oi) ∧
      (r.level = .none ↔
        (∀ t ∈ oi.visList, ∀ r ∈ t.record, TargetKnown oi r.target_id) ∧
        (∀ t ∈ oi.vis2List, ∀ r ∈ t.record, TargetKnown oi r.target_id) ∧
        (∀ t ∈ oi.t3List, ∀ r ∈ t.record, TargetKnown oi r.target_id) ∧
        (∀ t ∈ oi.fluxList, ∀ r ∈ t.record, TargetKnown oi r.target_id)) ∧
      (r.level = .none ∨ r.level = .notOifits) := by
  have hall : ∀ b ∈ targetBreaches oi, b.level = .notOifits ∧
      b.description = ("Reference to missing target record" : CStr) := by
    unfold targetBreaches unknownTargets
    all_breaches <;> exact ⟨rfl, rfl⟩
  have key : ∀ {ρ : Type} (name : CStr) (id : ρ → Int) (k : Nat) (recs : List ρ),
      Emits (checkTargetIds oi name id k recs) (unknownTargets oi name id (k + 1) recs) := by
    intro ρ name id k recs
    refine emits_enum fun i r _ => ?_
    rw [recordText_eq]
    exact emits_breachIf _ _ _ (lookup_target_isNone oi _)
  have hem : Emits (do
      enumM oi.visList fun k t => checkTargetIds oi "OI_VIS" (·.target_id) k t.record
      enumM oi.vis2List fun k t => checkTargetIds oi "OI_VIS2" (·.target_id) k t.record
      enumM oi.t3List fun k t => checkTargetIds oi "OI_T3" (·.target_id) k t.record
      enumM oi.fluxList fun k t => checkTargetIds oi "OI_FLUX" (·.target_id) k t.record)
      (targetBreaches oi) := by
    unfold targetBreaches
    rw [List.append_assoc, List.append_assoc]
    exact emits_bind (emits_enum fun k t _ => key _ _ _ _) <|
      emits_bind (emits_enum fun k t _ => key _ _ _ _) <|
      emits_bind (emits_enum fun k t _ => key _ _ _ _) (emits_enum fun k t _ => key _ _ _ _)
  obtain ⟨r, hr, hrep⟩ := runCheck_ok hem (sameDescription_of _ fun b hb => (hall b hb).2)
  refine ⟨r, hr, hrep, ?_, reports_level hrep fun b hb => (hall b hb).1⟩
  rw [reports_none_iff hrep (fun b hb => by rw [(hall b hb).1]; decide)]
  unfold targetBreaches unknownTargets
  have hn : ∀ {ρ : Type} (name : CStr) (id : ρ → Int) (k : Nat) (recs : List ρ),
      numbered (fun i r => breachIf (¬ TargetKnown oi (id r)) .notOifits
        "Reference to missing target record" (atRecord name k i)) recs = [] ↔
        ∀ r ∈ recs, TargetKnown oi (id r) := by
    intro ρ name id k recs
    exact numbered_eq_nil fun i r _ => by rw [breachIf_eq_nil, Decidable.not_not]
  simp only [List.append_eq_nil_iff]
  rw [numbered_eq_nil fun k t _ => hn _ _ _ _, numbered_eq_nil fun k t _ => hn _ _ _ _,
    numbered_eq_nil fun k t _ => hn _ _ _ _, numbered_eq_nil fun k t _ => hn _ _ _ _]
  simp only [and_assoc]

example : targetBreaches Ex.oi = [] := by decide +kernel
-- without "Star B", its records are reported
example : (targetBreaches { Ex.oi with targets := { Ex.targets with targ := [Ex.targ 1 "Star A"] } }
    ).map (·.location) = ["OI_VIS #1 record 2", "OI_VIS2 #1 record 2", "OI_VIS2 #2 record 2"].map
      String.toList := by decide +kernel

/-! ### C07: elements present -/

/-- C07, what holds: if all OI_INSPOL tables have an ARRNAME, `check_elements_present`
reports exactly the station indices which denote no element. Missing from the full
statement: the check aborts if a table is OI_INSPOL without ARRNAME and elsewhere an
element is missing (see `C07_abort_iff`). -/
theorem C07_check_elements_present_partial (oi : OiFits R)
    (h : ∀ t ∈ oi.inspolList, t.arrname ≠ []) :
    ∃ r, check_elements_present oi = .ok r ∧
      Reports r (inspolElementBreaches oi ++ dataElementBreaches oi) ∧
      (r.level = .none ↔
        (∀ t ∈ oi.inspolList, ∀ r ∈ t.record, ElementKnown oi t.arrname r.sta_index) ∧
        (∀ t ∈ oi.visList, t.arrname ≠ [] → ∀ r ∈ t.record,
          ElementKnown oi t.arrname r.sta_index.1 ∧ ElementKnown oi t.arrname r.sta_index.2) ∧
        (∀ t ∈ oi.vis2List, t.arrname ≠ [] → ∀ r ∈ t.record,
          ElementKnown oi t.arrname r.sta_index.1 ∧ ElementKnown oi t.arrname r.sta_index.2) ∧
        (∀ t ∈ oi.t3List, t.arrname ≠ [] → ∀ r ∈ t.record,
          ElementKnown oi t.arrname r.sta_index.1 ∧ ElementKnown oi t.arrname r.sta_index.2.1 ∧
          ElementKnown oi t.arrname r.sta_index.2.2) ∧
        (∀ t ∈ oi.fluxList, t.arrname ≠ [] → ∀ r ∈ t.record,
          r.sta_index = -1 ∨ ElementKnown oi t.arrname r.sta_index)) ∧
      (r.level = .none ∨ r.level = .notOifits) := by
  have hall := elementBreaches_all oi
  rw [check_elements_present_eq, inspolBreaches_named h]
  obtain ⟨r, hr, hrep⟩ := replay_init_ok (sameDescription_of _ fun b hb => (hall b hb).2)
  refine ⟨r, hr, hrep, ?_, reports_level hrep fun b hb => (hall b hb).1⟩
  rw [reports_none_iff hrep (fun b hb => by rw [(hall b hb).1]; decide)]
  unfold inspolElementBreaches dataElementBreaches
  simp only [List.append_eq_nil_iff]
  rw [numbered_eq_nil fun k t _ => unknownElements_eq_nil,
    numbered_eq_nil fun k t _ => unknownElements_eq_nil,
    numbered_eq_nil fun k t _ => unknownElements_eq_nil,
    numbered_eq_nil fun k t _ => unknownElements_eq_nil,
    numbered_eq_nil fun k t _ => unknownElements_eq_nil]
  simp only [and_assoc, List.mem_cons, List.not_mem_nil, or_false, forall_eq, forall_eq_or_imp]
  refine and_congr ?_ (and_congr Iff.rfl (and_congr Iff.rfl (and_congr Iff.rfl ?_)))
  · exact ⟨fun hp t ht => hp t ht (h t ht), fun hp t ht _ => hp t ht⟩
  · refine forall_congr' fun t => forall_congr' fun _ => forall_congr' fun _ =>
      forall_congr' fun r => forall_congr' fun _ => ?_
    by_cases e : r.sta_index = -1
    · simp [e]
    · simp [e]

/-- C07. `check_elements_present` aborts exactly if an OI_INSPOL table has no
ARRNAME and some element is missing too. -/
theorem C07_abort_iff (oi : OiFits R) :
    check_elements_present oi = .abort ↔
      (∃ t ∈ oi.inspolList, t.arrname = []) ∧
      inspolElementBreaches oi ++ dataElementBreaches oi ≠ [] := by
  have hall := elementBreaches_all oi
  by_cases hex : ∃ t ∈ oi.inspolList, t.arrname = []
  · obtain ⟨t, ht, ha⟩ := hex
    have hin : (⟨.notOifits, "ARRNAME missing", shown (atTable "OI_INSPOL" 0)⟩ : Breach) ∈
        inspolBreaches oi ++ dataElementBreaches oi := by
      apply List.mem_append_left
      obtain ⟨i, hi, e⟩ := List.getElem_of_mem ht
      unfold inspolBreaches numbered
      refine List.mem_flatMap.mpr ⟨(t, 1 + i), ?_, by simp [ha]⟩
      rw [List.mem_iff_getElem]
      exact ⟨i, by simpa using hi, by simp [e]⟩
    rw [check_elements_present_eq]
    by_cases hne : inspolElementBreaches oi ++ dataElementBreaches oi = []
    · simp only [hne, ne_eq, not_true_eq_false, and_false, iff_false]
      have hs : SameDescription (inspolBreaches oi ++ dataElementBreaches oi) := by
        apply sameDescription_of ("ARRNAME missing" : CStr)
        intro b hb
        rw [List.append_eq_nil_iff] at hne
        rcases List.mem_append.mp hb with hb | hb
        · rcases (inspolBreaches_nameless hb).2 with h | h
          · exact h
          · rw [hne.1] at h; simp at h
        · rw [hne.2] at hb; simp at hb
      obtain ⟨r, hr, _⟩ := replay_init_ok hs
      rw [hr]; simp
    · have hex' : (∃ t ∈ oi.inspolList, t.arrname = []) := ⟨t, ht, ha⟩
      simp only [hex', hne, ne_eq, not_false_eq_true, and_self, iff_true]
      apply replay_init_abort
      intro hs
      -- an element breach is also reported
      obtain ⟨b, hb⟩ := List.exists_mem_of_ne_nil _ hne
      have hb' : b ∈ inspolBreaches oi ++ dataElementBreaches oi := by
        rcases List.mem_append.mp hb with hb1 | hb1
        · apply List.mem_append_left
          unfold inspolElementBreaches numbered at hb1
          obtain ⟨e, he, hb2⟩ := List.mem_flatMap.mp hb1
          refine List.mem_flatMap.mpr ⟨e, he, ?_⟩
          by_cases hn : e.1.arrname = []
          · simp [unknownElements, hn] at hb2
          · simp only [hn, if_false]; exact hb2
        · exact List.mem_append_right _ hb1
      have := hs _ hin b hb'
      rw [(hall b hb).2] at this
      revert this
      decide
  · have : ∀ t ∈ oi.inspolList, t.arrname ≠ [] := fun t ht e => hex ⟨t, ht, e⟩
    obtain ⟨r, hr, _⟩ := C07_check_elements_present_partial oi this
    rw [hr]
    simp only [hex, false_and, iff_false]
    simp

/-- C07. If an OI_INSPOL table has no ARRNAME and no element is missing, the result
says so (severity "not OIFITS"). -/
theorem C07_nameless_inspol (oi : OiFits R) (h : ∃ t ∈ oi.inspolList, t.arrname = [])
    (hne : inspolElementBreaches oi ++ dataElementBreaches oi = []) :
    ∃ r, check_elements_present oi = .ok r ∧ r.level = .notOifits ∧
      r.numBreach = oi.inspolList.countP (fun t => t.arrname = []) := by
  rw [List.append_eq_nil_iff] at hne
  have hs : SameDescription (inspolBreaches oi ++ dataElementBreaches oi) := by
    apply sameDescription_of ("ARRNAME missing" : CStr)
    intro b hb
    rcases List.mem_append.mp hb with hb | hb
    · rcases (inspolBreaches_nameless hb).2 with h | h
      · exact h
      · rw [hne.1] at h; simp at h
    · rw [hne.2] at hb; simp at hb
  rw [check_elements_present_eq]
  obtain ⟨r, hr, hrep⟩ := replay_init_ok hs
  have hlen : (inspolBreaches oi ++ dataElementBreaches oi).length =
      oi.inspolList.countP (fun t => t.arrname = []) := by
    rw [hne.2, List.append_nil]
    have h1 := hne.1
    unfold inspolBreaches numbered
    unfold inspolElementBreaches numbered at h1
    rw [List.flatMap_eq_nil_iff] at h1
    have : ∀ (l : List (OiInspol R)) (k : Nat),
        (∀ e ∈ l.zipIdx k, unknownElements oi "OI_INSPOL" e.1.arrname (fun r => [r.sta_index])
          e.2 e.1.record = []) →
        ((l.zipIdx k).flatMap fun e => if e.1.arrname = [] then
          [(⟨.notOifits, "ARRNAME missing", shown (atTable "OI_INSPOL" 0)⟩ : Breach)]
          else unknownElements oi "OI_INSPOL" e.1.arrname (fun r => [r.sta_index]) e.2
            e.1.record).length = l.countP (fun t => t.arrname = []) := by
      intro l
      induction l with
      | nil => intro k _; rfl
      | cons t l ih =>
        intro k hk
        rw [List.zipIdx_cons, List.flatMap_cons, List.length_append,
          ih (k + 1) (fun e he => hk e (by simp [List.zipIdx_cons, he])), List.countP_cons]
        have := hk (t, k) (by simp [List.zipIdx_cons])
        simp only at this ⊢
        by_cases ha : t.arrname = []
        · simp [ha]; omega
        · have h0 : unknownElements oi "OI_INSPOL" t.arrname (fun r => [r.sta_index]) k t.record =
            [] := this
          simp only [ha, if_false, h0]
          simp
    exact this _ _ h1
  refine ⟨r, hr, ?_, by rw [hrep.numBreach, hlen]⟩
  rcases reports_level (l := .notOifits) hrep (by
    intro b hb
    rcases List.mem_append.mp hb with hb | hb
    · exact (inspolBreaches_nameless hb).1
    · rw [hne.2] at hb; simp at hb) with hl | hl
  · exfalso
    rw [reports_none_iff hrep (by
      intro b hb
      rcases List.mem_append.mp hb with hb | hb
      · rw [(inspolBreaches_nameless hb).1]; decide
      · rw [hne.2] at hb; simp at hb)] at hl
    have := hlen
    rw [hl] at this
    obtain ⟨t, ht, ha⟩ := h
    have := (List.countP_eq_zero.mp this.symm) t ht
    simp [ha] at this
  · exact hl

example : ∀ t ∈ Ex.oi.inspolList, t.arrname ≠ [] := by decide +kernel
-- station 7 is unknown
example : (dataElementBreaches { Ex.oi with vis2List := [{ Ex.vis2 with
    record := [{ Ex.vis2Rec 1 56974 [false, false] with sta_index := (7, 1) }] }] }).length = 1 := by
  decide +kernel
-- a dataset for which the check aborts
example : check_elements_present { Ex.oi with
    inspolList := [{ Ex.inspol with arrname := [] }]
    vis2List := [{ Ex.vis2 with
      record := [{ Ex.vis2Rec 1 56974 [false, false] with sta_index := (7, 1) }] }] } = .abort := by
  decide +kernel

/-! ### C08: array names -/

/-- C08, what holds: `check_arrname` reports exactly the tables without a mandatory
ARRNAME. Missing from the full statement: OI_INSPOL tables are reported with
number 0 instead of their own (see `C08_inspol_location_false`). -/
theorem C08_check_arrname_partial (oi : OiFits R) :
    ∃ r, check_arrname oi = .ok r ∧ Reports r (arrnameBreaches (fun _ => 0) oi) ∧
      (r.level = .none ↔ (V2 oi →
        (∀ t ∈ oi.inspolList, t.arrname ≠ []) ∧ (∀ t ∈ oi.visList, t.arrname ≠ []) ∧
        (∀ t ∈ oi.vis2List, t.arrname ≠ []) ∧ (∀ t ∈ oi.t3List, t.arrname ≠ []) ∧
        (∀ t ∈ oi.fluxList, t.calstat = 'U' → t.arrname ≠ []))) ∧
      (r.level = .none ∨ r.level = .notOifits) := by
  have hall : ∀ b ∈ arrnameBreaches (fun _ => 0) oi, b.level = .notOifits ∧
      b.description = ("ARRNAME missing" : CStr) := by
    unfold arrnameBreaches namelessTables
    all_breaches <;> exact ⟨rfl, rfl⟩
  have hem : ∃ m, check_arrname oi = runCheck m ∧ Emits m (arrnameBreaches (fun _ => 0) oi) := by
    refine ⟨_, rfl, ?_⟩
    unfold arrnameBreaches namelessTables whenM
    by_cases hv : V2 oi
    · rw [if_pos ((is_two_iff oi).mpr hv), if_pos hv]
      rw [List.append_assoc, List.append_assoc, List.append_assoc]
      simp only [tableText_eq, tableText_neg]
      exact emits_bind (emits_enum fun k t _ => emits_breachIf _ _ _ (by simp)) <|
        emits_bind (emits_enum fun k t _ => emits_breachIf _ _ _ (by simp)) <|
        emits_bind (emits_enum fun k t _ => emits_breachIf _ _ _ (by simp)) <|
        emits_bind (emits_enum fun k t _ => emits_breachIf _ _ _ (by simp))
          (emits_enum fun k t _ => emits_breachIf _ _ _ (by simp))
    · rw [if_neg (fun h => hv ((is_two_iff oi).mp h)), if_neg hv]
      exact emits_pure
  obtain ⟨m, hm, hem⟩ := hem
  rw [hm]
  obtain ⟨r, hr, hrep⟩ := runCheck_ok hem (sameDescription_of _ fun b hb => (hall b hb).2)
  refine ⟨r, hr, hrep, ?_, reports_level hrep fun b hb => (hall b hb).1⟩
  rw [reports_none_iff hrep (fun b hb => by rw [(hall b hb).1]; decide)]
  unfold arrnameBreaches namelessTables
  by_cases hv : V2 oi
  · rw [if_pos hv]
    simp only [List.append_eq_nil_iff, hv, forall_const]
    rw [numbered_eq_nil (P := fun (t : OiInspol R) => t.arrname ≠ []) fun k t _ => breachIf_eq_nil,
      numbered_eq_nil (P := fun (t : OiVis R) => ¬ (True ∧ t.arrname = [])) fun k t _ => breachIf_eq_nil,
      numbered_eq_nil (P := fun (t : OiVis2 R) => ¬ (True ∧ t.arrname = [])) fun k t _ => breachIf_eq_nil,
      numbered_eq_nil (P := fun (t : OiT3 R) => ¬ (True ∧ t.arrname = [])) fun k t _ => breachIf_eq_nil,
      numbered_eq_nil (P := fun (t : OiFlux R) => ¬ (t.calstat = 'U' ∧ t.arrname = []))
        fun k t _ => breachIf_eq_nil]
    simp only [and_assoc, true_and, not_and, ne_eq]
  · rw [if_neg hv]
    simp [hv]

/-- C08, false part: that the locations give the number of each table (`fun k => k`)
does not hold of the code for OI_INSPOL tables (oicheck.c:630). -/
theorem C08_inspol_location_false :
    ¬ ∀ (R : FP) (oi : OiFits R), oi.WF →
      ∃ r, check_arrname oi = .ok r ∧ Reports r (arrnameBreaches (fun k => k) oi) := by
  intro h
  let oi : OiFits FP.ratFP := { Ex.oi with inspolList := [{ Ex.inspol with arrname := [] }] }
  have hwf : oi.WF := { Ex.oi_wf with
    counts := ⟨rfl, rfl, rfl, rfl, rfl, rfl, rfl, rfl⟩
    inspol := by
      intro t ht
      simp only [oi, List.mem_cons, List.not_mem_nil, or_false] at ht
      subst ht
      exact ⟨Ex.inspol_wf.rows, Ex.inspol_wf.chans, Ex.inspol_wf.recs⟩ }
  obtain ⟨r, hr, hrep⟩ := h _ oi hwf
  have h0 := hrep.stored 0 (by decide)
  have e : check_arrname oi = .ok ⟨.notOifits, some "ARRNAME missing", 1,
      some "OI_INSPOL #0" :: List.replicate 9 none⟩ := by decide +kernel
  rw [e] at hr
  simp only [Outcome.ok.injEq] at hr
  subst hr
  revert h0
  decide +kernel

example : V2 Ex.oi ∧ Ex.oi.inspolList ≠ [] ∧ Ex.oi.fluxList ≠ [] := by decide +kernel

/-! ### C09: correlations -/

/-- C09. `check_corr_present` reports exactly the tables with a CORRNAME which
look-up does not resolve. -/
theorem C09_check_corr_present (oi : OiFits R) :
    ∃ r, check_corr_present oi = .ok r ∧ Reports r (corrBreaches oi) ∧
      (r.level = .none ↔
        (∀ t ∈ oi.visList, t.corrname ≠ [] → oi_fits_lookup_corr oi t.corrname ≠ none) ∧
        (∀ t ∈ oi.vis2List, t.corrname ≠ [] → oi_fits_lookup_corr oi t.corrname ≠ none) ∧
        (∀ t ∈ oi.t3List, t.corrname ≠ [] → oi_fits_lookup_corr oi t.corrname ≠ none) ∧
        (∀ t ∈ oi.fluxList, t.corrname ≠ [] → oi_fits_lookup_corr oi t.corrname ≠ none)) ∧
      (r.level = .none ∨ r.level = .notOifits) := by
  have hall : ∀ b ∈ corrBreaches oi, b.level = .notOifits ∧
      b.description = ("Reference to missing OI_CORR table" : CStr) := by
    unfold corrBreaches unknownCorrs
    all_breaches <;> exact ⟨rfl, rfl⟩
  have key : ∀ {τ : Type} (name : CStr) (corrname : τ → CStr) (tabs : List τ),
      Emits (enumM tabs fun k t => checkCorrname oi (corrname t) name k)
        (unknownCorrs oi name corrname tabs) := by
    intro τ name corrname tabs
    refine emits_enum fun k t _ => ?_
    unfold checkCorrname
    rw [tableText_eq]
    refine emits_breachIf _ _ _ ?_
    simp [oi_fits_lookup_corr, List.length_pos_iff]
  have hem : ∃ m, check_corr_present oi = runCheck m ∧ Emits m (corrBreaches oi) := by
    refine ⟨_, rfl, ?_⟩
    unfold corrBreaches
    rw [List.append_assoc, List.append_assoc]
    exact emits_bind (key _ _ _) <| emits_bind (key _ _ _) <| emits_bind (key _ _ _) (key _ _ _)
  obtain ⟨m, hm, hem⟩ := hem
  rw [hm]
  obtain ⟨r, hr, hrep⟩ := runCheck_ok hem (sameDescription_of _ fun b hb => (hall b hb).2)
  refine ⟨r, hr, hrep, ?_, reports_level hrep fun b hb => (hall b hb).1⟩
  rw [reports_none_iff hrep (fun b hb => by rw [(hall b hb).1]; decide)]
  unfold corrBreaches unknownCorrs
  simp only [List.append_eq_nil_iff]
  rw [numbered_eq_nil (P := fun (t : OiVis R) => ¬ (t.corrname ≠ [] ∧ oi.corrHash.lookup t.corrname = none))
      fun k t _ => breachIf_eq_nil,
    numbered_eq_nil (P := fun (t : OiVis2 R) => ¬ (t.corrname ≠ [] ∧ oi.corrHash.lookup t.corrname = none))
      fun k t _ => breachIf_eq_nil,
    numbered_eq_nil (P := fun (t : OiT3 R) => ¬ (t.corrname ≠ [] ∧ oi.corrHash.lookup t.corrname = none))
      fun k t _ => breachIf_eq_nil,
    numbered_eq_nil (P := fun (t : OiFlux R) => ¬ (t.corrname ≠ [] ∧ oi.corrHash.lookup t.corrname = none))
      fun k t _ => breachIf_eq_nil]
  simp only [and_assoc, not_and, ne_eq, oi_fits_lookup_corr]

example : corrBreaches Ex.oi = [] ∧ Ex.vis.corrname ≠ [] := by decide +kernel
example : (corrBreaches { Ex.oi with corrHash := HMap.empty }).length = 1 := by decide +kernel

/-! ### C10: tables -/

/-- C10, what holds: unless a mandatory table is missing and some revision is wrong
too, `check_tables` reports exactly the missing tables or the wrong revisions.
Missing from the full statement: in the excluded case it aborts (`C10_abort_iff`). -/
theorem C10_check_tables_partial (oi : OiFits R) (hc : oi.CountsAgree)
    (h : TablesPresent oi ∨ RevisionsRight oi) :
    ∃ r, check_tables oi = .ok r ∧ Reports r (missingTables oi ++ revisionBreaches oi) ∧
      (r.level = .none ↔ TablesPresent oi ∧ RevisionsRight oi) ∧
      (r.level = .none ∨ r.level = .notOifits) := by
  rw [check_tables_eq oi hc]
  have hm := missingTables_all oi
  have hr := revisionBreaches_all oi
  have hs : SameDescription (missingTables oi ++ revisionBreaches oi) := by
    rcases h with h | h
    · rw [(missingTables_eq_nil oi).mpr h]
      exact sameDescription_of _ fun b hb => (hr b (by simpa using hb)).2
    · rw [(revisionBreaches_eq_nil oi).mpr h]
      exact sameDescription_of _ fun b hb => (hm b (by simpa using hb)).2
  have hlev : ∀ b ∈ missingTables oi ++ revisionBreaches oi, b.level = .notOifits :=
    forall_append (fun b hb => (hm b hb).1) (fun b hb => (hr b hb).1)
  obtain ⟨r, hr, hrep⟩ := replay_init_ok hs
  refine ⟨r, hr, hrep, ?_, reports_level hrep hlev⟩
  rw [reports_none_iff hrep (fun b hb => by rw [hlev b hb]; decide), List.append_eq_nil_iff,
    missingTables_eq_nil, revisionBreaches_eq_nil]

/-- C10. `check_tables` aborts exactly if a mandatory table is missing and some
revision is wrong too. -/
theorem C10_abort_iff (oi : OiFits R) (hc : oi.CountsAgree) :
    check_tables oi = .abort ↔ ¬ TablesPresent oi ∧ ¬ RevisionsRight oi := by
  by_cases h : TablesPresent oi ∨ RevisionsRight oi
  · obtain ⟨r, hr, _⟩ := C10_check_tables_partial oi hc h
    rw [hr]
    simp only [reduceCtorEq, false_iff]
    intro hn
    exact h.elim hn.1 hn.2
  · have h1 : ¬ TablesPresent oi := fun x => h (Or.inl x)
    have h2 : ¬ RevisionsRight oi := fun x => h (Or.inr x)
    simp only [h1, h2, not_false_eq_true, and_self, iff_true]
    rw [check_tables_eq oi hc]
    apply replay_init_abort
    intro hs
    rw [← missingTables_eq_nil] at h1
    rw [← revisionBreaches_eq_nil] at h2
    obtain ⟨a, ha⟩ := List.exists_mem_of_ne_nil _ h1
    obtain ⟨b, hb⟩ := List.exists_mem_of_ne_nil _ h2
    have := hs a (by simp [ha]) b (by simp [hb])
    rw [(missingTables_all oi a ha).2, (revisionBreaches_all oi b hb).2] at this
    revert this
    decide

example : Ex.oi.CountsAgree ∧ missingTables Ex.oi = [] ∧ revisionBreaches Ex.oi = [] :=
  ⟨Ex.oi_counts, by decide +kernel⟩
-- no OI_ARRAY table and an OI_VIS2 table of revision 1: abort
example : check_tables { Ex.oi with
    numArray := 0
    arrayList := []
    vis2List := [{ Ex.vis2 with revision := 1 }]
    numVis2 := 1 } = .abort := by decide +kernel

/-! ### C11: keywords -/

/-- C11. `check_header` reports exactly the mandatory keywords without value. -/
theorem C11_check_header (oi : OiFits R) :
    ∃ r, check_header oi = .ok r ∧ Reports r (headerBreaches oi) ∧
      (r.level = .none ↔ (V2 oi → oi.header.origin ≠ [] ∧ oi.header.date ≠ [] ∧
        oi.header.date_obs ≠ [] ∧ oi.header.telescop ≠ [] ∧ oi.header.instrume ≠ [] ∧
        oi.header.observer ≠ [] ∧ oi.header.insmode ≠ [] ∧ oi.header.object ≠ [])) ∧
      (r.level = .none ∨ r.level = .notOifits) := by
  have hall : ∀ b ∈ headerBreaches oi, b.level = .notOifits ∧
      b.description = ("Invalid/missing primary header keyword value" : CStr) := by
    unfold headerBreaches missingKey
    all_breaches <;> exact ⟨rfl, rfl⟩
  have key : ∀ (value key text : CStr), text = key ++ (" value missing from primary header" : CStr) →
      Emits (checkHeaderKey value text) (missingKey value key) := by
    intro value key text h
    subst h
    exact emits_breachIf _ _ _ (by simp)
  have hem : ∃ m, check_header oi = runCheck m ∧ Emits m (headerBreaches oi) := by
    refine ⟨_, rfl, ?_⟩
    unfold headerBreaches whenM
    by_cases hv : V2 oi
    · rw [if_pos ((is_two_iff oi).mpr hv), if_pos hv]
      simp only [List.append_assoc]
      refine emits_bind (key _ _ _ (by decide)) <| emits_bind (key _ _ _ (by decide)) <|
        emits_bind (key _ _ _ (by decide)) ?_
      have hv' : oi.header.content = ("OIFITS2" : CStr) := hv
      rw [hv']
      refine emits_bind (a := []) emits_pure <|
        emits_bind (key _ _ _ (by decide)) <| emits_bind (key _ _ _ (by decide)) <|
        emits_bind (key _ _ _ (by decide)) <| emits_bind (key _ _ _ (by decide))
          (key _ _ _ (by decide))
    · rw [if_neg (fun h => hv ((is_two_iff oi).mp h)), if_neg hv]
      exact emits_pure
  obtain ⟨m, hm, hem⟩ := hem
  rw [hm]
  obtain ⟨r, hr, hrep⟩ := runCheck_ok hem (sameDescription_of _ fun b hb => (hall b hb).2)
  refine ⟨r, hr, hrep, ?_, reports_level hrep fun b hb => (hall b hb).1⟩
  rw [reports_none_iff hrep (fun b hb => by rw [(hall b hb).1]; decide)]
  unfold headerBreaches missingKey
  by_cases hv : V2 oi
  · simp only [hv, if_true, List.append_eq_nil_iff, breachIf_eq_nil, and_assoc, forall_const, ne_eq]
  · simp [hv]

/-- C11. `check_keywords` reports exactly the keywords whose value is not one of
those listed (`frames`, `amptyps`, `phityps`, `fovtypes`; CALSTAT is C or U). -/
theorem C11_check_keywords (oi : OiFits R) :
    ∃ r, check_keywords oi = .ok r ∧ Reports r (keywordBreaches oi) ∧
      (r.level = .none ↔
        (∀ t ∈ oi.arrayList, t.frame ∈ frames) ∧
        (V2 oi → ∀ t ∈ oi.visList, t.amptyp ∈ amptyps ∧ t.phityp ∈ phityps) ∧
        (∀ t ∈ oi.fluxList, (t.calstat = 'C' ∨ t.calstat = 'U') ∧ t.fovtype ∈ fovtypes)) ∧
      (r.level = .none ∨ r.level = .notOifits) := by
  have hall : ∀ b ∈ keywordBreaches oi, b.level = .notOifits ∧
      b.description = ("Invalid keyword value" : CStr) := by
    unfold keywordBreaches
    all_breaches <;> exact ⟨rfl, rfl⟩
  have hem : ∃ m, check_keywords oi = runCheck m ∧ Emits m (keywordBreaches oi) := by
    refine ⟨_, rfl, ?_⟩
    unfold keywordBreaches
    rw [List.append_assoc]
    refine emits_bind (emits_enum fun k t _ => ?_) <| emits_bind (emits_enum fun k t _ => ?_)
      (emits_enum fun k t _ => ?_)
    · unfold checkArrayKeywords
      rw [tableText_eq]
      exact emits_breachIf _ _ _ (by simp [frames])
    · unfold checkVisKeywords
      rw [tableText_eq]
      refine emits_bind (emits_breachIf _ _ _ ?_) (emits_breachIf _ _ _ ?_)
      · rw [← is_two_iff]
        simp [amptyps, List.length_pos_iff, and_assoc]
      · rw [← is_two_iff]
        simp [phityps, List.length_pos_iff, and_assoc]
    · unfold checkFluxKeywords
      rw [tableText_eq]
      exact emits_bind (emits_breachIf _ _ _ (by simp))
        (emits_breachIf _ _ _ (by simp [fovtypes, List.length_pos_iff, and_assoc]))
  obtain ⟨m, hm, hem⟩ := hem
  rw [hm]
  obtain ⟨r, hr, hrep⟩ := runCheck_ok hem (sameDescription_of _ fun b hb => (hall b hb).2)
  refine ⟨r, hr, hrep, ?_, reports_level hrep fun b hb => (hall b hb).1⟩
  rw [reports_none_iff hrep (fun b hb => by rw [(hall b hb).1]; decide)]
  unfold keywordBreaches
  simp only [List.append_eq_nil_iff]
  rw [numbered_eq_nil (P := fun t => t.frame ∈ frames)
      fun k t _ => by rw [breachIf_eq_nil, Decidable.not_not],
    numbered_eq_nil (P := fun t => V2 oi → t.amptyp ∈ amptyps ∧ t.phityp ∈ phityps) fun k t _ => by
      rw [List.append_eq_nil_iff, breachIf_eq_nil, breachIf_eq_nil]
      by_cases hv : V2 oi <;> simp [hv],
    numbered_eq_nil (P := fun t => (t.calstat = 'C' ∨ t.calstat = 'U') ∧ t.fovtype ∈ fovtypes)
      fun k t _ => by
        rw [List.append_eq_nil_iff, breachIf_eq_nil, breachIf_eq_nil, Decidable.not_not,
          Decidable.not_not]
        simp]
  rw [and_assoc]
  refine and_congr Iff.rfl (and_congr ?_ Iff.rfl)
  exact ⟨fun h hv t ht => h t ht hv, fun h t ht hv => h hv t ht⟩

example : headerBreaches Ex.oi = [] ∧ keywordBreaches Ex.oi = [] := by decide +kernel
example : (headerBreaches { Ex.oi with header := { Ex.header with object := [] } }).length = 1 := by
  decide +kernel
example : (keywordBreaches { Ex.oi with visList := [{ Ex.vis with amptyp := "relative" }] }).length
    = 1 := by decide +kernel

/-! ### C12: flagging -/

/-- C12. On a well-formed dataset `check_flagging` reports exactly the unflagged
data with a negative error. -/
theorem C12_check_flagging (oi : OiFits R) (hw : oi.WF) :
    ∃ r, check_flagging oi = .ok r ∧ Reports r (flaggingBreaches oi) ∧
      (r.level = .none ↔
        (∀ t ∈ oi.visList, ∀ r ∈ t.record, ∀ j < t.nwave, ¬ visNegError r j) ∧
        (∀ t ∈ oi.vis2List, ∀ r ∈ t.record, ∀ j < t.nwave, ¬ vis2NegError r j) ∧
        (∀ t ∈ oi.t3List, ∀ r ∈ t.record, ∀ j < t.nwave, ¬ t3NegError r j)) ∧
      (r.level = .none ∨ r.level = .notOifits) := by
  have hall : ∀ b ∈ flaggingBreaches oi, b.level = .notOifits ∧
      b.description = ("Data table contains negative error bar" : CStr) := by
    unfold flaggingBreaches badChannels
    all_breaches <;> exact ⟨rfl, rfl⟩
  have hem : ∃ m, check_flagging oi = runCheck m ∧ Emits m (flaggingBreaches oi) := by
    refine ⟨_, rfl, ?_⟩
    unfold flaggingBreaches
    rw [List.append_assoc]
    refine emits_bind (emits_enum fun k t ht => emits_badChannels fun i r hr j hj => ?_) <|
      emits_bind (emits_enum fun k t ht => emits_badChannels fun i r hr j hj => ?_)
      (emits_enum fun k t ht => emits_badChannels fun i r hr j hj => ?_)
    · have h := (hw.vis t ht).recs r hr
      exact emits_twoErrors h.flag h.visamperr h.visphierr hj
    · have h := (hw.vis2 t ht).recs r hr
      exact emits_oneError h.flag h.vis2err hj
    · have h := (hw.t3 t ht).recs r hr
      exact emits_twoErrors h.flag h.t3amperr h.t3phierr hj
  obtain ⟨m, hm, hem⟩ := hem
  rw [hm]
  obtain ⟨r, hr, hrep⟩ := runCheck_ok hem (sameDescription_of _ fun b hb => (hall b hb).2)
  refine ⟨r, hr, hrep, ?_, reports_level hrep fun b hb => (hall b hb).1⟩
  rw [reports_none_iff hrep (fun b hb => by rw [(hall b hb).1]; decide)]
  unfold flaggingBreaches
  simp only [List.append_eq_nil_iff]
  rw [numbered_eq_nil fun k t _ => badChannels_eq_nil, numbered_eq_nil fun k t _ => badChannels_eq_nil,
    numbered_eq_nil fun k t _ => badChannels_eq_nil, and_assoc]

example : Ex.oi.WF ∧ flaggingBreaches Ex.oi = [] := ⟨Ex.oi_wf, by decide +kernel⟩
-- a negative error in a flagged and in an unflagged channel: one breach
example : (flaggingBreaches { Ex.oi with vis2List := [{ Ex.vis2 with
    record := [{ Ex.vis2Rec 1 56974 [true, false] with
      vis2err := [Ex.num (-1), Ex.num (-1)] }] }] }).map (·.location) =
    [("OI_VIS2 #1 record 1 channel 2" : CStr)] := by decide +kernel

/-! ### C13: further checks -/

/-- C13. On a well-formed dataset `check_t3amp` reports exactly the unflagged triple
product amplitudes which exceed 1 by more than their error. -/
theorem C13_check_t3amp (oi : OiFits R) (hw : oi.WF) :
    ∃ r, check_t3amp oi = .ok r ∧ Reports r (t3ampBreaches oi) ∧
      (r.level = .none ↔
        ∀ t ∈ oi.t3List, ∀ r ∈ t.record, ∀ j < t.nwave, ¬ t3Unnormalised r j) ∧
      (r.level = .none ∨ r.level = .notOifits) := by
  have hall : ∀ b ∈ t3ampBreaches oi, b.level = .notOifits ∧ b.description =
      ("OI_T3 table may contain unnormalised triple product amplitude" : CStr) := by
    unfold t3ampBreaches badChannels
    all_breaches <;> exact ⟨rfl, rfl⟩
  have hem : ∃ m, check_t3amp oi = runCheck m ∧ Emits m (t3ampBreaches oi) := by
    refine ⟨_, rfl, ?_⟩
    refine emits_enum fun k t ht => emits_badChannels fun i r hr j hj => ?_
    have h := (hw.t3 t ht).recs r hr
    have ef := List.getElem?_eq_getElem (show j < r.flag.length by have := h.flag; omega)
    have ea := List.getElem?_eq_getElem (show j < r.t3amp.length by have := h.t3amp; omega)
    have ee := List.getElem?_eq_getElem (show j < r.t3amperr.length by have := h.t3amperr; omega)
    refine emits_read ef ?_
    unfold t3Unnormalised
    rw [channelText_eq, breachIf_congr (p := _ ∧ _) (and_congr (unflagged_iff ef) (has_iff ea))]
    apply emits_unflagged
    refine emits_read ea (emits_read ee ?_)
    refine emits_breachIf  _ _ _ ?_
    rw [ee]; exact Iff.rfl
  obtain ⟨m, hm, hem⟩ := hem
  rw [hm]
  obtain ⟨r, hr, hrep⟩ := runCheck_ok hem (sameDescription_of _ fun b hb => (hall b hb).2)
  refine ⟨r, hr, hrep, ?_, reports_level hrep fun b hb => (hall b hb).1⟩
  rw [reports_none_iff hrep (fun b hb => by rw [(hall b hb).1]; decide)]
  unfold t3ampBreaches
  exact numbered_eq_nil fun k t _ => badChannels_eq_nil

/-- C13. On a well-formed dataset `check_waveorder` warns iff some wavelength is
shorter than that of the channel before. -/
theorem C13_check_waveorder (oi : OiFits R) (hw : oi.WF) :
    ∃ r, check_waveorder oi = .ok r ∧ Reports r (waveorderBreaches oi) ∧
      (r.level = .none ↔ ∀ w ∈ oi.wavelengthList, Ascending w) ∧
      (r.level = .none ∨ r.level = .warning) := by
  have hall : ∀ b ∈ waveorderBreaches oi, b.level = .warning ∧ b.description =
      ("OI_WAVELENGTH has wavelengths not in ascending order" : CStr) := by
    unfold waveorderBreaches
    all_breaches <;> exact ⟨rfl, rfl⟩
  have hem : ∃ m, check_waveorder oi = runCheck m ∧ Emits m (waveorderBreaches oi) := by
    refine ⟨_, rfl, ?_⟩
    refine emits_each fun k w hwm => emits_range fun j hj => ?_
    have hl := (hw.wavelength w hwm).eff_wave
    have e0 := List.getElem?_eq_getElem (show j < w.eff_wave.length by omega)
    have e1 := List.getElem?_eq_getElem (show j + 1 < w.eff_wave.length by omega)
    refine emits_read e1 ?_
    simp only [Nat.add_sub_cancel]
    refine emits_read e0 ?_
    have et : fmtInt (((j + 1 : Nat) : Int) + 1) = dec (j + 2) := fmtInt_succ (j + 1)
    rw [et]
    have i0 : Inverted w j ↔ ltF w.eff_wave[j + 1] w.eff_wave[j] = true := by
      unfold Inverted; rw [has_iff e0, e1]; exact Iff.rfl
    cases hlt : ltF w.eff_wave[j + 1] w.eff_wave[j] with
    | true =>
      rw [breachIf_congr (q := True) (by simp [i0, hlt])]
      simp only [orM, if_true, pure_bind]
      exact emits_breachIf (c := true) _ _ _ (by simp)
    | false =>
      rw [breachIf_congr (q := Inverted w (j + 1)) (by simp [i0, hlt])]
      simp only [orM, Bool.false_eq_true, if_false]
      by_cases hn : j + 1 + 1 < w.nwave
      · have e2 := List.getElem?_eq_getElem (show j + 1 + 1 < w.eff_wave.length by omega)
        simp only [andM, hn, decide_true, if_true, bind_assoc]
        refine emits_read e1 (emits_read e2 ?_)
        simp only [pure_bind]
        refine emits_breachIf (c := ltF w.eff_wave[j + 1 + 1] w.eff_wave[j + 1]) _ _ _ ?_
        unfold Inverted; rw [has_iff e1, e2]; exact Iff.rfl
      · have e2 := List.getElem?_eq_none (show w.eff_wave.length ≤ j + 1 + 1 by omega)
        simp only [andM, hn, decide_false, Bool.false_eq_true, if_false, pure_bind]
        refine emits_breachIf (c := false) _ _ _ ?_
        unfold Inverted; rw [has_iff e1, e2]; simp
  obtain ⟨m, hm, hem⟩ := hem
  rw [hm]
  obtain ⟨r, hr, hrep⟩ := runCheck_ok hem (sameDescription_of _ fun b hb => (hall b hb).2)
  refine ⟨r, hr, hrep, ?_, reports_level hrep fun b hb => (hall b hb).1⟩
  rw [reports_none_iff hrep (fun b hb => by rw [(hall b hb).1]; decide)]
  unfold waveorderBreaches
  rw [List.flatMap_eq_nil_iff]
  refine forall_congr' fun w => forall_congr' fun hwm => ?_
  rw [List.flatMap_eq_nil_iff]
  simp only [breachIf_eq_nil, List.mem_range, not_or]
  have hl := (hw.wavelength w hwm).eff_wave
  constructor
  · intro h i hi
    by_cases hlt : i < w.nwave - 1
    · exact (h i hlt).1 hi
    · unfold Inverted Has at hi
      rw [List.getElem?_eq_none (show w.eff_wave.length ≤ i + 1 by omega)] at hi
      cases hx : w.eff_wave[i]? <;> simp [hx] at hi
  · intro h i _
    exact ⟨h i, h (i + 1)⟩

/-- C13. `check_time` warns of exactly the records of a version-2 dataset with a
TIME of magnitude above 1e-10. -/
theorem C13_check_time (oi : OiFits R) :
    ∃ r, check_time oi = .ok r ∧ Reports r (timeBreaches oi) ∧
      (r.level = .none ↔ (V2 oi →
        (∀ t ∈ oi.visList, ∀ r ∈ t.record, ¬ NonZeroTime r.time) ∧
        (∀ t ∈ oi.vis2List, ∀ r ∈ t.record, ¬ NonZeroTime r.time) ∧
        (∀ t ∈ oi.t3List, ∀ r ∈ t.record, ¬ NonZeroTime r.time))) ∧
      (r.level = .none ∨ r.level = .warning) := by
  have hall : ∀ b ∈ timeBreaches oi, b.level = .warning ∧ b.description =
      ("Non-zero TIME values in OIFITS v2 data table" : CStr) := by
    unfold timeBreaches nonZeroTimes
    all_breaches <;> exact ⟨rfl, rfl⟩
  have key : ∀ {ρ : Type} (name : CStr) (time : ρ → R.Dbl) (k : Nat) (recs : List ρ),
      Emits (enumM recs fun i r => checkZeroTime name k i (time r))
        (nonZeroTimes name time (k + 1) recs) := by
    intro ρ name time k recs
    refine emits_enum fun i r _ => ?_
    unfold checkZeroTime
    rw [recordText_eq]
    exact emits_breachIf _ _ _ Iff.rfl
  have hem : ∃ m, check_time oi = runCheck m ∧ Emits m (timeBreaches oi) := by
    refine ⟨_, rfl, ?_⟩
    unfold timeBreaches whenM
    by_cases hv : V2 oi
    · rw [if_pos ((is_two_iff oi).mpr hv), if_pos hv, List.append_assoc]
      exact emits_bind (emits_enum fun k t _ => key _ _ _ _) <|
        emits_bind (emits_enum fun k t _ => key _ _ _ _) (emits_enum fun k t _ => key _ _ _ _)
    · rw [if_neg (fun h => hv ((is_two_iff oi).mp h)), if_neg hv]
      exact emits_pure
  obtain ⟨m, hm, hem⟩ := hem
  rw [hm]
  obtain ⟨r, hr, hrep⟩ := runCheck_ok hem (sameDescription_of _ fun b hb => (hall b hb).2)
  refine ⟨r, hr, hrep, ?_, reports_level hrep fun b hb => (hall b hb).1⟩
  rw [reports_none_iff hrep (fun b hb => by rw [(hall b hb).1]; decide)]
  have hn : ∀ {ρ : Type} (name : CStr) (time : ρ → R.Dbl) (k : Nat) (recs : List ρ),
      nonZeroTimes name time k recs = [] ↔ ∀ r ∈ recs, ¬ NonZeroTime (time r) := by
    intro ρ name time k recs
    exact numbered_eq_nil fun i r _ => breachIf_eq_nil
  unfold timeBreaches
  by_cases hv : V2 oi
  · simp only [hv, if_true, forall_const, List.append_eq_nil_iff]
    rw [numbered_eq_nil fun k t _ => hn _ _ _ _, numbered_eq_nil fun k t _ => hn _ _ _ _,
      numbered_eq_nil fun k t _ => hn _ _ _ _, and_assoc]
  · simp [hv]

/-- C13. On a dataset without empty OI_FLUX tables `check_flux` reports exactly the
calibrated tables with ARRNAME or STA_INDEX and the uncalibrated tables without one
of these or with FOVTYPE. -/
theorem C13_check_flux (oi : OiFits R) (hw : ∀ t ∈ oi.fluxList, t.record ≠ []) :
    ∃ r, check_flux oi = .ok r ∧ Reports r (fluxBreaches oi) ∧
      (r.level = .none ↔ ∀ t ∈ oi.fluxList,
        (t.calstat = 'C' → t.arrname = [] ∧ ¬ HasStation t) ∧
        (t.calstat = 'U' → t.arrname ≠ [] ∧ HasStation t ∧ t.fovtype = [])) ∧
      (r.level = .none ∨ r.level = .notOifits) := by
  have hall : ∀ b ∈ fluxBreaches oi, b.level = .notOifits ∧ b.description =
      ("ARRNAME/STA_INDEX/FOVTYPE present (missing) in (un)calibrated fluxes" : CStr) := by
    unfold fluxBreaches
    all_breaches <;> exact ⟨rfl, rfl⟩
  have hem : ∃ m, check_flux oi = runCheck m ∧ Emits m (fluxBreaches oi) := by
    refine ⟨_, rfl, ?_⟩
    unfold fluxBreaches
    dsimp only
    refine emits_enum fun k t ht => ?_
    obtain ⟨r, hr⟩ : ∃ r, t.record[0]? = some r := by
      cases h : t.record with
      | nil => exact absurd h (hw t ht)
      | cons r l => exact ⟨r, by simp⟩
    have hst : HasStation t ↔ r.sta_index ≠ -1 := by
      unfold HasStation; rw [hr]; simp
    have no : ∀ {p : Prop} [Decidable p] {l : Level} {d s : CStr}, ¬ p → breachIf p l d s = [] :=
      fun h => breachIf_eq_nil.mpr h
    by_cases hC : t.calstat = 'C'
    · have hU : ¬ t.calstat = 'U' := by rw [hC]; decide
      rw [if_pos (by simpa using hC)]
      rw [no (p := t.calstat = 'U' ∧ t.arrname = []) (fun h => hU h.1),
        no (p := t.calstat = 'U' ∧ ¬ HasStation t) (fun h => hU h.1),
        no (p := t.calstat = 'U' ∧ t.fovtype ≠ []) (fun h => hU h.1)]
      simp only [List.append_nil]
      unfold checkFluxCal
      rw [tableText_eq]
      refine emits_bind (emits_breachIf _ _ _ (by simp [hC, List.length_pos_iff]))
        (emits_read hr (emits_breachIf _ _ _ ?_))
      rw [hst]; simp [hC]
    · rw [if_neg (by simpa using hC)]
      rw [no (p := t.calstat = 'C' ∧ t.arrname ≠ []) (fun h => hC h.1),
        no (p := t.calstat = 'C' ∧ HasStation t) (fun h => hC h.1)]
      simp only [List.nil_append]
      by_cases hU : t.calstat = 'U'
      · rw [if_pos (by simpa using hU), List.append_assoc]
        unfold checkFluxUncal
        rw [tableText_eq]
        refine emits_bind (emits_breachIf _ _ _ (by simp [hU]))
          (emits_read hr (emits_bind (emits_breachIf _ _ _ ?_)
            (emits_breachIf _ _ _ (by simp [hU, List.length_pos_iff]))))
        rw [hst]; simp [hU]
      · rw [if_neg (by simpa using hU)]
        rw [no (p := t.calstat = 'U' ∧ t.arrname = []) (fun h => hU h.1),
          no (p := t.calstat = 'U' ∧ ¬ HasStation t) (fun h => hU h.1),
          no (p := t.calstat = 'U' ∧ t.fovtype ≠ []) (fun h => hU h.1)]
        exact emits_pure
  obtain ⟨m, hm, hem⟩ := hem
  rw [hm]
  obtain ⟨r, hr, hrep⟩ := runCheck_ok hem (sameDescription_of _ fun b hb => (hall b hb).2)
  refine ⟨r, hr, hrep, ?_, reports_level hrep fun b hb => (hall b hb).1⟩
  rw [reports_none_iff hrep (fun b hb => by rw [(hall b hb).1]; decide)]
  unfold fluxBreaches
  refine numbered_eq_nil fun k t _ => ?_
  simp only [List.append_eq_nil_iff, breachIf_eq_nil]
  by_cases h1 : t.calstat = 'C' <;> by_cases h2 : t.calstat = 'U' <;> by_cases h3 : HasStation t <;>
    simp [h1, h2, h3]

/-- C13. `check_visrefmap` reports exactly the differential OI_VIS tables without
VISREFMAP, and warns of the others with VISREFMAP. -/
theorem C13_check_visrefmap (oi : OiFits R) :
    ∃ r, check_visrefmap oi = .ok r ∧ Reports r (visrefmapBreaches oi) ∧
      (r.level = .none ↔ ∀ t ∈ oi.visList, (t.usevisrefmap = true ↔ Differential t)) ∧
      (r.level = .notOifits ↔ ∃ t ∈ oi.visList, Differential t ∧ t.usevisrefmap = false) := by
  have hall : ∀ b ∈ visrefmapBreaches oi, b.level ≠ .none ∧ b.description =
      ("VISREFMAP present (missing) for absolute (differential) vis" : CStr) := by
    unfold visrefmapBreaches
    all_breaches <;> exact ⟨by simp, rfl⟩
  have no : ∀ {p : Prop} [Decidable p] {l : Level} {d s : CStr}, ¬ p → breachIf p l d s = [] :=
    fun h => breachIf_eq_nil.mpr h
  have hem : ∃ m, check_visrefmap oi = runCheck m ∧ Emits m (visrefmapBreaches oi) := by
    refine ⟨_, rfl, ?_⟩
    unfold visrefmapBreaches
    dsimp only
    refine emits_enum fun k t _ => ?_
    have hd : (t.amptyp == ("differential" : CStr) || t.phityp == ("differential" : CStr)) = true ↔
        Differential t := by simp [Differential]
    simp only [tableText_eq]
    by_cases h : Differential t
    · rw [if_pos (hd.mpr h), no (p := ¬ Differential t ∧ t.usevisrefmap = true) (fun x => x.1 h),
        List.append_nil]
      exact emits_breachIf _ _ _ (by simp [h])
    · rw [if_neg (fun x => h (hd.mp x)),
        no (p := Differential t ∧ t.usevisrefmap = false) (fun x => h x.1), List.nil_append]
      exact emits_breachIf _ _ _ (by simp [h])
  obtain ⟨m, hm, hem⟩ := hem
  rw [hm]
  obtain ⟨r, hr, hrep⟩ := runCheck_ok hem (sameDescription_of _ fun b hb => (hall b hb).2)
  refine ⟨r, hr, hrep, ?_, ?_⟩
  · rw [reports_none_iff hrep (fun b hb => (hall b hb).1)]
    unfold visrefmapBreaches
    refine numbered_eq_nil fun k t _ => ?_
    simp only [List.append_eq_nil_iff, breachIf_eq_nil]
    by_cases h : Differential t <;> cases t.usevisrefmap <;> simp [h]
  · constructor
    · intro hl
      rcases hrep.attained with h | ⟨b, hb, h⟩
      · rw [hl] at h; cases h
      · rw [hl] at h
        obtain ⟨e, he, hb⟩ := List.mem_flatMap.mp hb
        refine ⟨e.1, List.fst_mem_of_mem_zipIdx he, ?_⟩
        rcases List.mem_append.mp hb with hb | hb
        · unfold breachIf at hb
          split at hb
          · assumption
          · simp at hb
        · unfold breachIf at hb
          split at hb
          · simp only [List.mem_singleton] at hb
            rw [hb] at h; cases h
          · simp at hb
    · rintro ⟨t, ht, h⟩
      obtain ⟨i, hi, e⟩ := List.getElem_of_mem ht
      have hmem : ∃ b ∈ visrefmapBreaches oi, b.level = .notOifits := by
        refine ⟨⟨.notOifits, "VISREFMAP present (missing) for absolute (differential) vis",
            shown (atTable "OI_VIS" (1 + i) ++ (" AMPTYP='" : CStr) ++ t.amptyp ++
              ("' PHITYP='" : CStr) ++ t.phityp ++ ("' has no VISREFMAP" : CStr))⟩,
          List.mem_flatMap.mpr ⟨(t, 1 + i), ?_, ?_⟩, rfl⟩
        · rw [List.mem_iff_getElem]
          exact ⟨i, by simpa using hi, by simp [e]⟩
        · apply List.mem_append_left
          unfold breachIf
          rw [if_pos h]
          exact List.mem_singleton.mpr rfl
      obtain ⟨b, hb, hbl⟩ := hmem
      have h1 := hrep.atLeast b hb
      rw [hbl] at h1
      rcases hrep.attained with h2 | ⟨c, hc, h2⟩
      · rw [h2] at h1; simp [Level.toNat] at h1
      · have : ∀ c ∈ visrefmapBreaches oi, c.level = .notOifits ∨ c.level = .warning := by
          unfold visrefmapBreaches
          all_breaches <;> simp
        rcases this c hc with h3 | h3
        · rw [← h2, h3]
        · rw [← h2, h3] at h1; simp [Level.toNat] at h1

example : t3ampBreaches Ex.oi = [] ∧ waveorderBreaches Ex.oi = [] ∧ timeBreaches Ex.oi = [] ∧
    visrefmapBreaches Ex.oi = [] := by decide +kernel
-- the uncalibrated flux table has FOVTYPE
example : (fluxBreaches Ex.oi).length = 1 ∧ (∀ t ∈ Ex.oi.fluxList, t.record ≠ []) := by
  decide +kernel
example : (visrefmapBreaches { Ex.oi with visList := [{ Ex.vis with usevisrefmap := false }] }).map
    (·.level) = [.notOifits] := by decide +kernel

/-! ### C14: checks do not abort -/

/-- C14, what holds: on a well-formed dataset none of the fourteen checks reads out
of bounds, and twelve of them never abort. Missing from the full statement:
`check_tables` and `check_elements_present` abort in the cases described by
`C10_abort_iff` and `C07_abort_iff`. -/
theorem C14_checks_safe_partial (oi : OiFits R) (hw : oi.WF) :
    (∀ check ∈ [@check_header R, check_keywords, check_visrefmap, check_unique_targets,
      check_targets_present, check_arrname, check_corr_present, check_flagging, check_t3amp,
      check_waveorder, check_time, check_flux], ∃ r, check oi = .ok r) ∧
    check_tables oi ≠ .ub ∧ check_elements_present oi ≠ .ub := by
  refine ⟨?_, ?_, ?_⟩
  · simp only [List.mem_cons, List.not_mem_nil, or_false, forall_eq_or_imp, forall_eq]
    have f := hw.flux
    exact ⟨(C11_check_header oi).imp fun _ h => h.1, (C11_check_keywords oi).imp fun _ h => h.1,
      (C13_check_visrefmap oi).imp fun _ h => h.1, (C05_check_unique_targets oi).imp fun _ h => h.1,
      (C06_check_targets_present oi).imp fun _ h => h.1,
      (C08_check_arrname_partial oi).imp fun _ h => h.1,
      (C09_check_corr_present oi).imp fun _ h => h.1,
      (C12_check_flagging oi hw).imp fun _ h => h.1, (C13_check_t3amp oi hw).imp fun _ h => h.1,
      (C13_check_waveorder oi hw).imp fun _ h => h.1, (C13_check_time oi).imp fun _ h => h.1,
      (C13_check_flux oi fun t ht => (f t ht).rows).imp fun _ h => h.1⟩
  · intro h
    by_cases h' : TablesPresent oi ∨ RevisionsRight oi
    · obtain ⟨r, hr, _⟩ := C10_check_tables_partial oi hw.counts h'
      rw [hr] at h; cases h
    · rw [(C10_abort_iff oi hw.counts).mpr ⟨fun x => h' (Or.inl x), fun x => h' (Or.inr x)⟩] at h
      cases h
  · intro h
    rw [check_elements_present_eq] at h
    by_cases hs : SameDescription (inspolBreaches oi ++ dataElementBreaches oi)
    · obtain ⟨r, hr, _⟩ := replay_init_ok hs
      rw [hr] at h; cases h
    · rw [replay_init_abort hs] at h; cases h

/-- C14, false part: `check_tables` aborts on a well-formed dataset. -/
theorem C14_checks_abort_false :
    ¬ ∀ (R : FP) (oi : OiFits R), oi.WF → ∃ r, check_tables oi = .ok r := by
  intro h
  let oi : OiFits FP.ratFP := { Ex.oi with
    numArray := 0, arrayList := [], targets := { Ex.targets with revision := 1 } }
  have hwf : oi.WF := { Ex.oi_wf with
    counts := ⟨rfl, rfl, rfl, rfl, rfl, rfl, rfl, rfl⟩
    array := by intro t ht; simp [oi] at ht }
  obtain ⟨r, hr⟩ := h _ oi hwf
  have : check_tables oi = .abort := by decide +kernel
  rw [this] at hr
  cases hr

example : Ex.oi.WF := Ex.oi_wf

end Verif
