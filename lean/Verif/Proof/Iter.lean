import Verif.Spec.Iter
import Verif.Spec.WF
import Verif.Proof.Glob

namespace Verif
open Outcome Spec
variable {R : FP} {τ ρ : Type}

/-- The acceptance test, as a function of the datum. -/
def acceptAt (K : IterKind R τ ρ) (oi : OiFits R) (f : FilterSpec R) (d : Datum τ ρ) : Outcome Bool :=
  if !iter_accept_table K f d.table then .ok false
  else if !K.acceptRecord f d.record then .ok false
  else K.acceptChannel f (oi_fits_lookup_wavelength oi (K.insname d.table)) d.record d.iwave

/-- The iterator stands at the datum. -/
structure AtDatum (K : IterKind R τ ρ) (it : Iter R τ) (d : Datum τ ρ) : Prop where
  link : it.link.head? = some d.table
  pWave : it.pWave = oi_fits_lookup_wavelength it.pData (K.insname d.table)
  extver : it.extver = d.extver
  irec : it.irec = d.irec
  record : (K.record d.table)[d.irec]? = some d.record
  iwave : it.iwave = d.iwave

theorem AtDatum.current {K : IterKind R τ ρ} {it : Iter R τ} {d : Datum τ ρ} (h : AtDatum K it d) :
    iterCurrent K it = .ok d := by
  obtain ⟨h1, h2, h3, h4, h5, h6⟩ := h
  unfold iterCurrent
  have : ¬ ((d.iwave : Int) < 0) := by omega
  simp [h1, h3, h4, h5, h6, index, chanIndex, this]

theorem AtDatum.accept {K : IterKind R τ ρ} {it : Iter R τ} {d : Datum τ ρ} (h : AtDatum K it d) :
    iterAccept K it = acceptAt K it.pData it.filter d := by
  obtain ⟨h1, h2, h3, h4, h5, h6⟩ := h
  unfold iterAccept acceptAt
  simp only [h1, deref_some, bind_ok, h4, h5, index, h6, chanIndex, h2]
  have : ¬ ((d.iwave : Int) < 0) := by omega
  simp only [this, if_false, bind_ok, Int.toNat_natCast, pure_eq]

/-- The data of record `r` (index `i`) of table `t`. -/
def recData (K : IterKind R τ ρ) (e : Nat) (t : τ) (i : Nat) (r : ρ) : List (Datum τ ρ) :=
  (List.range (K.nwave t)).map fun j => ⟨e, t, i, r, j⟩

/-- The data in `ts`, the first of which has EXTVER `e`. -/
def tabsData (K : IterKind R τ ρ) (e : Nat) (ts : List τ) : List (Datum τ ρ) :=
  (ts.zipIdx e).flatMap fun (t, e) => (K.record t).zipIdx.flatMap fun (r, i) => recData K e t i r

/-- The data after the current one. -/
def after (K : IterKind R τ ρ) (it : Iter R τ) (t : τ) (ts : List τ) (r : ρ) : List (Datum τ ρ) :=
  (recData K it.extver t it.irec r).drop (it.iwave + 1).toNat ++
  (((K.record t).zipIdx.drop (it.irec + 1)).flatMap fun (r, i) => recData K it.extver t i r) ++
  tabsData K (it.extver + 1) ts

/-- The data in `rest` remain to be visited. -/
inductive Remain (K : IterKind R τ ρ) (it : Iter R τ) : List (Datum τ ρ) → Prop
  | none : it.link = [] → Remain K it []
  | some (t : τ) (ts : List τ) (r : ρ) : it.link = t :: ts →
      it.pWave = oi_fits_lookup_wavelength it.pData (K.insname t) →
      (K.record t)[it.irec]? = some r → -1 ≤ it.iwave →
      (∀ t ∈ ts, K.record t ≠ [] ∧ K.nwave t ≠ 0) → Remain K it (after K it t ts r)

theorem recData_cons (K : IterKind R τ ρ) (e : Nat) (t : τ) (i : Nat) (r : ρ) (h : K.nwave t ≠ 0) :
    recData K e t i r = ⟨e, t, i, r, 0⟩ :: (recData K e t i r).drop 1 := by
  unfold recData
  obtain ⟨n, hn⟩ := Nat.exists_eq_succ_of_ne_zero h
  rw [hn, List.range_succ_eq_map]
  simp

theorem recData_drop (K : IterKind R τ ρ) (e : Nat) (t : τ) (i : Nat) (r : ρ) (j : Nat)
    (h : j < K.nwave t) :
    (recData K e t i r).drop j = ⟨e, t, i, r, j⟩ :: (recData K e t i r).drop (j + 1) := by
  unfold recData
  rw [List.drop_eq_getElem_cons (by simpa using h)]
  simp

theorem tabsData_cons (K : IterKind R τ ρ) (e : Nat) (t : τ) (ts : List τ) (r : ρ) (rs : List ρ)
    (h : K.record t = r :: rs) :
    tabsData K e (t :: ts) = recData K e t 0 r ++
      (((K.record t).zipIdx.drop 1).flatMap fun (r, i) => recData K e t i r) ++
      tabsData K (e + 1) ts := by
  unfold tabsData
  simp [h]

theorem remain_init (K : IterKind R τ ρ) (oi : OiFits R) (f : Option (FilterSpec R))
    (h : ∀ t ∈ K.tables oi, K.record t ≠ [] ∧ K.nwave t ≠ 0) :
    Remain K (iter_init K oi f) (tabsData K 1 (K.tables oi)) := by
  cases ht : K.tables oi with
  | nil => exact .none (by simp [iter_init, ht])
  | cons t ts =>
    obtain ⟨h1, h2⟩ := h t (by simp [ht])
    obtain ⟨r, rs, hr⟩ := List.exists_cons_of_ne_nil h1
    rw [tabsData_cons K 1 t ts r rs hr]
    have := Remain.some (K := K) (it := iter_init K oi f) t ts r (by simp [iter_init, ht])
      (by simp [iter_init, ht]) (by simp [iter_init, hr]) (by simp [iter_init])
      (fun t' h' => h t' (by simp [ht, h']))
    simpa [after, iter_init] using this

/-- One advance moves to the first of the remaining data. -/
theorem remain_advance {K : IterKind R τ ρ} {it : Iter R τ} {rest : List (Datum τ ρ)}
    (h : Remain K it rest) (hn : ∀ t ∈ it.link, K.nwave t ≠ 0) :
    (rest = [] ∧ iterAdvance K it = none) ∨
    ∃ d rest' it', rest = d :: rest' ∧ iterAdvance K it = some it' ∧ AtDatum K it' d ∧
      Remain K it' rest' ∧ it'.pData = it.pData ∧ it'.filter = it.filter ∧
      (∀ t ∈ it'.link, K.nwave t ≠ 0) := by
  cases h with
  | none h => exact .inl ⟨rfl, by simp [iterAdvance, h]⟩
  | some t ts r hl hw hr hi hts =>
    have hir : it.irec < (K.record t).length := (List.getElem?_eq_some_iff.1 hr).1
    unfold iterAdvance
    simp only [hl]
    split
    · -- next channel
      rename_i h1
      right
      have hj : (it.iwave + 1).toNat < K.nwave t := by omega
      have e1 : (it.iwave + 1 + 1).toNat = (it.iwave + 1).toNat + 1 := by omega
      refine ⟨⟨it.extver, t, it.irec, r, (it.iwave + 1).toNat⟩,
        after K ⟨it.pData, it.filter, t :: ts, it.pWave, it.extver, it.irec, it.iwave + 1⟩ t ts r,
        _, ?_, rfl, ?_, ?_, rfl, rfl, ?_⟩
      · unfold after
        simp only [e1]
        rw [recData_drop K _ t _ r _ hj]
        rfl
      · exact ⟨rfl, hw, rfl, rfl, hr, by simp; omega⟩
      · exact Remain.some t ts r rfl hw hr (by simp; omega) hts
      · rwa [hl] at hn
    · rename_i h1
      have hd : (recData K it.extver t it.irec r).drop (it.iwave + 1).toNat = [] := by
        simp [recData]; omega
      split
      · rename_i h2
        right
        have hir' : it.irec + 1 < (K.record t).length := by omega
        refine ⟨⟨it.extver, t, it.irec + 1, (K.record t)[it.irec + 1], 0⟩,
          after K ⟨it.pData, it.filter, t :: ts, it.pWave, it.extver, it.irec + 1, 0⟩ t ts
            (K.record t)[it.irec + 1], _, ?_, rfl, ?_, ?_, rfl, rfl, ?_⟩
        · unfold after
          simp only [hd, List.nil_append]
          rw [List.drop_eq_getElem_cons (by simpa using hir')]
          simp only [List.flatMap_cons, List.getElem_zipIdx, Nat.zero_add]
          rw [recData_cons K _ t _ _ (hn t (by simp [hl]))]
          simp
        · exact ⟨rfl, hw, rfl, rfl, by simp [hir'], rfl⟩
        · exact Remain.some t ts (K.record t)[it.irec + 1] rfl hw (by simp [hir']) (by simp) hts
        · rwa [hl] at hn
      · rename_i h2
        have hd2 : (K.record t).zipIdx.drop (it.irec + 1) = [] := by simp; omega
        cases ts with
        | nil => left; exact ⟨by simp [after, hd, hd2, tabsData], rfl⟩
        | cons t' ts' =>
          right
          obtain ⟨g1, g2⟩ := hts t' (by simp)
          obtain ⟨r', rs', hr'⟩ := List.exists_cons_of_ne_nil g1
          refine ⟨⟨it.extver + 1, t', 0, r', 0⟩,
            after K ⟨it.pData, it.filter, t' :: ts', oi_fits_lookup_wavelength it.pData (K.insname t'),
              it.extver + 1, 0, 0⟩ t' ts' r', _, ?_, rfl, ?_, ?_, rfl, rfl, ?_⟩
          · unfold after
            simp only [hd, hd2, List.flatMap_nil, List.nil_append]
            rw [tabsData_cons K _ t' ts' r' rs' hr', recData_cons K _ t' _ _ g2]
            simp
          · exact ⟨rfl, rfl, rfl, rfl, by simp [hr'], rfl⟩
          · exact Remain.some t' ts' r' rfl rfl (by simp [hr']) (by simp)
              (fun t'' h'' => hts t'' (by simp [h'']))
          · intro t'' h''; exact hn t'' (by rw [hl]; exact List.mem_cons_of_mem _ h'')

open Classical in
/-- The loop moves to the first of the remaining data with property `P`. -/
theorem iterLoop_remain {K : IterKind R τ ρ} {oi : OiFits R} {f : FilterSpec R}
    {P : Datum τ ρ → Prop} (rest : List (Datum τ ρ)) :
    ∀ {it : Iter R τ}, Remain K it rest → (∀ t ∈ it.link, K.nwave t ≠ 0) →
    it.pData = oi → it.filter = f →
    (∀ d ∈ rest, ∃ b, acceptAt K oi f d = .ok b ∧ (b = true ↔ P d)) →
    (∃ it', iterLoop K it = .ok (it', false) ∧ select P rest = [] ∧ Remain K it' [] ∧
      it'.pData = oi ∧ it'.filter = f ∧ (∀ t ∈ it'.link, K.nwave t ≠ 0)) ∨
    ∃ it' d rest', iterLoop K it = .ok (it', true) ∧ select P rest = d :: select P rest' ∧
      AtDatum K it' d ∧ Remain K it' rest' ∧ (∀ x ∈ rest', x ∈ rest) ∧
      it'.pData = oi ∧ it'.filter = f ∧ (∀ t ∈ it'.link, K.nwave t ≠ 0) := by
  induction rest with
  | nil =>
    intro it h hn ho hf _
    rcases remain_advance h hn with ⟨_, ha⟩ | ⟨d, rest', it', he, _⟩
    · left
      refine ⟨it, ?_, rfl, h, ho, hf, hn⟩
      unfold iterLoop
      split
      · rfl
      · rename_i h1; rw [ha] at h1; cases h1
    · cases he
  | cons x xs ih =>
    intro it h hn ho hf hacc
    rcases remain_advance h hn with ⟨he, _⟩ | ⟨d, rest', it', he, ha, hat, hrem, hpd, hfl, hn'⟩
    · cases he
    · cases he
      obtain ⟨b, hb, hP⟩ := hacc x (by simp)
      have hstep : iterLoop K it = (do
          let ok ← iterAccept K it'
          if ok then .ok (it', true) else iterLoop K it') := by
        rw [iterLoop]
        split
        · rename_i h1; rw [ha] at h1; cases h1
        · rename_i it2 h1; rw [ha] at h1; cases h1; rfl
      have hacc' : iterAccept K it' = .ok b := by
        rw [hat.accept, hpd, hfl, ho, hf, hb]
      rw [hacc', bind_ok] at hstep
      cases b with
      | true =>
        right
        refine ⟨it', x, xs, by simpa using hstep, ?_, hat, hrem, fun y hy => by simp [hy],
          by rw [hpd, ho], by rw [hfl, hf], hn'⟩
        have : P x := hP.1 rfl
        simp [select, this]
      | false =>
        have hnP : ¬ P x := by rw [← hP]; simp
        have hsel : select P (x :: xs) = select P xs := by simp [select, hnP]
        simp only [Bool.false_eq_true, if_false] at hstep
        rw [hstep, hsel]
        rcases ih hrem hn' (by rw [hpd, ho]) (by rw [hfl, hf])
          (fun d hd => hacc d (by simp [hd])) with h1 | ⟨it2, d, rest', h1, h2, h3, h4, h5, h6⟩
        · exact .inl h1
        · exact .inr ⟨it2, d, rest', h1, h2, h3, h4, fun y hy => by simp [h5 y hy], h6⟩

theorem yields_nil {α : Type} (n : Nat) : yields ([] : List α) (n + 1) = none :: yields [] n := by
  simp [yields, List.range_succ_eq_map]

theorem yields_cons {α : Type} (a : α) (l : List α) (n : Nat) :
    yields (a :: l) (n + 1) = some a :: yields l n := by
  simp [yields, List.range_succ_eq_map]

/-- Any number of calls yield the remaining data with property `P`. -/
theorem calls_remain {K : IterKind R τ ρ} {oi : OiFits R} {f : FilterSpec R}
    {P : Datum τ ρ → Prop} (he : K.enabled f = true) (n : Nat) :
    ∀ {it : Iter R τ} (rest : List (Datum τ ρ)), Remain K it rest →
    (∀ t ∈ it.link, K.nwave t ≠ 0) → it.pData = oi → it.filter = f →
    (∀ d ∈ rest, ∃ b, acceptAt K oi f d = .ok b ∧ (b = true ↔ P d)) →
    ∃ it', calls K n it = .ok (it', yields (select P rest) n) := by
  induction n with
  | zero => intro it rest _ _ _ _ _; exact ⟨it, rfl⟩
  | succ n ih =>
    intro it rest h hn ho hf hacc
    unfold calls iter_next
    simp only [hf, he, Bool.not_true, Bool.false_eq_true, if_false]
    rcases iterLoop_remain rest h hn ho hf hacc with
      ⟨it', h1, h2, h3, h4, h5, h6⟩ | ⟨it', d, rest', h1, h2, h3, h4, h5, h6, h7, h8⟩
    · obtain ⟨it2, hc⟩ := ih [] h3 h6 h4 h5 (by simp)
      refine ⟨it2, ?_⟩
      have hs : select P ([] : List (Datum τ ρ)) = [] := rfl
      rw [hs] at hc
      rw [h2, yields_nil, h1]
      simp [iterReturn, hc]
    · obtain ⟨it2, hc⟩ := ih rest' h4 h8 h6 h7 (fun d hd => hacc d (h5 d hd))
      refine ⟨it2, ?_⟩
      rw [h2, yields_cons, h1]
      simp [iterReturn, hc, h3.current]

theorem tabsData_eq (K : IterKind R τ ρ) (ts : List τ) :
    tabsData K 1 ts = dataOf K.record K.nwave ts := rfl

/-- What is needed of the data for the test of a datum to be defined. -/
theorem mem_dataOf {record : τ → List ρ} {nwave : τ → Nat} {ts : List τ} {d : Datum τ ρ}
    (h : d ∈ dataOf record nwave ts) :
    d.table ∈ ts ∧ d.record ∈ record d.table ∧ d.iwave < nwave d.table := by
  simp only [dataOf, List.mem_flatMap, List.mem_map, List.mem_range, Prod.exists] at h
  obtain ⟨t, e, ht, r, i, hr, j, hj, rfl⟩ := h
  exact ⟨(List.mem_zipIdx ht).2.2 ▸ List.getElem_mem _, (List.mem_zipIdx hr).2.2 ▸ List.getElem_mem _, hj⟩

theorem calls_init {K : IterKind R τ ρ} {oi : OiFits R} {f : Option (FilterSpec R)}
    {P : Datum τ ρ → Prop}
    (h : ∀ t ∈ K.tables oi, K.record t ≠ [] ∧ K.nwave t ≠ 0)
    (he : K.enabled (filterOr f) = true)
    (hacc : ∀ d ∈ dataOf K.record K.nwave (K.tables oi),
      ∃ b, acceptAt K oi (filterOr f) d = .ok b ∧ (b = true ↔ P d)) (n : Nat) :
    ∃ it', calls K n (iter_init K oi f) =
      .ok (it', yields (select P (dataOf K.record K.nwave (K.tables oi))) n) := by
  apply calls_remain he n _ (remain_init K oi f h) _ rfl rfl
  · exact hacc
  · intro t ht
    exact (h t (by simpa [iter_init] using ht)).2

theorem calls_disabled {K : IterKind R τ ρ} (n : Nat) : ∀ {it : Iter R τ},
    K.enabled it.filter = false → calls K n it = .ok (it, yields [] n) := by
  induction n with
  | zero => intro it _; rfl
  | succ n ih =>
    intro it h
    unfold calls iter_next
    simp [h, ih h, yields_nil]

theorem iter_accept_table_iff (K : IterKind R τ ρ) (f : FilterSpec R) (t : τ) :
    iter_accept_table K f t = true ↔ NamesOk f (K.arrname t) (K.insname t) (K.corrname t) := by
  simp [iter_accept_table, NamesOk, globMatch_iff, and_assoc]

/-- The three tests of `acceptAt` in one. -/
theorem acceptAt_iff {K : IterKind R τ ρ} {oi : OiFits R} {f : FilterSpec R} {d : Datum τ ρ}
    {Q S : Prop} (hr : K.acceptRecord f d.record = true ↔ Q)
    (hc : NamesOk f (K.arrname d.table) (K.insname d.table) (K.corrname d.table) →
      ∃ b, K.acceptChannel f (oi_fits_lookup_wavelength oi (K.insname d.table)) d.record d.iwave
        = .ok b ∧ (b = true ↔ S)) :
    ∃ b, acceptAt K oi f d = .ok b ∧
      (b = true ↔ NamesOk f (K.arrname d.table) (K.insname d.table) (K.corrname d.table) ∧ Q ∧ S) := by
  unfold acceptAt
  have ht := iter_accept_table_iff K f d.table
  cases hta : iter_accept_table K f d.table with
  | false =>
    rw [hta] at ht
    exact ⟨false, by simp, by simp; intro hh; exact absurd (ht.2 hh) (by simp)⟩
  | true =>
    have hN := ht.1 hta
    cases hra : K.acceptRecord f d.record with
    | false =>
      rw [hra] at hr
      exact ⟨false, by simp, by simp; intro _ hh; exact absurd (hr.2 hh) (by simp)⟩
    | true =>
      obtain ⟨b, hb, hS⟩ := hc hN
      exact ⟨b, by simpa using hb, by rw [hS]; simp [hN, hr.1 hra]⟩

theorem ite_ok_false {c : Bool} {Q S : Prop} {x : Outcome Bool} (hQ : c = false ↔ Q)
    (hx : ∃ b, x = .ok b ∧ (b = true ↔ S)) :
    ∃ b, (if c = true then .ok false else x) = .ok b ∧ (b = true ↔ Q ∧ S) := by
  obtain ⟨b, hb, hS⟩ := hx
  cases c with
  | true =>
    refine ⟨false, by simp, by simp; intro hh; exact absurd (hQ.2 hh) (by simp)⟩
  | false => exact ⟨b, by simpa using hb, by rw [hS]; simp [hQ.1 rfl]⟩

theorem ok_flag {f : FilterSpec R} {flag : List Bool} {j : Nat} (h : j < flag.length) :
    ∃ b, (do let fl ← index flag j; return !(fl && !f.accept_flagged) : Outcome Bool) = .ok b ∧
      (b = true ↔ FlagOk f flag j) := by
  refine ⟨!(flag[j] && !f.accept_flagged), by simp [h], ?_⟩
  cases hf : flag[j] <;> simp [FlagOk, hf, h]

theorem snrAmpOk_iff {f : FilterSpec R} {x err : List R.Dbl} {j : Nat} (h1 : j < x.length)
    (h2 : j < err.length) :
    outsideF f.snr_range (R.toF (R.div x[j] err[j])) = false ↔ SnrAmpOk f x err j := by
  simp [outsideF_false, SnrAmpOk, snrAmp, h1, h2]

theorem snrPhiOk_iff {f : FilterSpec R} {err : List R.Dbl} {j : Nat} (h2 : j < err.length) :
    outsideF f.snr_range (R.toF (R.div RAD2DEG err[j])) = false ↔ SnrPhiOk f err j := by
  simp [outsideF_false, SnrPhiOk, snrPhi, h2, RAD2DEG]

theorem ite_false_iff {c : Prop} [Decidable c] {b : Bool} {P Q : Prop} (hc : ¬ c ↔ P)
    (h : b = true ↔ Q) : (if c then false else b) = true ↔ P ∧ Q := by
  by_cases hh : c
  · simp [hh, ← hc]
  · simp [hh, ← hc, h]

theorem not_outsideD (range : R.Dbl × R.Dbl) (x : R.Dbl) :
    ¬ outsideD range x = true ↔ InD range x := by
  rw [← outsideD_false]; simp

theorem targetOk_iff (f : FilterSpec R) (id : Int) :
    ¬ (f.target_id ≥ 0 ∧ id ≠ f.target_id) ↔ TargetOk f id := by
  unfold TargetOk; omega

theorem acceptRecord_vis_iff (f : FilterSpec R) (r : OiVisRecord R) :
    oi_vis_iter_accept_record f r = true ↔
      TargetOk f r.target_id ∧ InD f.mjd_range r.mjd ∧
      InD f.bas_range (baseline r.ucoord r.vcoord) := by
  rw [← and_true (InD f.bas_range _)]
  exact ite_false_iff (targetOk_iff f _) (ite_false_iff (not_outsideD _ _)
    (ite_false_iff (not_outsideD _ _) (by simp)))

theorem acceptRecord_vis2_iff (f : FilterSpec R) (r : OiVis2Record R) :
    oi_vis2_iter_accept_record f r = true ↔
      TargetOk f r.target_id ∧ InD f.mjd_range r.mjd ∧
      InD f.bas_range (baseline r.ucoord r.vcoord) := by
  rw [← and_true (InD f.bas_range _)]
  exact ite_false_iff (targetOk_iff f _) (ite_false_iff (not_outsideD _ _)
    (ite_false_iff (not_outsideD _ _) (by simp)))

theorem acceptRecord_t3_iff (f : FilterSpec R) (r : OiT3Record R) :
    oi_t3_iter_accept_record f r = true ↔
      TargetOk f r.target_id ∧ InD f.mjd_range r.mjd ∧
      InD f.bas_range (baseline r.u1coord r.v1coord) ∧
      InD f.bas_range (baseline r.u2coord r.v2coord) ∧
      InD f.bas_range (baseline (R.add r.u1coord r.u2coord) (R.add r.v1coord r.v2coord)) := by
  rw [← and_true (InD f.bas_range (baseline (R.add _ _) _))]
  exact ite_false_iff (targetOk_iff f _) (ite_false_iff (not_outsideD _ _)
    (ite_false_iff (not_outsideD _ _) (ite_false_iff (not_outsideD _ _)
      (ite_false_iff (not_outsideD _ _) (by simp)))))

theorem acceptChannel_vis {f : FilterSpec R} {w : OiWavelength R} {r : OiVisRecord R} {n j : Nat}
    {m c : Bool} (hr : r.WF n m c) (hj : j < n) (hw : n ≤ w.eff_wave.length) :
    ∃ b, oi_vis_iter_accept_channel f (some w) r j = .ok b ∧ (b = true ↔
      InF f.wave_range (w.eff_wave[j]'(by omega)) ∧ SnrAmpOk f r.visamp r.visamperr j ∧
      SnrPhiOk f r.visphierr j ∧
      InD f.uvrad_range (R.div (baseline r.ucoord r.vcoord)
        (R.toD (w.eff_wave[j]'(by omega)))) ∧ FlagOk f r.flag j) := by
  have h0 : j < w.eff_wave.length := by omega
  have h1 : j < r.visamp.length := by rw [hr.visamp]; exact hj
  have h2 : j < r.visamperr.length := by rw [hr.visamperr]; exact hj
  have h3 : j < r.visphierr.length := by rw [hr.visphierr]; exact hj
  have h4 : j < r.flag.length := by rw [hr.flag]; exact hj
  unfold oi_vis_iter_accept_channel
  simp only [deref_some, bind_ok, index_of_lt h0, index_of_lt h1, index_of_lt h2, index_of_lt h3,
    pure_eq]
  exact ite_ok_false (outsideF_false _ _) (ite_ok_false (snrAmpOk_iff h1 h2)
    (ite_ok_false (snrPhiOk_iff h3) (ite_ok_false (outsideD_false _ _) (ok_flag h4))))

theorem acceptChannel_vis2 {f : FilterSpec R} {w : OiWavelength R} {r : OiVis2Record R} {n j : Nat}
    (hr : r.WF n) (hj : j < n) (hw : n ≤ w.eff_wave.length) :
    ∃ b, oi_vis2_iter_accept_channel f (some w) r j = .ok b ∧ (b = true ↔
      InF f.wave_range (w.eff_wave[j]'(by omega)) ∧ SnrAmpOk f r.vis2data r.vis2err j ∧
      InD f.uvrad_range (R.div (baseline r.ucoord r.vcoord)
        (R.toD (w.eff_wave[j]'(by omega)))) ∧ FlagOk f r.flag j) := by
  have h0 : j < w.eff_wave.length := by omega
  have h1 : j < r.vis2data.length := by rw [hr.vis2data]; exact hj
  have h2 : j < r.vis2err.length := by rw [hr.vis2err]; exact hj
  have h4 : j < r.flag.length := by rw [hr.flag]; exact hj
  unfold oi_vis2_iter_accept_channel
  simp only [deref_some, bind_ok, index_of_lt h0, index_of_lt h1, index_of_lt h2, pure_eq]
  exact ite_ok_false (outsideF_false _ _) (ite_ok_false (snrAmpOk_iff h1 h2)
    (ite_ok_false (outsideD_false _ _) (ok_flag h4)))

theorem acceptChannel_t3 {f : FilterSpec R} {w : OiWavelength R} {r : OiT3Record R} {n j : Nat}
    (hr : r.WF n) (hj : j < n) (hw : n ≤ w.eff_wave.length) :
    ∃ b, oi_t3_iter_accept_channel f (some w) r j = .ok b ∧ (b = true ↔
      InF f.wave_range (w.eff_wave[j]'(by omega)) ∧
      (f.accept_t3amp = true → SnrAmpOk f r.t3amp r.t3amperr j) ∧
      (f.accept_t3phi = true → SnrPhiOk f r.t3phierr j) ∧
      (InD f.uvrad_range (R.div (baseline r.u1coord r.v1coord) (R.toD (w.eff_wave[j]'(by omega)))) ∧
       InD f.uvrad_range (R.div (baseline r.u2coord r.v2coord) (R.toD (w.eff_wave[j]'(by omega)))) ∧
       InD f.uvrad_range (R.div (baseline (R.add r.u1coord r.u2coord)
        (R.add r.v1coord r.v2coord)) (R.toD (w.eff_wave[j]'(by omega))))) ∧
      FlagOk f r.flag j) := by
  have h0 : j < w.eff_wave.length := by omega
  have h1 : j < r.t3amp.length := by rw [hr.t3amp]; exact hj
  have h2 : j < r.t3amperr.length := by rw [hr.t3amperr]; exact hj
  have h3 : j < r.t3phierr.length := by rw [hr.t3phierr]; exact hj
  have h4 : j < r.flag.length := by rw [hr.flag]; exact hj
  have ea : ∃ b, t3ampSnrOutside f r j = .ok b ∧
      (b = false ↔ (f.accept_t3amp = true → SnrAmpOk f r.t3amp r.t3amperr j)) := by
    unfold t3ampSnrOutside
    cases hf : f.accept_t3amp with
    | true => exact ⟨_, by simp [h1, h2]; rfl, by rw [snrAmpOk_iff h1 h2]; simp⟩
    | false => exact ⟨false, by simp, by simp⟩
  have ep : ∃ b, t3phiSnrOutside f r j = .ok b ∧
      (b = false ↔ (f.accept_t3phi = true → SnrPhiOk f r.t3phierr j)) := by
    unfold t3phiSnrOutside
    cases hf : f.accept_t3phi with
    | true => exact ⟨_, by simp [h3]; rfl, by rw [snrPhiOk_iff h3]; simp⟩
    | false => exact ⟨false, by simp, by simp⟩
  obtain ⟨ba, hba, hba'⟩ := ea
  obtain ⟨bp, hbp, hbp'⟩ := ep
  unfold oi_t3_iter_accept_channel
  simp only [deref_some, bind_ok, index_of_lt h0, hba, hbp, pure_eq]
  refine ite_ok_false (outsideF_false _ _) (ite_ok_false hba' (ite_ok_false hbp'
    (ite_ok_false ?_ (ok_flag h4))))
  simp only [Bool.or_eq_false_iff, outsideD_false, and_assoc]
  rfl

theorem iterLoop_none {K : IterKind R τ ρ} {it : Iter R τ} (h : iterAdvance K it = none) :
    iterLoop K it = .ok (it, false) := by
  unfold iterLoop
  split
  · rfl
  · rename_i h1; rw [h] at h1; cases h1

theorem iterLoop_some {K : IterKind R τ ρ} {it it' : Iter R τ} (h : iterAdvance K it = some it') :
    iterLoop K it = (do
      let ok ← iterAccept K it'
      if ok then .ok (it', true) else iterLoop K it') := by
  rw [iterLoop]
  split
  · rename_i h1; rw [h] at h1; cases h1
  · rename_i it2 h1; rw [h] at h1; cases h1; rfl

theorem iterAdvance_filter {K : IterKind R τ ρ} {it it' : Iter R τ}
    (h : iterAdvance K it = some it') : it'.filter = it.filter ∧ it'.pData = it.pData := by
  unfold iterAdvance at h
  split at h
  · cases h
  · split at h
    · cases h; exact ⟨rfl, rfl⟩
    · split at h
      · cases h; exact ⟨rfl, rfl⟩
      · split at h <;> cases h
        exact ⟨rfl, rfl⟩

/-- `pWave` is what the instrument name of the current table denotes. -/
def PWaveOk (K : IterKind R τ ρ) (oi : OiFits R) (it : Iter R τ) : Prop :=
  it.pData = oi ∧ ∀ t, it.link.head? = some t →
    it.pWave = oi_fits_lookup_wavelength it.pData (K.insname t)

theorem pw_init (K : IterKind R τ ρ) (oi : OiFits R) (f : Option (FilterSpec R)) :
    PWaveOk K oi (iter_init K oi f) := by
  refine ⟨rfl, ?_⟩
  intro t ht
  unfold iter_init at ht ⊢
  cases h : K.tables oi with
  | nil => simp [h] at ht
  | cons t' ts => simp [h] at ht; simp [ht]

theorem pw_advance {K : IterKind R τ ρ} {oi : OiFits R} {it it' : Iter R τ} (hp : PWaveOk K oi it)
    (h : iterAdvance K it = some it') : PWaveOk K oi it' := by
  refine ⟨(iterAdvance_filter h).2.trans hp.1, ?_⟩
  have hp := hp.2
  unfold iterAdvance at h
  split at h
  · cases h
  · split at h
    · cases h; exact hp
    · split at h
      · cases h; exact hp
      · split at h <;> cases h
        intro t ht
        simp only [List.head?_cons, Option.some.injEq] at ht
        subst ht; rfl

/-- Induction along the loop. -/
theorem iterLoop_ind {K : IterKind R τ ρ} {P : Iter R τ → Prop} {it it' : Iter R τ} {b : Bool}
    (hP : ∀ it it', P it → iterAdvance K it = some it' → P it') (h0 : P it)
    (h : iterLoop K it = .ok (it', b)) :
    P it' ∧ (if b then iterAccept K it' = .ok true else iterAdvance K it' = none) := by
  induction hn : iterLeft K it using Nat.strongRecOn generalizing it with
  | _ n ih =>
    cases ha : iterAdvance K it with
    | none =>
      rw [iterLoop_none ha] at h
      cases h
      exact ⟨h0, by simpa using ha⟩
    | some it1 =>
      rw [iterLoop_some ha] at h
      obtain ⟨ok, h1, h2⟩ := bind_eq_ok.1 h
      cases ok with
      | true =>
        simp only [if_true, Outcome.ok.injEq, Prod.mk.injEq] at h2
        obtain ⟨rfl, rfl⟩ := h2
        exact ⟨hP _ _ h0 ha, by simpa using h1⟩
      | false =>
        simp only [Bool.false_eq_true, if_false] at h2
        exact ih _ (hn ▸ iterLeft_advance ha) (hP _ _ h0 ha) h2 rfl

theorem iterLoop_false {K : IterKind R τ ρ} {it it' : Iter R τ}
    (h : iterLoop K it = .ok (it', false)) :
    iterAdvance K it' = none ∧ it'.filter = it.filter := by
  obtain ⟨h1, h2⟩ := iterLoop_ind (P := fun i => i.filter = it.filter)
    (fun a b ha hb => (iterAdvance_filter hb).1.trans ha) rfl h
  exact ⟨by simpa using h2, h1⟩

theorem deref_eq_ok {α : Type} {x : Option α} {a : α} : deref x = .ok a ↔ x = some a := by
  cases x <;> simp

theorem iterCurrent_ok {K : IterKind R τ ρ} {oi : OiFits R} {it : Iter R τ} {d : Datum τ ρ}
    (hp : PWaveOk K oi it) (h : iterCurrent K it = .ok d) : AtDatum K it d := by
  unfold iterCurrent at h
  obtain ⟨t, h1, h⟩ := bind_eq_ok.1 h
  obtain ⟨r, h2, h⟩ := bind_eq_ok.1 h
  obtain ⟨j, h3, h⟩ := bind_eq_ok.1 h
  have h1 := deref_eq_ok.1 h1
  have h2 := deref_eq_ok.1 h2
  simp only [pure_eq, Outcome.ok.injEq] at h
  subst h
  unfold chanIndex at h3
  split at h3
  · cases h3
  · cases h3
    exact ⟨h1, hp.2 t h1, rfl, rfl, h2, by simp; omega⟩

theorem accept_channel_of_accept {K : IterKind R τ ρ} {it : Iter R τ} {d : Datum τ ρ}
    (h : AtDatum K it d) (ha : iterAccept K it = .ok true) :
    K.acceptChannel it.filter (oi_fits_lookup_wavelength it.pData (K.insname d.table)) d.record
      d.iwave = .ok true := by
  rw [h.accept] at ha
  unfold acceptAt at ha
  split at ha
  · cases ha
  · split at ha
    · cases ha
    · exact ha

theorem iter_next_pw {K : IterKind R τ ρ} {oi : OiFits R} {it it' : Iter R τ}
    {r : Option (Datum τ ρ)} (hp : PWaveOk K oi it) (h : iter_next K it = .ok (it', r)) :
    PWaveOk K oi it' ∧ ∀ d, r = some d → AtDatum K it' d ∧ iterAccept K it' = .ok true := by
  unfold iter_next at h
  split at h
  · simp only [pure_eq, Outcome.ok.injEq, Prod.mk.injEq] at h
    obtain ⟨rfl, rfl⟩ := h
    exact ⟨hp, by simp⟩
  · obtain ⟨⟨it1, b⟩, h1, h2⟩ := bind_eq_ok.1 h
    obtain ⟨h3, h4⟩ := iterLoop_ind (P := PWaveOk K oi) (fun a b ha hb => pw_advance ha hb) hp h1
    unfold iterReturn at h2
    cases b with
    | true =>
      simp only [if_true] at h2 h4
      obtain ⟨d, h5, h6⟩ := bind_eq_ok.1 h2
      simp only [pure_eq, Outcome.ok.injEq, Prod.mk.injEq] at h6
      obtain ⟨rfl, rfl⟩ := h6
      refine ⟨h3, ?_⟩
      intro d' hd'
      simp only [Option.some.injEq] at hd'
      subst hd'
      exact ⟨iterCurrent_ok h3 h5, h4⟩
    | false =>
      simp only [Bool.false_eq_true, if_false, pure_eq, Outcome.ok.injEq, Prod.mk.injEq] at h2
      obtain ⟨rfl, rfl⟩ := h2
      exact ⟨h3, by simp⟩

/-- After a call returning a datum, the iterator stands at it. -/
theorem calls_last {K : IterKind R τ ρ} {oi : OiFits R} (n : Nat) {it it' : Iter R τ}
    {rs : List (Option (Datum τ ρ))} {d : Datum τ ρ} (hp : PWaveOk K oi it)
    (h : calls K n it = .ok (it', rs)) (hd : rs.getLast? = some (some d)) :
    AtDatum K it' d ∧ it'.pData = oi ∧
      K.acceptChannel it'.filter (oi_fits_lookup_wavelength it'.pData (K.insname d.table)) d.record
        d.iwave = .ok true := by
  induction n generalizing it rs with
  | zero =>
    simp only [calls, Outcome.ok.injEq, Prod.mk.injEq] at h
    obtain ⟨rfl, rfl⟩ := h
    simp at hd
  | succ n ih =>
    unfold calls at h
    obtain ⟨⟨it1, r⟩, h1, h⟩ := bind_eq_ok.1 h
    obtain ⟨⟨it2, rs'⟩, h2, h⟩ := bind_eq_ok.1 h
    simp only [pure_eq, Outcome.ok.injEq, Prod.mk.injEq] at h
    obtain ⟨rfl, rfl⟩ := h
    obtain ⟨hp1, hr⟩ := iter_next_pw hp h1
    cases n with
    | zero =>
      simp only [calls, Outcome.ok.injEq, Prod.mk.injEq] at h2
      obtain ⟨rfl, rfl⟩ := h2
      simp only [List.getLast?_singleton, Option.some.injEq] at hd
      obtain ⟨h3, h4⟩ := hr d hd
      exact ⟨h3, hp1.1, accept_channel_of_accept h3 h4⟩
    | succ n =>
      refine ih hp1 h2 ?_
      cases rs' with
      | nil =>
        unfold calls at h2
        obtain ⟨⟨it1, r⟩, h1, h⟩ := bind_eq_ok.1 h2
        obtain ⟨⟨it2, rs'⟩, h2, h⟩ := bind_eq_ok.1 h
        simp at h
      | cons a as => simpa [List.getLast?_cons_cons] using hd

theorem yields_countP {α : Type} (l : List α) (n : Nat) :
    (yields l n).countP Option.isSome = min n l.length := by
  induction n generalizing l with
  | zero => simp [yields]
  | succ n ih =>
    cases l with
    | nil => rw [yields_nil, List.countP_cons, ih]; simp
    | cons a l => rw [yields_cons, List.countP_cons, ih]; simp

theorem countP_flag (flag : List Bool) :
    (List.range flag.length).countP (fun j => decide (flag[j]? = some false)) =
      flag.count false := by
  induction flag with
  | nil => rfl
  | cons a l ih =>
    rw [List.length_cons, List.range_succ_eq_map, List.countP_cons, List.countP_map]
    simp only [Function.comp_def, List.getElem?_cons_succ, ih]
    cases a <;> simp

theorem select_flag_length {record : τ → List ρ} {nwave : τ → Nat} {ts : List τ}
    {flag : ρ → List Bool} {P : Datum τ ρ → Prop}
    (hl : ∀ t ∈ ts, ∀ r ∈ record t, (flag r).length = nwave t)
    (hP : ∀ d ∈ dataOf record nwave ts, P d ↔ (flag d.record)[d.iwave]? = some false) :
    (select P (dataOf record nwave ts)).length =
      (ts.flatMap fun t => (record t).flatMap flag).count false := by
  classical
  have : select P (dataOf record nwave ts) =
      (dataOf record nwave ts).filter fun d => decide ((flag d.record)[d.iwave]? = some false) := by
    unfold select
    apply List.filter_congr
    intro d hd
    simp [hP d hd]
  rw [this, ← List.countP_eq_length_filter]
  unfold dataOf
  rw [List.countP_flatMap, List.count_flatMap]
  have e : ∀ (ts : List τ) (k : Nat), (∀ t ∈ ts, ∀ r ∈ record t, (flag r).length = nwave t) →
      ((ts.zipIdx k).map (List.countP (fun d : Datum τ ρ =>
        decide ((flag d.record)[d.iwave]? = some false)) ∘ fun (t, e) =>
        (record t).zipIdx.flatMap fun (r, i) =>
          (List.range (nwave t)).map fun j => ⟨e, t, i, r, j⟩)).sum =
      (ts.map (List.count false ∘ fun t => (record t).flatMap flag)).sum := by
    intro ts
    induction ts with
    | nil => intros; rfl
    | cons t ts ih =>
      intro k hl
      rw [List.zipIdx_cons, List.map_cons, List.sum_cons, List.map_cons, List.sum_cons,
        ih (k + 1) (fun t ht => hl t (by simp [ht]))]
      congr 1
      simp only [Function.comp]
      rw [List.countP_flatMap, List.count_flatMap]
      have e2 : ∀ (rs : List ρ) (i : Nat), (∀ r ∈ rs, (flag r).length = nwave t) →
          ((rs.zipIdx i).map (List.countP (fun d : Datum τ ρ =>
            decide ((flag d.record)[d.iwave]? = some false)) ∘ fun (r, i) =>
              (List.range (nwave t)).map fun j => ⟨k, t, i, r, j⟩)).sum =
          (rs.map (List.count false ∘ flag)).sum := by
        intro rs
        induction rs with
        | nil => intros; rfl
        | cons r rs ih =>
          intro i hr
          rw [List.zipIdx_cons, List.map_cons, List.sum_cons, List.map_cons, List.sum_cons,
            ih (i + 1) (fun r h => hr r (by simp [h]))]
          congr 1
          simp only [Function.comp]
          rw [List.countP_map, ← hr r (by simp), ← countP_flag]
          rfl
      exact e2 _ _ (hl t (by simp))
  exact e ts 1 hl

end Verif
