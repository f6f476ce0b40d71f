import Verif.Spec.ReadFault
import Verif.Props.ReadFile
import Verif.Proof.Demo
import Verif.Proof.Fault

namespace Verif
open Outcome Spec

variable {R : FP} {α : Type}

theorem readFailing_none (read : FitsM R α) : readFailing read none = read := by
  funext s
  unfold readFailing
  cases read s <;> rfl

theorem callFailing_none (m : FitsM R α) : callFailing none m = m := by
  funext s
  unfold callFailing
  cases m s <;> rfl

theorem readAllFailing_nil (skip : Bool) (read : FitsM R α) (fuel : Nat) :
    readAllFailing skip read [] fuel = readAll skip read fuel := by
  induction fuel with
  | zero => rfl
  | succ fuel ih =>
    rw [readAllFailing, readAll]
    simp only [List.head?_nil, Option.join_none, List.tail_nil, ih, readFailing_none]

theorem readTablesFailing_none (skip : Bool) (read : FitsM R α) :
    readTablesFailing skip read TableFaults.none = readTables skip read := by
  unfold readTablesFailing readTables TableFaults.none
  simp only [callFailing_none, readAllFailing_nil]
  rfl

theorem readBodyFailing_none (u : Undef R) : readBodyFailing u FileFaults.none = readBody u := by
  unfold readBodyFailing readBody FileFaults.none
  simp only [callFailing_none, readTablesFailing_none]
  congr 1
  funext h
  congr 1
  funext s
  by_cases hs : s.status = .ok
  · exact guardStatus_ok hs _ _
  · rw [guardStatus_err hs]
    exact (guardStatus_err hs _ _).symm

/-! ### Loops -/

/-- The tables after a position. -/
def tablesFrom (name : CStr) (hdus : List (Hdu R)) (c : Nat) : List Nat :=
  (List.range' (c + 1) (hdus.length - (c + 1))).filter fun i => (hdus[i]?).any (isTable name)

theorem tablesFrom_sublist (name : CStr) (hdus : List (Hdu R)) {c c' : Nat} (h : c ≤ c') :
    (tablesFrom name hdus c').Sublist (tablesFrom name hdus c) := by
  unfold tablesFrom
  refine List.Sublist.filter _ ?_
  by_cases hc : c' + 1 ≤ hdus.length
  · have e : List.range' (c + 1) (hdus.length - (c + 1)) =
        List.range' (c + 1) (c' - c) ++ List.range' (c' + 1) (hdus.length - (c' + 1)) := by
      rw [show c' + 1 = (c + 1) + 1 * (c' - c) from by omega, List.range'_append]
      congr 1
      omega
    rw [e]
    exact List.sublist_append_right ..
  · rw [show hdus.length - (c' + 1) = 0 from by omega]
    exact List.nil_sublist _

/-- One call without error. -/
theorem ReadsNext.one {name : CStr} {old : α} {read : FitsM R α} (h : ReadsNext name old read)
    {hdus : List (Hdu R)} {c : Nat} (hn : ∀ h ∈ hdus, StringName h) (hc : c < hdus.length) :
    read ⟨hdus, c, .ok⟩ = .abort ∨ ∃ a s', read ⟨hdus, c, .ok⟩ = .ok (a, s') ∧ s'.hdus = hdus ∧ c ≤ s'.cur ∧
      s'.cur < hdus.length ∧ (s'.status ≠ .END_OF_FILE → c < s'.cur ∧ tablesFrom name hdus c =
        s'.cur :: tablesFrom name hdus s'.cur ∧
        readable read hdus s'.cur = if s'.status = .ok then some a else none) := by
  have key := @nextLoop_filter R name
  rcases h.call (s := ⟨hdus, c, .ok⟩) rfl with h1 | ⟨a, s', h1, h2, h3⟩
  · exact .inl h1
  refine .inr ⟨a, s', h1, h2, ?_⟩
  rcases h3 with ⟨h3, -, h5⟩ | ⟨h3, h4, h5, st, h6, h7⟩
  · have hcur : s'.cur = c + (hdus.drop (c + 1)).length := by
      rcases nextLoop_bound (name := name) (hdus.drop (c + 1)) c with h8 | ⟨j, st, h8, h9, -⟩
      · simp only [h8] at h5
        exact (Prod.mk.inj h5).1.symm
      · simp only [h8] at h5
        exact absurd (Prod.mk.inj h5).2 h9
    rw [List.length_drop] at hcur
    exact ⟨by omega, by omega, fun h => absurd h3 h⟩
  · refine ⟨Nat.le_of_lt h4, h5, fun _ => ⟨h4, (key hdus hn _ c (by omega)).2 _ _ h6 h7, ?_⟩⟩
    unfold readable
    rw [h.moved hn h1 h3 rfl]

/-- A call with pending error does nothing. -/
theorem ReadsNext.pending {name : CStr} {old : α} {read : FitsM R α} (h : ReadsNext name old read)
    {s : FState R} (hs : s.status ≠ .ok) : read s = .ok (old, s) := by
  obtain ⟨body, -, rfl⟩ := h.shape
  exact guardStatus_err hs _ _

theorem readAllFailing_skip {name : CStr} {old : α} {read : FitsM R α} (h : ReadsNext name old read)
    {hdus : List (Hdu R)} (hn : ∀ h ∈ hdus, StringName h) (fuel : Nat) :
    ∀ (faults : List (Option ReadFault)) (c : Nat) (st : Status), (∀ f, some f ∈ faults → f.status ≠ .ok) →
      c < hdus.length → hdus.length - c + (if st = .ok then 0 else 1) + faults.length < fuel + 1 →
      readAllFailing true read faults fuel ⟨hdus, c, st⟩ = .abort ∨
      ∃ l c', readAllFailing true read faults fuel ⟨hdus, c, st⟩ = .ok (l, ⟨hdus, c', .ok⟩) ∧ c' < hdus.length ∧
        l.Sublist ((tablesFrom name hdus c).filterMap (readable read hdus)) := by
  induction fuel with
  | zero => intro faults c st _ hc hf; omega
  | succ fuel ih =>
    intro faults c st he hc hf
    have htail : ∀ f, some f ∈ faults.tail → f.status ≠ .ok := fun f hf => he f (List.mem_of_mem_tail hf)
    have hlen : faults.tail.length ≤ faults.length := by simp
    rw [readAllFailing]
    -- a call which ends with an error
    have skipped : ∀ {a : α} {c1 : Nat} {st1 : Status}, readFailing read faults.head?.join ⟨hdus, c, st⟩ =
        .ok (a, ⟨hdus, c1, st1⟩) → st1 ≠ .ok → c ≤ c1 → c1 < hdus.length →
        (st1 ≠ .END_OF_FILE → hdus.length - c1 + faults.tail.length < fuel + 1) →
        (readFailing read faults.head?.join >>= fun x => getStatus >>= fun st =>
          if st = .ok then do
            let xs ← readAllFailing true read faults.tail fuel
            return x :: xs
          else if st = .END_OF_FILE then do
            setStatus .ok
            return []
          else if true then do
            setStatus .ok
            readAllFailing true read faults.tail fuel
          else return []) ⟨hdus, c, st⟩ = .abort ∨
        ∃ l c', (readFailing read faults.head?.join >>= fun x => getStatus >>= fun st =>
          if st = .ok then do
            let xs ← readAllFailing true read faults.tail fuel
            return x :: xs
          else if st = .END_OF_FILE then do
            setStatus .ok
            return []
          else if true then do
            setStatus .ok
            readAllFailing true read faults.tail fuel
          else return []) ⟨hdus, c, st⟩ = .ok (l, ⟨hdus, c', .ok⟩) ∧ c' < hdus.length ∧
          l.Sublist ((tablesFrom name hdus c).filterMap (readable read hdus)) := by
      intro a c1 st1 hr h1 h2 h3 h4
      rw [FitsM.bind_ok hr, FitsM.bind_ok (run_getStatus _)]
      dsimp only
      rw [if_neg h1]
      by_cases h5 : st1 = .END_OF_FILE
      · rw [if_pos h5]
        exact .inr ⟨[], c1, rfl, h3, List.nil_sublist _⟩
      · rw [if_neg h5, if_pos rfl, FitsM.bind_ok (run_setStatus .ok _)]
        rcases ih faults.tail c1 .ok htail h3 (by simp only [if_true]; have := h4 h5; omega) with h6 | ⟨l, c', h6, h7, h8⟩
        · exact .inl h6
        · exact .inr ⟨l, c', h6, h7, h8.trans ((tablesFrom_sublist name hdus h2).filterMap _)⟩
    have hhead : ∀ f, faults.head?.join = some f → faults.tail.length + 1 = faults.length ∧ f.status ≠ .ok := by
      intro f hf'
      cases faults with
      | nil => cases hf'
      | cons g t => exact ⟨rfl, he f (by simp only [List.head?_cons, Option.join_some] at hf'; rw [hf']; simp)⟩
    by_cases hst : st = .ok
    · subst hst
      simp only [if_true] at hf
      rcases h.one hn hc with h1 | ⟨a, s', h1, h2, h3, h4, h5⟩
      · left
        refine Verif.bind_abort ?_
        unfold readFailing
        rw [h1]
        cases faults.head?.join <;> rfl
      · cases hj : faults.head?.join with
        | some f =>
          rw [← hj]
          have hr : readFailing read faults.head?.join ⟨hdus, c, .ok⟩ =
              .ok (a, ⟨hdus, c + min f.moved (s'.cur - c), f.status⟩) := by
            unfold readFailing
            rw [hj, h1, ← h2]
          have := hhead f hj
          exact skipped hr this.2 (by omega) (by omega) fun _ => by omega
        | none =>
          rw [← hj]
          have hr : readFailing read faults.head?.join ⟨hdus, c, .ok⟩ = .ok (a, s') := by
            rw [hj, readFailing_none, h1]
          obtain ⟨hd, c1, st1⟩ := s'
          dsimp only at h2 h3 h4 h5
          subst h2
          by_cases h6 : st1 = .ok
          · subst h6
            obtain ⟨h7, h8, h9⟩ := h5 (by decide)
            rw [FitsM.bind_ok hr, FitsM.bind_ok (run_getStatus _)]
            dsimp only
            rw [if_pos rfl]
            rcases ih faults.tail c1 .ok htail h4 (by simp only [if_true]; omega) with h10 | ⟨l, c', h10, h11, h12⟩
            · exact .inl (Verif.bind_abort h10)
            · refine .inr ⟨a :: l, c', ?_, h11, ?_⟩
              · rw [FitsM.bind_ok h10]
                rfl
              · rw [h8, List.filterMap_cons, h9, if_pos rfl]
                exact h12.cons_cons a
          · exact skipped hr h6 h3 h4 fun h7 => by
              have := (h5 h7).1
              omega
    · rw [if_neg hst] at hf
      have hp := h.pending (s := ⟨hdus, c, st⟩) hst
      cases hj : faults.head?.join with
      | some f =>
        rw [← hj]
        have hr : readFailing read faults.head?.join ⟨hdus, c, st⟩ = .ok (old, ⟨hdus, c, f.status⟩) := by
          unfold readFailing
          rw [hj, hp]
          simp
        exact skipped hr (hhead f hj).2 le_rfl hc fun _ => by omega
      | none =>
        rw [← hj]
        have hr : readFailing read faults.head?.join ⟨hdus, c, st⟩ = .ok (old, ⟨hdus, c, st⟩) := by
          rw [hj, readFailing_none, hp]
        exact skipped hr hst le_rfl hc fun _ => by omega

theorem move_first {hdus : List (Hdu R)} (c : Nat) (h0 : hdus ≠ []) (move : Option Status) :
    ∃ t, callFailing (R := R) move (fits_movabs_hdu 1) ⟨hdus, c, .ok⟩ = .ok (t, match move with
      | none => ⟨hdus, 0, .ok⟩
      | some st => ⟨hdus, c, st⟩) := by
  have hpos : 0 < hdus.length := List.length_pos_iff.mpr h0
  have hm : fits_movabs_hdu 1 (⟨hdus, c, .ok⟩ : FState R) = .ok (hdus[0].type, ⟨hdus, 0, .ok⟩) := by
    simp [fits_movabs_hdu, hpos]
  refine ⟨hdus[0].type, ?_⟩
  unfold callFailing
  rw [hm]
  cases move <;> rfl

theorem readTablesFailing_skip {name : CStr} {old : α} {read : FitsM R α} (h : ReadsNext name old read)
    {hdus : List (Hdu R)} (hn : ∀ h ∈ hdus, StringName h) {c : Nat} (hc : c < hdus.length) {F : TableFaults}
    (hF : TableFaults.Errors F) :
    readTablesFailing true read F ⟨hdus, c, .ok⟩ = .abort ∨
    ∃ l c', readTablesFailing true read F ⟨hdus, c, .ok⟩ = .ok (l, ⟨hdus, c', .ok⟩) ∧ c' < hdus.length ∧
      l.Sublist ((positions name hdus).filterMap (readable read hdus)) := by
  have h0 : hdus ≠ [] := by rintro rfl; simp at hc
  have hpos : 0 < hdus.length := by omega
  have hp : tablesFrom name hdus 0 = positions name hdus := positions_eq name h0
  obtain ⟨t, ht⟩ := move_first c h0 F.move
  rw [readTablesFailing, FitsM.bind_ok ht]
  cases hm : F.move with
  | none =>
    dsimp only
    rw [FitsM.bind_ok (show fits_get_num_hdus (⟨hdus, 0, .ok⟩ : FState R) = .ok (hdus.length, ⟨hdus, 0, .ok⟩) from rfl)]
    rw [← hp]
    exact readAllFailing_skip h hn _ F.reads 0 .ok hF.2 hpos (by simp; omega)
  | some st =>
    dsimp only
    have hst : st ≠ .ok := fun e => hF.1 (by rw [hm, e])
    rw [FitsM.bind_ok (show fits_get_num_hdus (⟨hdus, c, st⟩ : FState R) = .ok (0, ⟨hdus, c, st⟩) by
      simp [fits_get_num_hdus, hst])]
    rcases readAllFailing_skip h hn (0 + 1 + (hdus.length + 1) + F.reads.length) F.reads c st hF.2 hc
      (by rw [if_neg hst]; omega) with h1 | ⟨l, c', h1, h2, h3⟩
    · exact .inl h1
    · refine .inr ⟨l, c', h1, h2, ?_⟩
      rw [← hp]
      exact h3.trans ((tablesFrom_sublist name hdus (Nat.zero_le c)).filterMap _)

/-- If no error is taken for the end of the file, a loop which passes nothing over ends without error only if
there was none. -/
theorem readAllFailing_all {name : CStr} {old : α} {read : FitsM R α} (h : ReadsNext name old read)
    (fuel : Nat) : ∀ (faults : List (Option ReadFault)) {s s' : FState R} {l : List α},
      (∀ f, some f ∈ faults → f.status ≠ .ok) → (∀ f, some f ∈ faults → f.status ≠ .END_OF_FILE) →
      s.status ≠ .END_OF_FILE → readAllFailing false read faults fuel s = .ok (l, s') → s'.status = .ok →
      s.status = .ok ∧ Collects false read s l ∧ s'.hdus = s.hdus ∧ (s.cur < s.hdus.length → s'.cur < s.hdus.length) ∧
      ∀ f ∈ faults.take (l.length + 1), f = none := by
  induction fuel with
  | zero => intro faults s s' l _ _ _ hr; cases hr
  | succ fuel ih =>
    intro faults s s' l h1 h2 hs hr hst
    rw [readAllFailing] at hr
    obtain ⟨a, s1, hr1, hr⟩ := bind_ok_split hr
    rw [FitsM.bind_ok (run_getStatus s1)] at hr
    have hfault : ∀ f, faults.head?.join = some f → some f ∈ faults := by
      intro f hf
      cases faults with
      | nil => cases hf
      | cons g t => simp only [List.head?_cons, Option.join_some] at hf; rw [hf]; simp
    cases hj : faults.head?.join with
    | some f =>
      exfalso
      have hs1 : s1.status = f.status := by
        unfold readFailing at hr1
        rw [hj] at hr1
        split at hr1
        · rename_i h3 h4
          cases h3
          simp only [Outcome.ok.injEq, Prod.mk.injEq] at hr1
          rw [← hr1.2]
        · rename_i h3
          exact absurd hr1 (h3 f a s1 rfl)
      rw [if_neg (by rw [hs1]; exact h1 f (hfault f hj)), if_neg (by rw [hs1]; exact h2 f (hfault f hj)),
        if_neg (by decide)] at hr
      have := (Prod.mk.inj (Outcome.ok.inj hr)).2
      rw [← this, hs1] at hst
      exact h1 f (hfault f hj) hst
    | none =>
      rw [hj, readFailing_none] at hr1
      by_cases hok : s.status = .ok
      · refine ⟨hok, ?_⟩
        have hcall : s1.hdus = s.hdus ∧ (s.cur < s.hdus.length → s1.cur < s.hdus.length) := by
          rcases h.call hok with h3 | ⟨a', s'', h3, h4, h5⟩
          · rw [h3] at hr1; cases hr1
          · rw [h3] at hr1
            obtain ⟨rfl, rfl⟩ := Prod.mk.inj (Outcome.ok.inj hr1)
            refine ⟨h4, fun hc => ?_⟩
            rcases h5 with ⟨-, -, h5⟩ | ⟨-, -, h5, -⟩
            · rcases nextLoop_bound (name := name) (s.hdus.drop (s.cur + 1)) s.cur with h8 | ⟨j, st, h8, h9, -⟩
              · rw [h8] at h5
                have := (Prod.mk.inj h5).1
                rw [List.length_drop] at this
                omega
              · rw [h8] at h5
                exact absurd (Prod.mk.inj h5).2 h9
            · exact h5
        split at hr
        · rename_i hst1
          obtain ⟨xs, s2, hr2, hr⟩ := bind_ok_split hr
          obtain ⟨rfl, rfl⟩ := Prod.mk.inj (Outcome.ok.inj hr)
          obtain ⟨-, h3, h4, h5, h6⟩ := ih faults.tail (fun f hf => h1 f (List.mem_of_mem_tail hf))
            (fun f hf => h2 f (List.mem_of_mem_tail hf)) (by rw [hst1]; decide) hr2 hst
          refine ⟨.next hr1 hst1 h3, h4.trans hcall.1, fun hc => ?_, ?_⟩
          · rw [← hcall.1]
            refine h5 ?_
            rw [hcall.1]
            exact hcall.2 hc
          · cases faults with
            | nil => intro f hf; cases hf
            | cons g t =>
              intro f hf
              rw [List.length_cons, List.take_succ_cons] at hf
              rcases List.mem_cons.mp hf with rfl | hf
              · exact hj
              · exact h6 f hf
        · rename_i hst1
          split at hr
          · rename_i he
            rw [FitsM.bind_ok (run_setStatus .ok s1)] at hr
            obtain ⟨rfl, rfl⟩ := Prod.mk.inj (Outcome.ok.inj hr)
            refine ⟨.done hr1 he, hcall.1, hcall.2, ?_⟩
            cases faults with
            | nil => intro f hf; cases hf
            | cons g t =>
              intro f hf
              simp only [List.length_nil, Nat.zero_add, List.take_succ_cons, List.take_zero, List.mem_singleton] at hf
              rw [hf]
              exact hj
          · rw [if_neg (by decide)] at hr
            obtain ⟨rfl, rfl⟩ := Prod.mk.inj (Outcome.ok.inj hr)
            exact absurd hst hst1
      · exfalso
        rw [h.pending hok] at hr1
        obtain ⟨rfl, rfl⟩ := Prod.mk.inj (Outcome.ok.inj hr1)
        rw [if_neg hok, if_neg hs, if_neg (by decide)] at hr
        obtain ⟨rfl, rfl⟩ := Prod.mk.inj (Outcome.ok.inj hr)
        exact hok hst

theorem readTablesFailing_all {name : CStr} {old : α} {read : FitsM R α} (h : ReadsNext name old read)
    {hdus : List (Hdu R)} {c : Nat} (h0 : hdus ≠ []) {F : TableFaults} (hF : TableFaults.Errors F)
    (hE : TableFaults.NotEof F) {l : List α} {s' : FState R}
    (hr : readTablesFailing false read F ⟨hdus, c, .ok⟩ = .ok (l, s')) (hst : s'.status = .ok) :
    Collects false read ⟨hdus, 0, .ok⟩ l ∧ (∃ c', s' = ⟨hdus, c', .ok⟩ ∧ c' < hdus.length) ∧ F.move = none ∧
      ∀ f ∈ F.reads.take (l.length + 1), f = none := by
  have hpos : 0 < hdus.length := List.length_pos_iff.mpr h0
  obtain ⟨t, ht⟩ := move_first c h0 F.move
  rw [readTablesFailing, FitsM.bind_ok ht] at hr
  obtain ⟨n, s1, hr1, hr⟩ := bind_ok_split hr
  have hs1 := (Prod.mk.inj (Outcome.ok.inj hr1)).2
  obtain ⟨s2, s3, hr2, hr⟩ := bind_ok_split hr
  have hs2 := (Prod.mk.inj (Outcome.ok.inj hr2)).2
  rw [← hs2, ← hs1] at hr
  cases hm : F.move with
  | none =>
    rw [hm] at hr
    dsimp only at hr
    obtain ⟨-, h2, h3, h4, h5⟩ := readAllFailing_all h _ F.reads hF.2 hE.2 (by simp) hr hst
    obtain ⟨hd, c', st⟩ := s'
    dsimp only at h3 hst
    subst h3 hst
    exact ⟨h2, ⟨c', rfl, h4 hpos⟩, rfl, h5⟩
  | some st =>
    rw [hm] at hr
    dsimp only at hr
    obtain ⟨h2, -⟩ := readAllFailing_all h _ F.reads hF.2 hE.2 (fun e => hE.1 (by rw [hm]; exact congrArg some e)) hr hst
    exact absurd (by rw [hm]; exact congrArg some h2) hF.1

/-! ### Files -/

theorem callFailing_ok {fault : Option Status} {m : FitsM R α} {s s' : FState R} {a : α} (hf : fault ≠ some .ok)
    (h : callFailing fault m s = .ok (a, s')) (hst : s'.status = .ok) : fault = none ∧ m s = .ok (a, s') := by
  cases fault with
  | none => exact ⟨rfl, by rwa [callFailing_none] at h⟩
  | some st =>
    exfalso
    unfold callFailing at h
    split at h
    · rename_i h1 h2
      cases h1
      simp only [Outcome.ok.injEq, Prod.mk.injEq] at h
      rw [← h.2] at hst
      exact hf (congrArg some hst)
    · rename_i h1
      exact absurd h (h1 st a s' rfl)

/-- What a run which gives a dataset has done. -/
structure Partly (u : Undef R) (F : FileFaults) (hdus : List (Hdu R)) (oi : OiFits R) : Prop where
  head : ∃ hd s1 s2, F.header = none ∧ F.target = none ∧ read_oi_header u.header ⟨hdus, 0, .ok⟩ = .ok (hd, s1) ∧
    read_oi_target u u.target s1 = .ok (oi.targets, s2) ∧ finishHeader { oi with header := hd } = .ok oi
  array : Collects false (read_next_oi_array u u.array) ⟨hdus, 0, .ok⟩ oi.arrayList ∧ F.array.move = none ∧
    ∀ f ∈ F.array.reads.take (oi.arrayList.length + 1), f = none
  wavelength : Collects false (read_next_oi_wavelength u u.wave) ⟨hdus, 0, .ok⟩ oi.wavelengthList ∧
    F.wavelength.move = none ∧ ∀ f ∈ F.wavelength.reads.take (oi.wavelengthList.length + 1), f = none
  corr : oi.corrList.Sublist ((positions "OI_CORR" hdus).filterMap (readable (read_next_oi_corr u u.corr) hdus))
  inspol : oi.inspolList.Sublist ((positions "OI_INSPOL" hdus).filterMap (readable (read_next_oi_inspol u u.inspol) hdus))
  vis : oi.visList.Sublist ((positions "OI_VIS" hdus).filterMap (readable (read_next_oi_vis u u.vis) hdus))
  vis2 : oi.vis2List.Sublist ((positions "OI_VIS2" hdus).filterMap (readable (read_next_oi_vis2 u u.vis2) hdus))
  t3 : oi.t3List.Sublist ((positions "OI_T3" hdus).filterMap (readable (read_next_oi_t3 u u.t3) hdus))
  flux : oi.fluxList.Sublist ((positions "OI_FLUX" hdus).filterMap (readable (read_next_oi_flux u u.flux) hdus))

theorem guardStatus_some {m : FitsM R (Option α)} {s s' : FState R} {a : α}
    (h : guardStatus none m s = .ok (some a, s')) : s.status = .ok ∧ m s = .ok (some a, s') := by
  by_cases hs : s.status = .ok
  · rw [guardStatus_ok hs] at h
    exact ⟨hs, h⟩
  · rw [guardStatus_err hs] at h
    cases h

theorem skip_step {name : CStr} {old : α} {read : FitsM R α} (h : ReadsNext name old read)
    {hdus : List (Hdu R)} (hn : ∀ h ∈ hdus, StringName h) {c : Nat} (hc : c < hdus.length) {F : TableFaults}
    (hF : TableFaults.Errors F) {β : Type} {f : List α → FitsM R β} {b : β} {s' : FState R}
    (hr : (readTablesFailing true read F >>= f) ⟨hdus, c, .ok⟩ = .ok (b, s')) :
    ∃ l c', c' < hdus.length ∧ l.Sublist ((positions name hdus).filterMap (readable read hdus)) ∧
      f l ⟨hdus, c', .ok⟩ = .ok (b, s') := by
  obtain ⟨l, s1, h1, h2⟩ := bind_ok_split hr
  rcases readTablesFailing_skip h hn hc hF with h3 | ⟨l', c', h3, h4, h5⟩
  · rw [h3] at h1; cases h1
  · rw [h3] at h1
    obtain ⟨rfl, rfl⟩ := Prod.mk.inj (Outcome.ok.inj h1)
    exact ⟨_, c', h4, h5, h2⟩

theorem body_partly {u : Undef R} {F : FileFaults} {hdus : List (Hdu R)} (h0 : hdus ≠ [])
    (hn : ∀ h ∈ hdus, StringName h) (hF : FileFaults.Errors F) (ha : TableFaults.NotEof F.array)
    (hw : TableFaults.NotEof F.wavelength) {oi : OiFits R} {s : FState R}
    (h : readBodyFailing u F ⟨hdus, 0, .ok⟩ = .ok (some oi, s)) : s.status = .ok ∧ Partly u F hdus oi := by
  unfold readBodyFailing at h
  obtain ⟨hd, s1, e1, h⟩ := bind_ok_split h
  obtain ⟨tg, s2, e2, h⟩ := bind_ok_split h
  obtain ⟨t2, h⟩ := guardStatus_some h
  have t1 : s1.status = .ok := by
    refine Decidable.byContradiction fun t => ?_
    rw [guardStatus_err t] at e2
    obtain ⟨-, rfl⟩ := Prod.mk.inj (Outcome.ok.inj e2)
    exact t t2
  rw [guardStatus_ok t1] at e2
  obtain ⟨f1, e1⟩ := callFailing_ok hF.header e1 t1
  obtain ⟨f2, e2⟩ := callFailing_ok hF.target e2 t2
  have k1 : s1.hdus = hdus := by
    obtain ⟨a, s', h1, h2⟩ := header_ends u.header (⟨hdus, 0, .ok⟩ : FState R)
    rw [e1] at h1
    obtain ⟨-, rfl⟩ := Prod.mk.inj (Outcome.ok.inj h1)
    exact h2
  have k2 : s2.hdus = hdus := by
    rcases (target_ends u u.target s1).1 with h1 | ⟨a, s', h1, h2⟩
    · rw [e2] at h1; cases h1
    · rw [e2] at h1
      obtain ⟨-, rfl⟩ := Prod.mk.inj (Outcome.ok.inj h1)
      exact h2.trans k1
  obtain ⟨hd2, c2, st2⟩ := s2
  dsimp only at k2 t2
  subst k2 t2
  obtain ⟨la, s3, e3, h⟩ := bind_ok_split h
  obtain ⟨t3, h⟩ := guardStatus_some h
  obtain ⟨a1, ⟨c3, rfl, -⟩, a3, a4⟩ := readTablesFailing_all (readsNext_array u _) h0 hF.array ha e3 t3
  obtain ⟨lw, s4, e4, h⟩ := bind_ok_split h
  obtain ⟨t4, h⟩ := guardStatus_some h
  obtain ⟨w1, ⟨c4, rfl, hc4⟩, w3, w4⟩ := readTablesFailing_all (readsNext_wavelength u _) h0 hF.wavelength hw e4 t4
  obtain ⟨lc, c5, hc5, b1, h⟩ := skip_step (readsNext_corr u _) hn hc4 hF.corr h
  obtain ⟨li, c6, hc6, b2, h⟩ := skip_step (readsNext_inspol u _) hn hc5 hF.inspol h
  obtain ⟨lv, c7, hc7, b3, h⟩ := skip_step (readsNext_vis u _) hn hc6 hF.vis h
  obtain ⟨lv2, c8, hc8, b4, h⟩ := skip_step (readsNext_vis2 u _) hn hc7 hF.vis2 h
  obtain ⟨lt, c9, hc9, b5, h⟩ := skip_step (readsNext_t3 u _) hn hc8 hF.t3 h
  obtain ⟨lf, c10, hc10, b6, h⟩ := skip_step (readsNext_flux u _) hn hc9 hF.flux h
  have hcnt := assemble_counts hd tg la lw lc li lv lv2 lt lf
  obtain ⟨hd', hfin⟩ := finishHeader_ok hcnt
  rw [hfin] at h
  have hres := Prod.mk.inj (Outcome.ok.inj h)
  have hs := (assemble_spec hd tg la lw lc li lv lv2 lt lf).1
  unfold SameLists at hs
  have hoi := Option.some.inj hres.1
  refine ⟨by rw [← hres.2], ?_⟩
  generalize assemble hd tg la lw lc li lv lv2 lt lf = x at *
  have q1 : x.targets = tg := by rw [← hs]; rfl
  have q2 : x.arrayList = la := by rw [← hs]; rfl
  have q3 : x.wavelengthList = lw := by rw [← hs]; rfl
  have q4 : x.corrList = lc := by rw [← hs]; rfl
  have q5 : x.inspolList = li := by rw [← hs]; rfl
  have q6 : x.visList = lv := by rw [← hs]; rfl
  have q7 : x.vis2List = lv2 := by rw [← hs]; rfl
  have q8 : x.t3List = lt := by rw [← hs]; rfl
  have q9 : x.fluxList = lf := by rw [← hs]; rfl
  have q10 : x.header = hd := by rw [← hs]; rfl
  subst hoi q1 q2 q3 q4 q5 q6 q7 q8 q9 q10
  exact ⟨⟨_, s1, _, f1, f2, e1, e2, hfin⟩, ⟨a1, a3, a4⟩, ⟨w1, w3, w4⟩, b1, b2, b3, b4, b5, b6⟩

/-! ### Reading ends -/

theorem readAllFailing_all_ends {name : CStr} {old : α} {read : FitsM R α} (h : ReadsNext name old read)
    {hdus : List (Hdu R)} (hn : ∀ h ∈ hdus, StringName h) (fuel : Nat) :
    ∀ (faults : List (Option ReadFault)) (c : Nat) (st : Status), (∀ f, some f ∈ faults → f.status ≠ .ok) →
      (st = .ok → c < hdus.length ∧ hdus.length - c + faults.length < fuel + 1) → (st ≠ .ok → 0 < fuel) →
      readAllFailing false read faults fuel ⟨hdus, c, st⟩ = .abort ∨
      ∃ l c' st', readAllFailing false read faults fuel ⟨hdus, c, st⟩ = .ok (l, ⟨hdus, c', st'⟩) ∧
        (c < hdus.length → c' < hdus.length) := by
  induction fuel with
  | zero =>
    intro faults c st _ hc hf
    by_cases hst : st = .ok
    · have := hc hst; omega
    · have := hf hst; omega
  | succ fuel ih =>
    intro faults c st he hc hf
    rw [readAllFailing]
    have stop : ∀ {a : α} {c1 : Nat} {st1 : Status}, st1 ≠ .ok → (c < hdus.length → c1 < hdus.length) →
        readFailing read faults.head?.join ⟨hdus, c, st⟩ = .ok (a, ⟨hdus, c1, st1⟩) →
        ∃ l c' st', (readFailing read faults.head?.join >>= fun x => getStatus >>= fun st =>
          if st = .ok then do
            let xs ← readAllFailing false read faults.tail fuel
            return x :: xs
          else if st = .END_OF_FILE then do
            setStatus .ok
            return []
          else if false then do
            setStatus .ok
            readAllFailing false read faults.tail fuel
          else return []) ⟨hdus, c, st⟩ = .ok (l, ⟨hdus, c', st'⟩) ∧ (c < hdus.length → c' < hdus.length) := by
      intro a c1 st1 h1 h2 hr
      rw [FitsM.bind_ok hr, FitsM.bind_ok (run_getStatus _)]
      dsimp only
      rw [if_neg h1]
      split
      · exact ⟨[], c1, .ok, rfl, h2⟩
      · exact ⟨[], c1, st1, rfl, h2⟩
    have hhead : ∀ f, faults.head?.join = some f → f.status ≠ .ok := by
      intro f hf'
      cases faults with
      | nil => cases hf'
      | cons g t => exact he f (by simp only [List.head?_cons, Option.join_some] at hf'; rw [hf']; simp)
    by_cases hst : st = .ok
    · subst hst
      obtain ⟨hc1, hc2⟩ := hc rfl
      rcases h.one hn hc1 with h1 | ⟨a, s', h1, h2, h3, h4, h5⟩
      · left
        refine Verif.bind_abort ?_
        unfold readFailing
        rw [h1]
        cases faults.head?.join <;> rfl
      · cases hj : faults.head?.join with
        | some f =>
          rw [← hj]
          exact .inr (stop (a := a) (c1 := c + min f.moved (s'.cur - c)) (hhead f hj) (fun _ => by omega) (by
            unfold readFailing
            rw [hj, h1, ← h2]))
        | none =>
          rw [← hj]
          have hr : readFailing read faults.head?.join ⟨hdus, c, .ok⟩ = .ok (a, s') := by
            rw [hj, readFailing_none, h1]
          obtain ⟨hd, c1, st1⟩ := s'
          dsimp only at h2 h3 h4 h5
          subst h2
          by_cases h6 : st1 = .ok
          · subst h6
            obtain ⟨h7, -⟩ := h5 (by decide)
            rw [FitsM.bind_ok hr, FitsM.bind_ok (run_getStatus _)]
            dsimp only
            rw [if_pos rfl]
            have hlen : faults.tail.length ≤ faults.length := by simp
            rcases ih faults.tail c1 .ok (fun f hf => he f (List.mem_of_mem_tail hf)) (fun _ => ⟨h4, by omega⟩)
              (fun h => absurd rfl h) with h10 | ⟨l, c', st', h10, h11⟩
            · exact .inl (Verif.bind_abort h10)
            · refine .inr ⟨a :: l, c', st', ?_, fun _ => h11 h4⟩
              rw [FitsM.bind_ok h10]
              rfl
          · exact .inr (stop h6 (fun _ => h4) hr)
    · have hp := h.pending (s := ⟨hdus, c, st⟩) hst
      cases hj : faults.head?.join with
      | some f =>
        rw [← hj]
        exact .inr (stop (a := old) (c1 := c) (hhead f hj) id (by
          unfold readFailing
          rw [hj, hp]
          simp))
      | none =>
        rw [← hj]
        exact .inr (stop hst id (by rw [hj, readFailing_none, hp]))

theorem readTablesFailing_all_ends {name : CStr} {old : α} {read : FitsM R α} (h : ReadsNext name old read)
    {hdus : List (Hdu R)} (h0 : hdus ≠ []) (hn : ∀ h ∈ hdus, StringName h) (c : Nat) {F : TableFaults}
    (hF : TableFaults.Errors F) :
    readTablesFailing false read F ⟨hdus, c, .ok⟩ = .abort ∨
    ∃ l c' st, readTablesFailing false read F ⟨hdus, c, .ok⟩ = .ok (l, ⟨hdus, c', st⟩) ∧
      (c < hdus.length → c' < hdus.length) ∧ (F.move = none → c' < hdus.length) := by
  have hpos : 0 < hdus.length := List.length_pos_iff.mpr h0
  obtain ⟨t, ht⟩ := move_first c h0 F.move
  rw [readTablesFailing, FitsM.bind_ok ht]
  cases hm : F.move with
  | none =>
    dsimp only
    rw [FitsM.bind_ok (show fits_get_num_hdus (⟨hdus, 0, .ok⟩ : FState R) = .ok (hdus.length, ⟨hdus, 0, .ok⟩) from rfl)]
    rcases readAllFailing_all_ends h hn (hdus.length + 1 + 0 + F.reads.length) F.reads 0 .ok hF.2
      (fun _ => ⟨hpos, by omega⟩) (fun h => absurd rfl h) with h1 | ⟨l, c', st, h1, h2⟩
    · exact .inl h1
    · exact .inr ⟨l, c', st, h1, fun _ => h2 hpos, fun _ => h2 hpos⟩
  | some st =>
    dsimp only
    have hst : st ≠ .ok := fun e => hF.1 (by rw [hm, e])
    rw [FitsM.bind_ok (show fits_get_num_hdus (⟨hdus, c, st⟩ : FState R) = .ok (0, ⟨hdus, c, st⟩) by
      simp [fits_get_num_hdus, hst])]
    rcases readAllFailing_all_ends h hn (0 + 1 + (hdus.length + 1) + F.reads.length) F.reads c st hF.2
      (fun e => absurd e hst) (fun _ => by omega) with h1 | ⟨l, c', st', h1, h2⟩
    · exact .inl h1
    · exact .inr ⟨l, c', st', h1, h2, by intro h; cases h⟩

end Verif
