import Verif.Spec.Demo
import Verif.Proof.HeldFile
import Mathlib.Data.Nat.Find
import Mathlib.Tactic.ByContra

/-! Proofs about `demo_read`. -/

namespace Verif
open Outcome Spec

variable {R : FP} {α τ : Type}

/-- Positions of tables after position `c`. -/
def tablesAfter (name : CStr) (hdus : List (Hdu R)) (c : Nat) : List Nat :=
  (List.range' (c + 1) (hdus.length - (c + 1))).filter fun i => (hdus[i]?).any (isTable name)

theorem nextLoop_ok_or_end {name : CStr} : ∀ (l : List (Hdu R)) (i : Nat), (∀ h ∈ l, StringName h) →
    (nextLoop name l i).2 = .ok ∨ (nextLoop name l i).2 = .END_OF_FILE := by
  intro l
  induction l with
  | nil => intro i _; right; rfl
  | cons h l ih =>
    intro i hl
    have hs := hl h List.mem_cons_self
    rw [nextLoop_cons (nameOk_of_string hs)]
    split
    · left; rfl
    · exact ih _ fun h hh => hl h (List.mem_cons_of_mem _ hh)

/-- One call of a reading function. -/
theorem ReadsNext.step {name : CStr} {old : α} {read : FitsM R α} (h : ReadsNext name old read)
    {hdus : List (Hdu R)} {c : Nat} (hn : ∀ h ∈ hdus, StringName h) (hc : c < hdus.length) :
    (tablesAfter name hdus c = [] ∧ ∃ s', read ⟨hdus, c, .ok⟩ = .ok (old, s') ∧ s'.status = .END_OF_FILE ∧ s'.hdus = hdus) ∨
    ∃ j, tablesAfter name hdus c = j :: tablesAfter name hdus j ∧ c < j ∧ j < hdus.length ∧
      read ⟨hdus, c, .ok⟩ = read ⟨hdus, j - 1, .ok⟩ ∧
      ∀ a s', read ⟨hdus, c, .ok⟩ = .ok (a, s') → s'.hdus = hdus ∧ s'.cur = j ∧ s'.status ≠ .END_OF_FILE := by
  have key := nextLoop_filter (name := name) hdus hn (hdus.length - (c + 1)) c (by omega)
  rcases nextLoop_bound (name := name) (hdus.drop (c + 1)) c with h1 | ⟨j, st, h1, h2, h3, h4⟩
  · left
    refine ⟨key.1 _ h1, ?_⟩
    obtain ⟨body, -, rfl⟩ := h.shape
    have hm : next_named_hdu name ⟨hdus, c, .ok⟩ = .ok ((), ⟨hdus, c + (hdus.drop (c + 1)).length, .END_OF_FILE⟩) :=
      (guardStatus_ok rfl _ _).trans (by simp only [h1])
    refine ⟨⟨hdus, c + (hdus.drop (c + 1)).length, .END_OF_FILE⟩, ?_, rfl, rfl⟩
    · rw [guardStatus_ok rfl, FitsM.bind_ok hm, guardStatus_err (by simp)]
  · right
    have hst : st = .ok := by
      have := nextLoop_ok_or_end (name := name) (hdus.drop (c + 1)) c fun h hh => hn h (List.mem_of_mem_drop hh)
      rw [h1] at this
      exact this.resolve_right h2
    subst hst
    have hlt : j < hdus.length := by simp at h4; omega
    refine ⟨j, key.2 _ _ h1 h2, h3, hlt, ?_, ?_⟩
    · obtain ⟨h', k, h8, h9, h10⟩ := nextLoop_named _ (fun h hh => hn h (List.mem_of_mem_drop hh)) _ _ h1
      rw [List.getElem?_drop] at h8
      have hat : hdus[j]? = some h' := by rw [← h8]; congr 1; omega
      obtain ⟨body, -, rfl⟩ := h.shape
      have hm : next_named_hdu name ⟨hdus, c, .ok⟩ = .ok ((), ⟨hdus, j, .ok⟩) :=
        (guardStatus_ok rfl _ _).trans (by simp only [h1])
      have e2 : next_named_hdu name ⟨hdus, j - 1, .ok⟩ = .ok ((), ⟨hdus, j, .ok⟩) :=
        (guardStatus_ok rfl _ _).trans (by
          have := nextLoop_here (by omega) hat (hn h' (List.mem_of_getElem? hat)) h10
          simp only [this])
      rw [guardStatus_ok rfl, guardStatus_ok rfl, FitsM.bind_ok hm, FitsM.bind_ok e2]
    · intro a s' hr
      rcases h.call (s := ⟨hdus, c, .ok⟩) rfl with h5 | ⟨a', s'', h5, h6, h7⟩
      · rw [hr] at h5; cases h5
      · rw [hr] at h5
        obtain ⟨rfl, rfl⟩ := Prod.mk.inj (Outcome.ok.inj h5)
        rcases h7 with ⟨-, -, h8⟩ | ⟨h8, -, -, st, h9, -⟩
        · rw [h1] at h8; cases h8
        · rw [h1] at h9
          exact ⟨h6, (Prod.mk.inj h9).1.symm, h8⟩

/-- How reading the tables referred to ends. -/
structure RefsEnd (hdus : List (Hdu R)) (P : Prop) (refs : FitsM R Unit) : Prop where
  pass : ∀ c, P → refs ⟨hdus, c, .ok⟩ = .ok ((), ⟨hdus, c, .ok⟩)
  fail : ∀ c, ¬ P → ∀ s', refs ⟨hdus, c, .ok⟩ = .ok ((), s') → s'.status ≠ .ok ∧ s'.status ≠ .END_OF_FILE

/-- Nothing is done once there is an error. -/
theorem demoLoop_err {name : CStr} {old : τ} {read : FitsM R τ} (h : ReadsNext name old read)
    {line : τ → Outcome DemoLine} {refs : τ → FitsM R Unit} {fuel : Nat} {s s' : FState R} {x : List τ × List DemoLine}
    (hs : s.status ≠ .ok) (hr : demoLoop read line refs fuel s = .ok (x, s')) : s' = s := by
  cases fuel with
  | zero => cases hr
  | succ fuel =>
    obtain ⟨body, -, rfl⟩ := h.shape
    rw [demoLoop, FitsM.bind_ok (guardStatus_err hs _ _), FitsM.bind_ok (run_getStatus s), if_pos hs] at hr
    exact (Prod.mk.inj (Outcome.ok.inj hr)).2.symm

theorem bind_ok_split {m : FitsM R α} {f : α → FitsM R τ} {s s' : FState R} {y : τ}
    (h : (m >>= f) s = .ok (y, s')) : ∃ a s1, m s = .ok (a, s1) ∧ f a s1 = .ok (y, s') := by
  change FitsM.bind m f s = _ at h
  unfold FitsM.bind at h
  split at h
  · exact ⟨_, _, by assumption, h⟩
  all_goals cases h

/-- A loop which ends with the end of the file has read all tables. -/
theorem demoLoop_reads {name : CStr} {old : τ} {read : FitsM R τ} (h : ReadsNext name old read)
    {line : τ → Outcome DemoLine} {refs : τ → FitsM R Unit} {P : τ → Prop} {hdus : List (Hdu R)}
    (hn : ∀ h ∈ hdus, StringName h) (hrefs : ∀ t, RefsEnd hdus (P t) (refs t)) (fuel : Nat) :
    ∀ {c : Nat}, c < hdus.length → ∀ {s' : FState R} {x : List τ × List DemoLine},
    demoLoop read line refs fuel ⟨hdus, c, .ok⟩ = .ok (x, s') → s'.status = .END_OF_FILE →
    AllRead read P hdus (tablesAfter name hdus c) x.1 ∧ x.1.map line = x.2.map .ok ∧ s'.hdus = hdus := by
  induction fuel with
  | zero => intro c _ s' x hr; cases hr
  | succ fuel ih =>
    intro c hc s' x hr hst
    rw [demoLoop] at hr
    rcases h.step hn hc with ⟨h1, s1, h2, h3, h4⟩ | ⟨j, h1, h2, h3, h4, h5⟩
    · rw [FitsM.bind_ok h2, FitsM.bind_ok (run_getStatus s1), if_pos (by rw [h3]; decide)] at hr
      obtain ⟨rfl, rfl⟩ := Prod.mk.inj (Outcome.ok.inj hr)
      rw [h1]
      exact ⟨⟨rfl, by simp⟩, rfl, h4⟩
    · obtain ⟨t, s1, h6, hr⟩ := bind_ok_split hr
      obtain ⟨h7, h8, h9⟩ := h5 _ _ h6
      rw [FitsM.bind_ok (run_getStatus s1)] at hr
      by_cases hs1 : s1.status = .ok
      · rw [if_neg (by simpa using hs1)] at hr
        obtain ⟨l, s2, h10, hr1⟩ := bind_ok_split hr
        clear hr
        have hl : line t = .ok l ∧ s2 = s1 := by
          unfold FitsM.lift at h10
          cases hlt : line t with
          | ok y =>
            rw [hlt] at h10
            obtain ⟨rfl, rfl⟩ := Prod.mk.inj (Outcome.ok.inj h10)
            exact ⟨rfl, rfl⟩
          | abort => rw [hlt] at h10; cases h10
          | ub => rw [hlt] at h10; cases h10
        obtain ⟨hl, rfl⟩ := hl
        obtain ⟨_, s3, h11, hr2⟩ := bind_ok_split hr1
        obtain ⟨rest, s4, h12, hr3⟩ := bind_ok_split hr2
        obtain ⟨rfl, rfl⟩ := Prod.mk.inj (Outcome.ok.inj hr3)
        have hs2 : s2 = ⟨hdus, j, .ok⟩ := by
          obtain ⟨a, b, d⟩ := s2
          simp only at h7 h8 hs1
          rw [h7, h8, hs1]
        subst hs2
        by_cases hP : P t
        · rw [(hrefs t).pass j hP] at h11
          obtain ⟨-, rfl⟩ := Prod.mk.inj (Outcome.ok.inj h11)
          obtain ⟨⟨i1, i2⟩, i3, i4⟩ := ih h3 h12 hst
          refine ⟨⟨?_, ?_⟩, ?_, i4⟩
          · rw [h1, List.map_cons, List.map_cons, i1]
            congr 1
            unfold readable
            rw [← h4, h6]
            exact if_pos rfl
          · intro x hx
            rcases List.mem_cons.mp hx with rfl | hx
            · exact hP
            · exact i2 x hx
          · rw [List.map_cons, List.map_cons, i3, hl]
        · obtain ⟨e1, e2⟩ := (hrefs t).fail j hP _ h11
          have := demoLoop_err h e1 h12
          rw [this] at hst
          exact absurd hst e2
      · rw [if_pos hs1] at hr
        obtain ⟨rfl, rfl⟩ := Prod.mk.inj (Outcome.ok.inj hr)
        exact absurd hst h9

/-- The converse. -/
theorem demoLoop_succeeds {name : CStr} {old : τ} {read : FitsM R τ} (h : ReadsNext name old read)
    {line : τ → Outcome DemoLine} {refs : τ → FitsM R Unit} {P : τ → Prop} {hdus : List (Hdu R)}
    (hn : ∀ h ∈ hdus, StringName h) (hrefs : ∀ t, RefsEnd hdus (P t) (refs t)) (fuel : Nat) :
    ∀ {c : Nat}, c < hdus.length → hdus.length < c + 1 + fuel → ∀ {ts : List τ} {ls : List DemoLine},
    AllRead read P hdus (tablesAfter name hdus c) ts → ts.map line = ls.map .ok →
    ∃ s', demoLoop read line refs fuel ⟨hdus, c, .ok⟩ = .ok ((ts, ls), s') ∧ s'.status = .END_OF_FILE ∧ s'.hdus = hdus := by
  induction fuel with
  | zero => intro c _ _; omega
  | succ fuel ih =>
    intro c hc hf ts ls hall hls
    rw [demoLoop]
    rcases h.step hn hc with ⟨h1, s1, h2, h3, h4⟩ | ⟨j, h1, h2, h3, h4, h5⟩
    · rw [FitsM.bind_ok h2, FitsM.bind_ok (run_getStatus s1), if_pos (by rw [h3]; decide)]
      have ht : ts = [] := by
        have := hall.1
        rw [h1] at this
        simpa using this.symm
      subst ht
      have hl : ls = [] := by simpa using hls.symm
      subst hl
      exact ⟨s1, rfl, h3, h4⟩
    · obtain ⟨a1, a2⟩ := hall
      rw [h1] at a1
      cases ts with
      | nil => simp at a1
      | cons t ts =>
        cases ls with
        | nil => simp at hls
        | cons l ls =>
          simp only [List.map_cons, List.cons.injEq] at a1 hls
          obtain ⟨b1, b2⟩ := a1
          have hrd : ∃ s1, read ⟨hdus, j - 1, .ok⟩ = .ok (t, s1) ∧ s1.status = .ok := by
            unfold readable at b1
            split at b1
            · rename_i a s1 he
              by_cases hs1 : s1.status = .ok
              · rw [if_pos hs1] at b1
                cases b1
                exact ⟨s1, he, hs1⟩
              · rw [if_neg hs1] at b1; cases b1
            · cases b1
          obtain ⟨s1, h6, h7⟩ := hrd
          rw [← h4] at h6
          obtain ⟨h8, h9, -⟩ := h5 _ _ h6
          have hs1 : s1 = ⟨hdus, j, .ok⟩ := by
            obtain ⟨a, b, d⟩ := s1
            simp only at h7 h8 h9
            rw [h7, h8, h9]
          subst hs1
          obtain ⟨s', i1, i2, i3⟩ := ih h3 (by omega) ⟨b2, fun t ht => a2 t (List.mem_cons_of_mem _ ht)⟩ hls.2
          refine ⟨s', ?_, i2, i3⟩
          rw [FitsM.bind_ok h6, FitsM.bind_ok (run_getStatus _), if_neg (by simp)]
          have hlift : FitsM.lift (R := R) (line t) ⟨hdus, j, .ok⟩ = .ok (l, ⟨hdus, j, .ok⟩) := by
            rw [hls.1]; rfl
          rw [FitsM.bind_ok hlift, FitsM.bind_ok ((hrefs t).pass j (a2 t List.mem_cons_self)), FitsM.bind_ok i1]
          rfl

/-- A loop with the test after it. -/
theorem demoTables_iff {name : CStr} {old : τ} {read : FitsM R τ} (h : ReadsNext name old read)
    {line : τ → Outcome DemoLine} {refs : τ → FitsM R Unit} {P : τ → Prop} {hdus : List (Hdu R)}
    (hn : ∀ h ∈ hdus, StringName h) (hrefs : ∀ t, RefsEnd hdus (P t) (refs t)) {c : Nat} (hc : c < hdus.length)
    (ts : List τ) (ls : List DemoLine) :
    (∃ s', demoTables read line refs ⟨hdus, c, .ok⟩ = .ok ((ts, ls, true), s')) ↔
      AllRead read P hdus (tablesAfter name hdus c) ts ∧ ts.map line = ls.map .ok := by
  have hnum : fits_get_num_hdus (⟨hdus, c, .ok⟩ : FState R) = .ok (hdus.length, ⟨hdus, c, .ok⟩) := by
    simp [fits_get_num_hdus]
  unfold demoTables
  rw [FitsM.bind_ok hnum]
  constructor
  · rintro ⟨s', hr⟩
    obtain ⟨x, s1, h1, hr⟩ := bind_ok_split hr
    rw [FitsM.bind_ok (run_getStatus s1)] at hr
    by_cases hst : s1.status = .END_OF_FILE
    · rw [if_pos hst] at hr
      obtain ⟨_, s2, -, hr⟩ := bind_ok_split hr
      have := (Prod.mk.inj (Outcome.ok.inj hr)).1
      simp only [Prod.mk.injEq] at this
      obtain ⟨rfl, rfl, -⟩ := this
      obtain ⟨i1, i2, -⟩ := demoLoop_reads h hn hrefs _ hc h1 hst
      exact ⟨i1, i2⟩
    · rw [if_neg hst] at hr
      have := (Prod.mk.inj (Outcome.ok.inj hr)).1
      simp at this
  · rintro ⟨h1, h2⟩
    obtain ⟨s', i1, i2, i3⟩ := demoLoop_succeeds h hn hrefs (hdus.length + 1) hc (by omega) h1 h2
    refine ⟨{ s' with status := .ok }, ?_⟩
    rw [FitsM.bind_ok i1, FitsM.bind_ok (run_getStatus s'), if_pos i2]
    rfl

/-- The state after a loop. -/
theorem demoTables_state {name : CStr} {old : τ} {read : FitsM R τ} (h : ReadsNext name old read)
    {line : τ → Outcome DemoLine} {refs : τ → FitsM R Unit} {P : τ → Prop} {hdus : List (Hdu R)}
    (hn : ∀ h ∈ hdus, StringName h) (hrefs : ∀ t, RefsEnd hdus (P t) (refs t)) {c : Nat} (hc : c < hdus.length)
    {ts : List τ} {ls : List DemoLine} {s' : FState R}
    (hr : demoTables read line refs ⟨hdus, c, .ok⟩ = .ok ((ts, ls, true), s')) : s'.status = .ok ∧ s'.hdus = hdus := by
  have hnum : fits_get_num_hdus (⟨hdus, c, .ok⟩ : FState R) = .ok (hdus.length, ⟨hdus, c, .ok⟩) := by
    simp [fits_get_num_hdus]
  unfold demoTables at hr
  rw [FitsM.bind_ok hnum] at hr
  obtain ⟨x, s1, h1, hr⟩ := bind_ok_split hr
  rw [FitsM.bind_ok (run_getStatus s1)] at hr
  by_cases hst : s1.status = .END_OF_FILE
  · rw [if_pos hst] at hr
    obtain ⟨-, -, i3⟩ := demoLoop_reads h hn hrefs _ hc h1 hst
    have hset : setStatus (R := R) .ok s1 = .ok ((), { s1 with status := .ok }) := rfl
    rw [FitsM.bind_ok hset] at hr
    have := (Prod.mk.inj (Outcome.ok.inj hr)).2
    rw [← this]
    exact ⟨rfl, i3⟩
  · rw [if_neg hst] at hr
    have := (Prod.mk.inj (Outcome.ok.inj hr)).1
    simp at this

/-! ### The tables referred to -/

/-- Reading by name through the second connection. -/
theorem onSecond_end {name keyword value : CStr} {old : α} {chdu : Option CStr → FitsM R α} {read : FitsM R α}
    (hnext : ReadsNext name old read)
    (hread : read = guardStatus old (next_named_hdu name >>= fun _ => guardStatus old (chdu none)))
    (hc : ∀ {h : Hdu R} {s : FState R}, At s h → h.keys.lookup keyword = some (.str value) →
      chdu none s = chdu (some value) s)
    (herr : ∀ s : FState R, s.status ≠ .ok → chdu (some value) s = .ok (old, s))
    {hdus : List (Hdu R)} (hb : ∀ h ∈ hdus.drop 1, h.type = .binary) (hs : ∀ h ∈ hdus, StringName h)
    (hk : ∀ h ∈ hdus, StringKey keyword h) :
    RefsEnd hdus (Resolves name keyword value read hdus)
      (onSecond (guardStatus old (specific_named_hdu name keyword value >>= fun _ => chdu (some value)))) := by
  have hfound : ∀ {i}, FirstAt (isTableOf name keyword value) hdus i →
      guardStatus old (specific_named_hdu name keyword value >>= fun _ => chdu (some value)) ⟨hdus, 0, .ok⟩
        = read ⟨hdus, i - 1, .ok⟩ := by
    intro i hi
    rw [hread]
    exact read_by_name hc hs hk 0 hi (tablesBefore_of hb)
  constructor
  · rintro c ⟨i, hi, hr⟩
    unfold onSecond
    rw [show (⟨hdus, c, .ok⟩ : FState R).hdus = hdus from rfl, show (⟨hdus, c, .ok⟩ : FState R).status = .ok from rfl,
      hfound hi]
    unfold readable at hr
    split at hr
    · rename_i a s1 he
      by_cases hs1 : s1.status = .ok
      · rw [he]
        show Outcome.ok ((), (⟨hdus, c, s1.status⟩ : FState R)) = _
        rw [hs1]
      · rw [if_neg hs1] at hr; cases hr
    · cases hr
  · intro c hno s' hr
    unfold onSecond at hr
    rw [show (⟨hdus, c, .ok⟩ : FState R).hdus = hdus from rfl, show (⟨hdus, c, .ok⟩ : FState R).status = .ok from rfl] at hr
    by_cases hex : ∃ i, FirstAt (isTableOf name keyword value) hdus i
    · obtain ⟨i, hi⟩ := hex
      rw [hfound hi] at hr
      have hnr : ¬ (readable read hdus i).isSome = true := fun hx => hno ⟨i, hi, hx⟩
      unfold readable at hnr
      cases he : read ⟨hdus, i - 1, .ok⟩ with
      | abort => rw [he] at hr; cases hr
      | ub => rw [he] at hr; cases hr
      | ok y =>
        obtain ⟨a, s1⟩ := y
        rw [he] at hr hnr
        have e : s' = ⟨hdus, c, s1.status⟩ := (Prod.mk.inj (Outcome.ok.inj hr)).2.symm
        rw [e]
        refine ⟨fun hok => ?_, fun heof => ?_⟩
        · have hok : s1.status = .ok := hok
          simp only [if_pos hok] at hnr
          exact hnr rfl
        · have heof : s1.status = .END_OF_FILE := heof
          obtain ⟨h0, h1, -⟩ := hi
          have hlt : i < hdus.length := by
            by_contra hge
            rw [List.getElem?_eq_none (by omega)] at h1
            simp at h1
          have hit : (hdus[i]?).any (isTable name) = true := by
            rw [List.getElem?_eq_getElem hlt] at h1 ⊢
            simp only [Option.any_some] at h1 ⊢
            unfold isTableOf at h1
            rw [Bool.and_eq_true] at h1
            exact h1.1
          rcases hnext.step (c := i - 1) hs (by omega) with ⟨h2, -⟩ | ⟨j, -, -, -, -, h5⟩
          · have : i ∈ tablesAfter name hdus (i - 1) := by
              refine List.mem_filter.mpr ⟨?_, hit⟩
              rw [List.mem_range'_1]
              omega
            rw [h2] at this
            cases this
          · exact (h5 _ _ he).2.2 heof
    · have habs : ∀ h ∈ hdus.drop 1, isTableOf name keyword value h = false := by
        by_contra hne
        simp only [not_forall, Bool.not_eq_false] at hne
        apply hex
        have hlt : ∃ k, 0 < k ∧ (hdus[k]?).any (isTableOf name keyword value) = true := by
          obtain ⟨h, hh, ht⟩ := hne
          obtain ⟨k, hk, he⟩ := List.getElem_of_mem hh
          refine ⟨k + 1, by omega, ?_⟩
          have : hdus[k + 1]? = some h := by
            rw [show k + 1 = 1 + k by omega, ← List.getElem?_drop, List.getElem?_eq_getElem hk, he]
          rw [this]
          simpa using ht
        classical
        refine ⟨Nat.find hlt, (Nat.find_spec hlt).1, (Nat.find_spec hlt).2, fun j hj hlt' => ?_⟩
        have := Nat.find_min hlt hlt'
        simpa [hj] using this
      obtain ⟨s1, h1, -, h3⟩ := read_no_name herr hb hs hk 0 habs
      rw [h1] at hr
      have e : s' = ⟨hdus, c, s1.status⟩ := (Prod.mk.inj (Outcome.ok.inj hr)).2.symm
      rw [e]
      show s1.status ≠ .ok ∧ s1.status ≠ .END_OF_FILE
      rw [h3]
      exact ⟨by decide, by decide⟩

/-- One after the other; nothing is read after an error. -/
theorem RefsEnd.seq {hdus : List (Hdu R)} {P Q : Prop} {m n : FitsM R Unit} (hm : RefsEnd hdus P m)
    (hn : RefsEnd hdus Q n) (hs : ∀ s : FState R, s.status ≠ .ok → ∀ s', n s = .ok ((), s') → s'.status = s.status) :
    RefsEnd hdus (P ∧ Q) (do m; n) := by
  constructor
  · rintro c ⟨hp, hq⟩
    show (m >>= fun _ => n) _ = _
    rw [FitsM.bind_ok (hm.pass c hp)]
    exact hn.pass c hq
  · intro c hno s' hr
    obtain ⟨_, s1, h1, h2⟩ := bind_ok_split hr
    by_cases hp : P
    · rw [hm.pass c hp] at h1
      obtain ⟨-, rfl⟩ := Prod.mk.inj (Outcome.ok.inj h1)
      exact hn.fail c (fun hq => hno ⟨hp, hq⟩) s' h2
    · obtain ⟨e1, e2⟩ := hm.fail c hp s1 h1
      rw [hs s1 e1 s' h2]
      exact ⟨e1, e2⟩

theorem RefsEnd.ite {hdus : List (Hdu R)} {P : Prop} {m : FitsM R Unit} {v : CStr} (hm : RefsEnd hdus P m) :
    RefsEnd hdus (v ≠ [] → P) (if v.length > 0 then m else pure ()) := by
  by_cases hv : v = []
  · subst hv
    exact ⟨fun c _ => rfl, fun c hno => absurd (fun h => absurd rfl h) hno⟩
  · rw [if_pos (List.length_pos_iff.mpr hv)]
    exact ⟨fun c hp => hm.pass c (hp hv), fun c hno => hm.fail c fun hp => hno fun _ => hp⟩

theorem onSecond_err {m : FitsM R α} {old : α} {s s' : FState R} (hs : s.status ≠ .ok)
    (hm : ∃ body, m = guardStatus old body) (hr : onSecond m s = .ok ((), s')) : s'.status = s.status := by
  obtain ⟨body, rfl⟩ := hm
  unfold onSecond at hr
  rw [guardStatus_err (s := ⟨s.hdus, 0, s.status⟩) hs] at hr
  rw [← (Prod.mk.inj (Outcome.ok.inj hr)).2]

theorem array_end (u : Undef R) {hdus : List (Hdu R)} (hp : PlainFile hdus) (v : CStr) :
    RefsEnd hdus (Resolves "OI_ARRAY" "ARRNAME" v (read_next_oi_array u u.array) hdus)
      (onSecond (read_oi_array u v u.array)) :=
  onSecond_end (chdu := read_oi_array_chdu u u.array) (readsNext_array u u.array) rfl
    (fun hat hl => array_chdu_name hat hl u u.array) (fun _ h => guardStatus_err h _ _) hp.tables hp.names hp.arrnames

theorem corr_end (u : Undef R) {hdus : List (Hdu R)} (hp : PlainFile hdus) (v : CStr) :
    RefsEnd hdus (Resolves "OI_CORR" "CORRNAME" v (read_next_oi_corr u u.corr) hdus)
      (onSecond (read_oi_corr u v u.corr)) :=
  onSecond_end (chdu := read_oi_corr_chdu u u.corr) (readsNext_corr u u.corr) rfl
    (fun hat hl => corr_chdu_name hat hl u u.corr) (fun _ h => guardStatus_err h _ _) hp.tables hp.names hp.corrnames

theorem wave_end (u : Undef R) {hdus : List (Hdu R)} (hp : PlainFile hdus) (v : CStr) :
    RefsEnd hdus (Resolves "OI_WAVELENGTH" "INSNAME" v (read_next_oi_wavelength u u.wave) hdus)
      (onSecond (read_oi_wavelength u v u.wave)) :=
  onSecond_end (chdu := read_oi_wavelength_chdu u u.wave) (readsNext_wavelength u u.wave) rfl
    (fun hat hl => wavelength_chdu_name hat hl u u.wave) (fun _ h => guardStatus_err h _ _) hp.tables hp.names hp.insnames

theorem demoRefs_end (u : Undef R) {hdus : List (Hdu R)} (hp : PlainFile hdus) (a i c : CStr) :
    RefsEnd hdus (RefsRead u hdus a i c) (demoRefs u a i c) := by
  have h1 := (array_end u hp a).ite (v := a)
  have h2 := (corr_end u hp c).ite (v := c)
  have h3 := wave_end u hp i
  have h23 := h2.seq h3 fun s hs s' hr => onSecond_err hs ⟨_, rfl⟩ hr
  have h123 := h1.seq h23 (by
    intro s hs s' hr
    obtain ⟨_, s1, e1, e2⟩ := bind_ok_split hr
    have f1 : s1.status = s.status := by
      split at e1
      · exact onSecond_err hs ⟨_, rfl⟩ e1
      · rw [← (Prod.mk.inj (Outcome.ok.inj e1)).2]
    rw [onSecond_err (by rw [f1]; exact hs) ⟨_, rfl⟩ e2, f1])
  exact ⟨fun k h => h123.pass k ⟨h.array, h.corr, h.wave⟩, fun k h => h123.fail k fun hx => h ⟨hx.1, hx.2.1, hx.2.2⟩⟩

/-! ### The whole program -/

theorem tablesAfter_zero (name : CStr) {hdus : List (Hdu R)} (h0 : hdus ≠ []) : tablesAfter name hdus 0 = positions name hdus :=
  positions_eq name h0

theorem tablesAfter_eq (name : CStr) (hdus : List (Hdu R)) (c : Nat) :
    tablesAfter name hdus c = (positions name hdus).filter fun i => decide (c < i) := by
  unfold tablesAfter positions
  rw [List.filter_filter]
  by_cases hc : c + 1 ≤ hdus.length
  · have hr : List.range hdus.length = List.range (c + 1) ++ List.range' (c + 1) (hdus.length - (c + 1)) := by
      rw [List.range_eq_range', List.range_eq_range', show hdus.length = (c + 1) + (hdus.length - (c + 1)) by omega,
        ← List.range'_append]
      simp
    rw [hr, List.filter_append]
    have h1 : (List.range (c + 1)).filter (fun i => decide (c < i) && (decide (0 < i) && (hdus[i]?).any (isTable name))) = [] := by
      rw [List.filter_eq_nil_iff]
      intro i hi
      have := List.mem_range.mp hi
      simp; omega
    rw [h1, List.nil_append]
    apply List.filter_congr
    intro i hi
    have := List.mem_range'_1.mp hi
    have h2 : c < i := by omega
    have h3 : 0 < i := by omega
    simp [h2, h3]
  · rw [show hdus.length - (c + 1) = 0 by omega]
    symm
    simp only [List.range'_zero, List.filter_nil, List.filter_eq_nil_iff]
    intro i hi
    have := List.mem_range.mp hi
    simp; omega

/-- Reading the header and the targets. -/
theorem head_read (u : Undef R) {hdus : List (Hdu R)} (h0 : hdus ≠ []) (hn : ∀ h ∈ hdus, StringName h) :
    (∀ p, HeadRead hdus p → ∃ hd tg, read_oi_header u.header ⟨hdus, 0, .ok⟩ = .ok (hd, ⟨hdus, 0, .ok⟩) ∧
      read_oi_target u u.target ⟨hdus, 0, .ok⟩ = .ok (tg, ⟨hdus, p, .ok⟩)) ∧
    ∀ hd s0 tg s1, read_oi_header u.header ⟨hdus, 0, .ok⟩ = .ok (hd, s0) → read_oi_target u u.target s0 = .ok (tg, s1) →
      s1.status = .ok → ∃ p, HeadRead hdus p ∧ s1 = ⟨hdus, p, .ok⟩ := by
  have pass : ∀ p, HeadRead hdus p → ∃ hd tg, read_oi_header u.header ⟨hdus, 0, .ok⟩ = .ok (hd, ⟨hdus, 0, .ok⟩) ∧
      read_oi_target u u.target ⟨hdus, 0, .ok⟩ = .ok (tg, ⟨hdus, p, .ok⟩) := by
    rintro p ⟨⟨h, hd, e1, e2⟩, e3, h', tg, e4, e5⟩
    obtain ⟨b, hb⟩ := header_found (old := u.header) e1 e2
    have hm := movnamLoop_first (name := "OI_TARGET") hdus hn 0
    rw [e3] at hm
    simp only [Option.map_some, Nat.zero_add] at hm
    have hmv : fits_movnam_hdu ("OI_TARGET" : CStr) (⟨hdus, 0, .ok⟩ : FState R) = .ok ((), ⟨hdus, p, .ok⟩) :=
      (guardStatus_ok rfl _ _).trans (by simp only [hm])
    obtain ⟨hlt, ht, -⟩ := List.findIdx?_eq_some_iff_getElem.mp e3
    have hat : At (⟨hdus, p, .ok⟩ : FState R) h' := ⟨rfl, e4⟩
    have hh : hdus[p] = h' := by rw [List.getElem?_eq_getElem hlt] at e4; exact Option.some.inj e4
    obtain ⟨t, hb'⟩ := (tells_targets (binary_of_isTable (hh ▸ ht)) u u.target).finds hat ⟨tg, e5⟩
    refine ⟨b, t, hb, ?_⟩
    unfold read_oi_target
    rw [guardStatus_ok rfl, FitsM.bind_ok hmv]
    exact hb'
  refine ⟨pass, fun hd s0 tg s1 e1 e2 e3 => ?_⟩
  have hs0 : s0.status = .ok := by
    by_contra hne
    rw [read_oi_target, guardStatus_err hne] at e2
    rw [(Prod.mk.inj (Outcome.ok.inj e2)).2] at hne
    exact hne e3
  obtain ⟨h, f1, f2⟩ := header_tells h0 e1 hs0
  obtain ⟨b, hb⟩ := header_found (old := u.header) f1 f2
  rw [hb] at e1
  obtain ⟨rfl, rfl⟩ := Prod.mk.inj (Outcome.ok.inj e1)
  obtain ⟨h', g1, g2⟩ := targets_tell u hn e2 e3
  obtain ⟨g3, p, hlt, g4, g5⟩ := List.find?_eq_some_iff_getElem.mp g1
  have hh : HeadRead hdus p := by
    refine ⟨⟨h, _, f1, f2⟩, ?_, h', tg, ?_, g2⟩
    · exact List.findIdx?_eq_some_iff_getElem.mpr ⟨hlt, by rw [g4]; exact g3, fun j hj => by simpa using g5 j hj⟩
    · rw [List.getElem?_eq_getElem hlt, g4]
  refine ⟨p, hh, ?_⟩
  obtain ⟨_, tg', -, e6⟩ := pass p hh
  rw [e6] at e2
  exact (Prod.mk.inj (Outcome.ok.inj e2)).2.symm

theorem map_line_ok {line : τ → DemoLine} (ts : List τ) (ls : List DemoLine) :
    ts.map (fun t => Outcome.ok (line t)) = ls.map Outcome.ok ↔ ls = ts.map line := by
  have h : ts.map (fun t => Outcome.ok (line t)) = (ts.map line).map Outcome.ok := by rw [List.map_map]; rfl
  rw [h]
  constructor
  · intro he
    have hi : Function.Injective (Outcome.ok : DemoLine → Outcome DemoLine) := fun a b hab => Outcome.ok.inj hab
    exact (List.map_inj_right (fun a b hab => hi hab)).mp he.symm
  · rintro rfl; rfl

theorem map_vis2_ok (vis : List (OiVis R)) (ts : List (OiVis2 R)) (ls : List DemoLine) :
    ts.map (demoVis2Line vis.getLast?) = ls.map Outcome.ok ↔
      (ts = [] ∨ vis ≠ []) ∧
      ls = ts.map (fun t => { vis2Line t with corrname := (vis.getLast?.map (·.corrname)).getD [] }) := by
  cases hv : vis.getLast? with
  | none =>
    have hnil : vis = [] := List.getLast?_eq_none_iff.mp hv
    subst hnil
    cases ts with
    | nil =>
      cases ls with
      | nil => exact ⟨fun _ => ⟨.inl rfl, rfl⟩, fun _ => rfl⟩
      | cons l ls => exact ⟨fun he => (nomatch he), fun he => (nomatch he.2)⟩
    | cons t ts =>
      constructor
      · intro he
        cases ls with
        | nil => simp at he
        | cons l ls =>
          simp only [List.map_cons, List.cons.injEq] at he
          cases he.1
      · rintro ⟨h | h, -⟩
        · cases h
        · exact absurd rfl h
  | some v =>
    have hne : vis ≠ [] := by rintro rfl; simp at hv
    have := map_line_ok (line := fun t : OiVis2 R => (⟨"OI_VIS2", t.arrname, t.insname, v.corrname⟩ : DemoLine)) ts ls
    constructor
    · intro he
      exact ⟨.inr hne, this.mp he⟩
    · rintro ⟨-, he⟩
      exact this.mpr he

/-- One type of tables, with more to do. -/
theorem stage_iff {name : CStr} {old : τ} {read : FitsM R τ} (h : ReadsNext name old read)
    {line : τ → Outcome DemoLine} {refs : τ → FitsM R Unit} {P : τ → Prop} {hdus : List (Hdu R)} (h0 : hdus ≠ [])
    (hn : ∀ h ∈ hdus, StringName h) (hrefs : ∀ t, RefsEnd hdus (P t) (refs t)) {c : Nat} (hc : c < hdus.length)
    (pr : List τ × List DemoLine × Bool → List DemoLine) (k : List τ × List DemoLine × Bool → FitsM R (List DemoLine × Bool))
    (lines : List DemoLine) :
    (∃ s', (demoTables read line refs >>= fun x =>
        if x.2.2 = false then pure (pr x, false) else (do let _ ← fits_movabs_hdu 1; k x)) ⟨hdus, c, .ok⟩
          = .ok ((lines, true), s')) ↔
      ∃ ts ls, AllRead read P hdus (tablesAfter name hdus c) ts ∧ ts.map line = ls.map .ok ∧
        ∃ s', k (ts, ls, true) ⟨hdus, 0, .ok⟩ = .ok ((lines, true), s') := by
  obtain ⟨p, rest, rfl⟩ := List.exists_cons_of_ne_nil h0
  have hmov : ∀ s : FState R, s.status = .ok → s.hdus = p :: rest →
      fits_movabs_hdu 1 s = .ok (p.type, ⟨p :: rest, 0, .ok⟩) := by
    rintro ⟨a, b, d⟩ h1 h2
    simp only at h1 h2
    subst h1; subst h2
    rfl
  constructor
  · rintro ⟨s', hr⟩
    obtain ⟨x, s1, h1, hr1⟩ := bind_ok_split hr
    obtain ⟨ts, ls, b⟩ := x
    cases b with
    | false =>
      rw [if_pos rfl] at hr1
      have := (Prod.mk.inj (Outcome.ok.inj hr1)).1
      simp at this
    | true =>
      rw [if_neg (by simp)] at hr1
      obtain ⟨h2, h3⟩ := demoTables_state h hn hrefs hc h1
      rw [FitsM.bind_ok (hmov s1 h2 h3)] at hr1
      obtain ⟨h4, h5⟩ := (demoTables_iff h hn hrefs hc ts ls).mp ⟨_, h1⟩
      exact ⟨ts, ls, h4, h5, s', hr1⟩
  · rintro ⟨ts, ls, h1, h2, s', h3⟩
    obtain ⟨s1, h4⟩ := (demoTables_iff h hn hrefs hc ts ls).mpr ⟨h1, h2⟩
    obtain ⟨h5, h6⟩ := demoTables_state h hn hrefs hc h4
    refine ⟨s', ?_⟩
    rw [FitsM.bind_ok h4, if_neg (by simp), FitsM.bind_ok (hmov s1 h5 h6)]
    exact h3

/-- What `demo_read` does with a file. -/
theorem demo_read_iff (u : Undef R) {hdus : List (Hdu R)} (hp : PlainFile hdus) (lines : List DemoLine) :
    demo_read u (some hdus) = .ok (lines, true) ↔
      ∃ p d, HeadRead hdus p ∧ DemoReads u hdus ((positions "OI_VIS" hdus).filter fun i => decide (p < i)) d ∧
        (d.vis2 = [] ∨ d.vis ≠ []) ∧ lines = d.printed := by
  have h0 := hp.primary
  have hlen : 0 < hdus.length := List.length_pos_iff.mpr h0
  have hbody : demo_read u (some hdus) = .ok (lines, true) ↔ ∃ s', demoBody u ⟨hdus, 0, .ok⟩ = .ok ((lines, true), s') := by
    show (demoBody u ⟨hdus, 0, .ok⟩ >>= fun x => Outcome.ok x.1) = _ ↔ _
    cases hb : demoBody u ⟨hdus, 0, .ok⟩ with
    | ok y =>
      obtain ⟨a, s⟩ := y
      constructor
      · intro he
        have : a = (lines, true) := Outcome.ok.inj he
        exact ⟨s, by rw [this]⟩
      · rintro ⟨s', he⟩
        rw [(Prod.mk.inj (Outcome.ok.inj he)).1]
        rfl
    | abort => exact ⟨fun he => (by cases he), fun ⟨_, he⟩ => (by cases he)⟩
    | ub => exact ⟨fun he => (by cases he), fun ⟨_, he⟩ => (by cases he)⟩
  rw [hbody]
  obtain ⟨pass, tells⟩ := head_read u h0 hp.names
  have hvis := fun p (hp' : p < hdus.length) => stage_iff (readsNext_vis u u.vis) (c := p)
    (line := fun t => .ok ⟨"OI_VIS", t.arrname, t.insname, t.corrname⟩) h0 hp.names
    (fun t => demoRefs_end u hp t.arrname t.insname t.corrname) hp'
  have hvis2 := fun v => stage_iff (readsNext_vis2 u u.vis2) (c := 0)
    (line := demoVis2Line v) h0 hp.names
    (fun t => demoRefs_end u hp t.arrname t.insname t.corrname) hlen
  have ht3 := stage_iff (readsNext_t3 u u.t3) (c := 0)
    (line := fun t => .ok ⟨"OI_T3", t.arrname, t.insname, t.corrname⟩) h0 hp.names
    (fun t => demoRefs_end u hp t.arrname t.insname t.corrname) hlen
  have hflux := stage_iff (readsNext_flux u u.flux) (c := 0)
    (line := fun t => .ok ⟨"OI_FLUX", t.arrname, t.insname, t.corrname⟩) h0 hp.names
    (fun t => demoRefs_end u hp t.arrname t.insname t.corrname) hlen
  have hinspol := demoTables_iff (readsNext_inspol u u.inspol) (c := 0)
    (line := fun t => .ok ⟨"OI_INSPOL", t.arrname, [], []⟩) hp.names
    (fun t => array_end u hp t.arrname) hlen
  -- the loops
  have hloops : ∀ p, HeadRead hdus p → ((∃ s', demoBody u ⟨hdus, 0, .ok⟩ = .ok ((lines, true), s')) ↔
      ∃ d, DemoReads u hdus ((positions "OI_VIS" hdus).filter fun i => decide (p < i)) d ∧
        (d.vis2 = [] ∨ d.vis ≠ []) ∧ lines = d.printed) := by
    intro p hh
    have hlt : p < hdus.length := (List.findIdx?_eq_some_iff_getElem.mp hh.2.1).1
    obtain ⟨hd, tg, e1, e2⟩ := pass p hh
    unfold demoBody
    rw [FitsM.bind_ok e1, FitsM.bind_ok e2, FitsM.bind_ok (run_getStatus _), if_neg (by simp)]
    refine (hvis p hlt (fun x => x.2.1) _ lines).trans ?_
    constructor
    · rintro ⟨vis, vl, v1, v2, hr⟩
      obtain ⟨vis2, wl, w1, w2, hr⟩ := (hvis2 _ _ _ _).mp hr
      obtain ⟨t3, tl, t1, t2, hr⟩ := (ht3 _ _ _).mp hr
      obtain ⟨flux, fl, f1, f2, hr⟩ := (hflux _ _ _).mp hr
      obtain ⟨s', hr⟩ := hr
      obtain ⟨x, s1, i1, i2⟩ := bind_ok_split hr
      obtain ⟨inspol, il, b⟩ := x
      have hi := (Prod.mk.inj (Outcome.ok.inj i2)).1
      simp only [Prod.mk.injEq] at hi
      obtain ⟨hi, rfl⟩ := hi
      obtain ⟨i3, i4⟩ := (hinspol inspol il).mp ⟨_, i1⟩
      rw [tablesAfter_eq] at v1
      rw [tablesAfter_zero _ h0] at w1 t1 f1 i3
      rw [map_line_ok] at v2 t2 f2 i4
      rw [map_vis2_ok] at w2
      subst v2; subst t2; subst f2; subst i4
      obtain ⟨w2, rfl⟩ := w2
      exact ⟨⟨vis, vis2, t3, flux, inspol⟩, ⟨v1, w1, t1, f1, i3⟩, w2, hi.symm⟩
    · rintro ⟨⟨vis, vis2, t3, flux, inspol⟩, ⟨v1, w1, t1, f1, i1⟩, w2, rfl⟩
      rw [← tablesAfter_eq] at v1
      rw [← tablesAfter_zero _ h0] at w1 t1 f1 i1
      refine ⟨vis, _, v1, (map_line_ok _ _).mpr rfl, ?_⟩
      refine (hvis2 _ _ _ _).mpr ⟨vis2, _, w1, (map_vis2_ok _ _ _).mpr ⟨w2, rfl⟩, ?_⟩
      refine (ht3 _ _ _).mpr ⟨t3, _, t1, (map_line_ok _ _).mpr rfl, ?_⟩
      refine (hflux _ _ _).mpr ⟨flux, _, f1, (map_line_ok _ _).mpr rfl, ?_⟩
      obtain ⟨s', hs'⟩ := (hinspol inspol _).mpr ⟨i1, (map_line_ok _ _).mpr rfl⟩
      refine ⟨s', ?_⟩
      rw [FitsM.bind_ok hs']
      rfl
  constructor
  · intro hr
    obtain ⟨s', hr'⟩ := hr
    have hh : ∃ p, HeadRead hdus p := by
      unfold demoBody at hr'
      obtain ⟨hd, s0, e1, hr1⟩ := bind_ok_split hr'
      obtain ⟨tg, s1, e2, hr2⟩ := bind_ok_split hr1
      rw [FitsM.bind_ok (run_getStatus _)] at hr2
      by_cases hst : s1.status = .ok
      · obtain ⟨p, h1, -⟩ := tells _ _ _ _ e1 e2 hst
        exact ⟨p, h1⟩
      · rw [if_pos hst] at hr2
        have := (Prod.mk.inj (Outcome.ok.inj hr2)).1
        simp at this
    obtain ⟨p, hh⟩ := hh
    obtain ⟨d, h1⟩ := (hloops p hh).mp ⟨s', hr'⟩
    exact ⟨p, d, hh, h1⟩
  · rintro ⟨p, d, hh, h1⟩
    exact (hloops p hh).mpr ⟨d, h1⟩

end Verif
