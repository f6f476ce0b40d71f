import Verif.Proof.FitsByName

/-! The tables collected are those at the positions of the file where there is a table
of the type and it can be read. -/

namespace Verif
open Outcome Spec

variable {R : FP} {α : Type} {h : Hdu R}

/-- The position a search starts from does not matter. -/
theorem ReadsNext.moved {name : CStr} {old : α} {read : FitsM R α} (h : ReadsNext name old read)
    {hdus : List (Hdu R)} {c j : Nat} {x : α} {s' : FState R} (hn : ∀ h ∈ hdus, StringName h)
    (hr : read ⟨hdus, c, .ok⟩ = .ok (x, s')) (hst : s'.status ≠ .END_OF_FILE) (hj : s'.cur = j) :
    read ⟨hdus, j - 1, .ok⟩ = .ok (x, s') := by
  have hcall := h.call (s := ⟨hdus, c, .ok⟩) rfl
  rw [hr] at hcall
  rcases hcall with h1 | ⟨a, s2, h1, h2, h3⟩
  · cases h1
  obtain ⟨rfl, rfl⟩ := Prod.mk.inj (Outcome.ok.inj h1)
  rcases h3 with ⟨h3, -⟩ | ⟨-, h4, h5, st, h6, h7⟩
  · exact absurd h3 hst
  simp only at h6
  obtain ⟨body, -, rfl⟩ := h.shape
  have hm : next_named_hdu name ⟨hdus, c, .ok⟩ = .ok ((), ⟨hdus, s'.cur, st⟩) := by
    refine (guardStatus_ok rfl _ _).trans ?_
    simp only [h6]
  rw [guardStatus_ok rfl, FitsM.bind_ok hm] at hr
  have hst' : st = .ok := by
    have hloop : ∀ (l : List (Hdu R)) (i : Nat), (∀ h ∈ l, StringName h) →
        (nextLoop name l i).2 = .ok ∨ (nextLoop name l i).2 = .END_OF_FILE := by
      intro l
      induction l with
      | nil => intro i _; right; rfl
      | cons h l ih =>
        intro i hl
        have hs := hl h List.mem_cons_self
        rw [nextLoop_cons (nameOk_of_string hs)]
        split
        · left; rfl
        · exact ih _ fun h hh => hl h (List.mem_cons_of_mem _ hh)
    have := hloop (hdus.drop (c + 1)) c fun h hh => hn h (List.mem_of_mem_drop hh)
    rw [h6] at this
    rcases this with h8 | h8
    · exact h8
    · exact absurd h8 h7
  subst hst'
  obtain ⟨h', k, h8, h9, h10⟩ := nextLoop_named _ (fun h hh => hn h (List.mem_of_mem_drop hh)) _ _ h6
  rw [List.getElem?_drop] at h8
  have hat : hdus[s'.cur]? = some h' := by rw [← h8]; congr 1; omega
  have e2 : next_named_hdu name ⟨hdus, j - 1, .ok⟩ = .ok ((), ⟨hdus, s'.cur, .ok⟩) :=
    (guardStatus_ok rfl _ _).trans (by
      have := nextLoop_here (by omega) hat (hn h' (List.mem_of_getElem? hat)) h10
      subst hj
      simp only [this])
  rw [guardStatus_ok rfl, FitsM.bind_ok e2]
  exact hr

/-- The tables collected, by position. -/
theorem ReadsNext.collects {name : CStr} {old : α} {read : FitsM R α} (h : ReadsNext name old read)
    {skip : Bool} {s : FState R} {l : List α} (hv : Collects skip read s l) (hok : s.status = .ok)
    (hn : ∀ h ∈ s.hdus, StringName h) (hc : s.cur < s.hdus.length) :
    let ps := (List.range' (s.cur + 1) (s.hdus.length - (s.cur + 1))).filter
      fun i => (s.hdus[i]?).any (isTable name)
    l = ps.filterMap (readable read s.hdus) ∧
      (skip = false → ∀ i ∈ ps, (readable read s.hdus i).isSome = true) := by
  have key := @nextLoop_filter R name
  have call' {s s' : FState R} {a : α} (hok : s.status = .ok) (hn : ∀ h ∈ s.hdus, StringName h)
      (hc : s.cur < s.hdus.length) (hr : read s = .ok (a, s')) (hst : s'.status ≠ .END_OF_FILE) :
      s'.hdus = s.hdus ∧ s'.cur < s.hdus.length ∧
      (List.range' (s.cur + 1) (s.hdus.length - (s.cur + 1))).filter (fun i => (s.hdus[i]?).any (isTable name))
        = s'.cur :: (List.range' (s'.cur + 1) (s.hdus.length - (s'.cur + 1))).filter
          (fun i => (s.hdus[i]?).any (isTable name)) ∧
      readable read s.hdus s'.cur = if s'.status = .ok then some a else none := by
    rcases h.call hok with h1 | ⟨a', s'', h1, h2, h3⟩
    · rw [hr] at h1; cases h1
    · rw [hr] at h1
      obtain ⟨rfl, rfl⟩ := Prod.mk.inj (Outcome.ok.inj h1)
      rcases h3 with ⟨h3, -⟩ | ⟨-, h4, h5, st, h6, h7⟩
      · exact absurd h3 hst
      · refine ⟨h2, h5, (key s.hdus hn _ s.cur (by omega)).2 _ _ h6 h7, ?_⟩
        obtain ⟨hdus, c, st0⟩ := s
        cases hok
        unfold readable
        rw [h.moved hn hr hst rfl]
  induction hv with
  | @done s s' a hr hst =>
    rcases h.call hok with h1 | ⟨a', s'', h1, h2, h3⟩
    · rw [hr] at h1; cases h1
    · rw [hr] at h1
      obtain ⟨rfl, rfl⟩ := Prod.mk.inj (Outcome.ok.inj h1)
      rcases h3 with ⟨-, -, h5⟩ | ⟨h3, -⟩
      · simp only [(key s.hdus hn (s.hdus.length - (s.cur + 1)) s.cur (by omega)).1 _ h5]
        simp
      · exact absurd hst h3
  | @next s s' a l hr hst hl ih =>
    obtain ⟨h2, h3, h4, h5⟩ := call' hok hn hc hr (by rw [hst]; decide)
    obtain ⟨ih1, ih2⟩ := ih hst (by rw [h2]; exact hn) (by rw [h2]; exact h3)
    rw [h2] at ih1 ih2
    rw [if_pos hst] at h5
    intro ps
    rw [show ps = _ from h4]
    refine ⟨?_, fun hs i hi => ?_⟩
    · rw [List.filterMap_cons, h5, ih1]
    · rcases List.mem_cons.mp hi with rfl | hi
      · rw [h5]; rfl
      · exact ih2 hs i hi
  | @skip s s' a l hs hr hst hst' hl ih =>
    obtain ⟨h2, h3, h4, h5⟩ := call' hok hn hc hr hst'
    obtain ⟨ih1, ih2⟩ := ih rfl (by simp only [h2]; exact hn) (by simp only [h2]; exact h3)
    simp only [h2] at ih1 ih2
    rw [if_neg hst] at h5
    intro ps
    rw [show ps = _ from h4]
    refine ⟨?_, fun hs' => by rw [hs] at hs'; cases hs'⟩
    rw [List.filterMap_cons, h5, ih1]

/-- Positions from the start of the file. -/
theorem positions_eq (name : CStr) {hdus : List (Hdu R)} (h0 : hdus ≠ []) :
    (List.range' (0 + 1) (hdus.length - (0 + 1))).filter (fun i => (hdus[i]?).any (isTable name))
      = positions name hdus := by
  have hpos : 0 < hdus.length := List.length_pos_iff.mpr h0
  rw [positions]
  have hr : List.range hdus.length = 0 :: List.range' 1 (hdus.length - 1) := by
    rw [List.range_eq_range', show hdus.length = hdus.length - 1 + 1 by omega, List.range'_succ]; simp
  rw [hr, List.filter_cons_of_neg (by simp)]
  simp only [Nat.zero_add]
  apply List.filter_congr
  intro i hi
  have : 0 < i := by have := (List.mem_range'_1.mp hi).1; omega
  simp [this]

theorem collects_skip {name : CStr} {old : α} {read : FitsM R α} (h : ReadsNext name old read)
    {hdus : List (Hdu R)} {l : List α} (h0 : hdus ≠ []) (hn : ∀ h ∈ hdus, StringName h)
    (hv : Collects true read ⟨hdus, 0, .ok⟩ l) : l = (positions name hdus).filterMap (readable read hdus) := by
  rw [← positions_eq name h0]
  exact (h.collects hv rfl hn (List.length_pos_iff.mpr h0)).1

theorem map_some_filterMap {β : Type} (f : β → Option α) (l : List β) (h : ∀ x ∈ l, (f x).isSome = true) :
    l.map f = (l.filterMap f).map some := by
  induction l with
  | nil => rfl
  | cons x l ih =>
    have h1 := h x List.mem_cons_self
    cases hf : f x with
    | none => rw [hf] at h1; cases h1
    | some y =>
      rw [List.map_cons, List.filterMap_cons, hf, List.map_cons, ih fun z hz => h z (List.mem_cons_of_mem _ hz)]

theorem collects_all {name : CStr} {old : α} {read : FitsM R α} (h : ReadsNext name old read)
    {hdus : List (Hdu R)} {l : List α} (h0 : hdus ≠ []) (hn : ∀ h ∈ hdus, StringName h)
    (hv : Collects false read ⟨hdus, 0, .ok⟩ l) : (positions name hdus).map (readable read hdus) = l.map some := by
  have := h.collects hv rfl hn (List.length_pos_iff.mpr h0)
  simp only [positions_eq name h0] at this
  rw [this.1]
  exact map_some_filterMap _ _ (this.2 trivial)

end Verif
