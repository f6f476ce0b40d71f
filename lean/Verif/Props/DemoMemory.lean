import Verif.Model.DemoMemory
import Verif.Props.Memory
import Mathlib.Tactic.Abel

/-! C101: the memory of oitable-demo. -/

set_option Elab.async false

namespace Verif.Mem

variable {M : Multiset Nat}

/-- At the end of a part of the program the blocks `M` and some others are allocated; no others if the
part has succeeded. -/
def Ends (M : Multiset Nat) (b : Bool) (h : Heap) : Prop :=
  ∃ L : Multiset Nat, Own (L + M) h ∧ (b = true → L = 0)

theorem ends_false (L : Multiset Nat) :
    Triple (Own (L + M)) (pure false : Mem Bool) (Ends M) :=
  Triple.pure fun _ hh => ⟨L, hh, fun e => by cases e⟩

theorem ends_true : Triple (Own M) (pure true : Mem Bool) (Ends M) :=
  Triple.pure fun _ hh => ⟨0, by rwa [zero_add], fun _ => rfl⟩

/-- A call which reads a table yields the blocks of the table, or others if it fails. -/
theorem demoRead_rule {α τ : Type} {alloc : α → Mem τ} {inner : τ → Multiset Nat} {Ok : τ → Prop}
    (ha : ∀ a M, Triple (Own M) (alloc a) (fun t h => Own (inner t + M) h ∧ Ok t)) (a : Attempt α)
    (M : Multiset Nat) :
    Triple (Own M) (demoRead alloc a) (fun r h => match r with
      | some t => Own (inner t + M) h ∧ Ok t
      | none => ∃ L : Multiset Nat, Own (L + M) h) := by
  cases a with
  | good a =>
    exact Triple.bind (ha a M) fun t => Triple.pure fun _ hh => hh
  | early => exact Triple.pure fun _ hh => ⟨0, by rwa [zero_add]⟩
  | late a =>
    exact Triple.bind (ha a M) fun t => Triple.pure fun _ hh => ⟨_, hh.1⟩

/-- The blocks of a table which is there. -/
def optInner {τ : Type} (inner : τ → Multiset Nat) : Option τ → Multiset Nat
  | some t => inner t
  | none => 0

theorem demoOptRead_rule {α τ : Type} {alloc : α → Mem τ} {inner : τ → Multiset Nat} {Ok : τ → Prop}
    (ha : ∀ a M, Triple (Own M) (alloc a) (fun t h => Own (inner t + M) h ∧ Ok t)) (name : CStr)
    (a : Attempt α) (M : Multiset Nat) :
    Triple (Own M) (demoOptRead alloc name a) (fun r h => match r with
      | some t => Own (optInner inner t + M) h ∧ (name.length > 0 ↔ t.isSome)
      | none => ∃ L : Multiset Nat, Own (L + M) h) := by
  unfold demoOptRead
  by_cases hn : name.length > 0
  · rw [if_pos hn]
    refine Triple.bind (demoRead_rule ha a M) fun r => ?_
    cases r with
    | none => exact Triple.pure fun _ hh => hh
    | some t => exact Triple.pure fun _ hh => ⟨hh.1, fun _ => rfl, fun _ => hn⟩
  · rw [if_neg hn]
    exact Triple.pure fun _ hh => ⟨by simpa [optInner] using hh, fun h => (hn h).elim, fun h => by cases h⟩

theorem demoOptFree_rule {τ : Type} {free : τ → Mem Unit} {inner : τ → Multiset Nat} {name : CStr}
    {t : Option τ} (hf : ∀ t M, Triple (Own (inner t + M)) (free t) (fun _ => Own M))
    (hn : name.length > 0 ↔ t.isSome) (M : Multiset Nat) :
    Triple (Own (optInner inner t + M)) (demoOptFree free name t) (fun _ => Own M) := by
  unfold demoOptFree
  cases t with
  | none =>
    rw [if_neg (fun h => by cases hn.mp h)]
    exact Triple.pure fun _ hh => by simpa [optInner] using hh
  | some t =>
    rw [if_pos (hn.mpr rfl)]
    exact hf t M

theorem demoRound_rule {τ : Type} {read : DataShape → Ptr → Mem τ} {free : τ → Mem Unit}
    {inner : τ → Multiset Nat} {Ok : τ → Prop}
    (hr : ∀ a M, Triple (Own M) (read a none) (fun t h => Own (inner t + M) h ∧ Ok t))
    (hf : ∀ t M, Ok t → Triple (Own (inner t + M)) (free t) (fun _ => Own M)) (x : DemoTable)
    (M : Multiset Nat) : Triple (Own M) (demoRound read free x) (Ends M) := by
  unfold demoRound
  refine Triple.bind (demoRead_rule hr x.data M) fun r => ?_
  cases r with
  | none => exact Triple.exists_pre fun L => ends_false L
  | some t =>
    refine Triple.and fun hok => ?_
    dsimp only
    generalize (tableNames x.data).1 = arrname
    generalize (tableNames x.data).2 = corrname
    refine Triple.bind (demoOptRead_rule (inner := Array.inner) (Ok := fun _ => True)
      (fun a M => Triple.post (readArray_rule a none M) fun _ _ h => ⟨h.1, trivial⟩) arrname x.array _) fun r => ?_
    cases r with
    | none =>
      refine Triple.exists_pre fun L => ?_
      exact Triple.of_eq (ends_false (L + inner t)) (by abel)
    | some array =>
      refine Triple.and fun hna => ?_
      dsimp only
      refine Triple.bind (demoOptRead_rule (inner := Corr.inner) (Ok := fun _ => True)
        (fun a M => Triple.post (readCorr_rule a none M) fun _ _ h => ⟨h.1, trivial⟩) corrname x.corr _) fun r => ?_
      cases r with
      | none =>
        refine Triple.exists_pre fun L => ?_
        exact Triple.of_eq (ends_false (L + (optInner Array.inner array + inner t))) (by abel)
      | some corr =>
        refine Triple.and fun hnc => ?_
        dsimp only
        refine Triple.bind (demoRead_rule (inner := Wave.inner) (Ok := fun _ => True)
          (fun a M => Triple.post (readWave_rule a none M) fun _ _ h => ⟨h.1, trivial⟩) x.wave _) fun r => ?_
        cases r with
        | none =>
          refine Triple.exists_pre fun L => ?_
          exact Triple.of_eq (ends_false (L + (optInner Corr.inner corr + (optInner Array.inner array + inner t))))
            (by abel)
        | some wave =>
          refine Triple.and fun _ => ?_
          dsimp only
          refine Triple.bind (free_wave wave) fun _ => ?_
          refine Triple.of_eq (M := optInner Array.inner array + (optInner Corr.inner corr + (inner t + M))) ?_
            (by abel)
          refine Triple.bind (demoOptFree_rule (fun t M => free_array t) hna _) fun _ => ?_
          refine Triple.bind (demoOptFree_rule (fun t M => free_corr t) hnc _) fun _ => ?_
          exact Triple.bind (hf t M hok) fun _ => ends_true

theorem demoInspolRound_rule (x : DemoTable) (M : Multiset Nat) :
    Triple (Own M) (demoInspolRound x) (Ends M) := by
  unfold demoInspolRound
  refine Triple.bind (demoRead_rule (inner := Inspol.inner) (Ok := Inspol.Ok)
    (fun a M => Triple.post (readInspol_rule a none M) fun _ _ h => ⟨h.1, h.2.1⟩) x.data M) fun r => ?_
  cases r with
  | none => exact Triple.exists_pre fun L => ends_false L
  | some t =>
    refine Triple.and fun hok => ?_
    dsimp only
    refine Triple.bind (demoRead_rule (inner := Array.inner) (Ok := fun _ => True)
      (fun a M => Triple.post (readArray_rule a none M) fun _ _ h => ⟨h.1, trivial⟩) x.array _) fun r => ?_
    cases r with
    | none =>
      refine Triple.exists_pre fun L => ?_
      exact Triple.of_eq (ends_false (L + t.inner)) (by abel)
    | some array =>
      refine Triple.and fun _ => ?_
      dsimp only
      refine Triple.bind (free_array array) fun _ => ?_
      exact Triple.bind (free_inspol t hok) fun _ => ends_true

/-- One part of the program after another, which is left out if the first one fails. -/
theorem ends_then {x y : Mem Bool} (K : Multiset Nat) (hx : ∀ M, Triple (Own M) x (Ends M))
    (hy : Triple (Own (K + M)) y (Ends M)) :
    Triple (Own (K + M)) (do if ← x then y else return false) (Ends M) := by
  refine Triple.bind (hx (K + M)) fun b => ?_
  cases b with
  | true =>
    rw [if_pos rfl]
    refine Triple.exists_pre fun L => ?_
    intro h hh
    obtain ⟨h1, h2⟩ := hh
    rw [h2 rfl, zero_add] at h1
    exact hy h h1
  | false =>
    rw [if_neg (by simp)]
    refine Triple.exists_pre fun L => ?_
    refine Triple.pre (ends_false (L + K)) fun h hh => ?_
    rw [add_assoc]
    exact hh.1

theorem demoRounds_rule {α : Type} {round : α → Mem Bool} (hr : ∀ x M, Triple (Own M) (round x) (Ends M)) :
    ∀ (l : List α) (M : Multiset Nat), Triple (Own M) (demoRounds round l) (Ends M)
  | [], M => ends_true
  | x :: xs, M => by
    have := ends_then (M := M) 0 (hr x) (y := demoRounds round xs)
      (by rw [zero_add]; exact demoRounds_rule hr xs M)
    rw [zero_add] at this
    exact this

theorem demo_read_rule (p : DemoPlan) (M : Multiset Nat) : Triple (Own M) (demo_read p) (Ends M) := by
  unfold demo_read
  cases p.targets with
  | none => exact Triple.of_eq (ends_false 0) (zero_add M).symm
  | some a =>
    dsimp only
    refine Triple.bind (demoRead_rule (inner := Target.inner) (Ok := fun _ => True)
      (fun n M => Triple.post (alloc_target ⟨none, 0⟩ n) fun _ _ h => ⟨h.1, trivial⟩) a M) fun r => ?_
    cases r with
    | none => exact Triple.exists_pre fun L => ends_false L
    | some targets =>
      refine Triple.and fun _ => ?_
      unfold demoReadTables
      refine ends_then _ (demoRounds_rule (demoRound_rule (inner := Vis.inner) (Ok := Vis.Ok)
        (fun a M => Triple.post (readVis_rule a none M) fun _ _ h => ⟨h.1, h.2.1⟩)
        (fun t M h => free_vis t h)) p.viss) ?_
      refine ends_then _ (demoRounds_rule (demoRound_rule (inner := Vis2.inner) (Ok := Vis2.Ok)
        (fun a M => Triple.post (readVis2_rule a none M) fun _ _ h => ⟨h.1, h.2.1⟩)
        (fun t M h => free_vis2 t h)) p.vis2s) ?_
      refine ends_then _ (demoRounds_rule (demoRound_rule (inner := T3.inner) (Ok := T3.Ok)
        (fun a M => Triple.post (readT3_rule a none M) fun _ _ h => ⟨h.1, h.2.1⟩)
        (fun t M h => free_t3 t h)) p.t3s) ?_
      refine ends_then _ (demoRounds_rule (demoRound_rule (inner := Flux.inner) (Ok := Flux.Ok)
        (fun a M => Triple.post (readFlux_rule a none M) fun _ _ h => ⟨h.1, h.2.1⟩)
        (fun t M h => free_flux t h)) p.fluxs) ?_
      refine ends_then _ (demoRounds_rule demoInspolRound_rule p.inspols) ?_
      exact Triple.bind (free_target targets) fun _ => ends_true

theorem demo_write_rule (s : DemoSizes) (M : Multiset Nat) : Triple (Own M) (demo_write s) (Ends M) := by
  unfold demo_write
  refine Triple.bind (alloc_array _ _) fun array => Triple.and fun _ => ?_
  refine Triple.bind (alloc_target _ _) fun targets => Triple.and fun ht => ?_
  refine Triple.bind (alloc_wave _ _) fun wave => Triple.and fun _ => ?_
  refine Triple.bind (alloc_corr _ _) fun corr => Triple.and fun _ => ?_
  refine Triple.bind (alloc_inspol _ _ _) fun inspol => Triple.and fun hp => ?_
  refine Triple.bind (alloc_vis _ _ _) fun vis => Triple.and fun hv => ?_
  refine Triple.bind (alloc_vis2 _ _ _) fun vis2 => Triple.and fun hv2 => ?_
  refine Triple.bind (alloc_t3 _ _ _) fun t3 => Triple.and fun h3 => ?_
  refine Triple.bind (alloc_flux _ _ _) fun flux => Triple.and fun hx => ?_
  refine Triple.of_eq (M := targets.inner + (vis.inner + (vis2.inner + (t3.inner + (flux.inner + (array.inner +
    (wave.inner + (corr.inner + (inspol.inner + M))))))))) ?_ (by abel)
  refine touch_bind (held_add.mpr (Or.inl (held_blk ht.1))) ?_
  cases s.written with
  | false =>
    rw [if_pos rfl]
    exact Triple.of_eq (ends_false (targets.inner + (vis.inner + (vis2.inner + (t3.inner + (flux.inner + (array.inner +
      (wave.inner + (corr.inner + inspol.inner))))))))) (by abel)
  | true =>
    rw [if_neg (by simp)]
    refine Triple.bind (free_target targets) fun _ => ?_
    refine Triple.bind (free_vis vis hv.1) fun _ => ?_
    refine Triple.bind (free_vis2 vis2 hv2.1) fun _ => ?_
    refine Triple.bind (free_t3 t3 h3.1) fun _ => ?_
    refine Triple.bind (free_flux flux hx.1) fun _ => ?_
    refine Triple.bind (free_array array) fun _ => ?_
    refine Triple.bind (free_wave wave) fun _ => ?_
    refine Triple.bind (free_corr corr) fun _ => ?_
    exact Triple.bind (free_inspol inspol hp.1) fun _ => ends_true

theorem demo_main_rule (s : DemoSizes) (p : DemoPlan) (M : Multiset Nat) :
    Triple (Own M) (demo_main s p) (Ends M) := by
  have := ends_then (M := M) 0 (demo_write_rule s) (y := demo_read p)
    (by rw [zero_add]; exact demo_read_rule p M)
  rw [zero_add] at this
  exact this

/-! ### The property -/

/-- C101, safety: whatever the text and the file hold and whichever calls fail, oitable-demo never uses or
frees a block which is not allocated. -/
theorem C101_safe (s : DemoSizes) (p : DemoPlan) {h : Heap} (hg : h.Good) : demo_main s p h ≠ .ub := by
  intro e
  have := demo_main_rule s p _ h ⟨hg, rfl⟩
  rw [e] at this
  exact this

/-- C101: when the program ends with success it has freed all that it has allocated. -/
theorem C101_released (s : DemoSizes) (p : DemoPlan) {h h' : Heap} (hg : h.Good)
    (hr : demo_main s p h = .ok (true, h')) : h'.live.Perm h.live := by
  have := demo_main_rule s p _ h ⟨hg, rfl⟩
  rw [hr] at this
  obtain ⟨L, h1, h2⟩ := this
  rw [h2 rfl, zero_add] at h1
  exact Multiset.coe_eq_coe.mp h1.2

/-- C101: whether or not it succeeds, it has freed nothing which it has not allocated. -/
theorem C101_kept (s : DemoSizes) (p : DemoPlan) {h h' : Heap} {b : Bool} (hg : h.Good)
    (hr : demo_main s p h = .ok (b, h')) : (h.live : Multiset Nat) ≤ (h'.live : Multiset Nat) := by
  have := demo_main_rule s p _ h ⟨hg, rfl⟩
  rw [hr] at this
  obtain ⟨L, h1, _⟩ := this
  rw [h1.2]
  exact Multiset.le_add_left _ _


/-- C101: the tables of data of a kind are read one at a time. When those up to some point have been listed, exactly the
blocks are allocated which were allocated before the first, however many they are. -/
theorem C101_constant (l : List DemoTable) {h h' : Heap} (hg : h.Good) {round : DemoTable → Mem Bool}
    (hk : round ∈ [demoRound readVis free_oi_vis, demoRound readVis2 free_oi_vis2, demoRound readT3 free_oi_t3,
      demoRound readFlux free_oi_flux, demoInspolRound])
    (hr : demoRounds round l h = .ok (true, h')) : h'.live.Perm h.live := by
  have hround : ∀ x M, Triple (Own M) (round x) (Ends M) := by
    simp only [List.mem_cons, List.not_mem_nil, or_false] at hk
    rcases hk with rfl | rfl | rfl | rfl | rfl
    · exact demoRound_rule (inner := Vis.inner) (Ok := Vis.Ok)
        (fun a M => Triple.post (readVis_rule a none M) fun _ _ h => ⟨h.1, h.2.1⟩) fun t M h => free_vis t h
    · exact demoRound_rule (inner := Vis2.inner) (Ok := Vis2.Ok)
        (fun a M => Triple.post (readVis2_rule a none M) fun _ _ h => ⟨h.1, h.2.1⟩) fun t M h => free_vis2 t h
    · exact demoRound_rule (inner := T3.inner) (Ok := T3.Ok)
        (fun a M => Triple.post (readT3_rule a none M) fun _ _ h => ⟨h.1, h.2.1⟩) fun t M h => free_t3 t h
    · exact demoRound_rule (inner := Flux.inner) (Ok := Flux.Ok)
        (fun a M => Triple.post (readFlux_rule a none M) fun _ _ h => ⟨h.1, h.2.1⟩) fun t M h => free_flux t h
    · exact demoInspolRound_rule
  have := demoRounds_rule hround l _ h ⟨hg, rfl⟩
  rw [hr] at this
  obtain ⟨L, h1, h2⟩ := this
  rw [h2 rfl, zero_add] at h1
  exact Multiset.coe_eq_coe.mp h1.2

/-! ### Examples -/

/-- A text with two channels. -/
def sampleSizes : DemoSizes := ⟨3, 2, 2, 4, 1, 2, 3, 1, 1, true⟩

/-- A table of data which refers to all kinds of tables, and the tables. -/
def sampleTable : DemoTable :=
  ⟨.good ⟨"A".toList, "W".toList, "C".toList, 2, 2, true, true⟩, .good ⟨"A".toList, 3⟩, .good ⟨"C".toList, 4⟩,
    .good ⟨"W".toList, 2⟩⟩

/-- A table of data without ARRNAME and CORRNAME. -/
def sampleBare : DemoTable := ⟨.good ⟨[], "W".toList, [], 3, 2, false, false⟩, .early, .early, .good ⟨"W".toList, 2⟩⟩

def samplePlan : DemoPlan :=
  ⟨some (.good 2), [sampleTable, sampleBare], [sampleTable, sampleTable], [sampleBare], [sampleTable], [sampleTable]⟩

-- The program succeeds, and has used many blocks by then; at its end that block is allocated which was at the start.
example : (fun (x : Bool × Heap) => (x.1, x.2.next, x.2.live)) <$> demo_main sampleSizes samplePlan sampleHeap =
    .ok (true, 164, [3]) := by decide +kernel
-- An OI_ARRAY table which is missing ends the program.
example : (fun (x : Bool × Heap) => x.1) <$> demo_main sampleSizes
    { samplePlan with t3s := [{ sampleTable with array := .early }] } sampleHeap = .ok false := by decide +kernel

end Verif.Mem
