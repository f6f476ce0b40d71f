import Verif.Proof.MemPool

/-! C78, C79: memory. A program may make any sequence of calls to read, filter, merge, look up in and
free datasets (`Call`), on files and data of any content (the plans in the calls). What is
meant by the blocks of a dataset is defined in `Verif/Spec/Memory.lean`. -/

set_option Elab.async false

namespace Verif.Mem

/-- What every history of calls does, in one statement: the theorems below follow. -/
theorem history (cs : List Call) {h : Heap} (hg : h.Good) (C : Prop)
    (hc : C → ∀ c ∈ cs, c.Clean) :
    match runCalls [] cs h with
    | .ok (ds, h') => PoolInv C (h.live : Multiset Nat) ds h'
    | .abort => True
    | .ub => False := by
  have := run_calls_rule (M0 := (h.live : Multiset Nat)) cs hc [] h
    ⟨0, ⟨⟨hg, by simp [poolBlocks, allOf]⟩, by simp⟩, fun _ => rfl⟩
  cases hr : runCalls [] cs h with
  | ok r => rw [hr] at this; exact this
  | abort => trivial
  | ub => rw [hr] at this; exact this

/-- C78, safety: whatever calls a program makes, in whatever order and on whatever data, no
block is read, written or freed that is not allocated at that moment. In particular nothing
is freed twice, and a table found by its name is never one that has been freed. -/
theorem C78_safe (cs : List Call) {h : Heap} (hg : h.Good) : runCalls [] cs h ≠ .ub := by
  intro e
  have := history cs hg False (fun h => h.elim)
  rw [e] at this
  exact this

/-- C79, nothing is lost and nothing is shared: after any calls in which no table is given up
halfway (`Call.Clean`), the blocks allocated are those which were allocated at the start and
those of the datasets held, each once. -/
theorem C79_accounted (cs : List Call) {h : Heap} (hg : h.Good) (hc : ∀ c ∈ cs, c.Clean)
    {ds : List (Option OiFits)} {h' : Heap} (hr : runCalls [] cs h = .ok (ds, h')) :
    (h'.live : Multiset Nat) = poolBlocks ds + (h.live : Multiset Nat) ∧ h'.live.Nodup := by
  have := history cs hg True (fun _ => hc)
  rw [hr] at this
  obtain ⟨L, ⟨hown, -⟩, hL⟩ := this
  rw [hL trivial, zero_add] at hown
  exact ⟨hown.2, hown.1.1⟩

/-- C79, release: once every dataset made has been freed, exactly the blocks which were
allocated at the start are allocated. -/
theorem C79_released (cs : List Call) {h : Heap} (hg : h.Good) (hc : ∀ c ∈ cs, c.Clean)
    {ds : List (Option OiFits)} {h' : Heap} (hr : runCalls [] cs h = .ok (ds, h'))
    (hfree : ∀ d ∈ ds, d = none) : h'.live.Perm h.live := by
  obtain ⟨h1, -⟩ := C79_accounted cs hg hc hr
  have e : poolBlocks ds = 0 := by
    rw [pool_eq]
    clear hr h1
    induction ds with
    | nil => rfl
    | cons x xs ih =>
      rw [allOf_cons, ih fun d hd => hfree d (List.mem_cons_of_mem _ hd), hfree x (by simp)]
      rfl
  rw [e, zero_add] at h1
  exact Multiset.coe_eq_coe.mp h1

/-- C79 without the hypothesis that no table is given up halfway. Missing: that nothing else
remains allocated (which is false, see `C79_lost_reading` and those after it). What remains
true is that all blocks of the datasets held, and all which were there at the start, are still
allocated, and that they are distinct. -/
theorem C79_accounted_partial (cs : List Call) {h : Heap} (hg : h.Good)
    {ds : List (Option OiFits)} {h' : Heap} (hr : runCalls [] cs h = .ok (ds, h')) :
    poolBlocks ds + (h.live : Multiset Nat) ≤ (h'.live : Multiset Nat) ∧ h'.live.Nodup := by
  have := history cs hg False (fun h => h.elim)
  rw [hr] at this
  obtain ⟨L, ⟨hown, -⟩, -⟩ := this
  refine ⟨?_, hown.1.1⟩
  rw [hown.2]
  exact add_le_add_right (Multiset.le_add_left _ _) _

/-- C78, independence: no two datasets held have a block in common, and none has a block which
was allocated at the start; so freeing one leaves the others as they are. -/
theorem C78_independent (cs : List Call) {h : Heap} (hg : h.Good)
    {ds : List (Option OiFits)} {h' : Heap} (hr : runCalls [] cs h = .ok (ds, h'))
    {i j : Nat} (hij : i ≠ j) {d e : OiFits} (hi : ds[i]? = some (some d))
    (hj : ds[j]? = some (some e)) :
    Disjoint d.blocks e.blocks ∧ Disjoint d.blocks (h.live : Multiset Nat) ∧ d.blocks.Nodup := by
  obtain ⟨h1, h2⟩ := C79_accounted_partial cs hg hr
  have hnd : (poolBlocks ds + (h.live : Multiset Nat)).Nodup :=
    Multiset.nodup_of_le h1 (Multiset.coe_nodup.mpr h2)
  have hj' : (ds.set i none)[j]? = some (some e) := by
    rw [List.getElem?_set_ne hij]; exact hj
  rw [pool_set hi, pool_set hj'] at hnd
  have hnd' : (d.blocks + (e.blocks + (poolBlocks ((ds.set i none).set j none) +
      (h.live : Multiset Nat)))).Nodup := by
    simpa only [add_assoc] using hnd
  obtain ⟨n1, -, n3⟩ := Multiset.nodup_add.mp hnd'
  refine ⟨n3.mono_right (Multiset.le_add_right _ _), n3.mono_right ?_, n1⟩
  exact le_trans (Multiset.le_add_left _ _) (Multiset.le_add_left _ _)

/-! ### A program -/

/-- A file with each kind of table. -/
def sampleRead : ReadPlan where
  targets := some (.good 2)
  arrays := [.good ⟨"A".toList, 3⟩, .good ⟨"B".toList, 2⟩]
  waves := [.good ⟨"W".toList, 4⟩]
  corrs := [.good ⟨"C".toList, 5⟩, .early]
  inspols := [.good ⟨"A".toList, [], [], 2, 4, false, false⟩]
  viss := [.good ⟨"A".toList, "W".toList, "C".toList, 2, 4, true, true⟩]
  vis2s := [.good ⟨"A".toList, "W".toList, [], 3, 4, false, false⟩,
            .good ⟨"X".toList, "W".toList, [], 1, 4, false, false⟩]
  t3s := [.good ⟨"A".toList, "W".toList, "C".toList, 2, 4, false, false⟩]
  fluxs := [.good ⟨"A".toList, "W".toList, [], 1, 4, false, false⟩]

/-- A filter which drops a target, a record, some channels and the OI_VIS2 tables. -/
def sampleFilter : FilterPlan where
  target := some (fun i => i == 1)
  arr := fun _ => true
  ins := fun _ => true
  corr := fun _ => true
  waveOut := fun _ => 3
  polRec := fun _ i => (i == 0, "W".toList, 3)
  vis := true
  vis2 := false
  t3 := true
  flux := true
  visRec := fun _ i => i == 1
  vis2Rec := fun _ _ => true
  t3Rec := fun _ _ => true
  fluxRec := fun _ _ => false
  visWave := fun _ => 3
  vis2Wave := fun _ => 3
  t3Wave := fun _ => 3
  fluxWave := fun _ => 3

/-- A merge in which the first OI_ARRAY table of the second dataset equals one already there. -/
def sampleMerge : MergePlan where
  isNew := fun x i => x == 0 || i == 1
  targName := fun x i => [Char.ofNat (65 + 2 * x + i)]
  arrMatch := fun x t => if x == 1 && t == 0 then some 0 else none
  waveMatch := fun _ _ => none
  arrName := fun x t => ['A', Char.ofNat (48 + x), Char.ofNat (48 + t)]
  waveName := fun x t => ['W', Char.ofNat (48 + x), Char.ofNat (48 + t)]
  corrName := fun x t => ['C', Char.ofNat (48 + x), Char.ofNat (48 + t)]

/-- A program which reads the file, filters the data, merges, looks tables up, and frees the
datasets, the input of the merge before its output. -/
def sampleCalls : List Call :=
  [.read sampleRead, .filter 0 sampleFilter, .merge [0, 1, 0] sampleMerge,
   .lookupArray 0 "A".toList, .lookupArray 0 "X".toList, .lookupWavelength 1 "W".toList,
   .free 0, .lookupArray 2 "A00".toList, .lookupCorr 2 "C00".toList, .lookupWavelength 2 "W".toList,
   .free 1, .free 2]

theorem sampleRead_clean : sampleRead.Clean := by
  refine .inr ⟨⟨2, rfl⟩, ?_⟩
  simp [sampleRead, Attempt.Good, Attempt.NotLate]

theorem sampleFilter_clean : sampleFilter.Clean := by
  refine ⟨?_, ?_⟩
  · intro w hw i j hi hj
    have hw' : (fun i => i == 1) = w := Option.some.inj hw
    subst hw'
    rw [eq_of_beq hi, eq_of_beq hj]
  · intro t i _
    exact (by decide : 0 < 3)

/-- The hypotheses of the theorems are met by this program. -/
theorem sampleCalls_clean : ∀ c ∈ sampleCalls, c.Clean := by
  intro c hc
  simp only [sampleCalls, List.mem_cons, List.not_mem_nil, or_false] at hc
  rcases hc with rfl | rfl | rfl | rfl | rfl | rfl | rfl | rfl | rfl | rfl | rfl | rfl
  · exact sampleRead_clean
  · exact sampleFilter_clean
  all_goals trivial

/-- The state at the start: one block belongs to the program itself. -/
def sampleHeap : Heap := ⟨8, [3]⟩

theorem sampleHeap_good : sampleHeap.Good := by
  refine ⟨by decide, ?_⟩
  decide

/-- The number of blocks allocated after some calls; `none` if they do not end well. -/
def liveAfter (cs : List Call) : Option Nat :=
  match runCalls [] cs sampleHeap with
  | .ok (_, h) => some h.live.length
  | _ => none

/-- The program runs to its end, and holds many blocks before it frees them. -/
theorem sampleCalls_runs :
    liveAfter (sampleCalls.take 1) = some 81 ∧ liveAfter (sampleCalls.take 2) = some 124 ∧
    liveAfter (sampleCalls.take 3) = some 317 ∧ liveAfter (sampleCalls.take 7) = some 237 ∧
    liveAfter sampleCalls = some 1 := by
  decide +kernel

example : runCalls [] sampleCalls sampleHeap ≠ .ub := C78_safe sampleCalls sampleHeap_good

example {ds : List (Option OiFits)} {h' : Heap}
    (hr : runCalls [] sampleCalls sampleHeap = .ok (ds, h')) :
    (h'.live : Multiset Nat) = poolBlocks ds + (sampleHeap.live : Multiset Nat) :=
  (C79_accounted sampleCalls sampleHeap_good sampleCalls_clean hr).1

/-! ### Single tables -/

/-- The code has no undefined behaviour, and at its end the same blocks are allocated as at its
start. -/
def Returned (h : Heap) (m : Mem Unit) : Prop :=
  m h ≠ .ub ∧ ∀ h', m h = .ok ((), h') → h'.live.Perm h.live

theorem returned {h : Heap} {m : Mem Unit} (hg : h.Good)
    (ht : Triple (Own (h.live : Multiset Nat)) m (fun _ => Own (h.live : Multiset Nat))) :
    Returned h m := by
  have := ht h ⟨hg, rfl⟩
  refine ⟨fun e => ?_, fun h' e => ?_⟩
  · rw [e] at this; exact this
  · rw [e] at this; exact Multiset.coe_eq_coe.mp this.2

/-- C78, single tables: for each kind of table, the function that frees what is inside a table
frees all blocks which the function that allocates it has allocated, whatever the sizes, and
no others. -/
theorem C78_alloc_free {h : Heap} (hg : h.Good) :
    (∀ (t : Array) (n : Nat), Returned h (do let t' ← alloc_oi_array t n; free_oi_array t')) ∧
    (∀ (t : Target) (n : Nat), Returned h (do let t' ← alloc_oi_target t n; free_oi_target t')) ∧
    (∀ (t : Wave) (n : Nat), Returned h (do let t' ← alloc_oi_wavelength t n; free_oi_wavelength t')) ∧
    (∀ (t : Corr) (n : Nat), Returned h (do let t' ← alloc_oi_corr t n; free_oi_corr t')) ∧
    (∀ (t : Inspol) (n w : Nat), Returned h (do let t' ← alloc_oi_inspol t n w; free_oi_inspol t')) ∧
    (∀ (t : Vis) (n w : Nat), Returned h (do let t' ← alloc_oi_vis t n w; free_oi_vis t')) ∧
    (∀ (t : Vis2) (n w : Nat), Returned h (do let t' ← alloc_oi_vis2 t n w; free_oi_vis2 t')) ∧
    (∀ (t : T3) (n w : Nat), Returned h (do let t' ← alloc_oi_t3 t n w; free_oi_t3 t')) ∧
    (∀ (t : Flux) (n w : Nat), Returned h (do let t' ← alloc_oi_flux t n w; free_oi_flux t')) := by
  refine ⟨?_, ?_, ?_, ?_, ?_, ?_, ?_, ?_, ?_⟩
  · exact fun t n => returned hg (Triple.bind (alloc_array t n) fun t' => Triple.and fun h1 => free_array t')
  · exact fun t n => returned hg (Triple.bind (alloc_target t n) fun t' => Triple.and fun h1 => free_target t')
  · exact fun t n => returned hg (Triple.bind (alloc_wave t n) fun t' => Triple.and fun h1 => free_wave t')
  · exact fun t n => returned hg (Triple.bind (alloc_corr t n) fun t' => Triple.and fun h1 => free_corr t')
  · exact fun t n w => returned hg (Triple.bind (alloc_inspol t n w) fun t' => Triple.and fun h1 => free_inspol t' h1.1)
  · exact fun t n w => returned hg (Triple.bind (alloc_vis t n w) fun t' => Triple.and fun h1 => free_vis t' h1.1)
  · exact fun t n w => returned hg (Triple.bind (alloc_vis2 t n w) fun t' => Triple.and fun h1 => free_vis2 t' h1.1)
  · exact fun t n w => returned hg (Triple.bind (alloc_t3 t n w) fun t' => Triple.and fun h1 => free_t3 t' h1.1)
  · exact fun t n w => returned hg (Triple.bind (alloc_flux t n w) fun t' => Triple.and fun h1 => free_flux t' h1.1)

/-- The blocks which `alloc_oi_vis` allocates, before they are freed. -/
def visLive (n w : Nat) : Option (List Nat) :=
  match (alloc_oi_vis ⟨none, [], [], [], none, 0, 0, false, false, []⟩ n w) sampleHeap with
  | .ok (_, h) => some h.live
  | _ => none

example : visLive 2 3 = some [18, 17, 16, 15, 14, 13, 12, 11, 10, 9, 8, 3] := by decide +kernel

example : Returned sampleHeap (do
    let t' ← alloc_oi_vis ⟨none, [], [], [], none, 0, 0, false, false, []⟩ 2 3
    free_oi_vis t') := (C78_alloc_free sampleHeap_good).2.2.2.2.2.1 _ 2 3

/-! ### Blocks which are lost -/

/-- A program whose calls leave blocks allocated although it has freed all datasets. -/
def Loses (cs : List Call) : Prop :=
  ∃ ds h', runCalls [] cs sampleHeap = .ok (ds, h') ∧ (∀ d ∈ ds, d = none) ∧
    sampleHeap.live.length < h'.live.length

/-- The same as a test. -/
def losesB (cs : List Call) : Bool :=
  match runCalls [] cs sampleHeap with
  | .ok (ds, h') => ds.all (·.isNone) && decide (sampleHeap.live.length < h'.live.length)
  | _ => false

theorem loses_of {cs : List Call} (h : losesB cs = true) : Loses cs := by
  unfold losesB at h
  cases hr : runCalls [] cs sampleHeap with
  | ok r =>
    rw [hr] at h
    simp only [Bool.and_eq_true, List.all_eq_true, decide_eq_true_eq] at h
    exact ⟨r.1, r.2, hr, fun d hd => Option.isNone_iff_eq_none.mp (h.1 d hd), h.2⟩
  | abort => rw [hr] at h; cases h
  | ub => rw [hr] at h; cases h

/-- C79 is false of files with a damaged table: the columns allocated for an OI_VIS2 table
which is then skipped are never freed. -/
theorem C79_lost_reading :
    Loses [.read { sampleRead with vis2s := [.late ⟨[], "W".toList, [], 3, 4, false, false⟩] },
      .free 0] := loses_of (by decide +kernel)

/-- C79 is false of files which cannot be read: what was read before the error is not freed,
and the program cannot free it, since the contents of the struct are then undefined
(oifile.c:681-682). -/
theorem C79_lost_unreadable :
    Loses [.read { sampleRead with waves := [.good ⟨"W".toList, 4⟩, .early] }] :=
  loses_of (by decide +kernel)

/-- C79 is false when a filter accepts a TARGET_ID which two rows of OI_TARGET have: storage
is allocated for each row, and only the last is kept. -/
theorem C79_lost_target :
    Loses [.read sampleRead, .filter 0 { sampleFilter with target := some (fun _ => true) },
      .free 0, .free 1] := loses_of (by decide +kernel)

/-- C79 is false when a filter accepts a record of an OI_INSPOL table and no channel of it. -/
theorem C79_lost_inspol :
    Loses [.read sampleRead,
      .filter 0 { sampleFilter with polRec := fun _ i => (i == 0, "W".toList, 0) },
      .free 0, .free 1] := loses_of (by decide +kernel)

end Verif.Mem
