import Mathlib.Data.List.Forall2
import Verif.Spec.Cut
import Verif.Proof.FitsWriteFile

/-! Proofs about writing which is cut short. -/

namespace Verif
open Spec Outcome

variable {R : FP}

theorem runCalls_append (a b : List (FitsM R Unit)) :
    runCalls (a ++ b) = (do runCalls a; runCalls b : FitsM R Unit) := by
  induction a with
  | nil => rfl
  | cons c cs ih =>
    show (do c; runCalls (cs ++ b) : FitsM R Unit) = (do (do c; runCalls cs : FitsM R Unit); runCalls b : FitsM R Unit)
    rw [ih, bind_assoc]

theorem runCalls_list {α : Type} (write : α → Int → FitsM R Unit) (l : List α) :
    runCalls (l.mapIdx fun k t => write t (k + 1)) = writeList l write := by
  have key : ∀ first : Nat, runCalls (l.mapIdx fun k t => write t ((first + k : Nat) : Int))
      = forEach first l (fun extver t => write t extver) := by
    induction l with
    | nil => intro first; rfl
    | cons x xs ih =>
      intro first
      rw [List.mapIdx_cons]
      show (do write x ((first + 0 : Nat) : Int); runCalls _ : FitsM R Unit) = _
      rw [forEach, ← ih (first + 1)]
      simp only [Nat.add_zero, Nat.add_assoc, Nat.add_comm 1]
  rw [writeList, ← key 1]
  congr 2
  funext k t
  congr 1
  omega

theorem runCalls_writeCalls (today : CStr) (oi : OiFits R) :
    runCalls (writeCalls today oi) = writeBody today oi := by
  simp only [writeCalls, runCalls, runCalls_append, runCalls_list, bind_assoc, writeBody]

/-- A call which adds the given HDU to the file. -/
def Adds (c : FitsM R Unit) (h : Hdu R) : Prop :=
  ∀ l : List (Hdu R), l ≠ [] → c (fileState l) = .ok ((), fileState (l ++ [h]))

theorem adds_of {c : FitsM R Unit} {h : Hdu R}
    (hc : ∀ s : FState R, s.status = .ok → c s = .ok ((), endState (primed s.hdus) h)) : Adds c h := by
  intro l hl
  rw [hc _ rfl, endState_eq_fileState]
  rw [show (fileState l).hdus = l from rfl, primed_ne_nil hl]

theorem runCalls_adds {cs : List (FitsM R Unit)} {hs : List (Hdu R)} (h : List.Forall₂ Adds cs hs) (k : Nat) :
    ∀ l : List (Hdu R), l ≠ [] →
      runCalls (cs.take k) (fileState l) = .ok ((), fileState (l ++ hs.take k)) := by
  induction h generalizing k with
  | nil => intro l _; simp [runCalls, pure]
  | @cons c x cs xs hc _ ih =>
    intro l hl
    cases k with
    | zero => simp [runCalls, pure]
    | succ k =>
      simp only [List.take_succ_cons, runCalls]
      rw [FitsM.bind_ok (hc l hl), ih k _ (by simp)]
      simp

theorem forall₂_mapIdx {α : Type} {write : α → Int → FitsM R Unit} {hdu : α → Int → Hdu R} {l : List α}
    (h : ∀ t ∈ l, ∀ v, Adds (write t v) (hdu t v)) :
    List.Forall₂ Adds (l.mapIdx fun k t => write t (k + 1)) (l.mapIdx fun k t => hdu t (k + 1)) := by
  rw [List.forall₂_iff_get]
  refine ⟨by simp, fun i h1 h2 => ?_⟩
  simp only [List.get_eq_getElem, List.getElem_mapIdx]
  exact h _ (List.getElem_mem _) _

theorem writeCalls_adds {today : CStr} {oi : OiFits R} (h : oi.Storable) :
    List.Forall₂ Adds ((writeCalls today oi).drop 1) ((Spec.fileOf today oi).drop 1) := by
  simp only [writeCalls, Spec.fileOf, List.drop_succ_cons, List.drop_zero]
  refine .cons (adds_of fun s hs => write_oi_target_eq _ h.targets _ hs) ?_
  refine List.rel_append (List.rel_append (List.rel_append (List.rel_append (List.rel_append (List.rel_append
    (List.rel_append ?_ ?_) ?_) ?_) ?_) ?_) ?_) ?_
  · exact forall₂_mapIdx fun t ht v => adds_of fun s hs => write_oi_array_eq t (h.array t ht) v s hs
  · exact forall₂_mapIdx fun t ht v => adds_of fun s hs => write_oi_wavelength_eq t (h.wavelength t ht) v s hs
  · exact forall₂_mapIdx fun t ht v => adds_of fun s hs => write_oi_corr_eq t (h.corr t ht) v s hs
  · exact forall₂_mapIdx fun t ht v => adds_of fun s hs => write_oi_inspol_eq t (h.inspol t ht) v s hs
  · exact forall₂_mapIdx fun t ht v => adds_of fun s hs => write_oi_vis_eq t (h.vis t ht) v s hs
  · exact forall₂_mapIdx fun t ht v => adds_of fun s hs => write_oi_vis2_eq t (h.vis2 t ht) v s hs
  · exact forall₂_mapIdx fun t ht v => adds_of fun s hs => write_oi_t3_eq t (h.t3 t ht) v s hs
  · exact forall₂_mapIdx fun t ht v => adds_of fun s hs => write_oi_flux_eq t (h.flux t ht) v s hs

/-- After the first calls the file has the first HDUs. -/
theorem writeCalls_cut {today : CStr} {oi : OiFits R} (h : oi.Storable) (k : Nat) :
    runCalls ((writeCalls today oi).take k) newFile = .ok ((), fileState ((Spec.fileOf today oi).take k)) := by
  cases k with
  | zero => rfl
  | succ k =>
    have h1 := runCalls_adds (writeCalls_adds (today := today) h) k [Spec.hduPrimary today oi.header] (by simp)
    have e1 : (writeCalls today oi).take (k + 1)
        = write_oi_header today oi.header :: ((writeCalls today oi).drop 1).take k := rfl
    have e2 : (Spec.fileOf today oi).take (k + 1)
        = [Spec.hduPrimary today oi.header] ++ ((Spec.fileOf today oi).drop 1).take k := rfl
    rw [e1, runCalls, newFile, FitsM.bind_ok (write_oi_header_eq _ _ _), endState_eq_fileState, List.nil_append, h1, e2]

/-- After an error the calls do nothing. -/
theorem runCalls_err {cs : List (FitsM R Unit)} (h : ∀ c ∈ cs, ∀ s : FState R, s.status ≠ .ok → c s = .ok ((), s))
    {s : FState R} (hs : s.status ≠ .ok) : runCalls cs s = .ok ((), s) := by
  induction cs with
  | nil => rfl
  | cons c cs ih =>
    rw [runCalls, FitsM.bind_ok (h c (by simp) s hs), ih fun d hd => h d (by simp [hd])]

theorem writeCalls_err (today : CStr) (oi : OiFits R) :
    ∀ c ∈ writeCalls today oi, ∀ s : FState R, s.status ≠ .ok → c s = .ok ((), s) := by
  intro c hc s hs
  have hm {α : Type} {l : List α} {write : α → Int → FitsM R Unit}
      (hc : c ∈ l.mapIdx fun k t => write t (k + 1)) (hw : ∀ t v, write t v s = .ok ((), s)) : c s = .ok ((), s) := by
    rw [List.mem_mapIdx] at hc
    obtain ⟨i, hi, rfl⟩ := hc
    exact hw _ _
  simp only [writeCalls, List.mem_cons, List.mem_append] at hc
  rcases hc with rfl | rfl | ((((((hc | hc) | hc) | hc) | hc) | hc) | hc) | hc
  · exact guardStatus_err hs _ _
  · exact guardStatus_err hs _ _
  all_goals exact hm hc (fun _ _ => guardStatus_err hs _ _)

/-! ### The part of the dataset which has been written -/

theorem take_append_sub {α : Type} (a b : List α) (n : Nat) : (a ++ b).take n = a.take n ++ b.take (n - a.length) :=
  List.take_append ..

theorem mapIdx_take' {α β : Type} (f : Nat → α → β) (l : List α) (n : Nat) :
    (l.mapIdx f).take n = (l.take n).mapIdx f := by
  apply List.ext_getElem
  · simp
  · intro i h1 h2; simp

theorem fileOf_firstTables (today : CStr) (oi : OiFits R) (n : Nat) :
    (Spec.fileOf today oi).take (n + 2) = Spec.fileOf today (firstTables n oi) := by
  simp only [Spec.fileOf, firstTables, List.take_succ_cons, take_append_sub, mapIdx_take', List.length_append,
    List.length_mapIdx]

theorem firstTables_storable {oi : OiFits R} (h : oi.Storable) (n : Nat) : (firstTables n oi).Storable where
  targets := h.targets
  array t ht := h.array t (List.mem_of_mem_take ht)
  wavelength t ht := h.wavelength t (List.mem_of_mem_take ht)
  corr t ht := h.corr t (List.mem_of_mem_take ht)
  inspol t ht := h.inspol t (List.mem_of_mem_take ht)
  vis t ht := h.vis t (List.mem_of_mem_take ht)
  vis2 t ht := h.vis2 t (List.mem_of_mem_take ht)
  t3 t ht := h.t3 t (List.mem_of_mem_take ht)
  flux t ht := h.flux t (List.mem_of_mem_take ht)

theorem fileOf_length (today : CStr) (oi : OiFits R) : (Spec.fileOf today oi).length = tableCount oi + 2 := by
  simp only [Spec.fileOf, tableCount, List.length_cons, List.length_append, List.length_mapIdx]

theorem writeCalls_length (today : CStr) (oi : OiFits R) : (writeCalls today oi).length = tableCount oi + 2 := by
  simp only [writeCalls, tableCount, List.length_cons, List.length_append, List.length_mapIdx]

theorem take_pos {α : Type} {l : List α} {n : Nat} (h : l.take n ≠ []) : 0 < n := by
  cases n with
  | zero => simp at h
  | succ n => omega

/-- The tables to which data refer are complete once a table of data has been written. -/
theorem firstTables_refs {oi : OiFits R} {n : Nat} (h : HasData (firstTables n oi)) :
    (firstTables n oi).arrayList = oi.arrayList ∧ (firstTables n oi).wavelengthList = oi.wavelengthList ∧
    (firstTables n oi).corrList = oi.corrList ∧ (firstTables n oi).inspolList = oi.inspolList := by
  have hn : oi.arrayList.length + oi.wavelengthList.length + oi.corrList.length + oi.inspolList.length < n := by
    rcases h with h | h | h | h <;> have := take_pos h <;> omega
  refine ⟨List.take_of_length_le ?_, List.take_of_length_le ?_, List.take_of_length_le ?_, List.take_of_length_le ?_⟩ <;>
    omega

end Verif
