import Verif.Spec.Example
import Verif.Spec.Merge

/-! Datasets to merge with `Ex.oi`, used to show that the hypotheses of theorems can be
met. -/

namespace Verif.Ex
open FP Spec

/-- Another instrument with the name of `wave`, of a version 1 file. -/
def wave2 : OiWavelength ratFP :=
  { wave with revision := 1, eff_wave := [numF (mkRat 1 1000000), numF (mkRat 3 1000000)] }

/-- A data table of a version 1 file. -/
def vis2b : OiVis2 ratFP :=
  { vis2 with
    revision := 1
    arrname := "VLTI"
    corrname := "CORR1"
    record := [{ vis2Rec 7 56000 [false, false] with time := num 3 }, vis2Rec 9 56001 [true, false]] }

/-- A dataset of version 1 apart from its OI_CORR table. Star B has another TARGET_ID
than in `oi`. -/
def oi2 : OiFits ratFP where
  numArray := 1
  numWavelength := 1
  numCorr := 1
  numInspol := 0
  numVis := 0
  numVis2 := 1
  numT3 := 0
  numFlux := 0
  header := { header with date_obs := "2012-02-29T12:00:00", telescop := "CHARA", observer := "" }
  targets := { revision := 1, targ := [targ 7 "Star B", targ 9 "Star C"], usecategory := false }
  arrayList := [{ array with revision := 1 }]
  wavelengthList := [wave2]
  corrList := [{ corr with ndata := 4 }]
  inspolList := []
  visList := []
  vis2List := [vis2b]
  t3List := []
  fluxList := []
  arrayHash := HMap.empty.insert "VLTI" { array with revision := 1 }
  wavelengthHash := HMap.empty.insert "INS1" wave2
  corrHash := HMap.empty.insert "CORR1" { corr with ndata := 4 }

theorem wave2_wf : wave2.WF := ⟨by decide, rfl, rfl⟩

theorem vis2b_wf : vis2b.WF where
  rows := by decide
  chans := by decide
  recs := by
    intro r hr
    simp only [vis2b, vis2, List.mem_cons, List.not_mem_nil, or_false] at hr
    rcases hr with rfl | rfl <;> exact ⟨rfl, rfl, rfl⟩

theorem oi2_wf : oi2.WF where
  counts := ⟨rfl, rfl, rfl, rfl, rfl, rfl, rfl, rfl⟩
  array := by
    intro t ht; simp only [oi2, List.mem_cons, List.not_mem_nil, or_false] at ht
    subst ht; exact ⟨by decide⟩
  wavelength := by
    intro t ht; simp only [oi2, List.mem_cons, List.not_mem_nil, or_false] at ht
    subst ht; exact wave2_wf
  corr := by
    intro t ht; simp only [oi2, List.mem_cons, List.not_mem_nil, or_false] at ht
    subst ht; exact ⟨by decide, rfl, rfl, rfl⟩
  inspol := by simp [oi2]
  vis := by simp [oi2]
  vis2 := by
    intro t ht; simp only [oi2, List.mem_cons, List.not_mem_nil, or_false] at ht
    subst ht; exact vis2b_wf
  t3 := by simp [oi2]
  flux := by simp [oi2]

/-- The inputs of the merge examples. -/
def both : List (OiFits ratFP) := [oi, oi2]

theorem both_wf : ∀ o ∈ both, o.WF := by
  intro o ho
  simp only [both, List.mem_cons, List.not_mem_nil, or_false] at ho
  rcases ho with rfl | rfl
  · exact oi_wf
  · exact oi2_wf

theorem denotes (oi : OiFits ratFP) (l r : List (Target ratFP)) (t : Target ratFP)
    (h : oi.targets.targ = l ++ t :: r) (hl : ∀ u ∈ l, u.target_id ≠ t.target_id) :
    DenotesTarget oi t.target_id t.target :=
  ⟨t, ⟨l, r, h, rfl, hl⟩, rfl⟩

theorem both_resolve : ∀ o ∈ both, TargetsResolve o := by
  have h1 : DenotesTarget oi 1 "Star A" := denotes oi [] _ (targ 1 "Star A") rfl (by simp)
  have h2 : DenotesTarget oi 2 "Star B" := denotes oi [targ 1 "Star A"] _ (targ 2 "Star B") rfl
    (by decide)
  have h7 : DenotesTarget oi2 7 "Star B" := denotes oi2 [] _ (targ 7 "Star B") rfl (by simp)
  have h9 : DenotesTarget oi2 9 "Star C" := denotes oi2 [targ 7 "Star B"] _ (targ 9 "Star C") rfl
    (by decide)
  intro o ho
  simp only [both, List.mem_cons, List.not_mem_nil, or_false] at ho
  rcases ho with rfl | rfl
  · refine ⟨?_, ?_, ?_, ?_, ?_⟩
    · intro t ht r hr
      simp only [oi, List.mem_cons, List.not_mem_nil, or_false] at ht
      subst ht
      simp only [inspol, List.mem_cons, List.not_mem_nil, or_false] at hr
      subst hr; exact ⟨_, h1⟩
    · intro t ht r hr
      simp only [oi, List.mem_cons, List.not_mem_nil, or_false] at ht
      subst ht
      simp only [vis, List.mem_cons, List.not_mem_nil, or_false] at hr
      rcases hr with rfl | rfl
      · exact ⟨_, h1⟩
      · exact ⟨_, h2⟩
    · intro t ht r hr
      simp only [oi, List.mem_cons, List.not_mem_nil, or_false, or_self] at ht
      subst ht
      simp only [vis2, List.mem_cons, List.not_mem_nil, or_false] at hr
      rcases hr with rfl | rfl | rfl
      · exact ⟨_, h1⟩
      · exact ⟨_, h2⟩
      · exact ⟨_, h1⟩
    · intro t ht r hr
      simp only [oi, List.mem_cons, List.not_mem_nil, or_false] at ht
      subst ht
      simp only [t3, List.mem_cons, List.not_mem_nil, or_false] at hr
      subst hr; exact ⟨_, h1⟩
    · intro t ht r hr
      simp only [oi, List.mem_cons, List.not_mem_nil, or_false] at ht
      subst ht
      simp only [flux, List.mem_cons, List.not_mem_nil, or_false] at hr
      subst hr; exact ⟨_, h1⟩
  · refine ⟨by simp [oi2], by simp [oi2], ?_, by simp [oi2], by simp [oi2]⟩
    intro t ht r hr
    simp only [oi2, List.mem_cons, List.not_mem_nil, or_false] at ht
    subst ht
    simp only [vis2b, List.mem_cons, List.not_mem_nil, or_false] at hr
    rcases hr with rfl | rfl
    · exact ⟨_, h7⟩
    · exact ⟨_, h9⟩

theorem both_dates : GoodDates both := by
  intro o ho
  simp only [both, List.mem_cons, List.not_mem_nil, or_false] at ho
  rcases ho with rfl | rfl
  · exact Or.inr ⟨⟨2014, 11, 13⟩, by decide, by decide, by decide, [], by decide⟩
  · exact Or.inr ⟨⟨2012, 2, 29⟩, by decide, by decide, by decide, "T12:00:00", by decide⟩

theorem both_unique : ∀ o ∈ both, UniqueNames o := by
  intro o ho
  simp only [both, List.mem_cons, List.not_mem_nil, or_false] at ho
  rcases ho with rfl | rfl <;> exact ⟨by decide, by decide, by decide⟩

theorem both_fit : ∀ o ∈ both, NamesFit o := by
  intro o ho
  simp only [both, List.mem_cons, List.not_mem_nil, or_false] at ho
  rcases ho with rfl | rfl <;> exact ⟨by decide, by decide, by decide⟩

theorem both_revisions : ∀ o ∈ both, RevisionsPositive o := by
  intro o ho
  simp only [both, List.mem_cons, List.not_mem_nil, or_false] at ho
  rcases ho with rfl | rfl <;>
    exact ⟨by decide, by decide, by decide, by decide, by decide, by decide, by decide, by decide,
      by decide⟩

/-- Names without an underscore, none starting like a generated name, are plain. -/
theorem plain_of {base : CStr} {names : List CStr} {b : Char} {bs : CStr} (hb : base = b :: bs)
    (hu : ∀ n ∈ names, '_' ∉ n) (hh : ∀ n ∈ names, n.head? ≠ some b)
    (hf : ∀ n ∈ names, n.length < FLEN_VALUE) (hl : names.length < 10000) :
    PlainNames base names where
  plain := by
    rintro n hn ⟨ds, -, rfl | ⟨m, -, rfl⟩⟩
    · exact hh _ hn (by rw [hb]; rfl)
    · exact hu _ hn (by simp)
  fits := hf
  few := hl

theorem both_plain :
    PlainNames ("array" : CStr) (Spec.allNames OiFits.arrayList OiArray.arrname both) ∧
    PlainNames ("ins" : CStr) (Spec.allNames OiFits.wavelengthList OiWavelength.insname both) ∧
    PlainNames ("ins" : CStr) (Spec.allNames OiFits.corrList OiCorr.corrname both) :=
  ⟨plain_of (b := 'a') (bs := "rray") (by decide) (by decide) (by decide) (by decide) (by decide),
   plain_of (b := 'i') (bs := "ns") (by decide) (by decide) (by decide) (by decide) (by decide),
   plain_of (b := 'i') (bs := "ns") (by decide) (by decide) (by decide) (by decide) (by decide)⟩

end Verif.Ex
