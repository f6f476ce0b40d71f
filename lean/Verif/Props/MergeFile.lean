import Verif.Proof.MergeFile
import Verif.Proof.UnsetFile
import Verif.Props.EndToEnd
import Verif.Props.MergeSteps

/-! C97: oifits-merge run in steps. -/

set_option Elab.async false

namespace Verif
open Outcome Spec
variable {R : FP}

theorem pairwise₂_cons {α β : Type} {P : α → β → Prop} {a : α} {b : β} {l : List α} {l' : List β} (h : P a b)
    (ht : Pairwise₂ P l l') : Pairwise₂ P (a :: l) (b :: l') := by
  refine ⟨by simp [ht.1], fun i x y hx hy => ?_⟩
  cases i with
  | zero => cases hx; cases hy; exact h
  | succ i => exact ht.2 i x y hx hy

theorem pairwise₂_append {α β : Type} {P : α → β → Prop} {k l : List α} {k' l' : List β} (h : Pairwise₂ P k k')
    (ht : Pairwise₂ P l l') : Pairwise₂ P (k ++ l) (k' ++ l') := by
  induction k generalizing k' with
  | nil =>
    cases k' with
    | nil => exact ht
    | cons b k' => cases h.1
  | cons a k ih =>
    cases k' with
    | nil => cases h.1
    | cons b k' => exact pairwise₂_cons (h.2 0 a b rfl rfl) (ih ⟨by simpa using h.1, fun i x y hx hy => h.2 (i + 1) x y hx hy⟩)

theorem pairwise₂_mem_left {α β : Type} {P : α → β → Prop} {l : List α} {l' : List β} (h : Pairwise₂ P l l') {a : α} (ha : a ∈ l) :
    ∃ b ∈ l', P a b := by
  obtain ⟨i, hi, he⟩ := List.mem_iff_getElem.mp ha
  have hi' : i < l'.length := by rw [← h.1]; exact hi
  exact ⟨l'[i], List.getElem_mem _, h.2 i _ _ (by rw [List.getElem?_eq_getElem hi, he]) (List.getElem?_eq_getElem hi')⟩

theorem pairwise₂_mem_right {α β : Type} {P : α → β → Prop} {l : List α} {l' : List β} (h : Pairwise₂ P l l') {b : β} (hb : b ∈ l') :
    ∃ a ∈ l, P a b := by
  obtain ⟨i, hi, he⟩ := List.mem_iff_getElem.mp hb
  have hi' : i < l.length := by rw [h.1]; exact hi
  exact ⟨l[i], List.getElem_mem _, h.2 i _ _ (List.getElem?_eq_getElem hi') (by rw [List.getElem?_eq_getElem hi, he])⟩

/-- C97. Some files are merged, and then the output with further files. If a file holds what the first step makes without
loss, and the first files give a date and a value to each mandatory keyword, the second step makes the file which
merging all files at once makes, on the same day. -/
theorem C97_steps_partial {u₁ u₂ u₃ u : Undef R} {fs : Files R} {today today' prog midfile outfile onefile in1 in2 in3 : CStr}
    {more₁ more₂ : List CStr} {ins₁ ins₂ : List (OiFits R)}
    (h₁ : Pairwise₂ (Holds u fs) (in1 :: in2 :: more₁) ins₁) (h₂ : Pairwise₂ (Holds u fs) (in3 :: more₂) ins₂)
    (hf : ∀ name ∈ in1 :: in2 :: more₁ ++ in3 :: more₂, FilledAt fs name)
    (hs : ∀ oi ∈ ins₁ ++ ins₂, oi.Storable) (ht : ∀ oi ∈ ins₁ ++ ins₂, TargetsResolve oi)
    (hn : (distinct ((allTargets (ins₁ ++ ins₂)).map (·.target))).length < 100)
    (hk : ∀ oi ∈ ins₁ ++ ins₂, HeaderFits oi) (hd : GoodDates (ins₁ ++ ins₂)) (hsd : SomeDate ins₁) (hg : KeysGiven ins₁)
    (hnf : ∀ oi ∈ ins₁, NamesFit oi) (hm : ∀ m, merge_oi_fits_list ins₁ = .ok m → UniqueNames m ∧ Kept m)
    (hp : midfile.head? ≠ some '!' ∧ outfile.head? ≠ some '!' ∧ onefile.head? ≠ some '!')
    (hx : fs midfile = none ∧ fs outfile = none ∧ fs onefile = none) (hne : outfile ≠ midfile) :
    let r₁ := (oifits_merge u₁ today (prog :: midfile :: in1 :: in2 :: more₁)).run fs
    let r₂ := (oifits_merge u₂ today' (prog :: outfile :: midfile :: in3 :: more₂)).run r₁.files
    let r := (oifits_merge u₃ today' (prog :: onefile :: in1 :: in2 :: (more₁ ++ in3 :: more₂))).run fs
    r₁.exit = .code 0 ∧ r₂.exit = .code 0 ∧ r.exit = .code 0 ∧
      ∃ hdus, r₂.files outfile = some (.fits hdus) ∧ r.files onefile = some (.fits hdus) := by
  have h₁₂ : Pairwise₂ (Holds u fs) (in1 :: in2 :: (more₁ ++ in3 :: more₂)) (ins₁ ++ ins₂) := pairwise₂_append h₁ h₂
  have hw : ∀ oi ∈ ins₁ ++ ins₂, oi.WF := fun oi hoi => by
    obtain ⟨_, -, h⟩ := pairwise₂_mem_right h₁₂ hoi
    exact h.wf
  have hne₁ : ins₁ ≠ [] := by
    rintro rfl
    cases h₁.1
  have hsub {P : OiFits R → Prop} (h : ∀ oi ∈ ins₁ ++ ins₂, P oi) : ∀ oi ∈ ins₁, P oi :=
    fun oi hoi => h oi (List.mem_append_left _ hoi)
  -- In memory
  obtain ⟨c, hc⟩ := merge_ok hw ht hn hd
  obtain ⟨m, hm₁⟩ := merge_part hc
  obtain ⟨hu, hkm⟩ := hm m hm₁
  have hmc := C92_same_partial (hsub hw) hnf hk (hsub hd) hsd hg hm₁ hu (ins₂ := ins₂)
  have hn₁ : (distinct ((allTargets ins₁).map (·.target))).length < 100 := by
    refine Nat.lt_of_le_of_lt ?_ hn
    unfold allTargets
    rw [List.flatMap_append, List.map_append]
    exact distinct_length_append _ _
  have hsm := merge_storable hne₁ (hsub hw) (hsub hs) hn₁ hm₁
  have hsc := merge_storable (by simp [hne₁]) hw hs hn hc
  -- The first run
  obtain ⟨hdus₁, hw₁, hfile⟩ := file_of_stored (today := today) hsm
  intro r₁ r₂ r
  have e₁ : r₁ = ⟨.code 0, mergeOutput m, fs.set midfile (some (.fits hdus₁))⟩ := by
    refine (merge_any u₁ u today prog midfile fun n hnm => hf n ?_).trans (C71_run h₁ hp.1 hm₁ hw₁ hx.1)
    exact List.mem_append_left _ hnm
  -- The single run
  have e : r = ⟨.code 0, mergeOutput c, fs.set onefile (some (.fits (fileOf today' c)))⟩ := by
    refine (merge_any u₃ u today' prog onefile fun n hnm => hf n ?_).trans
      (C71_run h₁₂ hp.2.2 hc (write_oi_fits_eq today' _ hsc) hx.2.2)
    exact hnm
  -- The second run
  obtain ⟨x, hxm, hsx⟩ := hfile fs midfile u
  have other : ∀ n, n ∈ in3 :: more₂ → n ≠ midfile := by
    rintro n hnm rfl
    obtain ⟨_, -, hdus, h, -⟩ := pairwise₂_mem_left h₂ hnm
    rw [hx.1] at h
    cases h
  have h₂' : Pairwise₂ (Holds u r₁.files) (in3 :: more₂) ins₂ := by
    refine ⟨h₂.1, fun i n y hin hiy => ?_⟩
    have := h₂.2 i n y hin hiy
    obtain ⟨hdus, k1, k2⟩ := this
    refine ⟨hdus, ?_, k2⟩
    rw [e₁]
    show Files.set _ _ _ _ = _
    unfold Files.set
    rw [if_neg (other n (List.mem_of_getElem? hin))]
    exact k1
  have hx₂ : r₁.files outfile = none := by
    rw [e₁]
    show Files.set _ _ _ _ = _
    unfold Files.set
    rw [if_neg hne]
    exact hx.2.1
  have hsaved := merge_saved hkm hsx ins₂
  rw [hmc, hc] at hsaved
  cases hy : merge_oi_fits_list (x :: ins₂) with
  | abort => rw [hy] at hsaved; cases hsaved
  | ub => rw [hy] at hsaved; cases hsaved
  | ok y =>
    rw [hy] at hsaved
    have hyc : y.blank = c.blank := Outcome.ok.inj hsaved
    have hwy : write_oi_fits today' false y .ok = .ok (some (fileOf today' c), .ok) := by
      rw [write_alike hyc, write_oi_fits_eq today' _ hsc]
    have hxm' : Holds u r₁.files midfile x := by rw [e₁]; exact hxm
    have e₂ : r₂ = ⟨.code 0, mergeOutput y, r₁.files.set outfile (some (.fits (fileOf today' c)))⟩ := by
      refine (merge_any u₂ u today' prog outfile fun n hnm => ?_).trans
        (C71_run (pairwise₂_cons hxm' h₂') hp.2.1 hy hwy hx₂)
      rcases List.mem_cons.mp hnm with rfl | hnm
      · intro hdus hh
        rw [e₁] at hh
        have : fs.set n (some (.fits hdus₁)) n = _ := hh
        rw [set_same] at this
        cases this
        rw [write_oi_fits_eq _ _ hsm] at hw₁
        cases hw₁
        exact filled_fileOf today hsm
      · intro hdus hh
        refine hf n (List.mem_append_right _ hnm) hdus ?_
        rw [e₁] at hh
        have : fs.set midfile (some (.fits hdus₁)) n = _ := hh
        unfold Files.set at this
        rw [if_neg (other n hnm)] at this
        exact this
    refine ⟨by rw [e₁], by rw [e₂], by rw [e], fileOf today' c, ?_, ?_⟩
    · rw [e₂]; exact set_same _ _ _
    · rw [e]; exact set_same _ _ _

/-! ### Example -/

instance (x : R.Dbl) : Decidable (CardNum x) := inferInstanceAs (Decidable (_ = _))

instance (t : OiArray R) : Decidable (t.Exact) :=
  decidable_of_iff (_ ∧ _ ∧ _ ∧ _ ∧ _ ∧ _ ∧ _) ⟨fun ⟨h1, h2, h3, h4, h5, h6, h7⟩ => ⟨h1, h2, h3, h4, h5, h6, h7⟩, fun ⟨h1, h2, h3, h4, h5, h6, h7⟩ => ⟨h1, h2, h3, h4, h5, h6, h7⟩⟩

instance (junk : CStr) (t : OiTarget R) : Decidable (t.Exact junk) :=
  decidable_of_iff (_ ∧ _ ∧ _) ⟨fun ⟨h1, h2, h3⟩ => ⟨h1, h2, h3⟩, fun ⟨h1, h2, h3⟩ => ⟨h1, h2, h3⟩⟩

instance (t : OiWavelength R) : Decidable (t.Exact) :=
  decidable_of_iff (_ ∧ _) ⟨fun ⟨h1, h2⟩ => ⟨h1, h2⟩, fun ⟨h1, h2⟩ => ⟨h1, h2⟩⟩

instance (t : OiCorr R) : Decidable (t.Exact) :=
  decidable_of_iff (_ ∧ _) ⟨fun ⟨h1, h2⟩ => ⟨h1, h2⟩, fun ⟨h1, h2⟩ => ⟨h1, h2⟩⟩

instance (junk : Int) (t : OiVis R) : Decidable (t.Exact junk) :=
  decidable_of_iff (_ ∧ _ ∧ _ ∧ _ ∧ _ ∧ _ ∧ _ ∧ _ ∧ _ ∧ _ ∧ _ ∧ _ ∧ _ ∧ _) ⟨fun ⟨h1, h2, h3, h4, h5, h6, h7, h8, h9, h10, h11, h12, h13, h14⟩ => ⟨h1, h2, h3, h4, h5, h6, h7, h8, h9, h10, h11, h12, h13, h14⟩, fun ⟨h1, h2, h3, h4, h5, h6, h7, h8, h9, h10, h11, h12, h13, h14⟩ => ⟨h1, h2, h3, h4, h5, h6, h7, h8, h9, h10, h11, h12, h13, h14⟩⟩

instance (junk : Int) (t : OiVis2 R) : Decidable (t.Exact junk) :=
  decidable_of_iff (_ ∧ _ ∧ _ ∧ _ ∧ _ ∧ _ ∧ _) ⟨fun ⟨h1, h2, h3, h4, h5, h6, h7⟩ => ⟨h1, h2, h3, h4, h5, h6, h7⟩, fun ⟨h1, h2, h3, h4, h5, h6, h7⟩ => ⟨h1, h2, h3, h4, h5, h6, h7⟩⟩

instance (junk : Int) (t : OiT3 R) : Decidable (t.Exact junk) :=
  decidable_of_iff (_ ∧ _ ∧ _ ∧ _ ∧ _ ∧ _ ∧ _) ⟨fun ⟨h1, h2, h3, h4, h5, h6, h7⟩ => ⟨h1, h2, h3, h4, h5, h6, h7⟩, fun ⟨h1, h2, h3, h4, h5, h6, h7⟩ => ⟨h1, h2, h3, h4, h5, h6, h7⟩⟩

instance (junk : Int) (t : OiFlux R) : Decidable (t.Exact junk) :=
  decidable_of_iff (_ ∧ _ ∧ _ ∧ _ ∧ _ ∧ _ ∧ _ ∧ _ ∧ _ ∧ _ ∧ _) ⟨fun ⟨h1, h2, h3, h4, h5, h6, h7, h8, h9, h10, h11⟩ => ⟨h1, h2, h3, h4, h5, h6, h7, h8, h9, h10, h11⟩, fun ⟨h1, h2, h3, h4, h5, h6, h7, h8, h9, h10, h11⟩ => ⟨h1, h2, h3, h4, h5, h6, h7, h8, h9, h10, h11⟩⟩

instance (oi : OiFits R) : Decidable (Kept oi) :=
  decidable_of_iff (_ ∧ _ ∧ _ ∧ _ ∧ _ ∧ _ ∧ _ ∧ _ ∧ _ ∧ _) ⟨fun ⟨h1, h2, h3, h4, h5, h6, h7, h8, h9, h10⟩ => ⟨h1, h2, h3, h4, h5, h6, h7, h8, h9, h10⟩, fun ⟨h1, h2, h3, h4, h5, h6, h7, h8, h9, h10⟩ => ⟨h1, h2, h3, h4, h5, h6, h7, h8, h9, h10⟩⟩

namespace Ex
open FP

/-- Another dataset, with other channels and another matrix under names which `oic` uses, and without a value for
OBSERVER. -/
def oib : OiFits ratFP :=
  { oi2 with
    header := { header with date_obs := "2012-02-29", telescop := "CHARA", observer := "" }
    targets := { targets with targ := [targ 7 "Star B", targ 9 "Star C"] }
    arrayList := [array]
    wavelengthList := [{ wave2 with revision := 2 }]
    vis2List := [{ vis2b with revision := 2, record := [vis2Rec 7 56000 [false, false], vis2Rec 9 56001 [true, false]] }] }

theorem oib_storable : oib.Storable where
  targets := ⟨by decide, by decide +kernel⟩
  array := by intro t ht; rw [List.mem_singleton.mp ht]; exact array_storable
  wavelength := by intro t ht; rw [List.mem_singleton.mp ht]; exact ⟨by decide, rfl, rfl⟩
  corr := by intro t ht; rw [List.mem_singleton.mp ht]; exact ⟨by decide, rfl, rfl, rfl⟩
  inspol := by intro t ht; cases ht
  vis := by intro t ht; cases ht
  vis2 := by
    intro t ht; rw [List.mem_singleton.mp ht]
    refine ⟨⟨by decide, by decide, fun r hr => ?_⟩, by decide, by decide +kernel, by decide +kernel⟩
    simp only [List.mem_cons, List.not_mem_nil, or_false] at hr
    rcases hr with rfl | rfl <;> exact ⟨rfl, rfl, rfl⟩
  t3 := by intro t ht; cases ht
  flux := by intro t ht; cases ht

theorem oib_vis2_exact (junk : Int) {ids : List (OiVis2Record ratFP)} (h : ∀ r ∈ ids, r.time = ratFP.lit 0.0) {n c : CStr}
    (hn : CardText n) (hc : CardText c) (hc' : c ≠ []) :
    OiVis2.Exact junk { vis2b with revision := 2, record := ids, insname := n, corrname := c } where
  revision := rfl
  date_obs := (by decide +kernel : CardText vis2b.date_obs)
  arrname := (by decide +kernel : CardText vis2b.arrname)
  insname := hn
  corrname := hc
  time := h
  corrindx := fun h => absurd h hc'

theorem oib_exact (junk : Int) (str : CStr) : oib.Exact "2016-01-01" junk str where
  header := ⟨rfl, rfl, by decide +kernel⟩
  targets := ⟨rfl, by decide +kernel, fun x hx => by
    rw [if_pos (show oib.targets.usecategory = true from rfl)]
    exact (by decide +kernel : ∀ x ∈ oib.targets.targ, ColText 3 x.category) x hx⟩
  array := by intro t ht; rw [List.mem_singleton.mp ht]; exact array_exact
  wavelength := by intro t ht; rw [List.mem_singleton.mp ht]; exact ⟨rfl, by decide +kernel⟩
  corr := by intro t ht; rw [List.mem_singleton.mp ht]; exact ⟨rfl, by decide +kernel⟩
  inspol := rfl
  vis := by intro t ht; cases ht
  vis2 := by
    intro t ht; rw [List.mem_singleton.mp ht]
    exact oib_vis2_exact junk (by decide +kernel) (by decide +kernel) (by decide +kernel) (by decide)
  t3 := by intro t ht; cases ht
  flux := by intro t ht; cases ht

/-- Files which hold `oic` and `oib`. -/
def files5 : Files ratFP := fun n =>
  if n = ("b" : CStr) then some (.fits (fileOf "2016-01-01" oib)) else files n

theorem holds_b : ∃ oi, Holds undef files5 "b" oi ∧ oi.trim = oib.trim := by
  obtain ⟨hdus, h1, oi', h3, e1, e2, e3, e4, e5, e6, e7, e8, e9, e10, -⟩ :=
    C50_exact_partial "2016-01-01" oib_storable undef (oib_exact _ _)
  rw [write_oi_fits_eq _ _ oib_storable] at h1
  cases h1
  refine ⟨oi', ⟨_, rfl, h3⟩, ?_⟩
  unfold OiFits.trim
  rw [e1, e2, e3, e4, e5, e6, e7, e8, e9, e10]

theorem holds_c : ∃ oi, Holds undef files5 "in" oi ∧ oi.trim = oic.trim := by
  obtain ⟨oi, ⟨hdus, h, h'⟩, h1, h2, h3, h4, h5, h6, h7, h8, h9, h10⟩ := holds_in
  refine ⟨oi, ⟨hdus, h, h'⟩, ?_⟩
  unfold OiFits.trim
  rw [h1, h2, h3, h4, h5, h6, h7, h8, h9, h10]
  rfl

/-- The value, if there is one. -/
def valueOf (m : Outcome (OiFits ratFP)) : OiFits ratFP :=
  match m with
  | .ok x => x
  | _ => init_oi_fits ratFP

def isValue (m : Outcome (OiFits ratFP)) : Bool :=
  match m with
  | .ok _ => true
  | _ => false

theorem value_of {m : Outcome (OiFits ratFP)} (h : isValue m = true) : m = .ok (valueOf m) := by
  match m, h with
  | .ok _, _ => rfl

/-- What the first step makes. -/
def mid : OiFits ratFP := valueOf (merge_oi_fits_list [oic, oib])

theorem mid_eq : merge_oi_fits_list [oic, oib] = .ok mid := value_of (by decide +kernel)

theorem mid_kept : Kept mid := by decide +kernel

theorem mid_unique : UniqueNames mid := ⟨by decide +kernel, by decide +kernel, by decide +kernel⟩

theorem storable_trim {x y : OiFits ratFP} (e : x.trim = y.trim) (h : y.Storable) : x.Storable := by
  have : x.trim.Storable := by rw [e]; exact ⟨h.1, h.2, h.3, h.4, h.5, h.6, h.7, h.8, h.9⟩
  exact ⟨this.1, this.2, this.3, this.4, this.5, this.6, this.7, this.8, this.9⟩

theorem resolve_trim {x y : OiFits ratFP} (e : x.trim = y.trim) (h : TargetsResolve y) : TargetsResolve x := by
  have : TargetsResolve x.trim := by rw [e]; exact ⟨h.1, h.2, h.3, h.4, h.5⟩
  exact ⟨this.1, this.2, this.3, this.4, this.5⟩

theorem oic_resolve : TargetsResolve oic := by
  refine ⟨?_, ?_, ?_, ?_, ?_⟩ <;> intro t ht r hr <;> refine denotes_mem ?_
  · cases ht
  · exact (by decide +kernel : ∀ t ∈ oic.visList, ∀ r ∈ t.record, r.target_id ∈ oic.targets.targ.map (·.target_id)) t ht r hr
  · exact (by decide +kernel : ∀ t ∈ oic.vis2List, ∀ r ∈ t.record, r.target_id ∈ oic.targets.targ.map (·.target_id)) t ht r hr
  · exact (by decide +kernel : ∀ t ∈ oic.t3List, ∀ r ∈ t.record, r.target_id ∈ oic.targets.targ.map (·.target_id)) t ht r hr
  · exact (by decide +kernel : ∀ t ∈ oic.fluxList, ∀ r ∈ t.record, r.target_id ∈ oic.targets.targ.map (·.target_id)) t ht r hr

theorem oib_resolve : TargetsResolve oib := by
  refine ⟨?_, ?_, ?_, ?_, ?_⟩ <;> intro t ht r hr <;> refine denotes_mem ?_
  · cases ht
  · cases ht
  · exact (by decide +kernel : ∀ t ∈ oib.vis2List, ∀ r ∈ t.record, r.target_id ∈ oib.targets.targ.map (·.target_id)) t ht r hr
  · cases ht
  · cases ht

theorem headerFits_trim {x y : OiFits ratFP} (e : x.trim = y.trim)
    (h : ∀ key ∈ mandatoryKeys ++ optionalKeys, (key y.trim.header).length < FLEN_VALUE) : HeaderFits x := by
  intro key hk
  have := h key hk
  rw [← e] at this
  simp only [mandatoryKeys, optionalKeys, List.mem_append, List.mem_cons, List.not_mem_nil, or_false] at hk
  rcases hk with (rfl | rfl | rfl | rfl | rfl | rfl) | (rfl | rfl | rfl | rfl | rfl) <;> exact this

theorem date_trim {x y : OiFits ratFP} (e : x.trim = y.trim) : x.header.date_obs = y.header.date_obs :=
  (congrArg (fun z : OiFits ratFP => z.header.date_obs) e : x.trim.header.date_obs = y.trim.header.date_obs)

theorem oic_date : StartsWithDate oic.header.date_obs ⟨2014, 11, 13⟩ := ⟨by decide, by decide, by decide, [], by decide⟩
theorem oib_date : StartsWithDate oib.header.date_obs ⟨2012, 2, 29⟩ := ⟨by decide, by decide, by decide, [], by decide⟩

theorem files5_filled : ∀ name ∈ [("in" : CStr), "b"], FilledAt files5 name := by
  intro name hn hdus hh
  simp only [List.mem_cons, List.not_mem_nil, or_false] at hn
  rcases hn with rfl | rfl
  · cases hh
    exact filled_fileOf _ oic_storable
  · cases hh
    exact filled_fileOf _ oib_storable

end Ex

/-- Merging "in" and "b", and the result with "in", makes the file which merging "in", "b" and "in" makes. -/
theorem Ex.merge_in_steps (u₁ u₂ u₃ : Undef FP.ratFP) {fs : Files FP.ratFP} (hfs : fs = Ex.files5) :
    let r₁ := (oifits_merge u₁ "2016-01-02" ["oifits-merge", "mid", "in", "b"]).run fs
    let r₂ := (oifits_merge u₂ "2016-01-03" ["oifits-merge", "out", "mid", "in"]).run r₁.files
    let r := (oifits_merge u₃ "2016-01-03" ("oifits-merge" :: "one" :: "in" :: "b" :: (([] : List CStr) ++ [("in" : CStr)]))).run fs
    r₁.exit = .code 0 ∧ r₂.exit = .code 0 ∧ r.exit = .code 0 ∧
      ∃ hdus, r₂.files "out" = some (.fits hdus) ∧ r.files "one" = some (.fits hdus) := by
  obtain ⟨c, hc, ec⟩ := Ex.holds_c
  obtain ⟨b, hb, eb⟩ := Ex.holds_b
  have all {P : OiFits FP.ratFP → Prop} (h1 : P c) (h2 : P b) : ∀ oi ∈ [c, b] ++ [c], P oi := by
    intro oi hoi
    simp only [List.cons_append, List.nil_append, List.mem_cons, List.not_mem_nil, or_false] at hoi
    rcases hoi with rfl | rfl | rfl <;> assumption
  have htc : c.targets = Ex.oic.targets := (congrArg OiFits.targets ec : c.trim.targets = Ex.oic.trim.targets)
  have htb : b.targets = Ex.oib.targets := (congrArg OiFits.targets eb : b.trim.targets = Ex.oib.trim.targets)
  have hc0 : Pairwise₂ (Holds Ex.undef fs) [("in" : CStr)] [c] := pairwise₂_cons (hfs ▸ hc) ⟨rfl, fun _ _ _ h => by cases h⟩
  have hb0 : Pairwise₂ (Holds Ex.undef fs) [("b" : CStr)] [b] := pairwise₂_cons (hfs ▸ hb) ⟨rfl, fun _ _ _ h => by cases h⟩
  refine C97_steps_partial (u := Ex.undef) (fs := fs) (prog := "oifits-merge") (midfile := "mid") (outfile := "out")
    (onefile := "one") (in1 := "in") (in2 := "b") (in3 := "in") (more₁ := []) (more₂ := []) (ins₁ := [c, b]) (ins₂ := [c]) (pairwise₂_cons (hfs ▸ hc) hb0) hc0 ?_
    (all (Ex.storable_trim ec Ex.oic_storable) (Ex.storable_trim eb Ex.oib_storable))
    (all (Ex.resolve_trim ec Ex.oic_resolve) (Ex.resolve_trim eb Ex.oib_resolve)) ?_
    (all (Ex.headerFits_trim ec (by decide +kernel)) (Ex.headerFits_trim eb (by decide +kernel))) ?_ ?_ ?_ ?_ ?_
    ⟨by decide, by decide, by decide⟩ ⟨hfs ▸ rfl, hfs ▸ rfl, hfs ▸ rfl⟩ (by decide)
  · intro name hn
    rw [hfs]
    refine Ex.files5_filled name ?_
    simp only [List.cons_append, List.nil_append, List.mem_cons, List.not_mem_nil, or_false] at hn ⊢
    rcases hn with h | h | h
    · exact .inl h
    · exact .inr h
    · exact .inl h
  · unfold allTargets
    simp only [List.cons_append, List.nil_append, List.flatMap_cons, List.flatMap_nil, htc, htb]
    decide +kernel
  · exact all (.inr ⟨_, by rw [Ex.date_trim ec]; exact Ex.oic_date⟩) (.inr ⟨_, by rw [Ex.date_trim eb]; exact Ex.oib_date⟩)
  · exact ⟨c, by simp, _, by rw [Ex.date_trim ec]; exact Ex.oic_date⟩
  · intro k hk
    refine ⟨c, by simp, ?_⟩
    have : k Ex.oic.trim.header ≠ [] := (by decide +kernel : ∀ k ∈ mandatoryKeys, k Ex.oic.trim.header ≠ []) k hk
    rw [← ec] at this
    simp only [mandatoryKeys, List.mem_cons, List.not_mem_nil, or_false] at hk
    rcases hk with rfl | rfl | rfl | rfl | rfl | rfl <;> exact this
  · have fit : ∀ {x y : OiFits FP.ratFP}, x.trim = y.trim → NamesFit y → NamesFit x := by
      intro x y e h
      have : NamesFit x.trim := by rw [e]; exact ⟨h.1, h.2, h.3⟩
      exact ⟨this.1, this.2, this.3⟩
    intro oi hoi
    simp only [List.mem_cons, List.not_mem_nil, or_false] at hoi
    rcases hoi with rfl | rfl
    · exact fit ec ⟨by decide +kernel, by decide +kernel, by decide +kernel⟩
    · exact fit eb ⟨by decide +kernel, by decide +kernel, by decide +kernel⟩
  · intro m hm
    have e : merge_oi_fits_list [c, b] = merge_oi_fits_list [Ex.oic, Ex.oib] := by
      apply merge_trim
      simp only [List.map_cons, List.map_nil, ec, eb]
    rw [e, Ex.mid_eq] at hm
    cases hm
    exact ⟨Ex.mid_unique, Ex.mid_kept⟩

/-! ### Counterexample -/

/-- The OBSERVER of a file. -/
def Ex.observerOf (d : Option (FileData FP.ratFP)) : CStr :=
  match read_oi_fits Ex.undef (some (Ex.parts d)) .ok with
  | .ok (some oi, .ok) => oi.header.observer
  | _ => []

/-- Merging a file without OBSERVER with itself. -/
def Ex.step1 : Final FP.ratFP := (oifits_merge Ex.undef "2016-01-02" ["oifits-merge", "mid", "b", "b"]).run Ex.files5

/-- Merging the result with a file which has one. -/
def Ex.step2 : Final FP.ratFP := (oifits_merge Ex.undef "2016-01-02" ["oifits-merge", "out", "mid", "in"]).run Ex.step1.files

/-- Merging all at once. -/
def Ex.atOnce : Final FP.ratFP := (oifits_merge Ex.undef "2016-01-02" ["oifits-merge", "one", "b", "b", "in"]).run Ex.files5

theorem Ex.steps_exit : Ex.step1.exit = .code 0 ∧ Ex.step2.exit = .code 0 ∧ Ex.atOnce.exit = .code 0 := by decide +kernel

theorem Ex.steps_observer : Ex.observerOf (Ex.step2.files "out") = ("MULTIPLE" : CStr) ∧
    Ex.observerOf (Ex.atOnce.files "one") = ("A. Person" : CStr) := by decide +kernel

/-- C97 is false if the first files give no value to a mandatory keyword. The first step makes UNKNOWN of it, which
the second one takes for a value. -/
theorem C97_keyword_counterexample : ∃ (fs : Files FP.ratFP) (in1 in2 in3 midfile outfile onefile : CStr),
    let r₁ := (oifits_merge Ex.undef "2016-01-02" ["oifits-merge", midfile, in1, in2]).run fs
    let r₂ := (oifits_merge Ex.undef "2016-01-02" ["oifits-merge", outfile, midfile, in3]).run r₁.files
    let r := (oifits_merge Ex.undef "2016-01-02" ["oifits-merge", onefile, in1, in2, in3]).run fs
    r₁.exit = .code 0 ∧ r₂.exit = .code 0 ∧ r.exit = .code 0 ∧ r₂.files outfile ≠ r.files onefile := by
  have h := Ex.steps_exit
  have ho := Ex.steps_observer
  have h3 : Ex.step2.files "out" ≠ Ex.atOnce.files "one" := by
    intro e
    have := congrArg Ex.observerOf e
    rw [ho.1, ho.2] at this
    exact absurd this (by decide)
  obtain ⟨h1, h2, h4⟩ := h
  unfold Ex.step2 at h2 h3
  unfold Ex.step1 at h1 h2 h3
  unfold Ex.atOnce at h3 h4
  exact ⟨Ex.files5, "b", "b", "in", "mid", "out", "one", h1, h2, h4, h3⟩

end Verif
