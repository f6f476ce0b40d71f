import Verif.Proof.File
import Verif.Proof.Date
import Verif.Spec.Example

/-! Properties C16, C18-C23: datasets in memory (oifile.c). -/

namespace Verif
open Outcome Spec

variable {R : FP}

/-! ### C16: look-ups -/

/-- C16. Looking up a target by id returns the first record of that id. -/
theorem C16_lookup_target (oi : OiFits R) (id : Int) (t : Target R) :
    oi_fits_lookup_target oi id = some t ↔
      FirstWith (fun t => t.target_id = id) oi.targets.targ t :=
  find?_firstWith (by simp) _ _

/-- C16. Looking up a target by id returns NULL iff no record has that id. -/
theorem C16_lookup_target_null (oi : OiFits R) (id : Int) :
    oi_fits_lookup_target oi id = none ↔ ∀ t ∈ oi.targets.targ, t.target_id ≠ id :=
  find?_none_iff (by simp) _

/-- C16. Looking up a target by name returns the first record of that name. -/
theorem C16_lookup_target_by_name (oi : OiFits R) (name : CStr) (t : Target R) :
    oi_fits_lookup_target_by_name oi name = some t ↔
      FirstWith (fun t => t.target = name) oi.targets.targ t :=
  find?_firstWith (by simp) _ _

/-- C16. Looking up a target by name returns NULL iff no record has that name. -/
theorem C16_lookup_target_by_name_null (oi : OiFits R) (name : CStr) :
    oi_fits_lookup_target_by_name oi name = none ↔ ∀ t ∈ oi.targets.targ, t.target ≠ name :=
  find?_none_iff (by simp) _

/-- C16. Looking up a station returns the first element of that index of the array
which the array name denotes. -/
theorem C16_lookup_element (oi : OiFits R) (arrname : CStr) (i : Int) (e : Element R) :
    oi_fits_lookup_element oi arrname i = some e ↔
      ∃ a, oi_fits_lookup_array oi arrname = some a ∧
        FirstWith (fun e => e.sta_index = i) a.elem e := by
  unfold oi_fits_lookup_element
  cases h : oi_fits_lookup_array oi arrname with
  | none => simp
  | some a =>
    simp only [Option.some.injEq, exists_eq_left']
    exact find?_firstWith (by simp) _ _

/-- C16. Looking up a station returns NULL iff the array name denotes no array or
one without a station of that index. -/
theorem C16_lookup_element_null (oi : OiFits R) (arrname : CStr) (i : Int) :
    oi_fits_lookup_element oi arrname i = none ↔
      ∀ a, oi_fits_lookup_array oi arrname = some a → ∀ e ∈ a.elem, e.sta_index ≠ i := by
  unfold oi_fits_lookup_element
  cases h : oi_fits_lookup_array oi arrname with
  | none => simp
  | some a =>
    simp only [Option.some.injEq, forall_eq']
    exact find?_none_iff (by simp) _

-- The key may be present, possibly not in the first place, or absent.
example : oi_fits_lookup_target Ex.oi 2 = some (Ex.targ 2 "Star B") := by decide +kernel
example : oi_fits_lookup_target_by_name Ex.oi "Star C" = none := by decide +kernel
example : oi_fits_lookup_element Ex.oi "VLTI" 3 = some (Ex.elem 3 100) := by decide +kernel
example : oi_fits_lookup_element Ex.oi "VLTI" 4 = none := by decide +kernel

/-! ### C18: counting data -/

/-- C18. The counts are the numbers of unset flags among all OI_VIS, OI_VIS2 and
OI_T3 data, if each record has one flag per channel. -/
theorem C18_count_oi_fits_data (oi : OiFits R)
    (h1 : ∀ t ∈ oi.visList, ∀ r ∈ t.record, r.flag.length = t.nwave)
    (h2 : ∀ t ∈ oi.vis2List, ∀ r ∈ t.record, r.flag.length = t.nwave)
    (h3 : ∀ t ∈ oi.t3List, ∀ r ∈ t.record, r.flag.length = t.nwave) :
    count_oi_fits_data oi =
      .ok ((visFlags oi).count false, (vis2Flags oi).count false, (t3Flags oi).count false) := by
  have e : ∀ (l : List (List Bool)), l.flatten.count false = (l.map (·.count false)).sum := by
    intro l; simp [List.count_flatten]
  unfold count_oi_fits_data visFlags vis2Flags t3Flags
  rw [foldlM_count (g := fun t => (t.record.map fun r => r.flag.count false).sum)
    (fun t ht k => foldlM_count (fun r hr k => countUnflagged_eq (h1 t ht r hr) k) k)]
  rw [foldlM_count (g := fun t => (t.record.map fun r => r.flag.count false).sum)
    (fun t ht k => foldlM_count (fun r hr k => countUnflagged_eq (h2 t ht r hr) k) k)]
  rw [foldlM_count (g := fun t => (t.record.map fun r => r.flag.count false).sum)
    (fun t ht k => foldlM_count (fun r hr k => countUnflagged_eq (h3 t ht r hr) k) k)]
  simp [List.count_flatMap, Function.comp_def]

example : (visFlags Ex.oi).count false = 3 ∧ (vis2Flags Ex.oi).count false = 6 := by
  decide +kernel
example : (∀ t ∈ Ex.oi.vis2List, ∀ r ∈ t.record, r.flag.length = t.nwave) :=
  fun t ht r hr => ((Ex.oi_wf.vis2 t ht).recs r hr).flag

/-! ### C20: bounds -/

/-- C20. The earliest MJD is attained by a record and bounds all others. -/
theorem C20_get_min_mjd (L : Lawful R) (oi : OiFits R) (hn : NominalMjds L oi)
    (hne : mjds oi ≠ []) :
    ∃ c, L.val (get_min_mjd oi) = some c ∧ (∃ x ∈ mjds oi, L.val x = some c) ∧
      ∀ x ∈ mjds oi, ∀ b, L.val x = some b → c ≤ b := by
  rw [get_min_mjd_eq]
  have h0 := L.lit_int 100000 (by decide) (by decide)
  obtain ⟨c, h1, h2, h3, h4⟩ := minStep_mem L (lo := 0) (mjds oi) _ _ h0
    (fun x hx => let ⟨a, ha, hb, _⟩ := hn x hx; ⟨a, ha, hb⟩)
  refine ⟨c, h1, ?_, h3⟩
  rcases h4 with h4 | h4
  · obtain ⟨x, hx⟩ := List.exists_mem_of_ne_nil _ hne
    obtain ⟨a, ha, _, hb⟩ := hn x hx
    have := h3 x hx a ha
    rw [h4, h0, Option.some.injEq] at h1
    refine ⟨x, hx, ?_⟩
    rw [ha, ← h1]
    congr 1
    rw [← h1] at this
    push_cast at *
    linarith
  · exact ⟨_, h4, h1⟩

/-- C20. The latest MJD is attained by a record and bounds all others. -/
theorem C20_get_max_mjd (L : Lawful R) (oi : OiFits R) (hn : NominalMjds L oi)
    (hne : mjds oi ≠ []) :
    ∃ c, L.val (get_max_mjd oi) = some c ∧ (∃ x ∈ mjds oi, L.val x = some c) ∧
      ∀ x ∈ mjds oi, ∀ b, L.val x = some b → b ≤ c := by
  rw [get_max_mjd_eq]
  have h0 := L.lit_int 0 (by decide) (by decide)
  obtain ⟨c, h1, h2, h3, h4⟩ := maxStep_mem L (mjds oi) _ _ h0
    (fun x hx => let ⟨a, ha, _⟩ := hn x hx; ⟨a, ha⟩)
  refine ⟨c, h1, ?_, h3⟩
  rcases h4 with h4 | h4
  · obtain ⟨x, hx⟩ := List.exists_mem_of_ne_nil _ hne
    obtain ⟨a, ha, hb, _⟩ := hn x hx
    have := h3 x hx a ha
    have h0' : L.val (R.lit 0) = some 0 := by simpa using h0
    rw [h4] at h1
    have h1' : (0 : Rat) = c := by
      have := h0'.symm.trans h1
      simpa using this
    refine ⟨x, hx, ?_⟩
    rw [ha, ← h1']
    congr 1
    rw [← h1'] at this
    linarith
  · exact ⟨_, h4, h1⟩

/-- C20. The shortest wavelength is attained by a channel and bounds all others,
if all wavelengths are finite and at most the starting value `1.0e11`. -/
theorem C20_get_min_wavelength (L : Lawful R) (w : OiWavelength R) (hw : w.WF) {top : Rat}
    (htop : L.val (R.toD (R.toF (R.lit 1.0e11))) = some top)
    (hn : ∀ x ∈ w.eff_wave, ∃ a, L.val (R.toD x) = some a ∧ a ≤ top) :
    ∃ m c, get_min_wavelength w = .ok m ∧ L.val (R.toD m) = some c ∧
      (∃ x ∈ w.eff_wave, L.val (R.toD x) = some c) ∧
      ∀ x ∈ w.eff_wave, ∀ b, L.val (R.toD x) = some b → c ≤ b := by
  obtain ⟨hne, hlen, -⟩ := hw
  have hne' : w.eff_wave ≠ [] := by
    intro h; rw [h] at hlen; exact hne hlen.symm
  unfold get_min_wavelength
  rw [loopN_index (F := fun x minWave =>
    if R.lt (R.toD x) (R.toD minWave) then return x else return minWave) hlen]
  rw [foldlM_ok (g := fun minWave x => if R.lt (R.toD x) (R.toD minWave) then x else minWave)
    (by intro s x _; split <;> rfl)]
  suffices key : ∀ (xs : List R.Flt) (m : R.Flt) (a : Rat), L.val (R.toD m) = some a →
      (∀ x ∈ xs, ∃ a, L.val (R.toD x) = some a) →
      ∃ c, L.val (R.toD (xs.foldl (fun minWave x =>
          if R.lt (R.toD x) (R.toD minWave) then x else minWave) m)) = some c ∧ c ≤ a ∧
        (c = a ∨ ∃ x ∈ xs, L.val (R.toD x) = some c) ∧
        ∀ x ∈ xs, ∀ b, L.val (R.toD x) = some b → c ≤ b by
    obtain ⟨c, h1, h2, h3, h4⟩ := key w.eff_wave _ top htop
      (fun x hx => let ⟨a, ha, _⟩ := hn x hx; ⟨a, ha⟩)
    refine ⟨_, c, rfl, h1, ?_, h4⟩
    rcases h3 with h3 | h3
    · obtain ⟨x, hx⟩ := List.exists_mem_of_ne_nil _ hne'
      obtain ⟨a, ha, hb⟩ := hn x hx
      have := h4 x hx a ha
      exact ⟨x, hx, by rw [ha]; congr 1; linarith⟩
    · exact h3
  intro xs
  induction xs with
  | nil => intro m a hm _; exact ⟨a, hm, le_refl _, Or.inl rfl, by simp⟩
  | cons x xs ih =>
    intro m a hm hx
    obtain ⟨b, hb⟩ := hx x (by simp)
    rw [List.foldl_cons]
    by_cases h : R.lt (R.toD x) (R.toD m) = true
    · have hlt := (L.lt_iff _ _ b a hb hm).mp h
      rw [if_pos h]
      obtain ⟨c, h1, h2, h3, h4⟩ := ih x b hb (fun y hy => hx y (by simp [hy]))
      refine ⟨c, h1, by linarith, ?_, ?_⟩
      · rcases h3 with rfl | ⟨y, hy, h3⟩
        · exact Or.inr ⟨x, by simp, hb⟩
        · exact Or.inr ⟨y, by simp [hy], h3⟩
      · intro y hy b' hb'
        rcases List.mem_cons.mp hy with rfl | hy
        · rw [hb] at hb'; cases hb'; exact h2
        · exact h4 y hy b' hb'
    · have hlt : ¬ b < a := fun hl => h ((L.lt_iff _ _ b a hb hm).mpr hl)
      rw [if_neg h]
      obtain ⟨c, h1, h2, h3, h4⟩ := ih m a hm (fun y hy => hx y (by simp [hy]))
      refine ⟨c, h1, h2, ?_, ?_⟩
      · rcases h3 with rfl | ⟨y, hy, h3⟩
        · exact Or.inl rfl
        · exact Or.inr ⟨y, by simp [hy], h3⟩
      · intro y hy b' hb'
        rcases List.mem_cons.mp hy with rfl | hy
        · rw [hb] at hb'; cases hb'; linarith
        · exact h4 y hy b' hb'

/-- C20. The longest wavelength is attained by a channel and bounds all others,
if all wavelengths are finite and at least the starting value `0.0`. -/
theorem C20_get_max_wavelength (L : Lawful R) (w : OiWavelength R) (hw : w.WF) {bot : Rat}
    (hbot : L.val (R.toD (R.toF (R.lit 0.0))) = some bot)
    (hn : ∀ x ∈ w.eff_wave, ∃ a, L.val (R.toD x) = some a ∧ bot ≤ a) :
    ∃ m c, get_max_wavelength w = .ok m ∧ L.val (R.toD m) = some c ∧
      (∃ x ∈ w.eff_wave, L.val (R.toD x) = some c) ∧
      ∀ x ∈ w.eff_wave, ∀ b, L.val (R.toD x) = some b → b ≤ c := by
  obtain ⟨hne, hlen, -⟩ := hw
  have hne' : w.eff_wave ≠ [] := by
    intro h; rw [h] at hlen; exact hne hlen.symm
  unfold get_max_wavelength
  rw [loopN_index (F := fun x maxWave =>
    if R.lt (R.toD maxWave) (R.toD x) then return x else return maxWave) hlen]
  rw [foldlM_ok (g := fun maxWave x => if R.lt (R.toD maxWave) (R.toD x) then x else maxWave)
    (by intro s x _; split <;> rfl)]
  suffices key : ∀ (xs : List R.Flt) (m : R.Flt) (a : Rat), L.val (R.toD m) = some a →
      (∀ x ∈ xs, ∃ a, L.val (R.toD x) = some a) →
      ∃ c, L.val (R.toD (xs.foldl (fun maxWave x =>
          if R.lt (R.toD maxWave) (R.toD x) then x else maxWave) m)) = some c ∧ a ≤ c ∧
        (c = a ∨ ∃ x ∈ xs, L.val (R.toD x) = some c) ∧
        ∀ x ∈ xs, ∀ b, L.val (R.toD x) = some b → b ≤ c by
    obtain ⟨c, h1, h2, h3, h4⟩ := key w.eff_wave _ bot hbot
      (fun x hx => let ⟨a, ha, _⟩ := hn x hx; ⟨a, ha⟩)
    refine ⟨_, c, rfl, h1, ?_, h4⟩
    rcases h3 with h3 | h3
    · obtain ⟨x, hx⟩ := List.exists_mem_of_ne_nil _ hne'
      obtain ⟨a, ha, hb⟩ := hn x hx
      have := h4 x hx a ha
      exact ⟨x, hx, by rw [ha]; congr 1; linarith⟩
    · exact h3
  intro xs
  induction xs with
  | nil => intro m a hm _; exact ⟨a, hm, le_refl _, Or.inl rfl, by simp⟩
  | cons x xs ih =>
    intro m a hm hx
    obtain ⟨b, hb⟩ := hx x (by simp)
    rw [List.foldl_cons]
    by_cases h : R.lt (R.toD m) (R.toD x) = true
    · have hlt := (L.lt_iff _ _ a b hm hb).mp h
      rw [if_pos h]
      obtain ⟨c, h1, h2, h3, h4⟩ := ih x b hb (fun y hy => hx y (by simp [hy]))
      refine ⟨c, h1, by linarith, ?_, ?_⟩
      · rcases h3 with rfl | ⟨y, hy, h3⟩
        · exact Or.inr ⟨x, by simp, hb⟩
        · exact Or.inr ⟨y, by simp [hy], h3⟩
      · intro y hy b' hb'
        rcases List.mem_cons.mp hy with rfl | hy
        · rw [hb] at hb'; cases hb'; exact h2
        · exact h4 y hy b' hb'
    · have hlt : ¬ a < b := fun hl => h ((L.lt_iff _ _ a b hm hb).mpr hl)
      rw [if_neg h]
      obtain ⟨c, h1, h2, h3, h4⟩ := ih m a hm (fun y hy => hx y (by simp [hy]))
      refine ⟨c, h1, h2, ?_, ?_⟩
      · rcases h3 with rfl | ⟨y, hy, h3⟩
        · exact Or.inl rfl
        · exact Or.inr ⟨y, by simp [hy], h3⟩
      · intro y hy b' hb'
        rcases List.mem_cons.mp hy with rfl | hy
        · rw [hb] at hb'; cases hb'; linarith
        · exact h4 y hy b' hb'

/-- The example dataset has MJDs within the nominal range. -/
theorem nominal_example : NominalMjds Ex.ratLawful Ex.oi := by
  have : mjds Ex.oi = [Ex.num 56974, Ex.num 56974, Ex.num 56974, Ex.num 56975, Ex.num 56976,
    Ex.num 56974, Ex.num 56975, Ex.num 56976, Ex.num 56974, Ex.num 56974] := rfl
  intro x hx
  rw [this] at hx
  simp only [List.mem_cons, List.not_mem_nil, or_false] at hx
  rcases hx with rfl | rfl | rfl | rfl | rfl | rfl | rfl | rfl | rfl | rfl <;>
    exact ⟨_, rfl, by norm_num, by norm_num⟩

example : mjds Ex.oi ≠ [] := by decide
example : get_min_mjd Ex.oi = Ex.num 56974 ∧ get_max_mjd Ex.oi = Ex.num 56976 := by
  decide +kernel
example : get_max_wavelength Ex.wave = .ok (Ex.numF (mkRat 2 1000000)) := by decide +kernel

/-! ### C19: atomic datasets -/

/-- C19. For MJDs in the nominal range, a dataset with data is atomic iff it has
one OI_WAVELENGTH table, one target, at most one OI_ARRAY table and no two data
records more than `maxDays` apart. -/
theorem C19_is_atomic (L : Lawful R) (oi : OiFits R) (maxDays : R.Dbl) (d : Rat)
    (hc : oi.CountsAgree) (hd : L.val maxDays = some d) (hn : NominalMjds L oi)
    (hne : mjds oi ≠ []) :
    is_atomic oi maxDays = true ↔
      oi.wavelengthList.length = 1 ∧ oi.targets.targ.length = 1 ∧ oi.arrayList.length ≤ 1 ∧
      ∀ x ∈ mjds oi, ∀ y ∈ mjds oi, R.lt maxDays (R.abs (R.sub x y)) = false := by
  obtain ⟨lo, hlo, ⟨xlo, hxlo, hvlo⟩, hlob⟩ := C20_get_min_mjd L oi hn hne
  obtain ⟨hi, hhi, ⟨xhi, hxhi, hvhi⟩, hhib⟩ := C20_get_max_mjd L oi hn hne
  have range : ∀ x ∈ mjds oi, ∃ a, L.val x = some a ∧ lo ≤ a ∧ a ≤ hi ∧ 0 ≤ a ∧ a ≤ 100000 := by
    intro x hx
    obtain ⟨a, ha, h1, h2⟩ := hn x hx
    exact ⟨a, ha, hlob x hx a ha, hhib x hx a ha, h1, h2⟩
  obtain ⟨alo, halo, _, _, hlo0, hlo1⟩ := range xlo hxlo
  obtain ⟨ahi, hahi, _, _, hhi0, hhi1⟩ := range xhi hxhi
  rw [hvlo] at halo; cases halo
  rw [hvhi] at hahi; cases hahi
  have hle : lo ≤ hi := hlob xhi hxhi hi hvhi
  have absval : ∀ x y a b, L.val x = some a → L.val y = some b → 0 ≤ a → a ≤ 100000 → 0 ≤ b →
      b ≤ 100000 → ∃ c, L.val (R.abs (R.sub x y)) = some c ∧ c = |L.rnd (a - b)| := by
    intro x y a b hx hy h1 h2 h3 h4
    have := L.abs_val _ _ (L.sub_val x y a b hx hy (by linarith) (by linarith) (by linarith)
      (by linarith))
    refine ⟨_, this, ?_⟩
    split
    · rw [abs_of_neg (by assumption)]
    · rw [abs_of_nonneg (by linarith)]
  have rnd0 : L.rnd 0 = 0 := by
    have := L.rnd_neg 0
    rw [neg_zero] at this
    linarith
  have span : R.lt maxDays (R.abs (R.sub (get_max_mjd oi) (get_min_mjd oi))) = false ↔
      ∀ x ∈ mjds oi, ∀ y ∈ mjds oi, R.lt maxDays (R.abs (R.sub x y)) = false := by
    obtain ⟨c, hc, hcv⟩ := absval _ _ hi lo hhi hlo hhi0 hhi1 hlo0 hlo1
    have hspan : R.lt maxDays (R.abs (R.sub (get_max_mjd oi) (get_min_mjd oi))) = true ↔ d < c :=
      L.lt_iff _ _ d c hd hc
    have hcn : c = L.rnd (hi - lo) := by
      rw [hcv]; apply abs_of_nonneg
      rw [← rnd0]; exact L.rnd_mono _ _ (by linarith)
    constructor
    · intro h x hx y hy
      have h' : ¬ d < c := fun hl => by rw [hspan.mpr hl] at h; cases h
      obtain ⟨a, ha, a1, a2, a3, a4⟩ := range x hx
      obtain ⟨b, hb, b1, b2, b3, b4⟩ := range y hy
      obtain ⟨e, he, hev⟩ := absval x y a b ha hb a3 a4 b3 b4
      rw [Bool.eq_false_iff]
      intro hl
      have hl' := (L.lt_iff _ _ d e hd he).mp hl
      have : e ≤ c := by
        rw [hev, hcn, abs_le]
        constructor
        · rw [← L.rnd_neg]; exact L.rnd_mono _ _ (by linarith)
        · exact L.rnd_mono _ _ (by linarith)
      linarith
    · intro h
      obtain ⟨e, he, hev⟩ := absval xhi xlo hi lo hvhi hvlo hhi0 hhi1 hlo0 hlo1
      have hx := h xhi hxhi xlo hxlo
      rw [Bool.eq_false_iff] at hx ⊢
      intro hl
      apply hx
      rw [L.lt_iff _ _ d e hd he, hev, ← hcv]
      exact hspan.mp hl
  unfold is_atomic
  rw [hc.array, hc.wavelength]
  rw [← span]
  by_cases h1 : (oi.arrayList.length : Int) > 1
  · rw [if_pos h1]
    simp only [Bool.false_eq_true, false_iff]
    omega
  rw [if_neg h1]
  by_cases h2 : (oi.wavelengthList.length : Int) = 1
  · rw [if_neg (by simpa using h2)]
    by_cases h3 : oi.targets.targ.length = 1
    · rw [if_neg (by simpa using h3)]
      cases h4 : R.lt maxDays (R.abs (R.sub (get_max_mjd oi) (get_min_mjd oi)))
      · simp only [Bool.false_eq_true, if_false, true_iff]
        exact ⟨by omega, h3, by omega, trivial⟩
      · simp
    · rw [if_pos h3]
      simp [h3]
  · rw [if_pos h2]
    simp only [Bool.false_eq_true, false_iff]
    omega

/-- C19. The empty dataset created by `init_oi_fits` is not atomic. -/
theorem C19_empty_not_atomic (maxDays : R.Dbl) : is_atomic (init_oi_fits R) maxDays = false := by
  simp [is_atomic, init_oi_fits]

example : Ex.oi.CountsAgree := Ex.oi_counts
-- with one of the two targets left out, the span of two days decides
example : is_atomic { Ex.oi with targets := { Ex.targets with targ := [Ex.targ 1 "Star A"] } }
    (Ex.num 2) = true := by decide +kernel
example : is_atomic { Ex.oi with targets := { Ex.targets with targ := [Ex.targ 1 "Star A"] } }
    (Ex.num 1) = false := by decide +kernel

/-! ### C60: version detection -/

/-- C60. A version 1 dataset: the header does not claim version 2 and all tables of the
types in version 1 have revision number 1. -/
theorem C60_is_oi_fits_one (oi : OiFits R) :
    is_oi_fits_one oi = true ↔
      oi.header.content ≠ ("OIFITS2" : CStr) ∧ oi.targets.revision = 1 ∧
      (∀ t ∈ oi.arrayList, t.revision = 1) ∧ (∀ t ∈ oi.wavelengthList, t.revision = 1) ∧
      (∀ t ∈ oi.visList, t.revision = 1) ∧ (∀ t ∈ oi.vis2List, t.revision = 1) ∧
      (∀ t ∈ oi.t3List, t.revision = 1) := by
  unfold is_oi_fits_one
  generalize (("OIFITS2" : CStr)) = c
  by_cases h : oi.header.content = c
  · simp only [h, beq_self_eq_true, if_true, Bool.false_eq_true, ne_eq, not_true_eq_false, false_and]
  · rw [if_neg (by simpa using h)]
    by_cases h2 : oi.targets.revision = 1
    · rw [if_neg (by simp [h2, OI_REVN_V1_TARGET])]
      simp only [Bool.and_eq_true, List.all_eq_true, beq_iff_eq, OI_REVN_V1_ARRAY, OI_REVN_V1_VIS,
        OI_REVN_V1_VIS2, OI_REVN_V1_T3, and_assoc, h, h2, ne_eq, not_false_eq_true, true_and]
    · rw [if_pos (by simpa [OI_REVN_V1_TARGET] using h2)]
      simp only [Bool.false_eq_true, h2, false_and, and_false]

/-- C60. A version 2 dataset. -/
theorem C60_is_oi_fits_two (oi : OiFits R) :
    is_oi_fits_two oi = true ↔ oi.header.content = ("OIFITS2" : CStr) := by
  simp [is_oi_fits_two]

/-- C60. No dataset is of both versions. -/
theorem C60_not_both (oi : OiFits R) : ¬ (is_oi_fits_one oi = true ∧ is_oi_fits_two oi = true) := by
  rw [C60_is_oi_fits_one, C60_is_oi_fits_two]
  exact fun h => h.1.1 h.2

example : is_oi_fits_two Ex.oi = true := by decide +kernel
example : is_oi_fits_one { Ex.oi with header := { Ex.oi.header with content := [] } } = false := by
  decide +kernel
example : is_oi_fits_one (init_oi_fits FP.ratFP) = false := by decide +kernel

/-! ### C21: header from tables -/

/-- C21. `set_oi_header` sets the seven keywords as documented and changes nothing
else. Names are those which fit a keyword buffer (shorter than `FLEN_VALUE`).
The earliest MJD is within 1901..2099 (so there are data). -/
theorem C21_set_oi_header (oi : OiFits R) (hc : oi.CountsAgree)
    (ha : ∀ a ∈ oi.arrayList, a.arrname.length < FLEN_VALUE)
    (hw : ∀ w ∈ oi.wavelengthList, w.insname.length < FLEN_VALUE)
    (ht : ∀ t ∈ oi.targets.targ, t.target.length < FLEN_VALUE)
    (h1 : 15385 ≤ R.floor (get_min_mjd oi)) (h2 : R.floor (get_min_mjd oi) ≤ 88068) :
    ∃ d, MJD d (R.floor (get_min_mjd oi)) ∧
    set_oi_header oi = .ok { oi with header := { oi.header with
      telescop := summaryName "UNKNOWN" (oi.arrayList.map (·.arrname))
      instrume := summaryName "MULTIPLE" (oi.wavelengthList.map (·.insname))
      object := summaryName "MULTIPLE" (oi.targets.targ.map (·.target))
      date_obs := isoDate d
      origin := "UNKNOWN"
      observer := "UNKNOWN"
      insmode := "UNKNOWN" } } := by
  obtain ⟨d, hv, hy, hn⟩ := exists_date (R.floor (get_min_mjd oi) - 15385).toNat
  have hn : dayNo d.year d.month d.day = R.floor (get_min_mjd oi) := by omega
  have hy2 : d.year ≤ 2099 := year_le_of_dayNo hv (by omega)
  have hmd : mjd2date (R.floor (get_min_mjd oi)) = d := by
    rw [← hn]; exact mjd2date_dayNo hv hy hy2
  refine ⟨d, (mjd_iff hv (by omega)).mpr hn.symm, ?_⟩
  have hdate : snprintf FLEN_VALUE (fmtDate d) = isoDate d := by
    rw [fmtDate_eq hv hy hy2]; rfl
  have cpy : ∀ s : CStr, s.length < FLEN_VALUE → strlcpy s FLEN_VALUE = s := by
    intro s hs
    unfold strlcpy
    rw [List.take_of_length_le]
    unfold FLEN_VALUE at *
    omega
  have cU : strlcpy ("UNKNOWN" : CStr) FLEN_VALUE = "UNKNOWN" := by decide
  have cM : strlcpy ("MULTIPLE" : CStr) FLEN_VALUE = "MULTIPLE" := by decide
  have htel : headerTelescop oi =
      .ok (summaryName "UNKNOWN" (oi.arrayList.map (·.arrname))) := by
    unfold headerTelescop
    rw [hc.array]
    rcases hl : oi.arrayList with _ | ⟨a, _ | ⟨b, l⟩⟩
    · rw [if_pos (by simp), cU]; rfl
    · simp [summaryName, cpy _ (ha a (by simp [hl]))]
    · simp only [List.length_cons, List.map_cons, summaryName]
      rw [if_neg (by omega), if_neg (by omega), cM]
      rfl
  have hins : headerInstrume oi =
      .ok (summaryName "MULTIPLE" (oi.wavelengthList.map (·.insname))) := by
    unfold headerInstrume
    rw [hc.wavelength]
    rcases hl : oi.wavelengthList with _ | ⟨a, _ | ⟨b, l⟩⟩
    · rw [if_neg (by simp), cM]; rfl
    · simp [summaryName, cpy _ (hw a (by simp [hl]))]
    · simp only [List.length_cons, List.map_cons, summaryName]
      rw [if_neg (by omega), cM]
      rfl
  have hobj : headerObject oi = summaryName "MULTIPLE" (oi.targets.targ.map (·.target)) := by
    unfold headerObject
    rcases hl : oi.targets.targ with _ | ⟨a, _ | ⟨b, l⟩⟩
    · exact cM
    · simp [summaryName, cpy _ (ht a (by simp [hl]))]
    · simp only [List.map_cons, summaryName, cM]
  unfold set_oi_header
  simp only
  rw [htel, bind_ok, hins, bind_ok, hobj, hmd, hdate, cU]
  rfl

example : Ex.oi.CountsAgree ∧ (∀ a ∈ Ex.oi.arrayList, a.arrname.length < FLEN_VALUE) ∧
    (∀ w ∈ Ex.oi.wavelengthList, w.insname.length < FLEN_VALUE) ∧
    (∀ t ∈ Ex.oi.targets.targ, t.target.length < FLEN_VALUE) ∧
    15385 ≤ FP.ratFP.floor (get_min_mjd Ex.oi) ∧ FP.ratFP.floor (get_min_mjd Ex.oi) ≤ 88068 :=
  ⟨Ex.oi_counts, by decide +kernel⟩

/-! ### C22: duplication -/

/-- C22. OI_TARGET with at least one target. -/
theorem C22_dup_oi_target (t : OiTarget R) (h : t.targ ≠ []) : dup_oi_target t = .ok t := by
  unfold dup_oi_target
  rw [memdup_self rfl (by simpa using h)]
  rfl

/-- C22. OI_ARRAY. -/
theorem C22_dup_oi_array (t : OiArray R) (h : t.WF) : dup_oi_array t = .ok t := by
  unfold dup_oi_array
  rw [memdup_self rfl (by simpa using h.rows)]
  rfl

/-- C22. OI_WAVELENGTH. -/
theorem C22_dup_oi_wavelength (t : OiWavelength R) (h : t.WF) : dup_oi_wavelength t = .ok t := by
  unfold dup_oi_wavelength
  rw [memdup_self h.eff_wave h.chans, bind_ok, memdup_self h.eff_band h.chans]
  rfl

/-- C22. OI_CORR. -/
theorem C22_dup_oi_corr (t : OiCorr R) (h : t.WF) : dup_oi_corr t = .ok t := by
  unfold dup_oi_corr
  rw [memdup_self h.iindx h.rows, bind_ok, memdup_self h.jindx h.rows, bind_ok,
    memdup_self h.corr h.rows]
  rfl

/-- C22. OI_INSPOL. -/
theorem C22_dup_oi_inspol (t : OiInspol R) (h : t.WF) : dup_oi_inspol t = .ok t := by
  unfold dup_oi_inspol
  rw [memdup_self rfl (by simpa using h.rows), bind_ok, mapM_ok_id]
  · rfl
  · intro r hr
    have hr := h.recs r hr
    rw [memdup_self hr.jxx h.chans, bind_ok, memdup_self hr.jyy h.chans, bind_ok,
      memdup_self hr.jxy h.chans, bind_ok, memdup_self hr.jyx h.chans]
    rfl

/-- C22. OI_VIS2. -/
theorem C22_dup_oi_vis2 (t : OiVis2 R) (h : t.WF) : dup_oi_vis2 t = .ok t := by
  unfold dup_oi_vis2
  rw [memdup_self rfl (by simpa using h.rows), bind_ok, mapM_ok_id]
  · rfl
  · intro r hr
    have hr := h.recs r hr
    rw [memdup_self hr.vis2data h.chans, bind_ok, memdup_self hr.vis2err h.chans, bind_ok,
      memdup_self hr.flag h.chans]
    rfl

/-- C22. OI_T3. -/
theorem C22_dup_oi_t3 (t : OiT3 R) (h : t.WF) : dup_oi_t3 t = .ok t := by
  unfold dup_oi_t3
  rw [memdup_self rfl (by simpa using h.rows), bind_ok, mapM_ok_id]
  · rfl
  · intro r hr
    have hr := h.recs r hr
    rw [memdup_self hr.t3amp h.chans, bind_ok, memdup_self hr.t3amperr h.chans, bind_ok,
      memdup_self hr.t3phi h.chans, bind_ok, memdup_self hr.t3phierr h.chans, bind_ok,
      memdup_self hr.flag h.chans]
    rfl

/-- C22. OI_FLUX. -/
theorem C22_dup_oi_flux (t : OiFlux R) (h : t.WF) : dup_oi_flux t = .ok t := by
  unfold dup_oi_flux
  rw [memdup_self rfl (by simpa using h.rows), bind_ok, mapM_ok_id]
  · rfl
  · intro r hr
    have hr := h.recs r hr
    rw [memdup_self hr.fluxdata h.chans, bind_ok, memdup_self hr.fluxerr h.chans, bind_ok,
      memdup_self hr.flag h.chans]
    rfl

/-- C22, OI_VIS, false part. The claim `dup_oi_vis t = .ok t` for all well-formed
`t` does not hold of the code: IVISERR is copied from RVISERR (oifile.c:1338). -/
theorem C22_dup_oi_vis_false :
    ¬ ∀ (R : FP) (t : OiVis R), t.WF → dup_oi_vis t = .ok t := by
  intro h
  have := h _ Ex.vis Ex.vis_wf
  revert this
  decide +kernel

/-- C22, OI_VIS, what holds: everything but IVISERR is copied faithfully, and
IVISERR of the copy is RVISERR of the original if the complex visibilities are
in use. Missing from the full statement: IVISERR of such tables. -/
theorem C22_dup_oi_vis_partial (t : OiVis R) (h : t.WF) :
    dup_oi_vis t = .ok { t with record := t.record.map fun r =>
      { r with iviserr := if t.usecomplex then r.rviserr else r.iviserr } } := by
  unfold dup_oi_vis
  rw [memdup_self rfl (by simpa using h.rows), bind_ok, mapM_ok]
  · rfl
  · intro r hr
    have hr := h.recs r hr
    have opt : ∀ {α : Type} {used : Bool} {n : Nat} {a : Option (List α)}, OptArray used n a →
        n ≠ 0 → ∀ b, memdupIf used a b n = .ok (if used then a else b) := by
      intro α used n a ho hn b
      cases used with
      | false => rfl
      | true =>
        cases a with
        | none => exact absurd ho (by simp [OptArray])
        | some l => exact memdupOpt_self ho hn
    have hnn : t.nwave * t.nwave ≠ 0 := by simp [h.chans]
    rw [memdup_self hr.visamp h.chans, bind_ok, memdup_self hr.visamperr h.chans, bind_ok,
      memdup_self hr.visphi h.chans, bind_ok, memdup_self hr.visphierr h.chans, bind_ok,
      memdup_self hr.flag h.chans, bind_ok, opt hr.visrefmap hnn, bind_ok,
      opt hr.rvis h.chans, bind_ok, opt hr.rviserr h.chans, bind_ok, opt hr.ivis h.chans, bind_ok,
      opt hr.rviserr h.chans, bind_ok]
    simp only [ite_self]
    rfl

/-- C22, OI_VIS: tables without complex visibilities are copied faithfully. -/
theorem C22_dup_oi_vis_real_partial (t : OiVis R) (h : t.WF) (hu : t.usecomplex = false) :
    dup_oi_vis t = .ok t := by
  rw [C22_dup_oi_vis_partial t h, hu]
  simp only [Bool.false_eq_true, if_false, List.map_id']
  cases t
  simp_all

example : Ex.targets.targ ≠ [] := by decide
example : Ex.array.WF ∧ Ex.wave.WF ∧ Ex.corr.WF ∧ Ex.inspol.WF ∧ Ex.vis.WF ∧ Ex.vis2.WF ∧
    Ex.t3.WF ∧ Ex.flux.WF :=
  ⟨Ex.array_wf, Ex.wave_wf, Ex.corr_wf, Ex.inspol_wf, Ex.vis_wf, Ex.vis2_wf, Ex.t3_wf, Ex.flux_wf⟩

/-! ### C23: upgrade to version 2 -/

/-- C23. Tables of version 1 get the revision number of version 2 and zero TIMEs;
all other contents are as before. -/
theorem C23_upgrade_v1 :
    (∀ t : OiTarget R, t.revision = 1 → upgrade_oi_target t = { t with revision := 2 }) ∧
    (∀ t : OiArray R, t.revision = 1 → upgrade_oi_array t = { t with revision := 2 }) ∧
    (∀ t : OiWavelength R, t.revision = 1 → upgrade_oi_wavelength t = { t with revision := 2 }) ∧
    (∀ t : OiVis R, t.revision = 1 → upgrade_oi_vis t = { t with
      revision := 2, record := t.record.map fun r => { r with time := R.lit 0 } }) ∧
    (∀ t : OiVis2 R, t.revision = 1 → upgrade_oi_vis2 t = { t with
      revision := 2, record := t.record.map fun r => { r with time := R.lit 0 } }) ∧
    (∀ t : OiT3 R, t.revision = 1 → upgrade_oi_t3 t = { t with
      revision := 2, record := t.record.map fun r => { r with time := R.lit 0 } }) := by
  have z : (0.0 : Rat) = 0 := by norm_num
  refine ⟨?_, ?_, ?_, ?_, ?_, ?_⟩ <;> intro t h
  · simp [upgrade_oi_target, h, OI_REVN_V1_TARGET, OI_REVN_V2_TARGET]
  · simp [upgrade_oi_array, h, OI_REVN_V1_ARRAY, OI_REVN_V2_ARRAY]
  · simp [upgrade_oi_wavelength, h, OI_REVN_V1_WAVELENGTH, OI_REVN_V2_WAVELENGTH]
  · simp [upgrade_oi_vis, h, OI_REVN_V1_VIS, OI_REVN_V2_VIS, z]
  · simp [upgrade_oi_vis2, h, OI_REVN_V1_VIS2, OI_REVN_V2_VIS2, z]
  · simp [upgrade_oi_t3, h, OI_REVN_V1_T3, OI_REVN_V2_T3, z]

/-- C23. Tables not of version 1 are left as they are. -/
theorem C23_upgrade_other :
    (∀ t : OiTarget R, t.revision ≠ 1 → upgrade_oi_target t = t) ∧
    (∀ t : OiArray R, t.revision ≠ 1 → upgrade_oi_array t = t) ∧
    (∀ t : OiWavelength R, t.revision ≠ 1 → upgrade_oi_wavelength t = t) ∧
    (∀ t : OiVis R, t.revision ≠ 1 → upgrade_oi_vis t = t) ∧
    (∀ t : OiVis2 R, t.revision ≠ 1 → upgrade_oi_vis2 t = t) ∧
    (∀ t : OiT3 R, t.revision ≠ 1 → upgrade_oi_t3 t = t) := by
  refine ⟨?_, ?_, ?_, ?_, ?_, ?_⟩ <;> intro t h
  · simp [upgrade_oi_target, h, OI_REVN_V1_TARGET]
  · simp [upgrade_oi_array, h, OI_REVN_V1_ARRAY]
  · simp [upgrade_oi_wavelength, h, OI_REVN_V1_WAVELENGTH]
  · simp [upgrade_oi_vis, h, OI_REVN_V1_VIS]
  · simp [upgrade_oi_vis2, h, OI_REVN_V1_VIS2]
  · simp [upgrade_oi_t3, h, OI_REVN_V1_T3]

/-- C23. Upgrading twice is upgrading once, and the result is never of version 1. -/
theorem C23_upgrade_idempotent :
    (∀ t : OiTarget R, upgrade_oi_target (upgrade_oi_target t) = upgrade_oi_target t ∧
      (upgrade_oi_target t).revision ≠ 1) ∧
    (∀ t : OiArray R, upgrade_oi_array (upgrade_oi_array t) = upgrade_oi_array t ∧
      (upgrade_oi_array t).revision ≠ 1) ∧
    (∀ t : OiWavelength R, upgrade_oi_wavelength (upgrade_oi_wavelength t) =
      upgrade_oi_wavelength t ∧ (upgrade_oi_wavelength t).revision ≠ 1) ∧
    (∀ t : OiVis R, upgrade_oi_vis (upgrade_oi_vis t) = upgrade_oi_vis t ∧
      (upgrade_oi_vis t).revision ≠ 1) ∧
    (∀ t : OiVis2 R, upgrade_oi_vis2 (upgrade_oi_vis2 t) = upgrade_oi_vis2 t ∧
      (upgrade_oi_vis2 t).revision ≠ 1) ∧
    (∀ t : OiT3 R, upgrade_oi_t3 (upgrade_oi_t3 t) = upgrade_oi_t3 t ∧
      (upgrade_oi_t3 t).revision ≠ 1) := by
  obtain ⟨a1, a2, a3, a4, a5, a6⟩ := @C23_upgrade_v1 R
  obtain ⟨b1, b2, b3, b4, b5, b6⟩ := @C23_upgrade_other R
  have two : (2 : Int) ≠ 1 := by decide
  refine ⟨?_, ?_, ?_, ?_, ?_, ?_⟩ <;> intro t <;> by_cases h : t.revision = 1
  · rw [a1 t h]; exact ⟨b1 _ two, two⟩
  · rw [b1 t h]; exact ⟨b1 t h, h⟩
  · rw [a2 t h]; exact ⟨b2 _ two, two⟩
  · rw [b2 t h]; exact ⟨b2 t h, h⟩
  · rw [a3 t h]; exact ⟨b3 _ two, two⟩
  · rw [b3 t h]; exact ⟨b3 t h, h⟩
  · rw [a4 t h]; exact ⟨b4 _ two, two⟩
  · rw [b4 t h]; exact ⟨b4 t h, h⟩
  · rw [a5 t h]; exact ⟨b5 _ two, two⟩
  · rw [b5 t h]; exact ⟨b5 t h, h⟩
  · rw [a6 t h]; exact ⟨b6 _ two, two⟩
  · rw [b6 t h]; exact ⟨b6 t h, h⟩

-- a table of version 1, with non-zero TIME
example : ({ Ex.vis2 with revision := 1 } : OiVis2 FP.ratFP).revision = 1 := rfl

end Verif
