import Verif.Proof.FilterLoop
import Verif.Proof.Iter
import Verif.Spec.Filter

/-! Filtering of single records meets its specification. -/

namespace Verif
open Outcome Spec Classical

variable {R : FP}

theorem pick_snoc {α : Type} {pre : List Nat} {l : List α} {j : Nat} (h : j < l.length) :
    pick (pre ++ [j]) l = pick pre l ++ [l[j]] := by
  simp [pick, List.filterMap_append, List.getElem?_eq_getElem h]

theorem pick_nil {α : Type} (l : List α) : pick [] l = [] := rfl

theorem eq_not_decide {b : Bool} {P : Prop} [Decidable P] (h : b = false ↔ P) :
    b = !decide P := by
  by_cases hP : P
  · simp [h.mpr hP, hP]
  · have : b ≠ false := fun hc => hP (h.mp hc)
    simp at this
    simp [this, hP]

theorem snrAmp_out {f : FilterSpec R} {x err : List R.Dbl} {j : Nat} (h1 : j < x.length)
    (h2 : j < err.length) :
    outsideF f.snr_range (R.toF (R.div x[j] err[j])) = !decide (SnrAmpOk f x err j) :=
  eq_not_decide (snrAmpOk_iff (f := f) h1 h2)

theorem snrPhi_out {f : FilterSpec R} {err : List R.Dbl} {j : Nat} (h2 : j < err.length) :
    outsideF f.snr_range (R.toF (R.div RAD2DEG err[j])) = !decide (SnrPhiOk f err j) :=
  eq_not_decide (snrPhiOk_iff (f := f) h2)

theorem uvradOutside_ok {f : FilterSpec R} {w : OiWavelength R} {u v : R.Dbl} {j : Nat}
    (h : j < w.eff_wave.length) :
    uvradOutside f (some w) (hypot2 u v) j = .ok (!decide (UvOk f w u v j)) := by
  unfold uvradOutside
  simp only [index_of_lt h, bind_ok, pure_eq]
  congr 1
  refine eq_not_decide ((outsideD_false _ _).trans ?_)
  unfold UvOk
  rw [List.getElem?_eq_getElem h]
  simp [baseline, hypot2]

theorem newTargetId_eq (f : FilterSpec R) (id : Int) : newTargetId f id = targetIdOut f id := rfl

theorem targetSkip_eq (f : FilterSpec R) (id : Int) :
    targetSkip f id = !decide (TargetOk f id) := by
  unfold targetSkip TargetOk
  by_cases h1 : f.target_id < 0 <;> by_cases h2 : id = f.target_id <;> simp [h1, h2] <;> omega

theorem outsideD_eq (range : R.Dbl × R.Dbl) (x : R.Dbl) :
    outsideD range x = !decide (InD range x) := eq_not_decide (outsideD_false range x)

theorem flag_some {flag : List Bool} {j : Nat} {b : Bool} (h : j < flag.length) :
    flag[j]? = some b ↔ flag[j] = b := by
  rw [List.getElem?_eq_getElem h]; simp

theorem mask_some {u : List Bool} {j : Nat} (h : j < u.length) :
    (u[j]? = some true) ↔ u[j] = true := by
  rw [List.getElem?_eq_getElem h]; simp

/-- Some channel that is used has the property. -/
theorem any_used {n : Nat} {u : List Bool} {P : Nat → Prop}
    [∀ j, Decidable (u[j]? = some true ∧ P j)] [Decidable (∃ j ∈ usedIdx n u, P j)] :
    (List.range n).any (fun j => decide (u[j]? = some true ∧ P j)) =
      decide (∃ j ∈ usedIdx n u, P j) := by
  rw [Bool.eq_iff_iff]
  simp only [List.any_eq_true, decide_eq_true_eq, List.mem_range, mem_usedIdx]
  constructor
  · rintro ⟨j, h1, h2, h3⟩; exact ⟨j, ⟨h1, h2⟩, h3⟩
  · rintro ⟨j, ⟨h1, h2⟩, h3⟩; exact ⟨j, h1, h2, h3⟩

theorem flaggedSkip_ok {f : FilterSpec R} {x : Outcome Bool} {P : Prop}
    [Decidable P] [Decidable (f.accept_flagged = true ∨ P)] (h : f.accept_flagged = false → x = .ok (decide P)) :
    flaggedSkip f x = .ok (!decide (f.accept_flagged = true ∨ P)) := by
  unfold flaggedSkip
  rcases Bool.eq_false_or_eq_true f.accept_flagged with hf | hf
  · simp [hf]
  · simp [hf, h hf]

theorem guard_flags {f : FilterSpec R} {ks : List Nat} {P : Nat → Prop} {flag : List Bool}
    (h : f.accept_flagged = true ∨ ∃ j ∈ ks, flag[j]? = some false ∧ P j) :
    guardAssert (f.accept_flagged ||
      (ks.map fun j => decide (flag[j]? = some true ∨ ¬ P j)).any (!·)) = .ok () := by
  have : (f.accept_flagged ||
      (ks.map fun j => decide (flag[j]? = some true ∨ ¬ P j)).any (!·)) = true := by
    rcases h with h | ⟨j, h1, h2, h3⟩
    · simp [h]
    · rw [Bool.or_eq_true]
      right
      rw [List.any_eq_true]
      refine ⟨false, ?_, rfl⟩
      rw [List.mem_map]
      exact ⟨j, h1, by simp [h2, h3]⟩
  rw [this]; rfl

/-! ### OI_VIS2 -/

section vis2
variable {f : FilterSpec R} {w : OiWavelength R} {r : OiVis2Record R} {u : List Bool} {n : Nat}

theorem vis2ChanOk_ok (hr : r.WF n) (hw : w.eff_wave.length = n) (hu : u.length = n) {j : Nat}
    (hj : j < n) : vis2ChanOk f (some w) u r j =
      .ok (decide (u[j]? = some true ∧ (r.flag[j]? = some false ∧ Vis2InRange f w r j))) := by
  have e1 : j < u.length := hu ▸ hj
  have e2 : j < r.flag.length := hr.flag ▸ hj
  have e3 : j < r.vis2data.length := hr.vis2data ▸ hj
  have e4 : j < r.vis2err.length := hr.vis2err ▸ hj
  have e5 : j < w.eff_wave.length := hw ▸ hj
  unfold vis2ChanOk
  simp only [index_of_lt e1, index_of_lt e2, index_of_lt e3, index_of_lt e4, bind_ok,
    uvradOutside_ok e5, snrAmp_out e3 e4, mask_some e1, flag_some e2, Vis2InRange]
  cases u[j] <;> cases r.flag[j] <;> simp
  by_cases h : UvOk f w r.ucoord r.vcoord j <;> simp [h]

theorem vis2NewFlag_ok (hr : r.WF n) (hw : w.eff_wave.length = n) {j : Nat} (hj : j < n) :
    vis2NewFlag f (some w) r j =
      .ok (decide (r.flag[j]? = some true ∨ ¬ Vis2InRange f w r j)) := by
  have e2 : j < r.flag.length := hr.flag ▸ hj
  have e3 : j < r.vis2data.length := hr.vis2data ▸ hj
  have e4 : j < r.vis2err.length := hr.vis2err ▸ hj
  have e5 : j < w.eff_wave.length := hw ▸ hj
  unfold vis2NewFlag
  simp only [index_of_lt e2, index_of_lt e3, index_of_lt e4, bind_ok,
    uvradOutside_ok e5, snrAmp_out e3 e4, flag_some e2, Vis2InRange]
  cases r.flag[j] <;> simp

theorem any_vis2_chan_ok_ok (hr : r.WF n) (hw : w.eff_wave.length = n) (hu : u.length = n)
    (hk : usedIdx n u = keptChans f w) : any_vis2_chan_ok f (some w) u n r =
      .ok (decide (∃ j ∈ keptChans f w, r.flag[j]? = some false ∧ Vis2InRange f w r j)) := by
  unfold any_vis2_chan_ok
  rw [anyLoop_ok (fun j hj => vis2ChanOk_ok hr hw hu (List.mem_range.mp hj)),
    any_used (P := fun j => r.flag[j]? = some false ∧ Vis2InRange f w r j)]
  simp only [hk]

theorem vis2Keep_ok (hr : r.WF n) (hw : w.eff_wave.length = n) (hu : u.length = n)
    (hk : usedIdx n u = keptChans f w) :
    vis2Keep f (some w) u n r = .ok (decide (Vis2Kept f w r)) := by
  unfold vis2Keep
  rw [flaggedSkip_ok (fun _ => any_vis2_chan_ok_ok hr hw hu hk), targetSkip_eq, outsideD_eq,
    outsideD_eq]
  have : Vis2Kept f w r ↔ TargetOk f r.target_id ∧ InD f.mjd_range r.mjd ∧
      InD f.bas_range (hypot2 r.ucoord r.vcoord) ∧ (f.accept_flagged = true ∨
        ∃ j ∈ keptChans f w, r.flag[j]? = some false ∧ Vis2InRange f w r j) :=
    ⟨fun h => ⟨h.1, h.2, h.3, h.4⟩, fun h => ⟨h.1, h.2.1, h.2.2.1, h.2.2.2⟩⟩
  simp only [this]
  by_cases h1 : TargetOk f r.target_id <;> simp [h1]
  by_cases h2 : InD f.mjd_range r.mjd <;> simp [h2]
  by_cases h3 : InD f.bas_range (hypot2 r.ucoord r.vcoord) <;> simp [h3]

theorem filter_oi_vis2_record_ok (hr : r.WF n) (hw : w.eff_wave.length = n) (hu : u.length = n)
    (hk : usedIdx n u = keptChans f w) (hne : keptChans f w ≠ []) (hkept : Vis2Kept f w r) :
    filter_oi_vis2_record f (some w) u n (usedIdx n u).length r = .ok (vis2RecOut f w r) := by
  unfold filter_oi_vis2_record
  rw [chkmallocN_ok (by rw [hk]; simpa using hne), bind_ok]
  have hloop := useLoop_ok (n := n) (u := u) (by omega)
    (body := filterVis2Chan f (some w) (usedIdx n u).length r)
    (fun pre => ⟨pre.length, pick pre r.vis2data, pick pre r.vis2err,
      pre.map fun j => decide (r.flag[j]? = some true ∨ ¬ Vis2InRange f w r j)⟩)
    (fun pre j post h => by
      have hj : j < n := (mem_usedIdx.mp (h ▸ List.mem_append_right pre (List.mem_cons_self ..))).1
      have e3 : j < r.vis2data.length := hr.vis2data ▸ hj
      have e4 : j < r.vis2err.length := hr.vis2err ▸ hj
      unfold filterVis2Chan
      simp only [checkWrite_ok h, bind_ok, index_of_lt e3, index_of_lt e4,
        vis2NewFlag_ok hr hw hj, pick_snoc e3, pick_snoc e4, List.map_append, List.length_append]
      rfl)
  simp only [pick_nil, List.length_nil, List.map_nil] at hloop
  rw [hloop, bind_ok, hk]
  dsimp only
  rw [guard_flags hkept.unflagged]
  rfl

end vis2

/-! ### OI_VIS -/

section vis
variable {f : FilterSpec R} {w : OiWavelength R} {r : OiVisRecord R} {u : List Bool} {n : Nat}
  {refmap complex : Bool}

theorem visChanOk_ok (hr : r.WF n refmap complex) (hw : w.eff_wave.length = n) (hu : u.length = n)
    {j : Nat} (hj : j < n) : visChanOk f (some w) u r j =
      .ok (decide (u[j]? = some true ∧ (r.flag[j]? = some false ∧ VisInRange f w r j))) := by
  have e1 : j < u.length := hu ▸ hj
  have e2 : j < r.flag.length := hr.flag ▸ hj
  have e3 : j < r.visamp.length := hr.visamp ▸ hj
  have e4 : j < r.visamperr.length := hr.visamperr ▸ hj
  have e6 : j < r.visphierr.length := hr.visphierr ▸ hj
  have e5 : j < w.eff_wave.length := hw ▸ hj
  unfold visChanOk
  simp only [index_of_lt e1, index_of_lt e2, index_of_lt e3, index_of_lt e4, index_of_lt e6,
    bind_ok, uvradOutside_ok e5, snrAmp_out e3 e4, snrPhi_out e6, mask_some e1, flag_some e2,
    VisInRange]
  cases u[j] <;> cases r.flag[j] <;> simp
  all_goals by_cases h : UvOk f w r.ucoord r.vcoord j <;> simp [h]

theorem visNewFlag_ok (hr : r.WF n refmap complex) (hw : w.eff_wave.length = n) {j : Nat}
    (hj : j < n) : visNewFlag f (some w) r j =
      .ok (decide (r.flag[j]? = some true ∨ ¬ VisInRange f w r j)) := by
  have e2 : j < r.flag.length := hr.flag ▸ hj
  have e3 : j < r.visamp.length := hr.visamp ▸ hj
  have e4 : j < r.visamperr.length := hr.visamperr ▸ hj
  have e6 : j < r.visphierr.length := hr.visphierr ▸ hj
  have e5 : j < w.eff_wave.length := hw ▸ hj
  unfold visNewFlag
  simp only [index_of_lt e2, index_of_lt e3, index_of_lt e4, index_of_lt e6, bind_ok,
    uvradOutside_ok e5, snrAmp_out e3 e4, snrPhi_out e6, flag_some e2, VisInRange]
  cases r.flag[j] <;> simp

theorem any_vis_chan_ok_ok (hr : r.WF n refmap complex) (hw : w.eff_wave.length = n)
    (hu : u.length = n) (hk : usedIdx n u = keptChans f w) : any_vis_chan_ok f (some w) u n r =
      .ok (decide (∃ j ∈ keptChans f w, r.flag[j]? = some false ∧ VisInRange f w r j)) := by
  unfold any_vis_chan_ok
  rw [anyLoop_ok (fun j hj => visChanOk_ok hr hw hu (List.mem_range.mp hj)),
    any_used (P := fun j => r.flag[j]? = some false ∧ VisInRange f w r j)]
  simp only [hk]

theorem visKeep_ok (hr : r.WF n refmap complex) (hw : w.eff_wave.length = n) (hu : u.length = n)
    (hk : usedIdx n u = keptChans f w) :
    visKeep f (some w) u n r = .ok (decide (VisKept f w r)) := by
  unfold visKeep
  rw [flaggedSkip_ok (fun _ => any_vis_chan_ok_ok hr hw hu hk), targetSkip_eq, outsideD_eq,
    outsideD_eq]
  have : VisKept f w r ↔ TargetOk f r.target_id ∧ InD f.mjd_range r.mjd ∧
      InD f.bas_range (hypot2 r.ucoord r.vcoord) ∧ (f.accept_flagged = true ∨
        ∃ j ∈ keptChans f w, r.flag[j]? = some false ∧ VisInRange f w r j) :=
    ⟨fun h => ⟨h.1, h.2, h.3, h.4⟩, fun h => ⟨h.1, h.2.1, h.2.2.1, h.2.2.2⟩⟩
  simp only [this]
  by_cases h1 : TargetOk f r.target_id <;> simp [h1]
  by_cases h2 : InD f.mjd_range r.mjd <;> simp [h2]
  by_cases h3 : InD f.bas_range (hypot2 r.ucoord r.vcoord) <;> simp [h3]

theorem optArray_some {α : Type} {n : Nat} {a : Option (List α)} (h : OptArray true n a) :
    ∃ l, a = some l ∧ l.length = n := by
  cases a with
  | none => exact h.elim
  | some l => exact ⟨l, rfl, h⟩

theorem optArray_none {α : Type} {n : Nat} {a : Option (List α)} (h : OptArray false n a) :
    a = none := by
  cases a with
  | none => rfl
  | some l => exact h.elim

/-- What has been copied of an optional array. -/
def pickOpt {α : Type} (ks : List Nat) (a : Option (List α)) : List α :=
  match a with
  | some l => pick ks l
  | none => []

theorem copyIf_ok {α : Type} {used : Bool} {n : Nat} {a : Option (List α)} (h : OptArray used n a)
    {j : Nat} (hj : j < n) (pre : List Nat) :
    copyIf used a j (pickOpt pre a) = .ok (pickOpt (pre ++ [j]) a) := by
  unfold copyIf
  cases used with
  | true =>
    obtain ⟨l, rfl, hl⟩ := optArray_some h
    have e : j < l.length := hl ▸ hj
    simp [pickOpt, indexOpt, deref, index_of_lt e, pick_snoc e]
  | false =>
    rw [optArray_none h]; simp [pickOpt]

theorem arrayIf_pick {α : Type} {used : Bool} {n : Nat} {a : Option (List α)}
    (h : OptArray used n a) (ks : List Nat) : arrayIf used (pickOpt ks a) = a.map (pick ks) := by
  cases used with
  | true =>
    obtain ⟨l, rfl, hl⟩ := optArray_some h
    simp [arrayIf, pickOpt]
  | false =>
    rw [optArray_none h]; simp [arrayIf]

/-- Rows `pre` of the matrix at the columns `ks`. -/
def rowsOpt (n : Nat) (ks pre : List Nat) (a : Option (List Bool)) : List Bool :=
  match a with
  | some l => pre.flatMap fun j => ks.filterMap fun i => l[i + j * n]?
  | none => []

theorem filterMap_length {α : Type} {ks : List Nat} {l : List α} {g : Nat → Nat}
    (h : ∀ i ∈ ks, g i < l.length) : (ks.filterMap fun i => l[g i]?).length = ks.length := by
  induction ks with
  | nil => rfl
  | cons k ks ih =>
    rw [List.filterMap_cons, List.getElem?_eq_getElem (h k (by simp))]
    simp [ih (fun i hi => h i (by simp [hi]))]

theorem pick_length {α : Type} {ks : List Nat} {l : List α} (h : ∀ i ∈ ks, i < l.length) :
    (pick ks l).length = ks.length := filterMap_length (g := id) h

theorem matrix_index {n i j : Nat} (hi : i < n) (hj : j < n) : i + j * n < n * n := by
  calc i + j * n < n + j * n := by omega
    _ = (j + 1) * n := by rw [Nat.add_mul]; omega
    _ ≤ n * n := Nat.mul_le_mul_right n hj

theorem rows_length {n : Nat} {ks pre : List Nat} {l : List Bool} (hl : l.length = n * n)
    (hks : ∀ i ∈ ks, i < n) (hpre : ∀ j ∈ pre, j < n) :
    (rowsOpt n ks pre (some l)).length = pre.length * ks.length := by
  unfold rowsOpt
  dsimp only
  induction pre with
  | nil => simp
  | cons j pre ih =>
    rw [List.flatMap_cons, List.length_append, ih (fun k hk => hpre k (by simp [hk])),
      filterMap_length (fun i hi => hl ▸ matrix_index (hks i hi) (hpre j (by simp)))]
    rw [List.length_cons, Nat.add_mul]; omega

theorem visRefmapRow_ok {l : List Bool} (hl : l.length = n * n) (hm : r.visrefmap = some l)
    (hu : u.length = n) {pre post : List Nat} {j : Nat} (h : usedIdx n u = pre ++ j :: post) :
    visRefmapRow u n (usedIdx n u).length r j pre.length
        (rowsOpt n (usedIdx n u) pre r.visrefmap) =
      .ok (rowsOpt n (usedIdx n u) (pre ++ [j]) r.visrefmap) := by
  have hks : ∀ i ∈ usedIdx n u, i < n := fun i hi => (mem_usedIdx.mp hi).1
  have hpre : ∀ i ∈ pre, i < n := fun i hi => hks i (by rw [h]; simp [hi])
  have hj : j < n := hks j (by rw [h]; simp)
  have hlen := rows_length hl hks hpre
  unfold visRefmapRow
  rw [hm]
  have hloop := useLoop_ok (n := n) (u := u) (by omega)
    (body := fun i (s : Nat × List Bool) => do
      let x ← indexOpt (some l) (i + j * n)
      if s.1 + pre.length * (usedIdx n u).length < (usedIdx n u).length * (usedIdx n u).length ∧
          s.1 + pre.length * (usedIdx n u).length = s.2.length then
        return (s.1 + 1, s.2 ++ [x])
      else .ub)
    (fun p => (p.length, rowsOpt n (usedIdx n u) pre (some l) ++ p.filterMap fun i => l[i + j * n]?))
    (fun p i post' h' => by
      have hp : ∀ k ∈ p, k < n := fun k hk => hks k (by rw [h']; simp [hk])
      have hi : i < n := hks i (by rw [h']; simp)
      have e : i + j * n < l.length := hl ▸ matrix_index hi hj
      have e2 : p.length < (usedIdx n u).length := by rw [h']; simp
      have e3 : pre.length < (usedIdx n u).length := by rw [h]; simp
      simp only [indexOpt, deref, bind_ok, index_of_lt e]
      rw [if_pos]
      · simp [List.filterMap_append, List.getElem?_eq_getElem e]
      · constructor
        · exact matrix_index e2 e3
        · rw [List.length_append, hlen, filterMap_length (fun k hk => hl ▸ matrix_index (hp k hk) hj)]
          omega)
  simp only [List.length_nil, List.filterMap_nil, List.append_nil] at hloop
  rw [hloop, bind_ok]
  simp [rowsOpt, List.flatMap_append]

theorem visRefmapIf_ok (hr : r.WF n refmap complex) (hu : u.length = n) {pre post : List Nat}
    {j : Nat} (h : usedIdx n u = pre ++ j :: post) :
    visRefmapIf refmap u n (usedIdx n u).length r j pre.length
        (rowsOpt n (usedIdx n u) pre r.visrefmap) =
      .ok (rowsOpt n (usedIdx n u) (pre ++ [j]) r.visrefmap) := by
  have hm := hr.visrefmap
  unfold visRefmapIf
  cases refmap with
  | true =>
    obtain ⟨l, h1, h2⟩ := optArray_some hm
    rw [if_pos rfl, visRefmapRow_ok h2 h1 hu h]
  | false => rw [optArray_none hm]; rfl

theorem arrayIf_rows {a : Option (List Bool)} {m : Nat} (h : OptArray refmap m a)
    (ks : List Nat) : arrayIf refmap (rowsOpt n ks ks a) = a.map (submatrix n ks) := by
  cases refmap with
  | true =>
    obtain ⟨l, rfl, hl⟩ := optArray_some h
    simp [arrayIf, rowsOpt, submatrix]
  | false =>
    rw [optArray_none h]; simp [arrayIf]

theorem pickOpt_nil {α : Type} (a : Option (List α)) : pickOpt [] a = [] := by
  cases a <;> rfl

theorem rowsOpt_nil (ks : List Nat) (a : Option (List Bool)) : rowsOpt n ks [] a = [] := by
  cases a <;> rfl

theorem filter_oi_vis_record_ok (hr : r.WF n refmap complex) (hw : w.eff_wave.length = n)
    (hn : w.nwave = n) (hu : u.length = n)
    (hk : usedIdx n u = keptChans f w) (hne : keptChans f w ≠ []) (hkept : VisKept f w r) :
    filter_oi_vis_record f (some w) u n (usedIdx n u).length refmap complex r =
      .ok (visRecOut f w r) := by
  unfold filter_oi_vis_record
  rw [chkmallocN_ok (by rw [hk]; simpa using hne), bind_ok]
  have hloop := useLoop_ok (n := n) (u := u) (by omega)
    (body := filterVisChan f (some w) u n (usedIdx n u).length refmap complex r)
    (fun pre => ⟨pre.length, pick pre r.visamp, pick pre r.visamperr, pick pre r.visphi,
      pick pre r.visphierr,
      pre.map fun j => decide (r.flag[j]? = some true ∨ ¬ VisInRange f w r j),
      rowsOpt n (usedIdx n u) pre r.visrefmap, pickOpt pre r.rvis, pickOpt pre r.rviserr,
      pickOpt pre r.ivis, pickOpt pre r.iviserr⟩)
    (fun pre j post h => by
      have hj : j < n := (mem_usedIdx.mp (h ▸ List.mem_append_right pre (List.mem_cons_self ..))).1
      have e1 : j < r.visamp.length := hr.visamp ▸ hj
      have e2 : j < r.visamperr.length := hr.visamperr ▸ hj
      have e3 : j < r.visphi.length := hr.visphi ▸ hj
      have e4 : j < r.visphierr.length := hr.visphierr ▸ hj
      unfold filterVisChan
      simp only [checkWrite_ok h, bind_ok, index_of_lt e1, index_of_lt e2, index_of_lt e3,
        index_of_lt e4, visNewFlag_ok hr hw hj, pick_snoc e1, pick_snoc e2, pick_snoc e3,
        pick_snoc e4, List.map_append, List.length_append, visRefmapIf_ok hr hu h,
        copyIf_ok hr.rvis hj, copyIf_ok hr.rviserr hj, copyIf_ok hr.ivis hj,
        copyIf_ok hr.iviserr hj]
      rfl)
  simp only [pick_nil, pickOpt_nil, rowsOpt_nil, List.length_nil, List.map_nil] at hloop
  rw [hloop, bind_ok, hk]
  dsimp only
  rw [guard_flags hkept.unflagged, bind_ok, arrayIf_rows hr.visrefmap, arrayIf_pick hr.rvis,
    arrayIf_pick hr.rviserr, arrayIf_pick hr.ivis, arrayIf_pick hr.iviserr]
  unfold visRecOut
  rw [hn]
  rfl

end vis

/-! ### OI_T3 -/

section t3
variable {f : FilterSpec R} {w : OiWavelength R} {r : OiT3Record R} {u : List Bool} {n : Nat}

theorem t3UvOutside_ok (hw : w.eff_wave.length = n) {j : Nat} (hj : j < n) :
    t3UvOutside f (some w) r j = .ok (!decide (UvOk f w r.u1coord r.v1coord j ∧
      UvOk f w r.u2coord r.v2coord j ∧
      UvOk f w (R.add r.u1coord r.u2coord) (R.add r.v1coord r.v2coord) j)) := by
  have e5 : j < w.eff_wave.length := hw ▸ hj
  unfold t3UvOutside
  simp only [bind_ok, uvradOutside_ok e5, pure_eq]
  congr 1
  by_cases h : UvOk f w r.u1coord r.v1coord j <;> by_cases h2 : UvOk f w r.u2coord r.v2coord j <;>
    simp [h, h2]

theorem t3AmpOutside_ok (hr : r.WF n) {j : Nat} (hj : j < n) : t3AmpOutside f r j =
    .ok (!decide (f.accept_t3amp = true → SnrAmpOk f r.t3amp r.t3amperr j)) := by
  have e1 : j < r.t3amp.length := hr.t3amp ▸ hj
  have e2 : j < r.t3amperr.length := hr.t3amperr ▸ hj
  unfold t3AmpOutside
  simp only [index_of_lt e1, index_of_lt e2, bind_ok, snrAmp_out e1 e2]
  cases f.accept_t3amp <;> simp

theorem t3PhiOutside_ok (hr : r.WF n) {j : Nat} (hj : j < n) : t3PhiOutside f r j =
    .ok (!decide (f.accept_t3phi = true → SnrPhiOk f r.t3phierr j)) := by
  have e2 : j < r.t3phierr.length := hr.t3phierr ▸ hj
  unfold t3PhiOutside
  simp only [index_of_lt e2, bind_ok, snrPhi_out e2]
  cases f.accept_t3phi <;> simp

theorem t3_chain {u flag : Bool} {A B C D : Prop} [Decidable A] [Decidable B] [Decidable C]
    [Decidable (u = true ∧ flag = false ∧ D)] (h : D ↔ A ∧ B ∧ C) :
    (if (!u) = true then pure false else if flag = true then pure false
      else if (!decide A) = true then pure false else if (!decide B) = true then pure false
      else pure (!(!decide C)) : Outcome Bool) =
      .ok (decide (u = true ∧ flag = false ∧ D)) := by
  simp only [h]
  by_cases hA : A <;> by_cases hB : B <;> cases u <;> cases flag <;> simp [hA, hB]

theorem t3ChanOk_ok (hr : r.WF n) (hw : w.eff_wave.length = n) (hu : u.length = n)
    {j : Nat} (hj : j < n) : t3ChanOk f (some w) u r j =
      .ok (decide (u[j]? = some true ∧ (r.flag[j]? = some false ∧ T3InRange f w r j))) := by
  have e1 : j < u.length := hu ▸ hj
  have e2 : j < r.flag.length := hr.flag ▸ hj
  unfold t3ChanOk
  simp only [index_of_lt e1, index_of_lt e2, bind_ok, t3UvOutside_ok hw hj, t3AmpOutside_ok hr hj,
    t3PhiOutside_ok hr hj, mask_some e1, flag_some e2]
  apply t3_chain
  unfold T3InRange
  simp only [and_assoc]

theorem t3NewFlag_ok (hr : r.WF n) (hw : w.eff_wave.length = n) {j : Nat}
    (hj : j < n) : t3NewFlag f (some w) r j =
      .ok (decide (r.flag[j]? = some true ∨ ¬ T3InRange f w r j)) := by
  have e1 : j < r.t3amp.length := hr.t3amp ▸ hj
  have e2 : j < r.t3amperr.length := hr.t3amperr ▸ hj
  have e3 : j < r.t3phierr.length := hr.t3phierr ▸ hj
  have e4 : j < r.flag.length := hr.flag ▸ hj
  have e5 : j < w.eff_wave.length := hw ▸ hj
  unfold t3NewFlag
  simp only [index_of_lt e1, index_of_lt e2, index_of_lt e3, index_of_lt e4, bind_ok,
    uvradOutside_ok e5, snrAmp_out e1 e2, snrPhi_out e3, flag_some e4, T3InRange]
  cases r.flag[j] <;> simp
  by_cases hA : UvOk f w r.u1coord r.v1coord j <;>
  by_cases hB : UvOk f w r.u2coord r.v2coord j <;>
  by_cases hC : UvOk f w (R.add r.u1coord r.u2coord) (R.add r.v1coord r.v2coord) j <;>
  by_cases hD : SnrAmpOk f r.t3amp r.t3amperr j <;>
  by_cases hE : SnrPhiOk f r.t3phierr j <;>
    cases f.accept_t3amp <;> cases f.accept_t3phi <;> simp [hA, hB, hC, hD, hE]

theorem any_t3_chan_ok_ok (hr : r.WF n) (hw : w.eff_wave.length = n)
    (hu : u.length = n) (hk : usedIdx n u = keptChans f w) : any_t3_chan_ok f (some w) u n r =
      .ok (decide (∃ j ∈ keptChans f w, r.flag[j]? = some false ∧ T3InRange f w r j)) := by
  unfold any_t3_chan_ok
  dsimp only
  rw [anyLoop_ok (fun j hj => t3ChanOk_ok hr hw hu (List.mem_range.mp hj)),
    any_used (P := fun j => r.flag[j]? = some false ∧ T3InRange f w r j)]
  simp only [hk]

theorem t3Keep_ok (hr : r.WF n) (hw : w.eff_wave.length = n) (hu : u.length = n)
    (hk : usedIdx n u = keptChans f w) :
    t3Keep f (some w) u n r = .ok (decide (T3Kept f w r)) := by
  unfold t3Keep
  rw [flaggedSkip_ok (fun _ => any_t3_chan_ok_ok hr hw hu hk), targetSkip_eq, outsideD_eq,
    outsideD_eq, outsideD_eq, outsideD_eq]
  have : T3Kept f w r ↔ TargetOk f r.target_id ∧ InD f.mjd_range r.mjd ∧
      InD f.bas_range (hypot2 r.u1coord r.v1coord) ∧
      InD f.bas_range (hypot2 r.u2coord r.v2coord) ∧
      InD f.bas_range (hypot2 (R.add r.u1coord r.u2coord) (R.add r.v1coord r.v2coord)) ∧
      (f.accept_flagged = true ∨
        ∃ j ∈ keptChans f w, r.flag[j]? = some false ∧ T3InRange f w r j) :=
    ⟨fun h => ⟨h.1, h.2, h.3, h.4, h.5, h.6⟩,
      fun h => ⟨h.1, h.2.1, h.2.2.1, h.2.2.2.1, h.2.2.2.2.1, h.2.2.2.2.2⟩⟩
  simp only [this]
  by_cases h1 : TargetOk f r.target_id <;> simp [h1]
  by_cases h2 : InD f.mjd_range r.mjd <;> simp [h2]
  by_cases h3 : InD f.bas_range (hypot2 r.u1coord r.v1coord) <;> simp [h3]
  by_cases h4 : InD f.bas_range (hypot2 r.u2coord r.v2coord) <;> simp [h4]
  by_cases h5 : InD f.bas_range (hypot2 (R.add r.u1coord r.u2coord) (R.add r.v1coord r.v2coord)) <;>
    simp [h5]

theorem pickOrNaN_snoc {pre : List Nat} {l : List R.Dbl} {j : Nat} {b : Bool} (h : j < l.length) :
    pickOrNaN b (pre ++ [j]) l = pickOrNaN b pre l ++ [if b then l[j] else R.nan] := by
  cases b <;> simp [pickOrNaN, pick_snoc h]

theorem pickOrNaN_nil (b : Bool) (l : List R.Dbl) : pickOrNaN b [] l = [] := by
  cases b <;> rfl

theorem filter_oi_t3_record_ok (hr : r.WF n) (hw : w.eff_wave.length = n) (hu : u.length = n)
    (hk : usedIdx n u = keptChans f w) (hne : keptChans f w ≠ []) (hkept : T3Kept f w r) :
    filter_oi_t3_record f (some w) u n (usedIdx n u).length r = .ok (t3RecOut f w r) := by
  unfold filter_oi_t3_record
  rw [chkmallocN_ok (by rw [hk]; simpa using hne), bind_ok]
  have hloop := useLoop_ok (n := n) (u := u) (by omega)
    (body := filterT3Chan f (some w) (usedIdx n u).length r)
    (fun pre => ⟨pre.length, pickOrNaN f.accept_t3amp pre r.t3amp, pick pre r.t3amperr,
      pickOrNaN f.accept_t3phi pre r.t3phi, pick pre r.t3phierr,
      pre.map fun j => decide (r.flag[j]? = some true ∨ ¬ T3InRange f w r j)⟩)
    (fun pre j post h => by
      have hj : j < n := (mem_usedIdx.mp (h ▸ List.mem_append_right pre (List.mem_cons_self ..))).1
      have e1 : j < r.t3amp.length := hr.t3amp ▸ hj
      have e2 : j < r.t3amperr.length := hr.t3amperr ▸ hj
      have e3 : j < r.t3phi.length := hr.t3phi ▸ hj
      have e4 : j < r.t3phierr.length := hr.t3phierr ▸ hj
      unfold filterT3Chan
      simp only [checkWrite_ok h, bind_ok, index_of_lt e1, index_of_lt e2, index_of_lt e3,
        index_of_lt e4, t3NewFlag_ok hr hw hj, pickOrNaN_snoc e1, pick_snoc e2, pickOrNaN_snoc e3,
        pick_snoc e4, List.map_append, List.length_append]
      rfl)
  simp only [pick_nil, pickOrNaN_nil, List.length_nil, List.map_nil] at hloop
  rw [hloop, bind_ok, hk]
  dsimp only
  rw [guard_flags hkept.unflagged]
  rfl

end t3

/-! ### OI_FLUX -/

section flux
variable {f : FilterSpec R} {w : OiWavelength R} {r : OiFluxRecord R} {u : List Bool} {n : Nat}

theorem fluxKeep_ok : fluxKeep f r = .ok (decide (FluxKept f r)) := by
  unfold fluxKeep
  rw [targetSkip_eq, outsideD_eq]
  have : FluxKept f r ↔ TargetOk f r.target_id ∧ InD f.mjd_range r.mjd :=
    ⟨fun h => ⟨h.1, h.2⟩, fun h => ⟨h.1, h.2⟩⟩
  simp only [this]
  by_cases h1 : TargetOk f r.target_id <;> simp [h1]
  by_cases h2 : InD f.mjd_range r.mjd <;> simp [h2]

theorem filter_oi_flux_record_ok (hr : r.WF n) (hu : u.length = n)
    (hk : usedIdx n u = keptChans f w) (hne : keptChans f w ≠ []) :
    filter_oi_flux_record f u n (usedIdx n u).length r = .ok (fluxRecOut f w r) := by
  unfold filter_oi_flux_record
  rw [chkmallocN_ok (by rw [hk]; simpa using hne), bind_ok]
  have hloop := useLoop_ok (n := n) (u := u) (by omega)
    (body := filterFluxChan f (usedIdx n u).length r)
    (fun pre => ⟨pre.length, pre.filterMap (fluxValue f r), pick pre r.fluxerr, pick pre r.flag⟩)
    (fun pre j post h => by
      have hj : j < n := (mem_usedIdx.mp (h ▸ List.mem_append_right pre (List.mem_cons_self ..))).1
      have e1 : j < r.fluxdata.length := hr.fluxdata ▸ hj
      have e2 : j < r.fluxerr.length := hr.fluxerr ▸ hj
      have e3 : j < r.flag.length := hr.flag ▸ hj
      have e4 : fluxValue f r j = some (if (!decide (SnrAmpOk f r.fluxdata r.fluxerr j)) = true
          then R.nan else r.fluxdata[j]) := by
        unfold fluxValue
        rw [List.getElem?_eq_getElem e1]
        by_cases hs : SnrAmpOk f r.fluxdata r.fluxerr j <;> simp [hs]
      unfold filterFluxChan
      simp only [checkWrite_ok h, bind_ok, index_of_lt e1, index_of_lt e2, index_of_lt e3,
        pick_snoc e2, pick_snoc e3, List.length_append, snrAmp_out e1 e2,
        List.filterMap_append, List.filterMap_cons, e4, List.filterMap_nil]
      rfl)
  simp only [pick_nil, List.length_nil, List.filterMap_nil] at hloop
  rw [hloop, bind_ok, hk]
  rfl

end flux

end Verif
