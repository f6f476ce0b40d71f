import Verif.Proof.FilterAgain
import Mathlib.Data.List.Induction

/-! Iterating with a filter compared to filtering. -/

namespace Verif
open Outcome Spec Classical

variable {R : FP}

theorem flatMap_zipIdx {α β : Type} (l : List α) (n : Nat) (g : α → List β) :
    ((l.zipIdx n).flatMap fun p => g p.1) = l.flatMap g := by
  induction l generalizing n with
  | nil => rfl
  | cons x l ih => rw [List.zipIdx_cons, List.flatMap_cons, List.flatMap_cons, ih]

theorem select_dataOf {τ ρ β : Type} {record : τ → List ρ} {nwave : τ → Nat} {ts : List τ}
    {P : Datum τ ρ → Prop} {val : Datum τ ρ → β} {p : τ → ρ → Nat → Prop} {v : τ → ρ → Nat → β}
    (hP : ∀ d, P d ↔ p d.table d.record d.iwave) (hv : ∀ d, val d = v d.table d.record d.iwave) :
    (select P (dataOf record nwave ts)).map val = ts.flatMap fun t => (record t).flatMap fun r =>
      ((List.range (nwave t)).filter fun j => decide (p t r j)).map (v t r) := by
  unfold select dataOf
  rw [List.filter_flatMap, List.map_flatMap, ← flatMap_zipIdx ts 1]
  congr 1
  funext q
  rw [List.filter_flatMap, List.map_flatMap, ← flatMap_zipIdx (record q.1) 0]
  congr 1
  funext q'
  rw [List.filter_map, List.map_map]
  have h1 : ((fun d => decide (P d)) ∘ fun j => (⟨q.2, q.1, q'.2, q'.1, j⟩ : Datum τ ρ)) =
      fun j => decide (p q.1 q'.1 j) := by
    funext j
    simp only [Function.comp, decide_eq_decide]
    exact hP _
  rw [h1]
  apply List.map_congr_left
  intro j _
  exact hv _

theorem range_chans {β : Type} {ks : List Nat} {p p' : Nat → Prop} [DecidablePred p']
    [DecidablePred p] {v v' : Nat → β}
    (h : ∀ k j : Nat, ks[k]? = some j → (p' k ↔ p j) ∧ v' k = v j) :
    ((List.range ks.length).filter fun k => decide (p' k)).map v' =
      (ks.filter fun j => decide (p j)).map v := by
  induction ks using List.reverseRecOn with
  | nil => rfl
  | append_singleton ks j ih =>
    rw [List.length_append, List.length_singleton, List.range_succ, List.filter_append,
      List.filter_append, List.map_append, List.map_append, ih]
    · congr 1
      have := h ks.length j (by simp)
      by_cases hp : p j
      · simp [hp, this.1.mpr hp, this.2]
      · simp [hp, show ¬ p' ks.length from fun hc => hp (this.1.mp hc)]
    · intro k i hk
      have hlt : k < ks.length := (List.getElem?_eq_some_iff.mp hk).1
      exact h k i (by rw [List.getElem?_append_left hlt]; exact hk)

/-- One record: the unflagged data after filtering are the selected ones before. -/
theorem record_chans {β : Type} {n : Nat} {W P Q : Nat → Prop} {flag : List Bool} {v v' : Nat → β}
    {p' : Nat → Prop} {_ : DecidablePred p'} {_ : DecidablePred Q}
    {ks : List Nat} (hks : ks = (List.range n).filter fun j => decide (W j))
    (hp' : ∀ k, p' k ↔ (ks.map fun j => decide (flag[j]? = some true ∨ ¬ P j))[k]? = some false)
    (hflag : flag.length = n)
    (hQ : ∀ j, j < n → (Q j ↔ W j ∧ flag[j]? = some false ∧ P j))
    (hv : ∀ k j : Nat, ks[k]? = some j → v' k = v j) :
    ((List.range ks.length).filter fun k => decide (p' k)).map v' =
    ((List.range n).filter fun j => decide (Q j)).map v := by
  rw [range_chans (p := fun j => flag[j]? = some false ∧ P j) (v := v)]
  · rw [hks, List.filter_filter]
    congr 1
    apply List.filter_congr
    intro j hj
    have := hQ j (by simpa using hj)
    rw [Bool.eq_iff_iff]
    simp only [Bool.and_eq_true, decide_eq_true_eq, this]
    tauto
  · intro k j hk
    refine ⟨?_, hv k j hk⟩
    have hj : j ∈ ks := List.mem_of_getElem? hk
    have hjn : j < flag.length := by
      rw [hks] at hj
      rw [hflag]
      simpa using (List.mem_filter.mp hj).1
    rw [hp', List.getElem?_map, hk, Option.map_some, List.getElem?_eq_getElem hjn]
    cases flag[j] <;> simp

theorem flatMap_filter {α β : Type} {l : List α} {P : α → Prop} {g : α → List β}
    (h : ∀ x ∈ l, ¬ P x → g x = []) :
    (l.filter fun x => decide (P x)).flatMap g = l.flatMap g := by
  induction l with
  | nil => rfl
  | cons x l ih =>
    have ih := ih (fun y hy => h y (by simp [hy]))
    by_cases hp : P x
    · simp [hp, ih]
    · simp [hp, ih, h x (by simp) hp]

theorem flatMap_filterMap' {α β γ : Type} {l : List α} {c : α → Option γ} {g : γ → List β}
    {g' : α → List β} (h : ∀ x ∈ l, (match c x with | some y => g y | none => []) = g' x) :
    (l.filterMap c).flatMap g = l.flatMap g' := by
  induction l with
  | nil => rfl
  | cons x l ih =>
    have ih := ih (fun y hy => h y (by simp [hy]))
    have hx := h x (by simp)
    rw [List.filterMap_cons, List.flatMap_cons, ← ih, ← hx]
    cases c x with
    | none => rfl
    | some y => rw [List.flatMap_cons]

theorem flatMap_congr' {α β : Type} {l : List α} {g h : α → List β} (e : ∀ x ∈ l, g x = h x) :
    l.flatMap g = l.flatMap h := by
  induction l with
  | nil => rfl
  | cons x l ih =>
    rw [List.flatMap_cons, List.flatMap_cons, e x (by simp), ih (fun y hy => e y (by simp [hy]))]

theorem filter_none_map {β : Type} {n : Nat} {Q : Nat → Prop} {v : Nat → β}
    (h : ∀ j, j < n → ¬ Q j) : ((List.range n).filter fun j => decide (Q j)).map v = [] := by
  rw [List.filter_eq_nil_iff.mpr]
  · rfl
  · intro j hj
    simpa using h j (by simpa using hj)

theorem flatMap_nil' {α β : Type} {l : List α} {g : α → List β} (h : ∀ x ∈ l, g x = []) :
    l.flatMap g = [] := by
  induction l with
  | nil => rfl
  | cons x l ih =>
    rw [List.flatMap_cons, h x (by simp), ih (fun y hy => h y (by simp [hy])), List.nil_append]

section
variable {f : FilterSpec R} {oi out : OiFits R} (hf : Filterable f oi) (ho : Filtered f oi out)
  (hfl : f.accept_flagged = false)

omit hf ho in
theorem noFlagged_eq {f : FilterSpec R} (hfl : f.accept_flagged = false) : noFlagged f = f := by
  unfold noFlagged
  rw [← hfl]

include hf ho hfl

omit hfl in
/-- With more of the records, which filtering leaves as it is. -/
theorem vis_iter_unflagged_with {κ : Type} {q : OiVisRecord R → κ}
    (hq : ∀ w r, q (visRecOut f w r) = q r) (hres : ∀ t ∈ oi.visList, oi_fits_lookup_wavelength oi t.insname = instTable oi t.insname) :
    (select VisUnflagged (visData out)).map (fun d => (visValue out d, q d.record)) =
      (select (VisSelected (noFlagged f) oi) (visData oi)).map fun d => (visValue oi d, q d.record) := by
  unfold visData
  rw [select_dataOf
      (p := fun _ r j => r.flag[j]? = some false)
      (P := VisUnflagged) (val := fun d => (visValue out d, q d.record))
      (v := fun t r j => (visValue out ⟨0, t, 0, r, j⟩, q r))
      (fun d => Iff.rfl) (fun d => rfl),
    select_dataOf
      (p := fun t r j => VisSelected (noFlagged f) oi ⟨0, t, 0, r, j⟩)
      (P := VisSelected (noFlagged f) oi) (val := fun d => (visValue oi d, q d.record))
      (v := fun t r j => (visValue oi ⟨0, t, 0, r, j⟩, q r))
      (fun d => ⟨fun h => ⟨h.1, h.2, h.3, h.4, h.5, h.6, h.7, h.8, h.9⟩,
        fun h => ⟨h.1, h.2, h.3, h.4, h.5, h.6, h.7, h.8, h.9⟩⟩) (fun d => rfl)]
  rw [ho.vis]
  cases ha : f.accept_vis with
  | false =>
    unfold visTables
    rw [ha]
    symm
    apply flatMap_nil'
    intro t _
    apply flatMap_nil'
    intro r _
    apply filter_none_map
    intro j _ hc
    have : f.accept_vis = true := hc.enabled
    rw [ha] at this; cases this
  | true =>
    unfold visTables
    rw [if_pos ha]
    apply flatMap_filterMap'
    intro t htm
    have hlook : oi_fits_lookup_wavelength oi t.insname = instTable oi t.insname := hres t htm
    cases hi : instTable oi t.insname with
    | none =>
      dsimp only
      symm
      apply flatMap_nil'
      intro r _
      apply filter_none_map
      intro j _ hc
      obtain ⟨x, hx, _⟩ := hc.wave
      unfold effWave at hx
      rw [hlook, hi] at hx
      cases hx
    | some w =>
      dsimp only
      rw [hi] at hlook
      have hnw := (hf.vis t htm w hi).2
      have hww := instTable_wf hf.wf hi
      have heff : ∀ j, effWave oi t.insname j = w.eff_wave[j]? := by
        intro j; unfold effWave; rw [hlook]
      have hsel : ∀ r ∈ t.record, ∀ j, j < t.nwave →
          (VisSelected (noFlagged f) oi ⟨0, t, 0, r, j⟩ ↔ NamesOk f t.arrname t.insname t.corrname ∧
            VisKept f w r ∧ (WaveOk f w j ∧ r.flag[j]? = some false ∧ VisInRange f w r j)) := by
        intro r hr j hj
        constructor
        · intro h
          obtain ⟨x, hx, hx1, hx2⟩ := h.wave
          rw [heff] at hx
          have hflag : r.flag[j]? = some false := by
            have := h.flag
            unfold FlagOk at this
            simpa [noFlagged] using this
          have hin : VisInRange f w r j := ⟨⟨x, hx, hx2⟩, h.snrAmp, h.snrPhi⟩
          have hwo : WaveOk f w j := ⟨x, hx, hx1⟩
          exact ⟨h.names, ⟨h.target, h.mjd, h.bas, Or.inr ⟨j, mem_keptChans.mpr ⟨hnw ▸ hj, hwo⟩,
            hflag, hin⟩⟩, hwo, hflag, hin⟩
        · rintro ⟨hn, hk, ⟨x, hx, hx1⟩, hfg, ⟨y, hy, hy1⟩, hs1, hs2⟩
          rw [hx] at hy; cases hy
          exact ⟨ha, hn, hk.target, hk.mjd, hk.bas, ⟨x, (heff j).trans hx, hx1, hy1⟩, hs1, hs2,
            Or.inr hfg⟩
      by_cases hr : VisRemains f w t
      · rw [if_pos hr]
        obtain ⟨_, _, hlook2⟩ := vis_inst hf ho htm hi hr ha
        dsimp only
        have hrec : (visOut f w t).record =
          (t.record.filter fun r => decide (VisKept f w r)).map (visRecOut f w) := rfl
        rw [hrec, List.flatMap_map]
        refine Eq.trans ?_ (flatMap_filter (P := fun r => VisKept f w r) ?_)
        · apply flatMap_congr'
          intro r hrm
          obtain ⟨hrm, hk⟩ := List.mem_filter.mp hrm
          have hk : VisKept f w r := by simpa using hk
          have hrwf := (hf.wf.vis t htm).recs r hrm
          have hat := visAt (f := f) (w := w) (hnw ▸ hrwf)
          refine record_chans (n := t.nwave) (W := WaveOk f w) (P := VisInRange f w r)
            (flag := r.flag) (ks := keptChans f w) ?_ (fun _ => Iff.rfl) hrwf.flag ?_ ?_
          · unfold keptChans; rw [hnw]
          · intro j hj
            rw [hsel r hrm j hj]
            exact ⟨fun h => h.2.2, fun h => ⟨hr.names, hk, h⟩⟩
          · intro k j hkj
            have e1 : effWave out t.insname k = effWave oi t.insname j := by
              rw [heff]
              unfold effWave
              rw [hlook2]
              exact waveOut_at hww hkj
            refine Prod.ext ?_ (hq w r)
            simp only [visValue]
            rw [show (visOut f w t).insname = t.insname from rfl, e1, atChans_eq hat.visamp hkj,
              atChans_eq hat.visamperr hkj, atChans_eq hat.visphi hkj, atChans_eq hat.visphierr hkj]
            rfl
        · intro r hrm hk
          apply filter_none_map
          intro j hj hc
          exact hk ((hsel r hrm j hj).mp hc).2.1
      · rw [if_neg hr]
        dsimp only
        symm
        apply flatMap_nil'
        intro r hrm
        apply filter_none_map
        intro j hj hc
        obtain ⟨h1, h2, h3, h4⟩ := (hsel r hrm j hj).mp hc
        exact hr ⟨h1, ⟨j, hnw ▸ hj, h3⟩, r, hrm, h2⟩

/-- With more of the records, which filtering leaves as it is. -/
theorem vis_iter_filter_with {κ : Type} {q : OiVisRecord R → κ}
    (hq : ∀ w r, q (visRecOut f w r) = q r) (hres : ∀ t ∈ oi.visList, oi_fits_lookup_wavelength oi t.insname = instTable oi t.insname) :
    (select VisUnflagged (visData out)).map (fun d => (visValue out d, q d.record)) =
      (select (VisSelected f oi) (visData oi)).map fun d => (visValue oi d, q d.record) := by
  have e := vis_iter_unflagged_with hf ho hq hres
  rwa [noFlagged_eq hfl] at e

omit hfl in
theorem vis_iter_unflagged (hres : ∀ t ∈ oi.visList, oi_fits_lookup_wavelength oi t.insname = instTable oi t.insname) :
    (select VisUnflagged (visData out)).map (visValue out) =
      (select (VisSelected (noFlagged f) oi) (visData oi)).map (visValue oi) := by
  have h := congrArg (List.map Prod.fst) (vis_iter_unflagged_with hf ho (q := fun _ => ()) (fun _ _ => rfl) hres)
  rw [List.map_map, List.map_map] at h
  exact h

theorem vis_iter_filter (hres : ∀ t ∈ oi.visList, oi_fits_lookup_wavelength oi t.insname = instTable oi t.insname) :
    (select VisUnflagged (visData out)).map (visValue out) =
      (select (VisSelected f oi) (visData oi)).map (visValue oi) := by
  have h := congrArg (List.map Prod.fst) (vis_iter_filter_with hf ho hfl (q := fun _ => ()) (fun _ _ => rfl) hres)
  rw [List.map_map, List.map_map] at h
  exact h

omit hfl in
/-- With more of the records, which filtering leaves as it is. -/
theorem vis2_iter_unflagged_with {κ : Type} {q : OiVis2Record R → κ}
    (hq : ∀ w r, q (vis2RecOut f w r) = q r) (hres : ∀ t ∈ oi.vis2List, oi_fits_lookup_wavelength oi t.insname = instTable oi t.insname) :
    (select Vis2Unflagged (vis2Data out)).map (fun d => (vis2Value out d, q d.record)) =
      (select (Vis2Selected (noFlagged f) oi) (vis2Data oi)).map fun d => (vis2Value oi d, q d.record) := by
  unfold vis2Data
  rw [select_dataOf
      (p := fun _ r j => r.flag[j]? = some false)
      (P := Vis2Unflagged) (val := fun d => (vis2Value out d, q d.record))
      (v := fun t r j => (vis2Value out ⟨0, t, 0, r, j⟩, q r))
      (fun d => Iff.rfl) (fun d => rfl),
    select_dataOf
      (p := fun t r j => Vis2Selected (noFlagged f) oi ⟨0, t, 0, r, j⟩)
      (P := Vis2Selected (noFlagged f) oi) (val := fun d => (vis2Value oi d, q d.record))
      (v := fun t r j => (vis2Value oi ⟨0, t, 0, r, j⟩, q r))
      (fun d => ⟨fun h => ⟨h.1, h.2, h.3, h.4, h.5, h.6, h.7, h.8⟩,
        fun h => ⟨h.1, h.2, h.3, h.4, h.5, h.6, h.7, h.8⟩⟩) (fun d => rfl)]
  rw [ho.vis2]
  cases ha : f.accept_vis2 with
  | false =>
    unfold vis2Tables
    rw [ha]
    symm
    apply flatMap_nil'
    intro t _
    apply flatMap_nil'
    intro r _
    apply filter_none_map
    intro j _ hc
    have : f.accept_vis2 = true := hc.enabled
    rw [ha] at this; cases this
  | true =>
    unfold vis2Tables
    rw [if_pos ha]
    apply flatMap_filterMap'
    intro t htm
    have hlook : oi_fits_lookup_wavelength oi t.insname = instTable oi t.insname := hres t htm
    cases hi : instTable oi t.insname with
    | none =>
      dsimp only
      symm
      apply flatMap_nil'
      intro r _
      apply filter_none_map
      intro j _ hc
      obtain ⟨x, hx, _⟩ := hc.wave
      unfold effWave at hx
      rw [hlook, hi] at hx
      cases hx
    | some w =>
      dsimp only
      rw [hi] at hlook
      have hnw := (hf.vis2 t htm w hi).2
      have hww := instTable_wf hf.wf hi
      have heff : ∀ j, effWave oi t.insname j = w.eff_wave[j]? := by
        intro j; unfold effWave; rw [hlook]
      have hsel : ∀ r ∈ t.record, ∀ j, j < t.nwave →
          (Vis2Selected (noFlagged f) oi ⟨0, t, 0, r, j⟩ ↔ NamesOk f t.arrname t.insname t.corrname ∧
            Vis2Kept f w r ∧ (WaveOk f w j ∧ r.flag[j]? = some false ∧ Vis2InRange f w r j)) := by
        intro r hr j hj
        constructor
        · intro h
          obtain ⟨x, hx, hx1, hx2⟩ := h.wave
          rw [heff] at hx
          have hflag : r.flag[j]? = some false := by
            have := h.flag
            unfold FlagOk at this
            simpa [noFlagged] using this
          have hin : Vis2InRange f w r j := ⟨⟨x, hx, hx2⟩, h.snr⟩
          have hwo : WaveOk f w j := ⟨x, hx, hx1⟩
          exact ⟨h.names, ⟨h.target, h.mjd, h.bas, Or.inr ⟨j, mem_keptChans.mpr ⟨hnw ▸ hj, hwo⟩,
            hflag, hin⟩⟩, hwo, hflag, hin⟩
        · rintro ⟨hn, hk, ⟨x, hx, hx1⟩, hfg, ⟨y, hy, hy1⟩, hs1⟩
          rw [hx] at hy; cases hy
          exact ⟨ha, hn, hk.target, hk.mjd, hk.bas, ⟨x, (heff j).trans hx, hx1, hy1⟩, hs1,
            Or.inr hfg⟩
      by_cases hr : Vis2Remains f w t
      · rw [if_pos hr]
        obtain ⟨_, _, hlook2⟩ := vis2_inst hf ho htm hi hr ha
        dsimp only
        have hrec : (vis2Out f w t).record =
          (t.record.filter fun r => decide (Vis2Kept f w r)).map (vis2RecOut f w) := rfl
        rw [hrec, List.flatMap_map]
        refine Eq.trans ?_ (flatMap_filter (P := fun r => Vis2Kept f w r) ?_)
        · apply flatMap_congr'
          intro r hrm
          obtain ⟨hrm, hk⟩ := List.mem_filter.mp hrm
          have hk : Vis2Kept f w r := by simpa using hk
          have hrwf := (hf.wf.vis2 t htm).recs r hrm
          have hat := vis2At (f := f) (w := w) (hnw ▸ hrwf)
          refine record_chans (n := t.nwave) (W := WaveOk f w) (P := Vis2InRange f w r)
            (flag := r.flag) (ks := keptChans f w) ?_ (fun _ => Iff.rfl) hrwf.flag ?_ ?_
          · unfold keptChans; rw [hnw]
          · intro j hj
            rw [hsel r hrm j hj]
            exact ⟨fun h => h.2.2, fun h => ⟨hr.names, hk, h⟩⟩
          · intro k j hkj
            have e1 : effWave out t.insname k = effWave oi t.insname j := by
              rw [heff]
              unfold effWave
              rw [hlook2]
              exact waveOut_at hww hkj
            refine Prod.ext ?_ (hq w r)
            simp only [vis2Value]
            rw [show (vis2Out f w t).insname = t.insname from rfl, e1,
              atChans_eq hat.vis2data hkj, atChans_eq hat.vis2err hkj]
            rfl
        · intro r hrm hk
          apply filter_none_map
          intro j hj hc
          exact hk ((hsel r hrm j hj).mp hc).2.1
      · rw [if_neg hr]
        dsimp only
        symm
        apply flatMap_nil'
        intro r hrm
        apply filter_none_map
        intro j hj hc
        obtain ⟨h1, h2, h3, h4⟩ := (hsel r hrm j hj).mp hc
        exact hr ⟨h1, ⟨j, hnw ▸ hj, h3⟩, r, hrm, h2⟩

/-- With more of the records, which filtering leaves as it is. -/
theorem vis2_iter_filter_with {κ : Type} {q : OiVis2Record R → κ}
    (hq : ∀ w r, q (vis2RecOut f w r) = q r) (hres : ∀ t ∈ oi.vis2List, oi_fits_lookup_wavelength oi t.insname = instTable oi t.insname) :
    (select Vis2Unflagged (vis2Data out)).map (fun d => (vis2Value out d, q d.record)) =
      (select (Vis2Selected f oi) (vis2Data oi)).map fun d => (vis2Value oi d, q d.record) := by
  have e := vis2_iter_unflagged_with hf ho hq hres
  rwa [noFlagged_eq hfl] at e

omit hfl in
theorem vis2_iter_unflagged (hres : ∀ t ∈ oi.vis2List, oi_fits_lookup_wavelength oi t.insname = instTable oi t.insname) :
    (select Vis2Unflagged (vis2Data out)).map (vis2Value out) =
      (select (Vis2Selected (noFlagged f) oi) (vis2Data oi)).map (vis2Value oi) := by
  have h := congrArg (List.map Prod.fst) (vis2_iter_unflagged_with hf ho (q := fun _ => ()) (fun _ _ => rfl) hres)
  rw [List.map_map, List.map_map] at h
  exact h

theorem vis2_iter_filter (hres : ∀ t ∈ oi.vis2List, oi_fits_lookup_wavelength oi t.insname = instTable oi t.insname) :
    (select Vis2Unflagged (vis2Data out)).map (vis2Value out) =
      (select (Vis2Selected f oi) (vis2Data oi)).map (vis2Value oi) := by
  have h := congrArg (List.map Prod.fst) (vis2_iter_filter_with hf ho hfl (q := fun _ => ()) (fun _ _ => rfl) hres)
  rw [List.map_map, List.map_map] at h
  exact h

omit hf ho hfl in
theorem orNaN_value {b : Bool} {ks : List Nat} {s d : List R.Dbl} (h : AtChansOrNaN b ks s d)
    {k j : Nat} (hk : ks[k]? = some j) :
    (if b then d[k]? else none) = (if b then s[j]? else none) := by
  cases b with
  | false => rfl
  | true => exact atChans_eq h hk

omit hfl in
/-- With more of the records, which filtering leaves as it is. -/
theorem t3_iter_unflagged_with {κ : Type} {q : OiT3Record R → κ}
    (hq : ∀ w r, q (t3RecOut f w r) = q r) (hres : ∀ t ∈ oi.t3List, oi_fits_lookup_wavelength oi t.insname = instTable oi t.insname) :
    (select T3Unflagged (t3Data out)).map (fun d => (t3Value f out d, q d.record)) =
      (select (T3Selected (noFlagged f) oi) (t3Data oi)).map fun d => (t3Value f oi d, q d.record) := by
  unfold t3Data
  rw [select_dataOf
      (p := fun _ r j => r.flag[j]? = some false)
      (P := T3Unflagged) (val := fun d => (t3Value f out d, q d.record))
      (v := fun t r j => (t3Value f out ⟨0, t, 0, r, j⟩, q r))
      (fun d => Iff.rfl) (fun d => rfl),
    select_dataOf
      (p := fun t r j => T3Selected (noFlagged f) oi ⟨0, t, 0, r, j⟩)
      (P := T3Selected (noFlagged f) oi) (val := fun d => (t3Value f oi d, q d.record))
      (v := fun t r j => (t3Value f oi ⟨0, t, 0, r, j⟩, q r))
      (fun d => ⟨fun h => ⟨h.1, h.2, h.3, h.4, h.5, h.6, h.7, h.8, h.9, h.10, h.11⟩,
        fun h => ⟨h.1, h.2, h.3, h.4, h.5, h.6, h.7, h.8, h.9, h.10, h.11⟩⟩) (fun d => rfl)]
  rw [ho.t3]
  by_cases ha : f.accept_t3amp = true ∨ f.accept_t3phi = true
  swap
  · unfold t3Tables
    have hb : (f.accept_t3amp || f.accept_t3phi) = false := by
      simpa [Bool.or_eq_true] using ha
    rw [hb]
    symm
    apply flatMap_nil'
    intro t _
    apply flatMap_nil'
    intro r _
    apply filter_none_map
    intro j _ hc
    exact ha hc.enabled
  · unfold t3Tables
    rw [if_pos (by rw [Bool.or_eq_true]; exact ha)]
    apply flatMap_filterMap'
    intro t htm
    have hlook : oi_fits_lookup_wavelength oi t.insname = instTable oi t.insname := hres t htm
    cases hi : instTable oi t.insname with
    | none =>
      dsimp only
      symm
      apply flatMap_nil'
      intro r _
      apply filter_none_map
      intro j _ hc
      obtain ⟨x, hx, _⟩ := hc.wave
      unfold effWave at hx
      rw [hlook, hi] at hx
      cases hx
    | some w =>
      dsimp only
      rw [hi] at hlook
      have hnw := (hf.t3 t htm w hi).2
      have hww := instTable_wf hf.wf hi
      have heff : ∀ j, effWave oi t.insname j = w.eff_wave[j]? := by
        intro j; unfold effWave; rw [hlook]
      have hsel : ∀ r ∈ t.record, ∀ j, j < t.nwave →
          (T3Selected (noFlagged f) oi ⟨0, t, 0, r, j⟩ ↔ NamesOk f t.arrname t.insname t.corrname ∧
            T3Kept f w r ∧ (WaveOk f w j ∧ r.flag[j]? = some false ∧ T3InRange f w r j)) := by
        intro r hr j hj
        constructor
        · intro h
          obtain ⟨x, hx, hx1, hx2, hx3, hx4⟩ := h.wave
          rw [heff] at hx
          have hflag : r.flag[j]? = some false := by
            have := h.flag
            unfold FlagOk at this
            simpa [noFlagged] using this
          have hin : T3InRange f w r j :=
            ⟨⟨x, hx, hx2⟩, ⟨x, hx, hx3⟩, ⟨x, hx, hx4⟩, h.snrAmp, h.snrPhi⟩
          have hwo : WaveOk f w j := ⟨x, hx, hx1⟩
          exact ⟨h.names, ⟨h.target, h.mjd, h.basAB, h.basBC, h.basAC,
            Or.inr ⟨j, mem_keptChans.mpr ⟨hnw ▸ hj, hwo⟩, hflag, hin⟩⟩, hwo, hflag, hin⟩
        · rintro ⟨hn, hk, ⟨x, hx, hx1⟩, hfg, ⟨y, hy, hy1⟩, ⟨y2, hy2, hy21⟩, ⟨y3, hy3, hy31⟩,
            hs1, hs2⟩
          rw [hx] at hy hy2 hy3; cases hy; cases hy2; cases hy3
          exact ⟨ha, hn, hk.target, hk.mjd, hk.basAB, hk.basBC, hk.basAC,
            ⟨x, (heff j).trans hx, hx1, hy1, hy21, hy31⟩, hs1, hs2, Or.inr hfg⟩
      by_cases hr : T3Remains f w t
      · rw [if_pos hr]
        obtain ⟨_, _, hlook2⟩ := t3_inst hf ho htm hi hr ha
        dsimp only
        have hrec : (t3Out f w t).record =
          (t.record.filter fun r => decide (T3Kept f w r)).map (t3RecOut f w) := rfl
        rw [hrec, List.flatMap_map]
        refine Eq.trans ?_ (flatMap_filter (P := fun r => T3Kept f w r) ?_)
        · apply flatMap_congr'
          intro r hrm
          obtain ⟨hrm, hk⟩ := List.mem_filter.mp hrm
          have hk : T3Kept f w r := by simpa using hk
          have hrwf := (hf.wf.t3 t htm).recs r hrm
          have hat := t3At (f := f) (w := w) (hnw ▸ hrwf)
          refine record_chans (n := t.nwave) (W := WaveOk f w) (P := T3InRange f w r)
            (flag := r.flag) (ks := keptChans f w) ?_ (fun _ => Iff.rfl) hrwf.flag ?_ ?_
          · unfold keptChans; rw [hnw]
          · intro j hj
            rw [hsel r hrm j hj]
            exact ⟨fun h => h.2.2, fun h => ⟨hr.names, hk, h⟩⟩
          · intro k j hkj
            have e1 : effWave out t.insname k = effWave oi t.insname j := by
              rw [heff]
              unfold effWave
              rw [hlook2]
              exact waveOut_at hww hkj
            refine Prod.ext ?_ (hq w r)
            simp only [t3Value]
            rw [show (t3Out f w t).insname = t.insname from rfl, e1, orNaN_value hat.t3amp hkj,
              atChans_eq hat.t3amperr hkj, orNaN_value hat.t3phi hkj, atChans_eq hat.t3phierr hkj]
            rfl
        · intro r hrm hk
          apply filter_none_map
          intro j hj hc
          exact hk ((hsel r hrm j hj).mp hc).2.1
      · rw [if_neg hr]
        dsimp only
        symm
        apply flatMap_nil'
        intro r hrm
        apply filter_none_map
        intro j hj hc
        obtain ⟨h1, h2, h3, h4⟩ := (hsel r hrm j hj).mp hc
        exact hr ⟨h1, ⟨j, hnw ▸ hj, h3⟩, r, hrm, h2⟩

/-- With more of the records, which filtering leaves as it is. -/
theorem t3_iter_filter_with {κ : Type} {q : OiT3Record R → κ}
    (hq : ∀ w r, q (t3RecOut f w r) = q r) (hres : ∀ t ∈ oi.t3List, oi_fits_lookup_wavelength oi t.insname = instTable oi t.insname) :
    (select T3Unflagged (t3Data out)).map (fun d => (t3Value f out d, q d.record)) =
      (select (T3Selected f oi) (t3Data oi)).map fun d => (t3Value f oi d, q d.record) := by
  have e := t3_iter_unflagged_with hf ho hq hres
  rwa [noFlagged_eq hfl] at e

omit hfl in
theorem t3_iter_unflagged (hres : ∀ t ∈ oi.t3List, oi_fits_lookup_wavelength oi t.insname = instTable oi t.insname) :
    (select T3Unflagged (t3Data out)).map (t3Value f out) =
      (select (T3Selected (noFlagged f) oi) (t3Data oi)).map (t3Value f oi) := by
  have h := congrArg (List.map Prod.fst) (t3_iter_unflagged_with hf ho (q := fun _ => ()) (fun _ _ => rfl) hres)
  rw [List.map_map, List.map_map] at h
  exact h

theorem t3_iter_filter (hres : ∀ t ∈ oi.t3List, oi_fits_lookup_wavelength oi t.insname = instTable oi t.insname) :
    (select T3Unflagged (t3Data out)).map (t3Value f out) =
      (select (T3Selected f oi) (t3Data oi)).map (t3Value f oi) := by
  have h := congrArg (List.map Prod.fst) (t3_iter_filter_with hf ho hfl (q := fun _ => ()) (fun _ _ => rfl) hres)
  rw [List.map_map, List.map_map] at h
  exact h

end

end Verif
