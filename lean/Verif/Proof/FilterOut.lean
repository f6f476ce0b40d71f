import Verif.Proof.FilterData

/-! Consequences of the specification of filtering. -/

namespace Verif
open Outcome Spec Classical

variable {R : FP}

/-! ### Entries at channels -/

theorem filterMap_getElem? {α : Type} {ks : List Nat} {g : Nat → Option α}
    (h : ∀ i ∈ ks, ∃ x, g i = some x) {k j : Nat} (hk : ks[k]? = some j) :
    (ks.filterMap g)[k]? = g j := by
  induction ks generalizing k with
  | nil => simp at hk
  | cons i ks ih =>
    obtain ⟨x, hx⟩ := h i (by simp)
    rw [List.filterMap_cons, hx]
    cases k with
    | zero => simp at hk; subst hk; simp [hx]
    | succ k =>
      simp only [List.getElem?_cons_succ] at hk ⊢
      exact ih (fun i hi => h i (by simp [hi])) hk

theorem atChans_pick {α : Type} {ks : List Nat} {l : List α} (h : ∀ i ∈ ks, i < l.length) :
    AtChans ks l (pick ks l) := by
  refine ⟨pick_length h, ?_⟩
  intro k j hk
  have hj := h j (List.mem_of_getElem? hk)
  refine ⟨l[j], List.getElem?_eq_getElem hj, ?_⟩
  unfold pick
  rw [filterMap_getElem? (fun i hi => ⟨l[i]'(h i hi), List.getElem?_eq_getElem (h i hi)⟩) hk]
  exact List.getElem?_eq_getElem hj

theorem flatMap_getElem? {α : Type} {ks : List Nat} {g : Nat → List α} {n : Nat}
    (h : ∀ j ∈ ks, (g j).length = n) {k l j : Nat} (hl : ks[l]? = some j) (hk : k < n) :
    (ks.flatMap g)[k + l * n]? = (g j)[k]? := by
  induction ks generalizing l with
  | nil => simp at hl
  | cons i ks ih =>
    rw [List.flatMap_cons]
    cases l with
    | zero =>
      simp at hl; subst hl
      rw [List.getElem?_append_left (by rw [h i (by simp)]; omega)]
      simp
    | succ l =>
      simp only [List.getElem?_cons_succ] at hl
      have hi := h i (by simp)
      have he : k + (l + 1) * n = (k + l * n) + n := by rw [Nat.add_mul]; omega
      rw [List.getElem?_append_right (by rw [hi]; omega), hi, he, Nat.add_sub_cancel]
      exact ih (fun j hj => h j (by simp [hj])) hl

theorem flatMap_length_const {α : Type} {ks : List Nat} {g : Nat → List α} {n : Nat}
    (h : ∀ j ∈ ks, (g j).length = n) : (ks.flatMap g).length = ks.length * n := by
  induction ks with
  | nil => simp
  | cons i ks ih =>
    rw [List.flatMap_cons, List.length_append, ih (fun j hj => h j (by simp [hj])), h i (by simp),
      List.length_cons, Nat.add_mul]
    omega

theorem submatrix_row {α : Type} {n : Nat} {ks : List Nat} {l : List α} (hl : l.length = n * n)
    (hks : ∀ i ∈ ks, i < n) {j : Nat} (hj : j < n) :
    (ks.filterMap fun i => l[i + j * n]?).length = ks.length :=
  filterMap_length (fun i hi => hl ▸ matrix_index (hks i hi) hj)

theorem atChansSquare {α : Type} {n : Nat} {ks : List Nat} {m : Option (List α)}
    (h : ∀ l, m = some l → l.length = n * n) (hks : ∀ i ∈ ks, i < n) :
    AtChansSquare n ks m (m.map (submatrix n ks)) := by
  cases m with
  | none => trivial
  | some s =>
    have hl := h s rfl
    unfold AtChansSquare
    dsimp only [Option.map_some]
    have hrow : ∀ j ∈ ks, (ks.filterMap fun i => s[i + j * n]?).length = ks.length :=
      fun j hj => submatrix_row hl hks (hks j hj)
    refine ⟨flatMap_length_const hrow, ?_⟩
    intro k l i j hk hl'
    have hi := hks i (List.mem_of_getElem? hk)
    have hj := hks j (List.mem_of_getElem? hl')
    have hij : i + j * n < s.length := hl ▸ matrix_index hi hj
    refine ⟨s[i + j * n], List.getElem?_eq_getElem hij, ?_⟩
    unfold submatrix
    have hk' : k < ks.length := (List.getElem?_eq_some_iff.mp hk).1
    rw [flatMap_getElem? hrow hl' hk']
    rw [filterMap_getElem? (g := fun i => s[i + j * n]?) ?_ hk]
    · exact List.getElem?_eq_getElem hij
    · intro i' hi'
      exact ⟨s[i' + j * n]'(hl ▸ matrix_index (hks i' hi') hj), List.getElem?_eq_getElem _⟩

theorem atChansOpt {α : Type} {ks : List Nat} {m : Option (List α)} {n : Nat}
    (h : ∀ l, m = some l → l.length = n) (hks : ∀ i ∈ ks, i < n) :
    AtChansOpt ks m (m.map (pick ks)) := by
  cases m with
  | none => trivial
  | some s =>
    exact atChans_pick (fun i hi => by rw [h s rfl]; exact hks i hi)

theorem optArray_length {α : Type} {used : Bool} {n : Nat} {m : Option (List α)}
    (h : OptArray used n m) : ∀ l, m = some l → l.length = n := by
  rintro l rfl
  cases used with
  | true => exact h
  | false => exact h.elim

theorem keptChans_lt {f : FilterSpec R} {w : OiWavelength R} : ∀ i ∈ keptChans f w, i < w.nwave :=
  fun _ hi => (mem_keptChans.mp hi).1

theorem visAt {f : FilterSpec R} {w : OiWavelength R} {r : OiVisRecord R} {b c : Bool}
    (hr : r.WF w.nwave b c) : VisAt w.nwave (keptChans f w) r (visRecOut f w r) where
  visamp := atChans_pick (hr.visamp.symm ▸ keptChans_lt)
  visamperr := atChans_pick (hr.visamperr.symm ▸ keptChans_lt)
  visphi := atChans_pick (hr.visphi.symm ▸ keptChans_lt)
  visphierr := atChans_pick (hr.visphierr.symm ▸ keptChans_lt)
  visrefmap := atChansSquare (optArray_length hr.visrefmap) keptChans_lt
  rvis := atChansOpt (optArray_length hr.rvis) keptChans_lt
  rviserr := atChansOpt (optArray_length hr.rviserr) keptChans_lt
  ivis := atChansOpt (optArray_length hr.ivis) keptChans_lt
  iviserr := atChansOpt (optArray_length hr.iviserr) keptChans_lt
  flag := by simp [visRecOut]

theorem vis2At {f : FilterSpec R} {w : OiWavelength R} {r : OiVis2Record R}
    (hr : r.WF w.nwave) : Vis2At (keptChans f w) r (vis2RecOut f w r) where
  vis2data := atChans_pick (hr.vis2data.symm ▸ keptChans_lt)
  vis2err := atChans_pick (hr.vis2err.symm ▸ keptChans_lt)
  flag := by simp [vis2RecOut]

theorem atChansOrNaN {b : Bool} {ks : List Nat} {l : List R.Dbl} (h : ∀ i ∈ ks, i < l.length) :
    AtChansOrNaN b ks l (pickOrNaN b ks l) := by
  cases b with
  | true => exact atChans_pick h
  | false => simp [AtChansOrNaN, pickOrNaN, List.map_const']

theorem t3At {f : FilterSpec R} {w : OiWavelength R} {r : OiT3Record R}
    (hr : r.WF w.nwave) : T3At f (keptChans f w) r (t3RecOut f w r) where
  t3amp := atChansOrNaN (hr.t3amp.symm ▸ keptChans_lt)
  t3amperr := atChans_pick (hr.t3amperr.symm ▸ keptChans_lt)
  t3phi := atChansOrNaN (hr.t3phi.symm ▸ keptChans_lt)
  t3phierr := atChans_pick (hr.t3phierr.symm ▸ keptChans_lt)
  flag := by simp [t3RecOut]

theorem fluxValue_some {f : FilterSpec R} {n : Nat} {r : OiFluxRecord R} (hr : r.WF n) {j : Nat}
    (hj : j < n) : ∃ x, fluxValue f r j = some x := by
  unfold fluxValue
  have : j < r.fluxdata.length := hr.fluxdata ▸ hj
  by_cases hs : SnrAmpOk f r.fluxdata r.fluxerr j
  · exact ⟨r.fluxdata[j], by rw [if_pos hs]; exact List.getElem?_eq_getElem this⟩
  · exact ⟨R.nan, by rw [if_neg hs]⟩

theorem filterMap_length_some {α : Type} {ks : List Nat} {g : Nat → Option α}
    (h : ∀ i ∈ ks, ∃ x, g i = some x) : (ks.filterMap g).length = ks.length := by
  induction ks with
  | nil => rfl
  | cons i ks ih =>
    obtain ⟨x, hx⟩ := h i (by simp)
    rw [List.filterMap_cons, hx]
    simp [ih (fun i hi => h i (by simp [hi]))]

theorem fluxAt {f : FilterSpec R} {w : OiWavelength R} {r : OiFluxRecord R}
    (hr : r.WF w.nwave) : FluxAt f (keptChans f w) r (fluxRecOut f w r) where
  length := filterMap_length_some (fun i hi => fluxValue_some hr (keptChans_lt i hi))
  fluxdata := by
    intro k j hk hs
    rw [fluxRecOut, filterMap_getElem? (fun i hi => fluxValue_some hr (keptChans_lt i hi)) hk]
    simp [fluxValue, hs]
  rejected := by
    intro k j hk hs
    rw [fluxRecOut, filterMap_getElem? (fun i hi => fluxValue_some hr (keptChans_lt i hi)) hk]
    simp [fluxValue, hs]
  fluxerr := atChans_pick (hr.fluxerr.symm ▸ keptChans_lt)
  flag := atChans_pick (hr.flag.symm ▸ keptChans_lt)

/-! ### Where output tables come from -/

section mem
variable {f : FilterSpec R} {oi out : OiFits R}

theorem mem_visTables {t' : OiVis R} : t' ∈ visTables f oi ↔ f.accept_vis = true ∧
    ∃ t ∈ oi.visList, ∃ w, instTable oi t.insname = some w ∧ VisRemains f w t ∧
      t' = visOut f w t := by
  unfold visTables
  cases f.accept_vis with
  | false => simp
  | true =>
    simp only [if_true, List.mem_filterMap, true_and]
    apply exists_congr
    intro t
    apply and_congr_right
    intro _
    cases instTable oi t.insname with
    | none => simp
    | some w =>
      by_cases h : VisRemains f w t
      · simp [h, eq_comm]
      · simp [h]

theorem mem_vis2Tables {t' : OiVis2 R} : t' ∈ vis2Tables f oi ↔ f.accept_vis2 = true ∧
    ∃ t ∈ oi.vis2List, ∃ w, instTable oi t.insname = some w ∧ Vis2Remains f w t ∧
      t' = vis2Out f w t := by
  unfold vis2Tables
  cases f.accept_vis2 with
  | false => simp
  | true =>
    simp only [if_true, List.mem_filterMap, true_and]
    apply exists_congr
    intro t
    apply and_congr_right
    intro _
    cases instTable oi t.insname with
    | none => simp
    | some w =>
      by_cases h : Vis2Remains f w t
      · simp [h, eq_comm]
      · simp [h]

theorem mem_t3Tables {t' : OiT3 R} : t' ∈ t3Tables f oi ↔
    (f.accept_t3amp = true ∨ f.accept_t3phi = true) ∧
    ∃ t ∈ oi.t3List, ∃ w, instTable oi t.insname = some w ∧ T3Remains f w t ∧
      t' = t3Out f w t := by
  unfold t3Tables
  rw [← Bool.or_eq_true]
  cases (f.accept_t3amp || f.accept_t3phi) with
  | false => simp
  | true =>
    simp only [if_true, List.mem_filterMap, true_and]
    apply exists_congr
    intro t
    apply and_congr_right
    intro _
    cases instTable oi t.insname with
    | none => simp
    | some w =>
      by_cases h : T3Remains f w t
      · simp [h, eq_comm]
      · simp [h]

theorem mem_fluxTables {t' : OiFlux R} : t' ∈ fluxTables f oi ↔ f.accept_flux = true ∧
    ∃ t ∈ oi.fluxList, ∃ w, instTable oi t.insname = some w ∧ FluxRemains f w t ∧
      t' = fluxOut f w t := by
  unfold fluxTables
  cases f.accept_flux with
  | false => simp
  | true =>
    simp only [if_true, List.mem_filterMap, true_and]
    apply exists_congr
    intro t
    apply and_congr_right
    intro _
    cases instTable oi t.insname with
    | none => simp
    | some w =>
      by_cases h : FluxRemains f w t
      · simp [h, eq_comm]
      · simp [h]

/-! ### Lookup of names -/

theorem find_unique {τ : Type} {name : τ → CStr} {l : List τ} (h : (l.map name).Nodup) {t : τ}
    (ht : t ∈ l) : l.find? (fun x => name x == name t) = some t := by
  induction l with
  | nil => cases ht
  | cons x l ih =>
    rw [List.map_cons, List.nodup_cons] at h
    rw [List.find?_cons]
    rcases List.mem_cons.mp ht with rfl | ht
    · simp
    · have : name x ≠ name t := fun hc => h.1 (hc ▸ List.mem_map_of_mem ht)
      have hb : (name x == name t) = false := by simpa using this
      rw [hb]
      exact ih h.2 ht

theorem lastNamed_unique {τ : Type} {name : τ → CStr} {l : List τ} (h : (l.map name).Nodup) {t : τ}
    (ht : t ∈ l) : lastNamed name l (name t) = some t := by
  unfold lastNamed
  apply find_unique _ (by simpa using ht)
  rw [List.map_reverse]
  exact (List.reverse_perm _).nodup_iff.mpr h

theorem lastNamed_mem {τ : Type} {name : τ → CStr} {l : List τ} {n : CStr} {t : τ}
    (h : lastNamed name l n = some t) : t ∈ l ∧ name t = n := by
  unfold lastNamed at h
  refine ⟨by simpa using List.mem_of_find?_eq_some h, ?_⟩
  simpa using List.find?_some h

theorem lastNamed_isSome {τ : Type} {name : τ → CStr} {l : List τ} {t : τ}
    (h : t ∈ l) : ∃ t', lastNamed name l (name t) = some t' ∧ t' ∈ l ∧ name t' = name t := by
  cases hl : lastNamed name l (name t) with
  | none =>
    unfold lastNamed at hl
    rw [List.find?_eq_none] at hl
    have := hl t (by simpa using h)
    simp at this
  | some t' => exact ⟨t', rfl, lastNamed_mem hl⟩

theorem instTable_mem {n : CStr} {w : OiWavelength R} (h : instTable oi n = some w) :
    w ∈ oi.wavelengthList ∧ w.insname = n :=
  ⟨List.mem_of_find?_eq_some h, by simpa using List.find?_some h⟩

theorem out_unique (hf : Filterable f oi) (ho : Filtered f oi out) :
    (out.wavelengthList.map OiWavelength.insname).Nodup := by
  rw [ho.wavelength, List.map_map]
  have : (OiWavelength.insname ∘ waveOut f) = (OiWavelength.insname : OiWavelength R → CStr) := rfl
  rw [this]
  exact (List.filter_sublist.map _).nodup hf.unique

/-- The wavelength table of an instrument the output data refer to. -/
theorem out_wave (hf : Filterable f oi) (ho : Filtered f oi out) {n : CStr} {w : OiWavelength R}
    (hi : instTable oi n = some w) (hg : Glob f.insname n) (hc : ∃ j, j < w.nwave ∧ WaveOk f w j)
    (hr : InsReferenced out n) :
    waveOut f w ∈ out.wavelengthList ∧ instTable out n = some (waveOut f w) ∧
      oi_fits_lookup_wavelength out n = some (waveOut f w) := by
  obtain ⟨hm, hn⟩ := instTable_mem hi
  have hmem : waveOut f w ∈ out.wavelengthList := by
    rw [ho.wavelength]
    apply List.mem_map_of_mem
    rw [List.mem_filter]
    exact ⟨hm, by simpa [hn] using ⟨⟨hn.symm ▸ hg, hc⟩, hr⟩⟩
  have hname : n = (waveOut f w).insname := hn.symm
  refine ⟨hmem, ?_, ?_⟩
  · unfold instTable
    rw [hname]
    exact find_unique (out_unique hf ho) hmem
  · rw [ho.waveLookup, hname]
    exact lastNamed_unique (out_unique hf ho) hmem

end mem

end Verif
