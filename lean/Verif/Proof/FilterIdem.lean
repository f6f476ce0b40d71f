import Verif.Proof.FilterOut

/-! Data that filtering leaves as they are. -/

namespace Verif
open Outcome Spec Classical

variable {R : FP}

/-! ### Picking all channels -/

theorem pick_range {α : Type} {n : Nat} {l : List α} (h : l.length = n) :
    pick (List.range n) l = l := by
  subst h
  apply List.ext_getElem?
  intro k
  by_cases hk : k < l.length
  · have := (atChans_pick (ks := List.range l.length) (l := l) (by simp)).2 k k
      (by simp [hk])
    obtain ⟨x, h1, h2⟩ := this
    rw [h1, h2]
  · have hl : (pick (List.range l.length) l).length = l.length := by
      rw [pick_length (by simp)]; simp
    rw [List.getElem?_eq_none (by omega), List.getElem?_eq_none (by omega)]

theorem submatrix_range {α : Type} {n : Nat} {l : List α} (h : l.length = n * n) :
    submatrix n (List.range n) l = l := by
  apply List.ext_getElem?
  intro m
  have hsq := atChansSquare (n := n) (ks := List.range n) (m := some l)
    (by rintro _ h'; cases h'; exact h) (by simp)
  unfold AtChansSquare at hsq
  dsimp only [Option.map_some] at hsq
  rw [List.length_range] at hsq
  by_cases hm : m < n * n
  · have hn : 0 < n := by
      rcases Nat.eq_zero_or_pos n with rfl | hn
      · simp at hm
      · exact hn
    have hdiv : m / n < n := Nat.div_lt_of_lt_mul hm
    have hmod : m % n < n := Nat.mod_lt _ hn
    obtain ⟨x, h1, h2⟩ := hsq.2 (m % n) (m / n) (m % n) (m / n) (by simp [hmod]) (by simp [hdiv])
    have he : m % n + m / n * n = m := by
      rw [Nat.mul_comm]; exact Nat.mod_add_div m n
    rw [he] at h1 h2
    rw [h1, h2]
  · rw [List.getElem?_eq_none (by omega), List.getElem?_eq_none (by omega)]

theorem map_opt_id {α : Type} {m : Option α} {g : α → α} (h : ∀ l, m = some l → g l = l) :
    m.map g = m := by
  cases m with
  | none => rfl
  | some l => rw [Option.map_some, h l rfl]

theorem flags_same {n : Nat} {flag : List Bool} {P : Nat → Prop} (h : flag.length = n)
    (hp : ∀ j, j < n → flag[j]? = some true ∨ P j) :
    ((List.range n).map fun j => decide (flag[j]? = some true ∨ ¬ P j)) = flag := by
  apply List.ext_getElem
  · simp [h]
  · intro j h1 h2
    have hj : j < n := h ▸ h2
    simp only [List.getElem_map, List.getElem_range]
    have hg : flag[j]? = some flag[j] := List.getElem?_eq_getElem h2
    have hp := hp j hj
    rw [hg] at hp ⊢
    cases hb : flag[j] with
    | true => simp
    | false =>
      rw [hb] at hp
      simpa using hp

theorem filterMap_congr' {α β : Type} {l : List α} {g h : α → Option β}
    (e : ∀ x ∈ l, g x = h x) : l.filterMap g = l.filterMap h := by
  induction l with
  | nil => rfl
  | cons x l ih =>
    rw [List.filterMap_cons, List.filterMap_cons, e x (by simp),
      ih (fun y hy => e y (by simp [hy]))]

section full
variable {f : FilterSpec R} {w : OiWavelength R}

theorem keptChans_all (h : ∀ j, j < w.nwave → WaveOk f w j) :
    keptChans f w = List.range w.nwave := by
  unfold keptChans
  rw [List.filter_eq_self]
  intro j hj
  simpa using h j (by simpa using hj)

theorem waveOut_full (hw : w.WF) (h : keptChans f w = List.range w.nwave) : waveOut f w = w := by
  unfold waveOut
  rw [h, pick_range hw.eff_wave, pick_range hw.eff_band, List.length_range]

theorem visRecOut_full {r : OiVisRecord R} {b c : Bool} (h : keptChans f w = List.range w.nwave)
    (ht : f.target_id < 0) (hr : r.WF w.nwave b c)
    (hp : ∀ j, j < w.nwave → r.flag[j]? = some true ∨ VisInRange f w r j) :
    visRecOut f w r = r := by
  unfold visRecOut
  simp only [h, pick_range hr.visamp, pick_range hr.visamperr, pick_range hr.visphi,
    pick_range hr.visphierr, flags_same hr.flag hp,
    map_opt_id (fun l hl => submatrix_range (optArray_length hr.visrefmap l hl)),
    map_opt_id (fun l hl => pick_range (optArray_length hr.rvis l hl)),
    map_opt_id (fun l hl => pick_range (optArray_length hr.rviserr l hl)),
    map_opt_id (fun l hl => pick_range (optArray_length hr.ivis l hl)),
    map_opt_id (fun l hl => pick_range (optArray_length hr.iviserr l hl))]
  rw [targetIdOut, if_neg (by omega)]

theorem vis2RecOut_full {r : OiVis2Record R} (h : keptChans f w = List.range w.nwave)
    (ht : f.target_id < 0) (hr : r.WF w.nwave)
    (hp : ∀ j, j < w.nwave → r.flag[j]? = some true ∨ Vis2InRange f w r j) :
    vis2RecOut f w r = r := by
  unfold vis2RecOut
  simp only [h, pick_range hr.vis2data, pick_range hr.vis2err, flags_same hr.flag hp]
  rw [targetIdOut, if_neg (by omega)]

theorem pickOrNaN_range {b : Bool} {n : Nat} {l : List R.Dbl} (h : l.length = n)
    (hb : b = true ∨ l = List.replicate n R.nan) : pickOrNaN b (List.range n) l = l := by
  unfold pickOrNaN
  cases b with
  | true => exact pick_range h
  | false =>
    rcases hb with hb | hb
    · cases hb
    · rw [hb]
      simp [List.map_const']

theorem t3RecOut_full {r : OiT3Record R} (h : keptChans f w = List.range w.nwave)
    (ht : f.target_id < 0) (hr : r.WF w.nwave)
    (ha : f.accept_t3amp = true ∨ r.t3amp = List.replicate w.nwave R.nan)
    (hphi : f.accept_t3phi = true ∨ r.t3phi = List.replicate w.nwave R.nan)
    (hp : ∀ j, j < w.nwave → r.flag[j]? = some true ∨ T3InRange f w r j) :
    t3RecOut f w r = r := by
  unfold t3RecOut
  simp only [h, pickOrNaN_range hr.t3amp ha, pick_range hr.t3amperr, pickOrNaN_range hr.t3phi hphi,
    pick_range hr.t3phierr, flags_same hr.flag hp]
  rw [targetIdOut, if_neg (by omega)]

theorem fluxRecOut_full {r : OiFluxRecord R} (h : keptChans f w = List.range w.nwave)
    (ht : f.target_id < 0) (hr : r.WF w.nwave)
    (hp : ∀ j, j < w.nwave →
      r.fluxdata[j]? = some R.nan ∨ SnrAmpOk f r.fluxdata r.fluxerr j) :
    fluxRecOut f w r = r := by
  unfold fluxRecOut
  have : (List.range w.nwave).filterMap (fluxValue f r) = r.fluxdata := by
    rw [show (List.range w.nwave).filterMap (fluxValue f r) =
      (List.range w.nwave).filterMap (fun j => r.fluxdata[j]?) from ?_]
    · exact pick_range hr.fluxdata
    · apply filterMap_congr'
      intro j hj
      unfold fluxValue
      by_cases hs : SnrAmpOk f r.fluxdata r.fluxerr j
      · rw [if_pos hs]
      · rw [if_neg hs]
        rcases hp j (by simpa using hj) with hn | hn
        · rw [hn]
        · exact absurd hn hs
  simp only [h, this, pick_range hr.fluxerr, pick_range hr.flag]
  rw [targetIdOut, if_neg (by omega)]

theorem map_id_of {ρ : Type} {l : List ρ} {c : ρ → ρ} (h : ∀ r ∈ l, c r = r) : l.map c = l := by
  induction l with
  | nil => rfl
  | cons r l ih =>
    rw [List.map_cons, h r (by simp), ih (fun r hr => h r (by simp [hr]))]

theorem recs_full {ρ : Type} {l : List ρ} {P : ρ → Prop} [DecidablePred P] {c : ρ → ρ} (hk : ∀ r ∈ l, P r)
    (hc : ∀ r ∈ l, c r = r) : (l.filter fun r => decide (P r)).map c = l := by
  rw [List.filter_eq_self.mpr (fun r hr => by simpa using hk r hr), map_id_of hc]

end full

theorem filterMap_fix {τ : Type} {l : List τ} {g : τ → Option τ} (h : ∀ t ∈ l, g t = some t) :
    l.filterMap g = l := by
  induction l with
  | nil => rfl
  | cons t l ih =>
    rw [List.filterMap_cons, h t (by simp), ih (fun r hr => h r (by simp [hr]))]

section fix
variable {f : FilterSpec R} {oi : OiFits R}

theorem visTables_fix (ha : f.accept_vis = true ∨ oi.visList = [])
    (h : ∀ t ∈ oi.visList, ∃ w, instTable oi t.insname = some w ∧ VisRemains f w t ∧
      visOut f w t = t) : visTables f oi = oi.visList := by
  unfold visTables
  rcases ha with ha | ha
  · rw [if_pos ha]
    apply filterMap_fix
    intro t ht
    obtain ⟨w, hw, hr, he⟩ := h t ht
    simp [hw, hr, he]
  · rw [ha]; simp

theorem vis2Tables_fix (ha : f.accept_vis2 = true ∨ oi.vis2List = [])
    (h : ∀ t ∈ oi.vis2List, ∃ w, instTable oi t.insname = some w ∧ Vis2Remains f w t ∧
      vis2Out f w t = t) : vis2Tables f oi = oi.vis2List := by
  unfold vis2Tables
  rcases ha with ha | ha
  · rw [if_pos ha]
    apply filterMap_fix
    intro t ht
    obtain ⟨w, hw, hr, he⟩ := h t ht
    simp [hw, hr, he]
  · rw [ha]; simp

theorem t3Tables_fix (ha : (f.accept_t3amp || f.accept_t3phi) = true ∨ oi.t3List = [])
    (h : ∀ t ∈ oi.t3List, ∃ w, instTable oi t.insname = some w ∧ T3Remains f w t ∧
      t3Out f w t = t) : t3Tables f oi = oi.t3List := by
  unfold t3Tables
  rcases ha with ha | ha
  · rw [if_pos ha]
    apply filterMap_fix
    intro t ht
    obtain ⟨w, hw, hr, he⟩ := h t ht
    simp [hw, hr, he]
  · rw [ha]; simp

theorem fluxTables_fix (ha : f.accept_flux = true ∨ oi.fluxList = [])
    (h : ∀ t ∈ oi.fluxList, ∃ w, instTable oi t.insname = some w ∧ FluxRemains f w t ∧
      fluxOut f w t = t) : fluxTables f oi = oi.fluxList := by
  unfold fluxTables
  rcases ha with ha | ha
  · rw [if_pos ha]
    apply filterMap_fix
    intro t ht
    obtain ⟨w, hw, hr, he⟩ := h t ht
    simp [hw, hr, he]
  · rw [ha]; simp

end fix

/-! ### Filtered data -/

section again
variable {f : FilterSpec R} {w : OiWavelength R}

theorem kept_at {ks : List Nat} {k : Nat} (hk : k < ks.length) : ks[k]? = some ks[k] :=
  List.getElem?_eq_getElem hk

theorem waveOut_at (hw : w.WF) {k j : Nat} (hk : (keptChans f w)[k]? = some j) :
    (waveOut f w).eff_wave[k]? = w.eff_wave[j]? := by
  obtain ⟨x, h1, h2⟩ := (atChans_pick (hw.eff_wave.symm ▸ keptChans_lt)).2 k j hk
  rw [h1]; exact h2

theorem waveOut_wf (hw : w.WF) (hne : keptChans f w ≠ []) : (waveOut f w).WF where
  chans := by simpa [waveOut] using hne
  eff_wave := pick_length (hw.eff_wave.symm ▸ keptChans_lt)
  eff_band := pick_length (hw.eff_band.symm ▸ keptChans_lt)

theorem waveOut_chans (hw : w.WF) :
    ∀ k, k < (waveOut f w).nwave → WaveOk f (waveOut f w) k := by
  intro k hk
  have hk' : (keptChans f w)[k]? = some _ := kept_at hk
  unfold WaveOk
  rw [waveOut_at hw hk']
  exact (mem_keptChans.mp (List.mem_of_getElem? hk')).2

theorem keptChans_waveOut (hw : w.WF) :
    keptChans f (waveOut f w) = List.range (waveOut f w).nwave :=
  keptChans_all (waveOut_chans hw)

theorem uvOk_at (hw : w.WF) {u v : R.Dbl} {k j : Nat} (hk : (keptChans f w)[k]? = some j) :
    UvOk f (waveOut f w) u v k ↔ UvOk f w u v j := by
  unfold UvOk
  rw [waveOut_at hw hk]

theorem atChans_eq {α : Type} {ks : List Nat} {a b : List α} (h : AtChans ks a b) {k j : Nat}
    (hk : ks[k]? = some j) : b[k]? = a[j]? := by
  obtain ⟨x, h1, h2⟩ := h.2 k j hk
  rw [h1, h2]

theorem snrAmp_at {ks : List Nat} {a a' e e' : List R.Dbl} (ha : AtChans ks a a')
    (he : AtChans ks e e') {k j : Nat} (hk : ks[k]? = some j) :
    SnrAmpOk f a' e' k ↔ SnrAmpOk f a e j := by
  unfold SnrAmpOk
  rw [atChans_eq ha hk, atChans_eq he hk]

theorem snrPhi_at {ks : List Nat} {e e' : List R.Dbl}
    (he : AtChans ks e e') {k j : Nat} (hk : ks[k]? = some j) :
    SnrPhiOk f e' k ↔ SnrPhiOk f e j := by
  unfold SnrPhiOk
  rw [atChans_eq he hk]

theorem visInRange_at (hw : w.WF) {r : OiVisRecord R} {b c : Bool} (hr : r.WF w.nwave b c)
    {k j : Nat} (hk : (keptChans f w)[k]? = some j) :
    VisInRange f (waveOut f w) (visRecOut f w r) k ↔ VisInRange f w r j := by
  unfold VisInRange
  have h := visAt (f := f) hr
  exact and_congr (uvOk_at hw hk) (and_congr (snrAmp_at h.visamp h.visamperr hk)
    (snrPhi_at h.visphierr hk))

theorem vis2InRange_at (hw : w.WF) {r : OiVis2Record R} (hr : r.WF w.nwave)
    {k j : Nat} (hk : (keptChans f w)[k]? = some j) :
    Vis2InRange f (waveOut f w) (vis2RecOut f w r) k ↔ Vis2InRange f w r j := by
  unfold Vis2InRange
  have h := vis2At (f := f) hr
  exact and_congr (uvOk_at hw hk) (snrAmp_at h.vis2data h.vis2err hk)

theorem t3InRange_at (hw : w.WF) {r : OiT3Record R} (hr : r.WF w.nwave)
    {k j : Nat} (hk : (keptChans f w)[k]? = some j) :
    T3InRange f (waveOut f w) (t3RecOut f w r) k ↔ T3InRange f w r j := by
  unfold T3InRange
  have h := t3At (f := f) hr
  refine and_congr (uvOk_at hw hk) (and_congr (uvOk_at hw hk) (and_congr (uvOk_at hw hk)
    (and_congr ?_ ?_)))
  · apply imp_congr_right
    intro ha
    have := h.t3amp
    rw [AtChansOrNaN, if_pos ha] at this
    exact snrAmp_at this h.t3amperr hk
  · apply imp_congr_right
    intro ha
    exact snrPhi_at h.t3phierr hk

/-- The flags after filtering, at a channel. -/
theorem newFlag_at {ks : List Nat} {P : Nat → Prop} {k j : Nat} (hk : ks[k]? = some j) :
    (ks.map fun j => decide (P j))[k]? = some (decide (P j)) := by
  rw [List.getElem?_map, hk, Option.map_some]

theorem optArray_map {α : Type} {used : Bool} {n m : Nat} {o : Option (List α)}
    {g : List α → List α} (h : OptArray used n o) (hg : ∀ l, o = some l → (g l).length = m) :
    OptArray used m (o.map g) := by
  cases used <;> cases o
  · trivial
  · exact h.elim
  · exact h.elim
  · exact hg _ rfl

theorem visRecOut_wf {r : OiVisRecord R} {b c : Bool} (hr : r.WF w.nwave b c) :
    (visRecOut f w r).WF (waveOut f w).nwave b c where
  visamp := (visAt hr).visamp.1
  visamperr := (visAt hr).visamperr.1
  visphi := (visAt hr).visphi.1
  visphierr := (visAt hr).visphierr.1
  visrefmap := optArray_map hr.visrefmap (fun l hl => by
    have := atChansSquare (n := w.nwave) (ks := keptChans f w) (m := some l)
      (by rintro _ h'; cases h'; exact optArray_length hr.visrefmap l hl) keptChans_lt
    exact this.1)
  rvis := optArray_map hr.rvis (fun l hl =>
    pick_length ((optArray_length hr.rvis l hl).symm ▸ keptChans_lt))
  rviserr := optArray_map hr.rviserr (fun l hl =>
    pick_length ((optArray_length hr.rviserr l hl).symm ▸ keptChans_lt))
  ivis := optArray_map hr.ivis (fun l hl =>
    pick_length ((optArray_length hr.ivis l hl).symm ▸ keptChans_lt))
  iviserr := optArray_map hr.iviserr (fun l hl =>
    pick_length ((optArray_length hr.iviserr l hl).symm ▸ keptChans_lt))
  flag := (visAt hr).flag

theorem vis2RecOut_wf {r : OiVis2Record R} (hr : r.WF w.nwave) :
    (vis2RecOut f w r).WF (waveOut f w).nwave where
  vis2data := (vis2At hr).vis2data.1
  vis2err := (vis2At hr).vis2err.1
  flag := (vis2At hr).flag

theorem atChansOrNaN_length {b : Bool} {ks : List Nat} {s d : List R.Dbl}
    (h : AtChansOrNaN b ks s d) : d.length = ks.length := by
  unfold AtChansOrNaN at h
  cases b with
  | true => exact h.1
  | false => simp at h; simp [h]

theorem t3RecOut_wf {r : OiT3Record R} (hr : r.WF w.nwave) :
    (t3RecOut f w r).WF (waveOut f w).nwave where
  t3amp := atChansOrNaN_length (t3At hr).t3amp
  t3amperr := (t3At hr).t3amperr.1
  t3phi := atChansOrNaN_length (t3At hr).t3phi
  t3phierr := (t3At hr).t3phierr.1
  flag := (t3At hr).flag

theorem fluxRecOut_wf {r : OiFluxRecord R} (hr : r.WF w.nwave) :
    (fluxRecOut f w r).WF (waveOut f w).nwave where
  fluxdata := (fluxAt hr).length
  fluxerr := (fluxAt hr).fluxerr.1
  flag := (fluxAt hr).flag.1

theorem mem_kept {ρ : Type} {l : List ρ} {P : ρ → Prop} [DecidablePred P] {c : ρ → ρ} {r' : ρ} :
    r' ∈ (l.filter fun r => decide (P r)).map c ↔ ∃ r ∈ l, P r ∧ c r = r' := by
  simp [and_assoc]

theorem kept_ne_nil {ρ : Type} {l : List ρ} {P : ρ → Prop} {c : ρ → ρ} (h : ∃ r ∈ l, P r) :
    (l.filter fun r => decide (P r)).map c ≠ [] := by
  obtain ⟨r, hr, hp⟩ := h
  intro hc
  have : c r ∈ (l.filter fun r => decide (P r)).map c := mem_kept.mpr ⟨r, hr, hp, rfl⟩
  rw [hc] at this; cases this

theorem visOut_wf {t : OiVis R} (ht : t.WF) (hn : w.nwave = t.nwave) (hr : VisRemains f w t) :
    (visOut f w t).WF where
  rows := kept_ne_nil hr.record
  chans := by simpa [visOut] using keptChans_ne_nil.mpr hr.chan
  recs := by
    intro r' hr'
    obtain ⟨r, h1, h2, rfl⟩ := mem_kept.mp hr'
    exact visRecOut_wf (hn ▸ ht.recs r h1)

theorem vis2Out_wf {t : OiVis2 R} (ht : t.WF) (hn : w.nwave = t.nwave) (hr : Vis2Remains f w t) :
    (vis2Out f w t).WF where
  rows := kept_ne_nil hr.record
  chans := by simpa [vis2Out] using keptChans_ne_nil.mpr hr.chan
  recs := by
    intro r' hr'
    obtain ⟨r, h1, h2, rfl⟩ := mem_kept.mp hr'
    exact vis2RecOut_wf (hn ▸ ht.recs r h1)

theorem t3Out_wf {t : OiT3 R} (ht : t.WF) (hn : w.nwave = t.nwave) (hr : T3Remains f w t) :
    (t3Out f w t).WF where
  rows := kept_ne_nil hr.record
  chans := by simpa [t3Out] using keptChans_ne_nil.mpr hr.chan
  recs := by
    intro r' hr'
    obtain ⟨r, h1, h2, rfl⟩ := mem_kept.mp hr'
    exact t3RecOut_wf (hn ▸ ht.recs r h1)

theorem fluxOut_wf {t : OiFlux R} (ht : t.WF) (hn : w.nwave = t.nwave) (hr : FluxRemains f w t) :
    (fluxOut f w t).WF where
  rows := kept_ne_nil hr.record
  chans := by simpa [fluxOut] using keptChans_ne_nil.mpr hr.chan
  recs := by
    intro r' hr'
    obtain ⟨r, h1, h2, rfl⟩ := mem_kept.mp hr'
    exact fluxRecOut_wf (hn ▸ ht.recs r h1)

/-- A kept record meets the criteria again, at the channels that are left. -/
theorem unflagged_again {ks : List Nat} {n : Nat} {flag flag' : List Bool} {P P' : Nat → Prop}
    {a : Bool} (hn : n = ks.length)
    (hflag : flag' = ks.map fun j => decide (flag[j]? = some true ∨ ¬ P j))
    (hP : ∀ k j : Nat, ks[k]? = some j → (P' k ↔ P j))
    (h : a = true ∨ ∃ j ∈ ks, flag[j]? = some false ∧ P j) :
    a = true ∨ ∃ k ∈ List.range n, flag'[k]? = some false ∧ P' k := by
  rcases h with h | ⟨j, hj, h1, h2⟩
  · exact Or.inl h
  · right
    obtain ⟨k, hk⟩ := List.getElem?_of_mem hj
    have hlt : k < ks.length := (List.getElem?_eq_some_iff.mp hk).1
    refine ⟨k, by simpa [hn] using hlt, ?_, (hP k j hk).mpr h2⟩
    subst hflag
    rw [List.getElem?_map, hk]
    simp [h1, h2]

theorem flagged_again {ks : List Nat} {flag flag' : List Bool} {P P' : Nat → Prop}
    (hflag : flag' = ks.map fun j => decide (flag[j]? = some true ∨ ¬ P j))
    (hP : ∀ k j : Nat, ks[k]? = some j → (P' k ↔ P j)) {k : Nat} (hk : k < ks.length) :
    flag'[k]? = some true ∨ P' k := by
  have hk' := kept_at hk
  by_cases hp : P ks[k]
  · exact Or.inr ((hP k _ hk').mpr hp)
  · left
    subst hflag
    rw [List.getElem?_map, hk']
    simp [hp]

theorem targetIdOut_neg (ht : f.target_id < 0) (id : Int) : targetIdOut f id = id := by
  rw [targetIdOut, if_neg (by omega)]

variable (ht : f.target_id < 0)
include ht

theorem visKept_again {r : OiVisRecord R} {b c : Bool} (hw : w.WF) (hr : r.WF w.nwave b c)
    (h : VisKept f w r) :
    VisKept f (waveOut f w) (visRecOut f w r) where
  target := Or.inl ht
  mjd := h.mjd
  bas := h.bas
  unflagged := by
    rw [keptChans_waveOut hw]
    exact unflagged_again rfl rfl (fun k j hk => visInRange_at hw hr hk) h.unflagged

theorem vis2Kept_again {r : OiVis2Record R} (hw : w.WF) (hr : r.WF w.nwave) (h : Vis2Kept f w r) :
    Vis2Kept f (waveOut f w) (vis2RecOut f w r) where
  target := Or.inl ht
  mjd := h.mjd
  bas := h.bas
  unflagged := by
    rw [keptChans_waveOut hw]
    exact unflagged_again rfl rfl (fun k j hk => vis2InRange_at hw hr hk) h.unflagged

theorem t3Kept_again {r : OiT3Record R} (hw : w.WF) (hr : r.WF w.nwave) (h : T3Kept f w r) :
    T3Kept f (waveOut f w) (t3RecOut f w r) where
  target := Or.inl ht
  mjd := h.mjd
  basAB := h.basAB
  basBC := h.basBC
  basAC := h.basAC
  unflagged := by
    rw [keptChans_waveOut hw]
    exact unflagged_again rfl rfl (fun k j hk => t3InRange_at hw hr hk) h.unflagged

theorem fluxKept_again {r : OiFluxRecord R} (h : FluxKept f r) : FluxKept f (fluxRecOut f w r) where
  target := Or.inl ht
  mjd := h.mjd

theorem visRecOut_again {r : OiVisRecord R} {b c : Bool} (hw : w.WF) (hr : r.WF w.nwave b c) :
    visRecOut f (waveOut f w) (visRecOut f w r) = visRecOut f w r :=
  visRecOut_full (keptChans_waveOut hw) ht (visRecOut_wf hr)
    (fun _ hk => flagged_again rfl (fun _ _ hk => visInRange_at hw hr hk) hk)

theorem vis2RecOut_again {r : OiVis2Record R} (hw : w.WF) (hr : r.WF w.nwave) :
    vis2RecOut f (waveOut f w) (vis2RecOut f w r) = vis2RecOut f w r :=
  vis2RecOut_full (keptChans_waveOut hw) ht (vis2RecOut_wf hr)
    (fun _ hk => flagged_again rfl (fun _ _ hk => vis2InRange_at hw hr hk) hk)

omit ht in
theorem orNaN_again {b : Bool} {ks : List Nat} {s d : List R.Dbl} (h : AtChansOrNaN b ks s d) :
    b = true ∨ d = List.replicate ks.length R.nan := by
  cases b with
  | true => exact Or.inl rfl
  | false => exact Or.inr h

theorem t3RecOut_again {r : OiT3Record R} (hw : w.WF) (hr : r.WF w.nwave) :
    t3RecOut f (waveOut f w) (t3RecOut f w r) = t3RecOut f w r :=
  t3RecOut_full (keptChans_waveOut hw) ht (t3RecOut_wf hr)
    (orNaN_again (t3At hr).t3amp) (orNaN_again (t3At hr).t3phi)
    (fun _ hk => flagged_again rfl (fun _ _ hk => t3InRange_at hw hr hk) hk)

theorem fluxRecOut_again {r : OiFluxRecord R} (hw : w.WF) (hr : r.WF w.nwave) :
    fluxRecOut f (waveOut f w) (fluxRecOut f w r) = fluxRecOut f w r := by
  apply fluxRecOut_full (keptChans_waveOut hw) ht (fluxRecOut_wf hr)
  intro k hk
  have hk' := kept_at (ks := keptChans f w) hk
  have h := fluxAt (f := f) hr
  by_cases hs : SnrAmpOk f r.fluxdata r.fluxerr (keptChans f w)[k]
  · right
    unfold SnrAmpOk at hs ⊢
    rwa [h.fluxdata _ _ hk' hs, atChans_eq h.fluxerr hk']
  · exact Or.inl (h.rejected _ _ hk' hs)

theorem visOut_again {t : OiVis R} (hw : w.WF) (hwf : t.WF) (hn : w.nwave = t.nwave)
    (hr : VisRemains f w t) :
    VisRemains f (waveOut f w) (visOut f w t) ∧
      visOut f (waveOut f w) (visOut f w t) = visOut f w t := by
  have hk : ∀ r' ∈ (visOut f w t).record, VisKept f (waveOut f w) r' := by
    intro r' hr'
    obtain ⟨r, h1, h2, rfl⟩ := mem_kept.mp hr'
    exact visKept_again ht hw (hn ▸ hwf.recs r h1) h2
  refine ⟨⟨hr.names, ?_, ?_⟩, ?_⟩
  · have hp : 0 < (waveOut f w).nwave := List.length_pos_iff.mpr (keptChans_ne_nil.mpr hr.chan)
    exact ⟨0, hp, waveOut_chans hw 0 hp⟩
  · obtain ⟨r, h1, h2⟩ := hr.record
    have : visRecOut f w r ∈ (visOut f w t).record := mem_kept.mpr ⟨r, h1, h2, rfl⟩
    exact ⟨_, this, hk _ this⟩
  · have hrec : ((visOut f w t).record.filter fun r => decide (VisKept f (waveOut f w) r)).map
        (visRecOut f (waveOut f w)) = (visOut f w t).record := by
      apply recs_full hk
      intro r' hr'
      obtain ⟨r, h1, h2, rfl⟩ := mem_kept.mp hr'
      exact visRecOut_again ht hw (hn ▸ hwf.recs r h1)
    rw [show visOut f (waveOut f w) (visOut f w t) = { visOut f w t with
      nwave := (keptChans f (waveOut f w)).length
      record := ((visOut f w t).record.filter fun r => decide (VisKept f (waveOut f w) r)).map
        (visRecOut f (waveOut f w)) } from rfl, hrec, keptChans_waveOut hw, List.length_range]
    rfl

theorem vis2Out_again {t : OiVis2 R} (hw : w.WF) (hwf : t.WF) (hn : w.nwave = t.nwave)
    (hr : Vis2Remains f w t) :
    Vis2Remains f (waveOut f w) (vis2Out f w t) ∧
      vis2Out f (waveOut f w) (vis2Out f w t) = vis2Out f w t := by
  have hk : ∀ r' ∈ (vis2Out f w t).record, Vis2Kept f (waveOut f w) r' := by
    intro r' hr'
    obtain ⟨r, h1, h2, rfl⟩ := mem_kept.mp hr'
    exact vis2Kept_again ht hw (hn ▸ hwf.recs r h1) h2
  refine ⟨⟨hr.names, ?_, ?_⟩, ?_⟩
  · have hp : 0 < (waveOut f w).nwave := List.length_pos_iff.mpr (keptChans_ne_nil.mpr hr.chan)
    exact ⟨0, hp, waveOut_chans hw 0 hp⟩
  · obtain ⟨r, h1, h2⟩ := hr.record
    have : vis2RecOut f w r ∈ (vis2Out f w t).record := mem_kept.mpr ⟨r, h1, h2, rfl⟩
    exact ⟨_, this, hk _ this⟩
  · have hrec : ((vis2Out f w t).record.filter fun r => decide (Vis2Kept f (waveOut f w) r)).map
        (vis2RecOut f (waveOut f w)) = (vis2Out f w t).record := by
      apply recs_full hk
      intro r' hr'
      obtain ⟨r, h1, h2, rfl⟩ := mem_kept.mp hr'
      exact vis2RecOut_again ht hw (hn ▸ hwf.recs r h1)
    rw [show vis2Out f (waveOut f w) (vis2Out f w t) = { vis2Out f w t with
      nwave := (keptChans f (waveOut f w)).length
      record := ((vis2Out f w t).record.filter fun r => decide (Vis2Kept f (waveOut f w) r)).map
        (vis2RecOut f (waveOut f w)) } from rfl, hrec, keptChans_waveOut hw, List.length_range]
    rfl

theorem t3Out_again {t : OiT3 R} (hw : w.WF) (hwf : t.WF) (hn : w.nwave = t.nwave)
    (hr : T3Remains f w t) :
    T3Remains f (waveOut f w) (t3Out f w t) ∧
      t3Out f (waveOut f w) (t3Out f w t) = t3Out f w t := by
  have hk : ∀ r' ∈ (t3Out f w t).record, T3Kept f (waveOut f w) r' := by
    intro r' hr'
    obtain ⟨r, h1, h2, rfl⟩ := mem_kept.mp hr'
    exact t3Kept_again ht hw (hn ▸ hwf.recs r h1) h2
  refine ⟨⟨hr.names, ?_, ?_⟩, ?_⟩
  · have hp : 0 < (waveOut f w).nwave := List.length_pos_iff.mpr (keptChans_ne_nil.mpr hr.chan)
    exact ⟨0, hp, waveOut_chans hw 0 hp⟩
  · obtain ⟨r, h1, h2⟩ := hr.record
    have : t3RecOut f w r ∈ (t3Out f w t).record := mem_kept.mpr ⟨r, h1, h2, rfl⟩
    exact ⟨_, this, hk _ this⟩
  · have hrec : ((t3Out f w t).record.filter fun r => decide (T3Kept f (waveOut f w) r)).map
        (t3RecOut f (waveOut f w)) = (t3Out f w t).record := by
      apply recs_full hk
      intro r' hr'
      obtain ⟨r, h1, h2, rfl⟩ := mem_kept.mp hr'
      exact t3RecOut_again ht hw (hn ▸ hwf.recs r h1)
    rw [show t3Out f (waveOut f w) (t3Out f w t) = { t3Out f w t with
      nwave := (keptChans f (waveOut f w)).length
      record := ((t3Out f w t).record.filter fun r => decide (T3Kept f (waveOut f w) r)).map
        (t3RecOut f (waveOut f w)) } from rfl, hrec, keptChans_waveOut hw, List.length_range]
    rfl

theorem fluxOut_again {t : OiFlux R} (hw : w.WF) (hwf : t.WF) (hn : w.nwave = t.nwave)
    (hr : FluxRemains f w t) :
    FluxRemains f (waveOut f w) (fluxOut f w t) ∧
      fluxOut f (waveOut f w) (fluxOut f w t) = fluxOut f w t := by
  have hk : ∀ r' ∈ (fluxOut f w t).record, FluxKept f r' := by
    intro r' hr'
    obtain ⟨r, h1, h2, rfl⟩ := mem_kept.mp hr'
    exact fluxKept_again ht h2
  refine ⟨⟨hr.names, ?_, ?_⟩, ?_⟩
  · have hp : 0 < (waveOut f w).nwave := List.length_pos_iff.mpr (keptChans_ne_nil.mpr hr.chan)
    exact ⟨0, hp, waveOut_chans hw 0 hp⟩
  · obtain ⟨r, h1, h2⟩ := hr.record
    have : fluxRecOut f w r ∈ (fluxOut f w t).record := mem_kept.mpr ⟨r, h1, h2, rfl⟩
    exact ⟨_, this, hk _ this⟩
  · have hrec : ((fluxOut f w t).record.filter fun r => decide (FluxKept f r)).map
        (fluxRecOut f (waveOut f w)) = (fluxOut f w t).record := by
      apply recs_full hk
      intro r' hr'
      obtain ⟨r, h1, h2, rfl⟩ := mem_kept.mp hr'
      exact fluxRecOut_again ht hw (hn ▸ hwf.recs r h1)
    rw [show fluxOut f (waveOut f w) (fluxOut f w t) = { fluxOut f w t with
      nwave := (keptChans f (waveOut f w)).length
      record := ((fluxOut f w t).record.filter fun r => decide (FluxKept f r)).map
        (fluxRecOut f (waveOut f w)) } from rfl, hrec, keptChans_waveOut hw, List.length_range]
    rfl

end again

end Verif
