import Verif.Spec.FilterTwo
import Verif.Proof.FilterAgain

/-! Filtering a filtered dataset by another filter. -/

namespace Verif
open Outcome Spec Classical

variable {R : FP}

/-! ### Picking twice -/

theorem getElem?_of_lt {α : Type} {l : List α} {k : Nat} (h : k < l.length) :
    ∃ x, l[k]? = some x := ⟨l[k], List.getElem?_eq_getElem h⟩

theorem filterMap_two {α : Type} {ks ks' : List Nat} {F G : Nat → Option α}
    (hk : ∀ k ∈ ks', k < ks.length) (h : ∀ k j, ks[k]? = some j → F k = G j) :
    ks'.filterMap F = (pick ks' ks).filterMap G := by
  unfold pick
  rw [List.filterMap_filterMap]
  apply filterMap_congr'
  intro k hm
  obtain ⟨j, hj⟩ := getElem?_of_lt (hk k hm)
  rw [hj, Option.bind_some]
  exact h k j hj

theorem map_two {α : Type} {ks ks' : List Nat} {F G : Nat → α}
    (hk : ∀ k ∈ ks', k < ks.length) (h : ∀ k j, ks[k]? = some j → F k = G j) :
    ks'.map F = (pick ks' ks).map G := by
  rw [← List.filterMap_eq_map, ← List.filterMap_eq_map]
  exact filterMap_two hk (fun k j hj => congrArg some (h k j hj))

theorem flatMap_two {α : Type} {ks ks' : List Nat} {F G : Nat → List α}
    (hk : ∀ k ∈ ks', k < ks.length) (h : ∀ k j, ks[k]? = some j → F k = G j) :
    ks'.flatMap F = (pick ks' ks).flatMap G := by
  rw [List.flatMap_def, List.flatMap_def, map_two hk h]

theorem pick_two {α : Type} {ks ks' : List Nat} {l : List α}
    (hk : ∀ k ∈ ks', k < ks.length) (hl : ∀ j ∈ ks, j < l.length) :
    pick ks' (pick ks l) = pick (pick ks' ks) l :=
  filterMap_two hk (fun _ _ hj => atChans_eq (atChans_pick hl) hj)

theorem submatrix_two {α : Type} {n : Nat} {ks ks' : List Nat} {l : List α}
    (hk : ∀ k ∈ ks', k < ks.length) (hn : ∀ j ∈ ks, j < n) (hl : l.length = n * n) :
    submatrix ks.length ks' (submatrix n ks l) = submatrix n (pick ks' ks) l := by
  have hsq := atChansSquare (n := n) (ks := ks) (m := some l)
    (by rintro _ h'; cases h'; exact hl) hn
  unfold AtChansSquare at hsq
  dsimp only [Option.map_some] at hsq
  rw [submatrix, submatrix]
  apply flatMap_two hk
  intro k' j' hj'
  apply filterMap_two hk
  intro k j hj
  obtain ⟨x, h1, h2⟩ := hsq.2 k k' j j' hj hj'
  rw [h1]; exact h2

theorem opt_two {α : Type} {m : Option (List α)} {c d e : List α → List α}
    (h : ∀ l, m = some l → d (c l) = e l) : (m.map c).map d = m.map e := by
  cases m with
  | none => rfl
  | some l => simp [h l rfl]

theorem range_filter_two {l : List Nat} {P Q : Nat → Prop}
    (h : ∀ k j, l[k]? = some j → (P k ↔ Q j)) :
    pick ((List.range l.length).filter fun k => decide (P k)) l =
      l.filter fun j => decide (Q j) := by
  have h1 : pick ((List.range l.length).filter fun k => decide (P k)) l =
      (List.range l.length).filterMap
        (fun k => (l[k]?).bind fun j => if Q j then some j else none) := by
    unfold pick
    rw [← List.filterMap_eq_filter, List.filterMap_filterMap]
    apply filterMap_congr'
    intro k hk
    obtain ⟨j, hj⟩ := getElem?_of_lt (l := l) (k := k) (by simpa using hk)
    rw [hj, Option.bind_some]
    by_cases hp : P k
    · have hq := (h k j hj).mp hp
      simp [Option.guard, hp, hq, hj]
    · have hq : ¬ Q j := fun hq => hp ((h k j hj).mpr hq)
      simp [Option.guard, hp, hq]
  rw [h1, ← List.filterMap_filterMap]
  have : (List.range l.length).filterMap (fun k => l[k]?) = l := pick_range rfl
  rw [this, ← List.filterMap_eq_filter]
  apply filterMap_congr'
  intro j _
  by_cases hq : Q j <;> simp [Option.guard, hq]

theorem recs_two {ρ : Type} {l : List ρ} {P Q S : ρ → Prop} {c d e : ρ → ρ}
    [DecidablePred P] [DecidablePred Q] [DecidablePred S]
    (h1 : ∀ r ∈ l, P r → (Q (c r) ↔ S r)) (h2 : ∀ r ∈ l, S r → P r)
    (h3 : ∀ r ∈ l, S r → d (c r) = e r) :
    ((((l.filter fun r => decide (P r)).map c).filter fun r => decide (Q r)).map d) =
      (l.filter fun r => decide (S r)).map e := by
  induction l with
  | nil => rfl
  | cons r l ih =>
    have ih := ih (fun x hx => h1 x (by simp [hx])) (fun x hx => h2 x (by simp [hx]))
      (fun x hx => h3 x (by simp [hx]))
    by_cases hs : S r
    · have hp := h2 r (by simp) hs
      have hq := (h1 r (by simp) hp).mpr hs
      simp [hs, hp, hq, h3 r (by simp) hs]
      simpa using ih
    · by_cases hp : P r
      · have hq : ¬ Q (c r) := fun hq => hs ((h1 r (by simp) hp).mp hq)
        simp [hs, hp, hq]
        simpa using ih
      · simp [hs, hp]
        simpa using ih

theorem tables_two {τ : Type} {l : List τ} {A B C : τ → Option τ}
    (h : ∀ t ∈ l, (A t).bind B = C t) : (l.filterMap A).filterMap B = l.filterMap C := by
  rw [List.filterMap_filterMap]
  exact filterMap_congr' h

theorem unflagged_two {ks ks' kh : List Nat} {flag flag' : List Bool} {P Q Q' H : Nat → Prop}
    {a b c : Bool} (hks : ∀ j, j ∈ kh ↔ ∃ k ∈ ks', ks[k]? = some j)
    (hflag : flag' = ks.map fun j => decide (flag[j]? = some true ∨ ¬ P j))
    (hQ : ∀ k j : Nat, ks[k]? = some j → (Q' k ↔ Q j)) (hH : ∀ j, H j ↔ P j ∧ Q j)
    (hcb : c = b) (hba : b = true → a = true) (hlen : ∀ j ∈ ks, j < flag.length) :
    ((a = true ∨ ∃ j ∈ ks, flag[j]? = some false ∧ P j) ∧
      (b = true ∨ ∃ k ∈ ks', flag'[k]? = some false ∧ Q' k)) ↔
      (c = true ∨ ∃ j ∈ kh, flag[j]? = some false ∧ H j) := by
  subst hcb
  subst hflag
  constructor
  · rintro ⟨_, h | ⟨k, hk, h1, h2⟩⟩
    · exact Or.inl h
    · right
      rw [List.getElem?_map] at h1
      cases hj : ks[k]? with
      | none => rw [hj] at h1; cases h1
      | some j =>
        rw [hj] at h1
        simp only [Option.map_some, Option.some.injEq, decide_eq_false_iff_not, not_or,
          not_not] at h1
        obtain ⟨x, hx⟩ := getElem?_of_lt (hlen j (List.mem_of_getElem? hj))
        refine ⟨j, (hks j).mpr ⟨k, hk, hj⟩, ?_, (hH j).mpr ⟨h1.2, (hQ k j hj).mp h2⟩⟩
        rw [hx] at h1 ⊢
        cases x with
        | true => exact absurd rfl h1.1
        | false => rfl
  · rintro (h | ⟨j, hj, h1, h2⟩)
    · exact ⟨Or.inl (hba h), Or.inl h⟩
    · obtain ⟨k, hk, hkj⟩ := (hks j).mp hj
      obtain ⟨hp, hq⟩ := (hH j).mp h2
      refine ⟨Or.inr ⟨j, List.mem_of_getElem? hkj, h1, hp⟩,
        Or.inr ⟨k, hk, ?_, (hQ k j hkj).mpr hq⟩⟩
      rw [List.getElem?_map, hkj]
      simp [h1, hp]

theorem flags_two {ks ks' kh : List Nat} {flag flag' : List Bool} {P Q Q' H : Nat → Prop}
    (hkh : pick ks' ks = kh) (hlt : ∀ k ∈ ks', k < ks.length)
    (hflag : flag' = ks.map fun j => decide (flag[j]? = some true ∨ ¬ P j))
    (hQ : ∀ k j : Nat, ks[k]? = some j → (Q' k ↔ Q j)) (hH : ∀ j, H j ↔ P j ∧ Q j) :
    (ks'.map fun k => decide (flag'[k]? = some true ∨ ¬ Q' k)) =
      kh.map fun j => decide (flag[j]? = some true ∨ ¬ H j) := by
  subst hkh
  subst hflag
  apply map_two hlt
  intro k j hj
  rw [decide_eq_decide, List.getElem?_map, hj, hH j, hQ k j hj]
  simp only [Option.map_some, Option.some.injEq, decide_eq_true_eq, not_and_or]
  tauto

/-! ### Channels -/

section two
variable {f g h : FilterSpec R} (hc : Combines f g h) {w : OiWavelength R} (hw : w.WF)

include hc in
theorem targetOk_two {id : Int} :
    (TargetOk f id ∧ TargetOk g (targetIdOut f id)) ↔ TargetOk h id := by
  unfold TargetOk targetIdOut
  rcases hc.target with ⟨h1, h2⟩ | ⟨h1, h2⟩
  · rw [h2]; simp [h1]
  · rw [h2, if_neg (by omega)]; simp [h1]

include hc in
theorem targetIdOut_two (id : Int) : targetIdOut g (targetIdOut f id) = targetIdOut h id := by
  unfold targetIdOut
  rcases hc.target with ⟨h1, h2⟩ | ⟨h1, h2⟩
  · rw [h2, if_neg (by omega)]
  · rw [h2]
    have h3 : ¬ 0 ≤ f.target_id := by omega
    simp [h3]

include hc in
theorem mjd_two (x : R.Dbl) : InD h.mjd_range x ↔ InD f.mjd_range x ∧ InD g.mjd_range x := by
  unfold InD
  rw [hc.mjd_from, hc.mjd_to]
  tauto

include hw in
theorem waveOk_two {k j : Nat} (hk : (keptChans f w)[k]? = some j) :
    WaveOk g (waveOut f w) k ↔ WaveOk g w j := by
  unfold WaveOk
  rw [waveOut_at hw hk]

include hc in
theorem waveOk_conj (j : Nat) : WaveOk h w j ↔ WaveOk f w j ∧ WaveOk g w j := by
  unfold WaveOk
  cases w.eff_wave[j]? with
  | none => simp
  | some x => simpa using hc.wave x

include hc hw in
theorem chans_two : pick (keptChans g (waveOut f w)) (keptChans f w) = keptChans h w := by
  rw [show keptChans g (waveOut f w) = (List.range (keptChans f w).length).filter
    (fun k => decide (WaveOk g (waveOut f w) k)) from rfl,
    range_filter_two (Q := fun j => WaveOk g w j) (fun k j hj => waveOk_two hw hj)]
  unfold keptChans
  rw [List.filter_filter]
  apply List.filter_congr
  intro j _
  rw [Bool.eq_iff_iff]
  simp only [Bool.and_eq_true, decide_eq_true_eq]
  rw [waveOk_conj hc]
  tauto

theorem chans_lt : ∀ k ∈ keptChans g (waveOut f w), k < (keptChans f w).length := keptChans_lt

include hc hw in
theorem chans_mem (j : Nat) :
    j ∈ keptChans h w ↔ ∃ k ∈ keptChans g (waveOut f w), (keptChans f w)[k]? = some j := by
  rw [← chans_two hc hw, pick, List.mem_filterMap]

include hc hw in
theorem chans_length : (keptChans g (waveOut f w)).length = (keptChans h w).length := by
  rw [← chans_two hc hw, pick_length chans_lt]

include hc hw in
theorem chan_two : ((∃ j, j < w.nwave ∧ WaveOk f w j) ∧
    (∃ k, k < (waveOut f w).nwave ∧ WaveOk g (waveOut f w) k)) ↔
    ∃ j, j < w.nwave ∧ WaveOk h w j := by
  rw [← keptChans_ne_nil, ← keptChans_ne_nil, ← keptChans_ne_nil]
  have hl := chans_length hc hw
  constructor
  · rintro ⟨_, h2⟩ hn
    rw [hn] at hl
    exact h2 (List.length_eq_zero_iff.mp hl)
  · intro h3
    refine ⟨?_, ?_⟩
    · obtain ⟨j, hj⟩ := List.exists_mem_of_ne_nil _ h3
      obtain ⟨k, _, hk⟩ := (chans_mem hc hw j).mp hj
      exact List.ne_nil_of_mem (List.mem_of_getElem? hk)
    · intro hn
      rw [hn] at hl
      exact h3 (List.length_eq_zero_iff.mp hl.symm)

include hc hw in
theorem pick_chans {α : Type} {l : List α} (hl : l.length = w.nwave) :
    pick (keptChans g (waveOut f w)) (pick (keptChans f w) l) = pick (keptChans h w) l := by
  rw [pick_two chans_lt (hl.symm ▸ keptChans_lt), chans_two hc hw]

include hc hw in
theorem submatrix_chans {α : Type} {l : List α} (hl : l.length = w.nwave * w.nwave) :
    submatrix (waveOut f w).nwave (keptChans g (waveOut f w))
      (submatrix w.nwave (keptChans f w) l) = submatrix w.nwave (keptChans h w) l := by
  rw [← chans_two hc hw]
  exact submatrix_two chans_lt keptChans_lt hl

include hc hw in
theorem waveOut_two : waveOut g (waveOut f w) = waveOut h w := by
  rw [show waveOut g (waveOut f w) = { w with
      nwave := (keptChans g (waveOut f w)).length
      eff_wave := pick (keptChans g (waveOut f w)) (pick (keptChans f w) w.eff_wave)
      eff_band := pick (keptChans g (waveOut f w)) (pick (keptChans f w) w.eff_band) } from rfl,
    chans_length hc hw, pick_chans hc hw hw.eff_wave, pick_chans hc hw hw.eff_band]
  rfl

include hw in
theorem uvOk_two {u v : R.Dbl} {k j : Nat} (hk : (keptChans f w)[k]? = some j) :
    UvOk g (waveOut f w) u v k ↔ UvOk g w u v j := by
  unfold UvOk
  rw [waveOut_at hw hk]

include hc in
theorem uvOk_conj {u v : R.Dbl} (j : Nat) : UvOk h w u v j ↔ UvOk f w u v j ∧ UvOk g w u v j := by
  unfold UvOk
  cases w.eff_wave[j]? with
  | none => simp
  | some x => simpa using hc.uvrad _

include hc in
theorem snrAmp_conj {a e : List R.Dbl} (j : Nat) :
    SnrAmpOk h a e j ↔ SnrAmpOk f a e j ∧ SnrAmpOk g a e j := by
  unfold SnrAmpOk
  cases a[j]? with
  | none => simp
  | some x =>
    cases e[j]? with
    | none => simp
    | some y => simpa using hc.snr _

include hc in
theorem snrPhi_conj {e : List R.Dbl} (j : Nat) :
    SnrPhiOk h e j ↔ SnrPhiOk f e j ∧ SnrPhiOk g e j := by
  unfold SnrPhiOk
  cases e[j]? with
  | none => simp
  | some y => simpa using hc.snr _

include hc in
theorem names_two {a i c : CStr} : (NamesOk f a i c ∧ NamesOk g a i c) ↔ NamesOk h a i c := by
  unfold NamesOk
  rw [hc.arrname, hc.insname, hc.corrname]
  tauto

/-! ### OI_VIS -/

include hw in
theorem visInRange_two {r : OiVisRecord R} {b c : Bool} (hr : r.WF w.nwave b c)
    {k j : Nat} (hk : (keptChans f w)[k]? = some j) :
    VisInRange g (waveOut f w) (visRecOut f w r) k ↔ VisInRange g w r j := by
  unfold VisInRange
  have h := visAt (f := f) hr
  exact and_congr (uvOk_two hw hk) (and_congr (snrAmp_at h.visamp h.visamperr hk)
    (snrPhi_at h.visphierr hk))

include hc in
theorem visInRange_conj {r : OiVisRecord R} (j : Nat) :
    VisInRange h w r j ↔ VisInRange f w r j ∧ VisInRange g w r j := by
  unfold VisInRange
  rw [uvOk_conj hc, snrAmp_conj hc, snrPhi_conj hc]
  tauto

include hc hw in
theorem visKept_two {r : OiVisRecord R} {b c : Bool} (hr : r.WF w.nwave b c) :
    (VisKept f w r ∧ VisKept g (waveOut f w) (visRecOut f w r)) ↔ VisKept h w r := by
  have hu := unflagged_two (P := VisInRange f w r) (flag := r.flag)
    (flag' := (visRecOut f w r).flag) (chans_mem hc hw) rfl
    (fun k j hk => visInRange_two hw hr hk) (visInRange_conj hc) hc.accept_flagged.1
    hc.accept_flagged.2 (hr.flag.symm ▸ keptChans_lt)
  constructor
  · rintro ⟨a, b⟩
    exact ⟨(targetOk_two hc).mp ⟨a.target, b.target⟩, (mjd_two hc _).mpr ⟨a.mjd, b.mjd⟩,
      (hc.bas _).mpr ⟨a.bas, b.bas⟩, hu.mp ⟨a.unflagged, b.unflagged⟩⟩
  · intro a
    have h1 := (targetOk_two hc).mpr a.target
    have h2 := (mjd_two hc _).mp a.mjd
    have h3 := (hc.bas _).mp a.bas
    have h4 := hu.mpr a.unflagged
    exact ⟨⟨h1.1, h2.1, h3.1, h4.1⟩, ⟨h1.2, h2.2, h3.2, h4.2⟩⟩

include hc hw in
theorem visRecOut_two {r : OiVisRecord R} {b c : Bool} (hr : r.WF w.nwave b c) :
    visRecOut g (waveOut f w) (visRecOut f w r) = visRecOut h w r := by
  rw [show visRecOut g (waveOut f w) (visRecOut f w r) = { r with
      target_id := targetIdOut g (targetIdOut f r.target_id)
      visamp := pick (keptChans g (waveOut f w)) (pick (keptChans f w) r.visamp)
      visamperr := pick (keptChans g (waveOut f w)) (pick (keptChans f w) r.visamperr)
      visphi := pick (keptChans g (waveOut f w)) (pick (keptChans f w) r.visphi)
      visphierr := pick (keptChans g (waveOut f w)) (pick (keptChans f w) r.visphierr)
      flag := (keptChans g (waveOut f w)).map fun k =>
        decide ((visRecOut f w r).flag[k]? = some true ∨
          ¬ VisInRange g (waveOut f w) (visRecOut f w r) k)
      visrefmap := (r.visrefmap.map (submatrix w.nwave (keptChans f w))).map
        (submatrix (waveOut f w).nwave (keptChans g (waveOut f w)))
      rvis := (r.rvis.map (pick (keptChans f w))).map (pick (keptChans g (waveOut f w)))
      rviserr := (r.rviserr.map (pick (keptChans f w))).map (pick (keptChans g (waveOut f w)))
      ivis := (r.ivis.map (pick (keptChans f w))).map (pick (keptChans g (waveOut f w)))
      iviserr := (r.iviserr.map (pick (keptChans f w))).map
        (pick (keptChans g (waveOut f w))) } from rfl,
    targetIdOut_two hc, pick_chans hc hw hr.visamp, pick_chans hc hw hr.visamperr,
    pick_chans hc hw hr.visphi, pick_chans hc hw hr.visphierr,
    flags_two (flag := r.flag) (flag' := (visRecOut f w r).flag) (chans_two hc hw) chans_lt rfl
      (fun k j hk => visInRange_two hw hr hk) (visInRange_conj hc),
    opt_two (fun l hl => submatrix_chans hc hw (optArray_length hr.visrefmap l hl)),
    opt_two (fun l hl => pick_chans hc hw (optArray_length hr.rvis l hl)),
    opt_two (fun l hl => pick_chans hc hw (optArray_length hr.rviserr l hl)),
    opt_two (fun l hl => pick_chans hc hw (optArray_length hr.ivis l hl)),
    opt_two (fun l hl => pick_chans hc hw (optArray_length hr.iviserr l hl))]
  rfl

include hc hw in
theorem visRemains_two {t : OiVis R} (hwf : t.WF) (hn : w.nwave = t.nwave) :
    (VisRemains f w t ∧ VisRemains g (waveOut f w) (visOut f w t)) ↔ VisRemains h w t := by
  constructor
  · rintro ⟨a, b⟩
    obtain ⟨r', hr', hk'⟩ := b.record
    obtain ⟨r, h1, h2, rfl⟩ := mem_kept.mp hr'
    exact ⟨(names_two hc).mp ⟨a.names, b.names⟩, (chan_two hc hw).mp ⟨a.chan, b.chan⟩,
      r, h1, (visKept_two hc hw (hn ▸ hwf.recs r h1)).mp ⟨h2, hk'⟩⟩
  · intro a
    have h1 := (names_two hc).mpr a.names
    have h2 := (chan_two hc hw).mpr a.chan
    obtain ⟨r, h3, h4⟩ := a.record
    have h5 := (visKept_two hc hw (hn ▸ hwf.recs r h3)).mpr h4
    exact ⟨⟨h1.1, h2.1, r, h3, h5.1⟩,
      ⟨h1.2, h2.2, _, mem_kept.mpr ⟨r, h3, h5.1, rfl⟩, h5.2⟩⟩

include hc hw in
theorem visOut_two {t : OiVis R} (hwf : t.WF) (hn : w.nwave = t.nwave) :
    visOut g (waveOut f w) (visOut f w t) = visOut h w t := by
  have hrec : ((visOut f w t).record.filter fun r => decide (VisKept g (waveOut f w) r)).map
      (visRecOut g (waveOut f w)) =
      (t.record.filter fun r => decide (VisKept h w r)).map (visRecOut h w) := by
    apply recs_two
    · intro r hr hp
      have := visKept_two hc hw (hn ▸ hwf.recs r hr)
      exact ⟨fun hq => this.mp ⟨hp, hq⟩, fun hs => (this.mpr hs).2⟩
    · intro r hr hs
      exact ((visKept_two hc hw (hn ▸ hwf.recs r hr)).mpr hs).1
    · intro r hr _
      exact visRecOut_two hc hw (hn ▸ hwf.recs r hr)
  rw [show visOut g (waveOut f w) (visOut f w t) = { t with
    nwave := (keptChans g (waveOut f w)).length
    record := ((visOut f w t).record.filter fun r => decide (VisKept g (waveOut f w) r)).map
      (visRecOut g (waveOut f w)) } from rfl, hrec, chans_length hc hw]
  rfl

/-! ### OI_VIS2 -/

include hw in
theorem vis2InRange_two {r : OiVis2Record R} (hr : r.WF w.nwave)
    {k j : Nat} (hk : (keptChans f w)[k]? = some j) :
    Vis2InRange g (waveOut f w) (vis2RecOut f w r) k ↔ Vis2InRange g w r j := by
  unfold Vis2InRange
  have h := vis2At (f := f) hr
  exact and_congr (uvOk_two hw hk) (snrAmp_at h.vis2data h.vis2err hk)

include hc in
theorem vis2InRange_conj {r : OiVis2Record R} (j : Nat) :
    Vis2InRange h w r j ↔ Vis2InRange f w r j ∧ Vis2InRange g w r j := by
  unfold Vis2InRange
  rw [uvOk_conj hc, snrAmp_conj hc]
  tauto

include hc hw in
theorem vis2Kept_two {r : OiVis2Record R} (hr : r.WF w.nwave) :
    (Vis2Kept f w r ∧ Vis2Kept g (waveOut f w) (vis2RecOut f w r)) ↔ Vis2Kept h w r := by
  have hu := unflagged_two (P := Vis2InRange f w r) (flag := r.flag)
    (flag' := (vis2RecOut f w r).flag) (chans_mem hc hw) rfl
    (fun k j hk => vis2InRange_two hw hr hk) (vis2InRange_conj hc) hc.accept_flagged.1
    hc.accept_flagged.2 (hr.flag.symm ▸ keptChans_lt)
  constructor
  · rintro ⟨a, b⟩
    exact ⟨(targetOk_two hc).mp ⟨a.target, b.target⟩, (mjd_two hc _).mpr ⟨a.mjd, b.mjd⟩,
      (hc.bas _).mpr ⟨a.bas, b.bas⟩, hu.mp ⟨a.unflagged, b.unflagged⟩⟩
  · intro a
    have h1 := (targetOk_two hc).mpr a.target
    have h2 := (mjd_two hc _).mp a.mjd
    have h3 := (hc.bas _).mp a.bas
    have h4 := hu.mpr a.unflagged
    exact ⟨⟨h1.1, h2.1, h3.1, h4.1⟩, ⟨h1.2, h2.2, h3.2, h4.2⟩⟩

include hc hw in
theorem vis2RecOut_two {r : OiVis2Record R} (hr : r.WF w.nwave) :
    vis2RecOut g (waveOut f w) (vis2RecOut f w r) = vis2RecOut h w r := by
  rw [show vis2RecOut g (waveOut f w) (vis2RecOut f w r) = { r with
      target_id := targetIdOut g (targetIdOut f r.target_id)
      vis2data := pick (keptChans g (waveOut f w)) (pick (keptChans f w) r.vis2data)
      vis2err := pick (keptChans g (waveOut f w)) (pick (keptChans f w) r.vis2err)
      flag := (keptChans g (waveOut f w)).map fun k =>
        decide ((vis2RecOut f w r).flag[k]? = some true ∨
          ¬ Vis2InRange g (waveOut f w) (vis2RecOut f w r) k) } from rfl,
    targetIdOut_two hc, pick_chans hc hw hr.vis2data, pick_chans hc hw hr.vis2err,
    flags_two (flag := r.flag) (flag' := (vis2RecOut f w r).flag) (chans_two hc hw) chans_lt rfl
      (fun k j hk => vis2InRange_two hw hr hk) (vis2InRange_conj hc)]
  rfl

include hc hw in
theorem vis2Remains_two {t : OiVis2 R} (hwf : t.WF) (hn : w.nwave = t.nwave) :
    (Vis2Remains f w t ∧ Vis2Remains g (waveOut f w) (vis2Out f w t)) ↔ Vis2Remains h w t := by
  constructor
  · rintro ⟨a, b⟩
    obtain ⟨r', hr', hk'⟩ := b.record
    obtain ⟨r, h1, h2, rfl⟩ := mem_kept.mp hr'
    exact ⟨(names_two hc).mp ⟨a.names, b.names⟩, (chan_two hc hw).mp ⟨a.chan, b.chan⟩,
      r, h1, (vis2Kept_two hc hw (hn ▸ hwf.recs r h1)).mp ⟨h2, hk'⟩⟩
  · intro a
    have h1 := (names_two hc).mpr a.names
    have h2 := (chan_two hc hw).mpr a.chan
    obtain ⟨r, h3, h4⟩ := a.record
    have h5 := (vis2Kept_two hc hw (hn ▸ hwf.recs r h3)).mpr h4
    exact ⟨⟨h1.1, h2.1, r, h3, h5.1⟩,
      ⟨h1.2, h2.2, _, mem_kept.mpr ⟨r, h3, h5.1, rfl⟩, h5.2⟩⟩

include hc hw in
theorem vis2Out_two {t : OiVis2 R} (hwf : t.WF) (hn : w.nwave = t.nwave) :
    vis2Out g (waveOut f w) (vis2Out f w t) = vis2Out h w t := by
  have hrec : ((vis2Out f w t).record.filter fun r => decide (Vis2Kept g (waveOut f w) r)).map
      (vis2RecOut g (waveOut f w)) =
      (t.record.filter fun r => decide (Vis2Kept h w r)).map (vis2RecOut h w) := by
    apply recs_two
    · intro r hr hp
      have := vis2Kept_two hc hw (hn ▸ hwf.recs r hr)
      exact ⟨fun hq => this.mp ⟨hp, hq⟩, fun hs => (this.mpr hs).2⟩
    · intro r hr hs
      exact ((vis2Kept_two hc hw (hn ▸ hwf.recs r hr)).mpr hs).1
    · intro r hr _
      exact vis2RecOut_two hc hw (hn ▸ hwf.recs r hr)
  rw [show vis2Out g (waveOut f w) (vis2Out f w t) = { t with
    nwave := (keptChans g (waveOut f w)).length
    record := ((vis2Out f w t).record.filter fun r => decide (Vis2Kept g (waveOut f w) r)).map
      (vis2RecOut g (waveOut f w)) } from rfl, hrec, chans_length hc hw]
  rfl

/-! ### OI_T3 -/

include hc hw in
theorem t3InRange_two {r : OiT3Record R} (hr : r.WF w.nwave)
    {k j : Nat} (hk : (keptChans f w)[k]? = some j) :
    T3InRange g (waveOut f w) (t3RecOut f w r) k ↔ T3InRange g w r j := by
  unfold T3InRange
  have h := t3At (f := f) hr
  refine and_congr (uvOk_two hw hk) (and_congr (uvOk_two hw hk) (and_congr (uvOk_two hw hk)
    (and_congr ?_ ?_)))
  · apply imp_congr_right
    intro ha
    rw [hc.accept_t3amp.2, ← hc.accept_t3amp.1] at ha
    have := h.t3amp
    rw [AtChansOrNaN, if_pos ha] at this
    exact snrAmp_at this h.t3amperr hk
  · apply imp_congr_right
    intro ha
    exact snrPhi_at h.t3phierr hk

include hc in
theorem t3InRange_conj {r : OiT3Record R} (j : Nat) :
    T3InRange h w r j ↔ T3InRange f w r j ∧ T3InRange g w r j := by
  unfold T3InRange
  rw [uvOk_conj hc, uvOk_conj hc, uvOk_conj hc, snrAmp_conj hc, snrPhi_conj hc,
    hc.accept_t3amp.1, hc.accept_t3amp.2, hc.accept_t3phi.1, hc.accept_t3phi.2]
  tauto

include hc hw in
theorem t3Kept_two {r : OiT3Record R} (hr : r.WF w.nwave) :
    (T3Kept f w r ∧ T3Kept g (waveOut f w) (t3RecOut f w r)) ↔ T3Kept h w r := by
  have hu := unflagged_two (P := T3InRange f w r) (flag := r.flag)
    (flag' := (t3RecOut f w r).flag) (chans_mem hc hw) rfl
    (fun k j hk => t3InRange_two hc hw hr hk) (t3InRange_conj hc) hc.accept_flagged.1
    hc.accept_flagged.2 (hr.flag.symm ▸ keptChans_lt)
  constructor
  · rintro ⟨a, b⟩
    exact ⟨(targetOk_two hc).mp ⟨a.target, b.target⟩, (mjd_two hc _).mpr ⟨a.mjd, b.mjd⟩,
      (hc.bas _).mpr ⟨a.basAB, b.basAB⟩, (hc.bas _).mpr ⟨a.basBC, b.basBC⟩,
      (hc.bas _).mpr ⟨a.basAC, b.basAC⟩, hu.mp ⟨a.unflagged, b.unflagged⟩⟩
  · intro a
    have h1 := (targetOk_two hc).mpr a.target
    have h2 := (mjd_two hc _).mp a.mjd
    have h3 := (hc.bas _).mp a.basAB
    have h5 := (hc.bas _).mp a.basBC
    have h6 := (hc.bas _).mp a.basAC
    have h4 := hu.mpr a.unflagged
    exact ⟨⟨h1.1, h2.1, h3.1, h5.1, h6.1, h4.1⟩, ⟨h1.2, h2.2, h3.2, h5.2, h6.2, h4.2⟩⟩

include hc hw in
theorem pickOrNaN_chans {b : Bool} {l : List R.Dbl} (hl : l.length = w.nwave) :
    pickOrNaN b (keptChans g (waveOut f w)) (pickOrNaN b (keptChans f w) l) =
      pickOrNaN b (keptChans h w) l := by
  cases b with
  | true => exact pick_chans hc hw hl
  | false =>
    simp only [pickOrNaN, Bool.false_eq_true, if_false, List.map_const']
    rw [chans_length hc hw]

include hc hw in
theorem t3RecOut_two {r : OiT3Record R} (hr : r.WF w.nwave) :
    t3RecOut g (waveOut f w) (t3RecOut f w r) = t3RecOut h w r := by
  rw [show t3RecOut g (waveOut f w) (t3RecOut f w r) = { r with
      target_id := targetIdOut g (targetIdOut f r.target_id)
      t3amp := pickOrNaN g.accept_t3amp (keptChans g (waveOut f w))
        (pickOrNaN f.accept_t3amp (keptChans f w) r.t3amp)
      t3amperr := pick (keptChans g (waveOut f w)) (pick (keptChans f w) r.t3amperr)
      t3phi := pickOrNaN g.accept_t3phi (keptChans g (waveOut f w))
        (pickOrNaN f.accept_t3phi (keptChans f w) r.t3phi)
      t3phierr := pick (keptChans g (waveOut f w)) (pick (keptChans f w) r.t3phierr)
      flag := (keptChans g (waveOut f w)).map fun k =>
        decide ((t3RecOut f w r).flag[k]? = some true ∨
          ¬ T3InRange g (waveOut f w) (t3RecOut f w r) k) } from rfl,
    targetIdOut_two hc, pick_chans hc hw hr.t3amperr, pick_chans hc hw hr.t3phierr,
    flags_two (flag := r.flag) (flag' := (t3RecOut f w r).flag) (chans_two hc hw) chans_lt rfl
      (fun k j hk => t3InRange_two hc hw hr hk) (t3InRange_conj hc),
    hc.accept_t3amp.1, hc.accept_t3amp.2, hc.accept_t3phi.1, hc.accept_t3phi.2,
    pickOrNaN_chans hc hw hr.t3amp, pickOrNaN_chans hc hw hr.t3phi]
  rfl

include hc hw in
theorem t3Remains_two {t : OiT3 R} (hwf : t.WF) (hn : w.nwave = t.nwave) :
    (T3Remains f w t ∧ T3Remains g (waveOut f w) (t3Out f w t)) ↔ T3Remains h w t := by
  constructor
  · rintro ⟨a, b⟩
    obtain ⟨r', hr', hk'⟩ := b.record
    obtain ⟨r, h1, h2, rfl⟩ := mem_kept.mp hr'
    exact ⟨(names_two hc).mp ⟨a.names, b.names⟩, (chan_two hc hw).mp ⟨a.chan, b.chan⟩,
      r, h1, (t3Kept_two hc hw (hn ▸ hwf.recs r h1)).mp ⟨h2, hk'⟩⟩
  · intro a
    have h1 := (names_two hc).mpr a.names
    have h2 := (chan_two hc hw).mpr a.chan
    obtain ⟨r, h3, h4⟩ := a.record
    have h5 := (t3Kept_two hc hw (hn ▸ hwf.recs r h3)).mpr h4
    exact ⟨⟨h1.1, h2.1, r, h3, h5.1⟩,
      ⟨h1.2, h2.2, _, mem_kept.mpr ⟨r, h3, h5.1, rfl⟩, h5.2⟩⟩

include hc hw in
theorem t3Out_two {t : OiT3 R} (hwf : t.WF) (hn : w.nwave = t.nwave) :
    t3Out g (waveOut f w) (t3Out f w t) = t3Out h w t := by
  have hrec : ((t3Out f w t).record.filter fun r => decide (T3Kept g (waveOut f w) r)).map
      (t3RecOut g (waveOut f w)) =
      (t.record.filter fun r => decide (T3Kept h w r)).map (t3RecOut h w) := by
    apply recs_two
    · intro r hr hp
      have := t3Kept_two hc hw (hn ▸ hwf.recs r hr)
      exact ⟨fun hq => this.mp ⟨hp, hq⟩, fun hs => (this.mpr hs).2⟩
    · intro r hr hs
      exact ((t3Kept_two hc hw (hn ▸ hwf.recs r hr)).mpr hs).1
    · intro r hr _
      exact t3RecOut_two hc hw (hn ▸ hwf.recs r hr)
  rw [show t3Out g (waveOut f w) (t3Out f w t) = { t with
    nwave := (keptChans g (waveOut f w)).length
    record := ((t3Out f w t).record.filter fun r => decide (T3Kept g (waveOut f w) r)).map
      (t3RecOut g (waveOut f w)) } from rfl, hrec, chans_length hc hw]
  rfl

/-! ### OI_FLUX -/

include hc in
theorem fluxKept_two {r : OiFluxRecord R} :
    (FluxKept f r ∧ FluxKept g (fluxRecOut f w r)) ↔ FluxKept h r := by
  constructor
  · rintro ⟨a, b⟩
    exact ⟨(targetOk_two hc).mp ⟨a.target, b.target⟩, (mjd_two hc _).mpr ⟨a.mjd, b.mjd⟩⟩
  · intro a
    have h1 := (targetOk_two hc).mpr a.target
    have h2 := (mjd_two hc _).mp a.mjd
    exact ⟨⟨h1.1, h2.1⟩, ⟨h1.2, h2.2⟩⟩

include hc in
theorem fluxValue_two {r : OiFluxRecord R} (hr : r.WF w.nwave) {k j : Nat}
    (hk : (keptChans f w)[k]? = some j) :
    fluxValue g (fluxRecOut f w r) k = fluxValue h r j := by
  have ha := fluxAt (f := f) hr
  unfold fluxValue
  by_cases hs : SnrAmpOk f r.fluxdata r.fluxerr j
  · have h1 := ha.fluxdata k j hk hs
    have h2 : SnrAmpOk g (fluxRecOut f w r).fluxdata (fluxRecOut f w r).fluxerr k ↔
        SnrAmpOk g r.fluxdata r.fluxerr j := by
      unfold SnrAmpOk
      rw [h1, atChans_eq ha.fluxerr hk]
    have h3 : SnrAmpOk h r.fluxdata r.fluxerr j ↔ SnrAmpOk g r.fluxdata r.fluxerr j := by
      rw [snrAmp_conj hc]
      exact ⟨fun x => x.2, fun x => ⟨hs, x⟩⟩
    by_cases hg : SnrAmpOk g r.fluxdata r.fluxerr j
    · rw [if_pos (h2.mpr hg), if_pos (h3.mpr hg), h1]
    · rw [if_neg (fun x => hg (h2.mp x)), if_neg (fun x => hg (h3.mp x))]
  · have h1 := ha.rejected k j hk hs
    have h3 : ¬ SnrAmpOk h r.fluxdata r.fluxerr j := by
      rw [snrAmp_conj hc]
      exact fun x => hs x.1
    rw [if_neg h3, h1, ite_self]

include hc hw in
theorem fluxRecOut_two {r : OiFluxRecord R} (hr : r.WF w.nwave) :
    fluxRecOut g (waveOut f w) (fluxRecOut f w r) = fluxRecOut h w r := by
  rw [show fluxRecOut g (waveOut f w) (fluxRecOut f w r) = { r with
      target_id := targetIdOut g (targetIdOut f r.target_id)
      fluxdata := (keptChans g (waveOut f w)).filterMap (fluxValue g (fluxRecOut f w r))
      fluxerr := pick (keptChans g (waveOut f w)) (pick (keptChans f w) r.fluxerr)
      flag := pick (keptChans g (waveOut f w)) (pick (keptChans f w) r.flag) } from rfl,
    targetIdOut_two hc, pick_chans hc hw hr.fluxerr, pick_chans hc hw hr.flag,
    filterMap_two (G := fluxValue h r) chans_lt (fun k j hk => fluxValue_two hc hr hk),
    chans_two hc hw]
  rfl

include hc hw in
theorem fluxRemains_two {t : OiFlux R} :
    (FluxRemains f w t ∧ FluxRemains g (waveOut f w) (fluxOut f w t)) ↔ FluxRemains h w t := by
  constructor
  · rintro ⟨a, b⟩
    obtain ⟨r', hr', hk'⟩ := b.record
    obtain ⟨r, h1, h2, rfl⟩ := mem_kept.mp hr'
    exact ⟨(names_two hc).mp ⟨a.names, b.names⟩, (chan_two hc hw).mp ⟨a.chan, b.chan⟩,
      r, h1, (fluxKept_two hc).mp ⟨h2, hk'⟩⟩
  · intro a
    have h1 := (names_two hc).mpr a.names
    have h2 := (chan_two hc hw).mpr a.chan
    obtain ⟨r, h3, h4⟩ := a.record
    have h5 := (fluxKept_two (w := w) hc).mpr h4
    exact ⟨⟨h1.1, h2.1, r, h3, h5.1⟩,
      ⟨h1.2, h2.2, _, mem_kept.mpr ⟨r, h3, h5.1, rfl⟩, h5.2⟩⟩

include hc hw in
theorem fluxOut_two {t : OiFlux R} (hwf : t.WF) (hn : w.nwave = t.nwave) :
    fluxOut g (waveOut f w) (fluxOut f w t) = fluxOut h w t := by
  have hrec : ((fluxOut f w t).record.filter fun r => decide (FluxKept g r)).map
      (fluxRecOut g (waveOut f w)) =
      (t.record.filter fun r => decide (FluxKept h r)).map (fluxRecOut h w) := by
    apply recs_two
    · intro r hr hp
      have := fluxKept_two (w := w) (r := r) hc
      exact ⟨fun hq => this.mp ⟨hp, hq⟩, fun hs => (this.mpr hs).2⟩
    · intro r hr hs
      exact ((fluxKept_two (w := w) hc).mpr hs).1
    · intro r hr _
      exact fluxRecOut_two hc hw (hn ▸ hwf.recs r hr)
  rw [show fluxOut g (waveOut f w) (fluxOut f w t) = { t with
    nwave := (keptChans g (waveOut f w)).length
    record := ((fluxOut f w t).record.filter fun r => decide (FluxKept g r)).map
      (fluxRecOut g (waveOut f w)) } from rfl, hrec, chans_length hc hw]
  rfl

end two

/-! ### The dataset -/

section dataset
variable {f g h : FilterSpec R} {oi a b : OiFits R}
variable (hc : Combines f g h) (hf : Filterable f oi) (ho : Filtered f oi a)
include hc hf ho

theorem visTables_two : visTables g a = visTables h oi := by
  unfold visTables
  rw [ho.vis, visTables, hc.accept_vis]
  cases ha : f.accept_vis with
  | false => simp
  | true =>
    cases g.accept_vis with
    | false => simp
    | true =>
      simp only [if_true, Bool.and_self]
      apply tables_two
      intro t ht
      cases hi : instTable oi t.insname with
      | none => rfl
      | some w =>
        have hw := instTable_wf hf.wf hi
        have hwf := hf.wf.vis t ht
        have hn := (hf.vis t ht w hi).2
        have h1 := visRemains_two hc hw hwf hn
        by_cases hr : VisRemains f w t
        · simp only [if_pos hr, Option.bind_some]
          rw [show (visOut f w t).insname = t.insname from rfl,
            (vis_inst hf ho ht hi hr ha).2.1]
          dsimp only
          rw [visOut_two hc hw hwf hn]
          by_cases hg : VisRemains g (waveOut f w) (visOut f w t)
          · rw [if_pos hg, if_pos (h1.mp ⟨hr, hg⟩)]
          · rw [if_neg hg, if_neg (fun x => hg (h1.mpr x).2)]
        · simp only [if_neg hr, if_neg (fun x => hr (h1.mpr x).1), Option.bind_none]

theorem vis2Tables_two : vis2Tables g a = vis2Tables h oi := by
  unfold vis2Tables
  rw [ho.vis2, vis2Tables, hc.accept_vis2]
  cases ha : f.accept_vis2 with
  | false => simp
  | true =>
    cases g.accept_vis2 with
    | false => simp
    | true =>
      simp only [if_true, Bool.and_self]
      apply tables_two
      intro t ht
      cases hi : instTable oi t.insname with
      | none => rfl
      | some w =>
        have hw := instTable_wf hf.wf hi
        have hwf := hf.wf.vis2 t ht
        have hn := (hf.vis2 t ht w hi).2
        have h1 := vis2Remains_two hc hw hwf hn
        by_cases hr : Vis2Remains f w t
        · simp only [if_pos hr, Option.bind_some]
          rw [show (vis2Out f w t).insname = t.insname from rfl,
            (vis2_inst hf ho ht hi hr ha).2.1]
          dsimp only
          rw [vis2Out_two hc hw hwf hn]
          by_cases hg : Vis2Remains g (waveOut f w) (vis2Out f w t)
          · rw [if_pos hg, if_pos (h1.mp ⟨hr, hg⟩)]
          · rw [if_neg hg, if_neg (fun x => hg (h1.mpr x).2)]
        · simp only [if_neg hr, if_neg (fun x => hr (h1.mpr x).1), Option.bind_none]

theorem t3Tables_two : t3Tables g a = t3Tables h oi := by
  unfold t3Tables
  rw [ho.t3, t3Tables, hc.accept_t3amp.1, hc.accept_t3amp.2, hc.accept_t3phi.1,
    hc.accept_t3phi.2]
  cases ha : (h.accept_t3amp || h.accept_t3phi) with
  | false => simp
  | true =>
    simp only [if_true]
    have ha' : f.accept_t3amp = true ∨ f.accept_t3phi = true := by
      rw [hc.accept_t3amp.1, hc.accept_t3phi.1]; simpa using ha
    apply tables_two
    intro t ht
    cases hi : instTable oi t.insname with
    | none => rfl
    | some w =>
      have hw := instTable_wf hf.wf hi
      have hwf := hf.wf.t3 t ht
      have hn := (hf.t3 t ht w hi).2
      have h1 := t3Remains_two hc hw hwf hn
      by_cases hr : T3Remains f w t
      · simp only [if_pos hr, Option.bind_some]
        rw [show (t3Out f w t).insname = t.insname from rfl,
          (t3_inst hf ho ht hi hr ha').2.1]
        dsimp only
        rw [t3Out_two hc hw hwf hn]
        by_cases hg : T3Remains g (waveOut f w) (t3Out f w t)
        · rw [if_pos hg, if_pos (h1.mp ⟨hr, hg⟩)]
        · rw [if_neg hg, if_neg (fun x => hg (h1.mpr x).2)]
      · simp only [if_neg hr, if_neg (fun x => hr (h1.mpr x).1), Option.bind_none]

theorem fluxTables_two : fluxTables g a = fluxTables h oi := by
  unfold fluxTables
  rw [ho.flux, fluxTables, hc.accept_flux]
  cases ha : f.accept_flux with
  | false => simp
  | true =>
    cases g.accept_flux with
    | false => simp
    | true =>
      simp only [if_true, Bool.and_self]
      apply tables_two
      intro t ht
      cases hi : instTable oi t.insname with
      | none => rfl
      | some w =>
        have hw := instTable_wf hf.wf hi
        have hwf := hf.wf.flux t ht
        have hn := hf.flux t ht w hi
        have h1 := fluxRemains_two (t := t) hc hw
        by_cases hr : FluxRemains f w t
        · simp only [if_pos hr, Option.bind_some]
          rw [show (fluxOut f w t).insname = t.insname from rfl,
            (flux_inst hf ho ht hi hr ha).2.1]
          dsimp only
          rw [fluxOut_two hc hw hwf hn]
          by_cases hg : FluxRemains g (waveOut f w) (fluxOut f w t)
          · rw [if_pos hg, if_pos (h1.mp ⟨hr, hg⟩)]
          · rw [if_neg hg, if_neg (fun x => hg (h1.mpr x).2)]
        · simp only [if_neg hr, if_neg (fun x => hr (h1.mpr x).1), Option.bind_none]

omit hc hf ho in
/-- What data of the filtered dataset refer to, data of the dataset refer to. -/
theorem referenced_mono {f : FilterSpec R} {oi a : OiFits R} (ho : Filtered f oi a) (n : CStr) :
    (ArrReferenced a n → ArrReferenced oi n) ∧ (InsReferenced a n → InsReferenced oi n) ∧
      (CorrReferenced a n → CorrReferenced oi n) := by
  have h1 : ∀ t' ∈ a.visList, ∃ t ∈ oi.visList, t.arrname = t'.arrname ∧
      t.insname = t'.insname ∧ t.corrname = t'.corrname := by
    intro t' ht'
    rw [ho.vis] at ht'
    obtain ⟨_, t, ht, w, _, _, rfl⟩ := mem_visTables.mp ht'
    exact ⟨t, ht, rfl, rfl, rfl⟩
  have h2 : ∀ t' ∈ a.vis2List, ∃ t ∈ oi.vis2List, t.arrname = t'.arrname ∧
      t.insname = t'.insname ∧ t.corrname = t'.corrname := by
    intro t' ht'
    rw [ho.vis2] at ht'
    obtain ⟨_, t, ht, w, _, _, rfl⟩ := mem_vis2Tables.mp ht'
    exact ⟨t, ht, rfl, rfl, rfl⟩
  have h3 : ∀ t' ∈ a.t3List, ∃ t ∈ oi.t3List, t.arrname = t'.arrname ∧
      t.insname = t'.insname ∧ t.corrname = t'.corrname := by
    intro t' ht'
    rw [ho.t3] at ht'
    obtain ⟨_, t, ht, w, _, _, rfl⟩ := mem_t3Tables.mp ht'
    exact ⟨t, ht, rfl, rfl, rfl⟩
  have h4 : ∀ t' ∈ a.fluxList, ∃ t ∈ oi.fluxList, t.arrname = t'.arrname ∧
      t.insname = t'.insname ∧ t.corrname = t'.corrname := by
    intro t' ht'
    rw [ho.flux] at ht'
    obtain ⟨_, t, ht, w, _, _, rfl⟩ := mem_fluxTables.mp ht'
    exact ⟨t, ht, rfl, rfl, rfl⟩
  refine ⟨?_, ?_, ?_⟩
  · rintro ⟨hn, ⟨t', h, rfl⟩ | ⟨t', h, rfl⟩ | ⟨t', h, rfl⟩ | ⟨t', h, rfl⟩⟩
    · obtain ⟨t, ht, e, _, _⟩ := h1 t' h; exact ⟨hn, Or.inl ⟨t, ht, e⟩⟩
    · obtain ⟨t, ht, e, _, _⟩ := h2 t' h; exact ⟨hn, Or.inr (Or.inl ⟨t, ht, e⟩)⟩
    · obtain ⟨t, ht, e, _, _⟩ := h3 t' h; exact ⟨hn, Or.inr (Or.inr (Or.inl ⟨t, ht, e⟩))⟩
    · obtain ⟨t, ht, e, _, _⟩ := h4 t' h; exact ⟨hn, Or.inr (Or.inr (Or.inr ⟨t, ht, e⟩))⟩
  · rintro (⟨t', h, rfl⟩ | ⟨t', h, rfl⟩ | ⟨t', h, rfl⟩ | ⟨t', h, rfl⟩)
    · obtain ⟨t, ht, _, e, _⟩ := h1 t' h; exact Or.inl ⟨t, ht, e⟩
    · obtain ⟨t, ht, _, e, _⟩ := h2 t' h; exact Or.inr (Or.inl ⟨t, ht, e⟩)
    · obtain ⟨t, ht, _, e, _⟩ := h3 t' h; exact Or.inr (Or.inr (Or.inl ⟨t, ht, e⟩))
    · obtain ⟨t, ht, _, e, _⟩ := h4 t' h; exact Or.inr (Or.inr (Or.inr ⟨t, ht, e⟩))
  · rintro ⟨hn, ⟨t', h, rfl⟩ | ⟨t', h, rfl⟩ | ⟨t', h, rfl⟩ | ⟨t', h, rfl⟩⟩
    · obtain ⟨t, ht, _, _, e⟩ := h1 t' h; exact ⟨hn, Or.inl ⟨t, ht, e⟩⟩
    · obtain ⟨t, ht, _, _, e⟩ := h2 t' h; exact ⟨hn, Or.inr (Or.inl ⟨t, ht, e⟩)⟩
    · obtain ⟨t, ht, _, _, e⟩ := h3 t' h; exact ⟨hn, Or.inr (Or.inr (Or.inl ⟨t, ht, e⟩))⟩
    · obtain ⟨t, ht, _, _, e⟩ := h4 t' h; exact ⟨hn, Or.inr (Or.inr (Or.inr ⟨t, ht, e⟩))⟩

end dataset

theorem targetsOut_two {f g h : FilterSpec R} (hc : Combines f g h) (t : OiTarget R) :
    targetsOut g (targetsOut f t) = targetsOut h t := by
  rcases hc.target with ⟨h1, h2⟩ | ⟨h1, h2⟩
  · rw [targetsOut, if_pos h1, targetsOut, targetsOut, h2]
  · rw [show targetsOut f t = t from by rw [targetsOut, if_pos h1], targetsOut, targetsOut, h2]

theorem targets_left {f : FilterSpec R} {oi : OiFits R} (hf : Filterable f oi)
    (ht : TargetThere f oi) : (targetsOut f oi.targets).targ ≠ [] := by
  unfold targetsOut
  by_cases h : f.target_id < 0
  · rw [if_pos h]
    exact hf.targets.resolve_left (by omega)
  · rw [if_neg h]
    obtain ⟨x, hx, he⟩ := ht.resolve_left h
    cases hm : oi.targets.targ.reverse.find? fun x => x.target_id == f.target_id with
    | some y => simp
    | none =>
      exact absurd he (by simpa using List.find?_eq_none.mp hm x (by simpa using hx))

theorem filter_two_pred {τ : Type} {l : List τ} {P Q S : τ → Prop}
    [DecidablePred P] [DecidablePred Q] [DecidablePred S]
    (h : ∀ t ∈ l, (P t ∧ Q t) ↔ S t) :
    ((l.filter fun t => decide (P t)).filter fun t => decide (Q t)) =
      l.filter fun t => decide (S t) := by
  rw [List.filter_filter]
  apply List.filter_congr
  intro t ht
  rw [Bool.eq_iff_iff]
  simp only [Bool.and_eq_true, decide_eq_true_eq]
  rw [← h t ht]
  tauto

/-- The filtered dataset can be filtered by another filter. -/
theorem out_filterable_two {f g : FilterSpec R} {oi a : OiFits R} (hf : Filterable f oi)
    (hun : ∀ t ∈ oi.inspolList, InspolUniform f oi t) (ho : Filtered f oi a)
    (hi : InspolFiltered f oi a) (ht : 0 ≤ g.target_id ∨ a.targets.targ ≠ []) :
    Filterable g a where
  wf := out_wf hf hun ho hi
  targets := ht
  unique := out_unique hf ho
  fits := by
    intro w hw
    rw [ho.wavelength] at hw
    obtain ⟨w0, hw0, _, rfl⟩ := mem_kept.mp hw
    exact hf.fits w0 hw0
  vis := by
    intro t' ht' w' hw'
    rw [ho.vis] at ht'
    obtain ⟨ha, t, ht, w, hw, hr, rfl⟩ := mem_visTables.mp ht'
    obtain ⟨_, h2, h3⟩ := vis_inst hf ho ht hw hr ha
    rw [show (visOut f w t).insname = t.insname from rfl] at hw' ⊢
    rw [h2] at hw'
    cases hw'
    exact ⟨h3, rfl⟩
  vis2 := by
    intro t' ht' w' hw'
    rw [ho.vis2] at ht'
    obtain ⟨ha, t, ht, w, hw, hr, rfl⟩ := mem_vis2Tables.mp ht'
    obtain ⟨_, h2, h3⟩ := vis2_inst hf ho ht hw hr ha
    rw [show (vis2Out f w t).insname = t.insname from rfl] at hw' ⊢
    rw [h2] at hw'
    cases hw'
    exact ⟨h3, rfl⟩
  t3 := by
    intro t' ht' w' hw'
    rw [ho.t3] at ht'
    obtain ⟨ha, t, ht, w, hw, hr, rfl⟩ := mem_t3Tables.mp ht'
    obtain ⟨_, h2, h3⟩ := t3_inst hf ho ht hw hr ha
    rw [show (t3Out f w t).insname = t.insname from rfl] at hw' ⊢
    rw [h2] at hw'
    cases hw'
    exact ⟨h3, rfl⟩
  flux := by
    intro t' ht' w' hw'
    rw [ho.flux] at ht'
    obtain ⟨ha, t, ht, w, hw, hr, rfl⟩ := mem_fluxTables.mp ht'
    obtain ⟨_, h2, h3⟩ := flux_inst hf ho ht hw hr ha
    rw [show (fluxOut f w t).insname = t.insname from rfl] at hw'
    rw [h2] at hw'
    cases hw'
    rfl

/-! ### OI_INSPOL -/

section inspol
variable {f g h : FilterSpec R} {oi a : OiFits R}
variable (hc : Combines f g h) (hf : Filterable f oi) (ho : Filtered f oi a)
include hc hf

theorem instChans_conj {n : CStr} (hne : instChans h oi n ≠ []) : instChans f oi n ≠ [] := by
  unfold instChans at hne ⊢
  cases hi : instTable oi n with
  | none => rw [hi] at hne; exact absurd rfl hne
  | some w =>
    rw [hi] at hne
    dsimp only at hne ⊢
    by_cases hg : Glob h.insname n
    · rw [if_pos hg] at hne
      rw [if_pos ((hc.insname n).mp hg).1]
      exact keptChans_ne_nil.mpr
        ((chan_two hc (instTable_wf hf.wf hi)).mpr (keptChans_ne_nil.mp hne)).1
    · rw [if_neg hg] at hne; exact absurd rfl hne

include ho

/-- The channels of an instrument that is still there. -/
theorem instChans_two {n : CStr} (hr : InsReferenced a n) (hne : instChans f oi n ≠ []) :
    pick (instChans g a n) (instChans f oi n) = instChans h oi n ∧
      (∀ k ∈ instChans g a n, k < (instChans f oi n).length) ∧
      ∀ w', instTable a n = some w' → w'.nwave = (instChans f oi n).length := by
  unfold instChans at hne ⊢
  cases hi : instTable oi n with
  | none => rw [hi] at hne; exact absurd rfl hne
  | some w =>
    rw [hi] at hne
    dsimp only at hne ⊢
    by_cases hg : Glob f.insname n
    · rw [if_pos hg] at hne ⊢
      obtain ⟨_, h2, _⟩ := out_wave hf ho hi hg (keptChans_ne_nil.mp hne) hr
      rw [h2]
      dsimp only
      refine ⟨?_, ?_, ?_⟩
      · by_cases hg2 : Glob g.insname n
        · rw [if_pos hg2, if_pos ((hc.insname n).mpr ⟨hg, hg2⟩)]
          exact chans_two hc (instTable_wf hf.wf hi)
        · rw [if_neg hg2, if_neg (fun x => hg2 ((hc.insname n).mp x).2)]
          rfl
      · by_cases hg2 : Glob g.insname n
        · rw [if_pos hg2]; exact chans_lt
        · rw [if_neg hg2]; intro k hk; cases hk
      · rintro w' ⟨⟩
        rfl
    · rw [if_neg hg] at hne; exact absurd rfl hne

theorem instChans_two_length {n : CStr} (hr : InsReferenced a n) (hne : instChans f oi n ≠ []) :
    (instChans g a n).length = (instChans h oi n).length := by
  obtain ⟨h1, h2, _⟩ := instChans_two hc hf ho hr hne
  rw [← h1, pick_length h2]

theorem inspolKept_two {r : OiInspolRecord R}
    (hr : InspolKept f oi r → InsReferenced a r.insname) :
    (InspolKept f oi r ∧ InspolKept g a (inspolRecOut f oi r)) ↔ InspolKept h oi r := by
  have hv : (R.lt r.mjd_end h.mjd_range.1 = false ∧ R.lt h.mjd_range.2 r.mjd_obs = false) ↔
      (R.lt r.mjd_end f.mjd_range.1 = false ∧ R.lt f.mjd_range.2 r.mjd_obs = false) ∧
      (R.lt r.mjd_end g.mjd_range.1 = false ∧ R.lt g.mjd_range.2 r.mjd_obs = false) := by
    rw [hc.mjd_from, hc.mjd_to]
    tauto
  constructor
  · rintro ⟨p, q⟩
    refine ⟨(targetOk_two hc).mp ⟨p.target, q.target⟩, hv.mpr ⟨p.mjd, q.mjd⟩, ?_⟩
    have hl := instChans_two_length hc hf ho (hr p) p.chan
    intro hn
    rw [hn] at hl
    exact q.chan (List.length_eq_zero_iff.mp hl)
  · intro p
    have h1 := (targetOk_two hc).mpr p.target
    have h2 := hv.mp p.mjd
    have h3 := instChans_conj hc hf p.chan
    have hp : InspolKept f oi r := ⟨h1.1, h2.1, h3⟩
    refine ⟨hp, h1.2, h2.2, ?_⟩
    have hl := instChans_two_length hc hf ho (hr hp) h3
    intro hn
    have hn : instChans g a r.insname = [] := hn
    rw [hn] at hl
    exact p.chan (List.length_eq_zero_iff.mp hl.symm)

theorem inspolRecOut_two {r : OiInspolRecord R} {n : Nat} (hwf : r.WF n)
    (hlt : ∀ j ∈ instChans f oi r.insname, j < n) (hk : InspolKept f oi r)
    (hr : InsReferenced a r.insname) :
    inspolRecOut g a (inspolRecOut f oi r) = inspolRecOut h oi r := by
  obtain ⟨h1, h2, _⟩ := instChans_two hc hf ho hr hk.chan
  rw [show inspolRecOut g a (inspolRecOut f oi r) = { r with
      target_id := targetIdOut g (targetIdOut f r.target_id)
      jxx := pick (instChans g a r.insname) (pick (instChans f oi r.insname) r.jxx)
      jyy := pick (instChans g a r.insname) (pick (instChans f oi r.insname) r.jyy)
      jxy := pick (instChans g a r.insname) (pick (instChans f oi r.insname) r.jxy)
      jyx := pick (instChans g a r.insname) (pick (instChans f oi r.insname) r.jyx) } from rfl,
    pick_two h2 (hwf.jxx.symm ▸ hlt), pick_two h2 (hwf.jyy.symm ▸ hlt),
    pick_two h2 (hwf.jxy.symm ▸ hlt), pick_two h2 (hwf.jyx.symm ▸ hlt), h1,
    targetIdOut_two hc]
  rfl

variable (hobs : InspolObserved f oi a)
include hobs

theorem inspolRecs_two {t : OiInspol R} (hm : t ∈ oi.inspolList) :
    inspolRecs g a (inspolOut f oi t) = (inspolRecs h oi t).map (inspolRecOut f oi) := by
  have key := fun r (hr : r ∈ t.record) =>
    inspolKept_two hc hf ho (hobs t hm r hr)
  have := recs_two (l := t.record) (P := fun r => InspolKept f oi r)
    (Q := fun r => InspolKept g a r) (S := fun r => InspolKept h oi r)
    (c := inspolRecOut f oi) (d := id) (e := inspolRecOut f oi)
    (fun r hr hp => ⟨fun hq => (key r hr).mp ⟨hp, hq⟩, fun hs => ((key r hr).mpr hs).2⟩)
    (fun r hr hs => ((key r hr).mpr hs).1) (fun _ _ _ => rfl)
  rw [List.map_id] at this
  exact this

theorem inspolRemains_two {t : OiInspol R} (hm : t ∈ oi.inspolList) :
    (InspolRemains f oi t ∧ InspolRemains g a (inspolOut f oi t)) ↔ InspolRemains h oi t := by
  have key := fun r (hr : r ∈ t.record) =>
    inspolKept_two hc hf ho (hobs t hm r hr)
  constructor
  · rintro ⟨p, q⟩
    obtain ⟨r', hr', hk'⟩ := q.record
    obtain ⟨r, hr, rfl⟩ := List.mem_map.mp hr'
    obtain ⟨h1, h2⟩ := mem_inspolRecs.mp hr
    exact ⟨(hc.arrname _).mpr ⟨p.name, q.name⟩, r, h1, (key r h1).mp ⟨h2, hk'⟩⟩
  · intro p
    obtain ⟨r, h1, h2⟩ := p.record
    have h3 := (hc.arrname _).mp p.name
    have h4 := (key r h1).mpr h2
    exact ⟨⟨h3.1, r, h1, h4.1⟩,
      ⟨h3.2, _, List.mem_map_of_mem (mem_inspolRecs.mpr ⟨h1, h4.1⟩), h4.2⟩⟩

theorem inspolOut_two {t : OiInspol R} (hm : t ∈ oi.inspolList) (hun : InspolUniform f oi t)
    (hr : InspolRemains h oi t) :
    inspolOut g a (inspolOut f oi t) = inspolOut h oi t := by
  have key := fun r (hr : r ∈ t.record) =>
    inspolKept_two hc hf ho (hobs t hm r hr)
  have hrecs := inspolRecs_two hc hf ho hobs hm
  have hrec : (inspolOut g a (inspolOut f oi t)).record = (inspolOut h oi t).record := by
    show (inspolRecs g a (inspolOut f oi t)).map (inspolRecOut g a) =
      (inspolRecs h oi t).map (inspolRecOut h oi)
    rw [hrecs, List.map_map]
    apply List.map_congr_left
    intro r hr
    obtain ⟨h1, h2⟩ := mem_inspolRecs.mp hr
    have h3 := ((key r h1).mpr h2).1
    exact inspolRecOut_two hc hf ho ((hf.wf.inspol t hm).recs r h1)
      (instChans_lt hun (mem_inspolRecs.mpr ⟨h1, h3⟩)) h3 (hobs t hm r h1 h3)
  have hnw : (inspolOut g a (inspolOut f oi t)).nwave = (inspolOut h oi t).nwave := by
    show (match inspolRecs g a (inspolOut f oi t) with
      | [] => (inspolOut f oi t).nwave
      | r :: _ => (instChans g a r.insname).length) =
      (match inspolRecs h oi t with
      | [] => t.nwave
      | r :: _ => (instChans h oi r.insname).length)
    rw [hrecs]
    cases hl : inspolRecs h oi t with
    | nil =>
      obtain ⟨r, h1, h2⟩ := hr.record
      have : r ∈ inspolRecs h oi t := mem_inspolRecs.mpr ⟨h1, h2⟩
      rw [hl] at this; cases this
    | cons r rs =>
      have hmem : r ∈ inspolRecs h oi t := by rw [hl]; simp
      obtain ⟨h1, h2⟩ := mem_inspolRecs.mp hmem
      have h3 := ((key r h1).mpr h2).1
      exact instChans_two_length hc hf ho (hobs t hm r h1 h3) h3.chan
  rw [show inspolOut g a (inspolOut f oi t) = { t with
      nwave := (inspolOut g a (inspolOut f oi t)).nwave
      record := (inspolOut g a (inspolOut f oi t)).record } from rfl, hnw, hrec]
  rfl

theorem inspolUniform_two {t : OiInspol R} (hm : t ∈ oi.inspolList)
    (hun : InspolUniform f oi t) (hunh : InspolUniform h oi t) :
    InspolUniform g a (inspolOut f oi t) := by
  have key := fun r (hr : r ∈ t.record) =>
    inspolKept_two hc hf ho (hobs t hm r hr)
  unfold InspolUniform
  rw [inspolRecs_two hc hf ho hobs hm]
  intro r' hr'
  obtain ⟨r, hr, rfl⟩ := List.mem_map.mp hr'
  obtain ⟨h1, h2⟩ := mem_inspolRecs.mp hr
  have h3 := ((key r h1).mpr h2).1
  constructor
  · intro w' hw'
    rw [inspolOut_nwave hun (mem_inspolRecs.mpr ⟨h1, h3⟩)]
    exact (instChans_two hc hf ho (hobs t hm r h1 h3) h3.chan).2.2 w' hw'
  · intro q' hq'
    obtain ⟨q, hq, rfl⟩ := List.mem_map.mp hq'
    obtain ⟨g1, g2⟩ := mem_inspolRecs.mp hq
    have g3 := ((key q g1).mpr g2).1
    show (instChans g a q.insname).length = (instChans g a r.insname).length
    rw [instChans_two_length hc hf ho (hobs t hm r h1 h3) h3.chan,
      instChans_two_length hc hf ho (hobs t hm q g1 g3) g3.chan]
    exact (hunh r hr).2 q hq

end inspol

/-- Filtering by one filter and then another is filtering by the filter that combines them. -/
theorem filter_two {f g h : FilterSpec R} {oi a : OiFits R} (hc : Combines f g h)
    (hf : Filterable f oi) (ht : TargetThere f oi)
    (hunf : ∀ t ∈ oi.inspolList, InspolUniform f oi t)
    (hunh : ∀ t ∈ oi.inspolList, InspolUniform h oi t)
    (ea : apply_oi_filter oi f = .ok a) (hobs : InspolObserved f oi a) :
    ∃ b c, apply_oi_filter a g = .ok b ∧ apply_oi_filter oi h = .ok c ∧ SameContents b c := by
  obtain ⟨a', ea', ha, hia⟩ := apply_oi_filter_ok hf hunf
  rw [ea] at ea'
  cases ea'
  have htl : a.targets.targ ≠ [] := by rw [ha.targets]; exact targets_left hf ht
  have hg : Filterable g a := out_filterable_two hf hunf ha hia (Or.inr htl)
  obtain ⟨b, eb, hb, hib⟩ := apply_oi_filter_ok hg (by
    intro t' ht'
    obtain ⟨t, htm, _, _, rfl⟩ := inspol_mem hia ht'
    exact inspolUniform_two hc hf ha hobs htm (hunf t htm) (hunh t htm))
  have hh : Filterable h oi := by
    refine ⟨hf.wf, ?_, hf.unique, hf.fits, hf.vis, hf.vis2, hf.t3, hf.flux⟩
    right
    rcases ht with h1 | ⟨x, hx, _⟩
    · exact hf.targets.resolve_left (by omega)
    · exact List.ne_nil_of_mem hx
  obtain ⟨c, ec, hcc, hic⟩ := apply_oi_filter_ok hh hunh
  refine ⟨b, c, eb, ec, ?_⟩
  have e1 : b.visList = c.visList := by rw [hb.vis, hcc.vis, visTables_two hc hf ha]
  have e2 : b.vis2List = c.vis2List := by rw [hb.vis2, hcc.vis2, vis2Tables_two hc hf ha]
  have e3 : b.t3List = c.t3List := by rw [hb.t3, hcc.t3, t3Tables_two hc hf ha]
  have e4 : b.fluxList = c.fluxList := by rw [hb.flux, hcc.flux, fluxTables_two hc hf ha]
  have href := referenced_congr e1 e2 e3 e4
  have hmono := referenced_mono hb
  have harr : b.arrayList = c.arrayList := by
    rw [hb.array, ha.array, hcc.array]
    apply filter_two_pred
    intro t _
    rw [hc.arrname, ← (href _).1]
    have := (hmono t.arrname).1
    tauto
  have hcor : b.corrList = c.corrList := by
    rw [hb.corr, ha.corr, hcc.corr]
    apply filter_two_pred
    intro t _
    rw [hc.corrname, ← (href _).2.2]
    have := (hmono t.corrname).2.2
    tauto
  have hwav : b.wavelengthList = c.wavelengthList := by
    rw [hb.wavelength, ha.wavelength, hcc.wavelength]
    have key : ∀ w ∈ oi.wavelengthList, ((WaveRemains f w ∧ InsReferenced a w.insname) ∧
        (WaveRemains g (waveOut f w) ∧ InsReferenced b (waveOut f w).insname)) ↔
        (WaveRemains h w ∧ InsReferenced c w.insname) := by
      intro w hw
      have h1 := chan_two hc (hf.wf.wavelength w hw)
      have h2 := (hmono w.insname).2.1
      have h3 := hc.insname w.insname
      constructor
      · rintro ⟨⟨p1, p2⟩, ⟨q1, q2⟩⟩
        exact ⟨⟨h3.mpr ⟨p1.name, q1.name⟩, h1.mp ⟨p1.chan, q1.chan⟩⟩, (href _).2.1.mp q2⟩
      · rintro ⟨p1, p2⟩
        have p2 := (href _).2.1.mpr p2
        have h4 := h3.mp p1.name
        have h5 := h1.mpr p1.chan
        exact ⟨⟨⟨h4.1, h5.1⟩, h2 p2⟩, ⟨⟨h4.2, h5.2⟩, p2⟩⟩
    apply recs_two
    · intro w hw hp
      exact ⟨fun hq => (key w hw).mp ⟨hp, hq⟩, fun hs => ((key w hw).mpr hs).2⟩
    · intro w hw hs
      exact ((key w hw).mpr hs).1
    · intro w hw _
      exact waveOut_two hc (hf.wf.wavelength w hw)
  have hins : b.inspolList = c.inspolList := by
    rw [hib, hia, hic]
    have key : ∀ t ∈ oi.inspolList, ((InspolRemains f oi t ∧ ArrReferenced a t.arrname) ∧
        (InspolRemains g a (inspolOut f oi t) ∧
          ArrReferenced b (inspolOut f oi t).arrname)) ↔
        (InspolRemains h oi t ∧ ArrReferenced c t.arrname) := by
      intro t htm
      have h1 := inspolRemains_two hc hf ha hobs htm
      have h2 := (hmono t.arrname).1
      constructor
      · rintro ⟨⟨p1, p2⟩, ⟨q1, q2⟩⟩
        exact ⟨h1.mp ⟨p1, q1⟩, (href _).1.mp q2⟩
      · rintro ⟨p1, p2⟩
        have p2 := (href _).1.mpr p2
        have h4 := h1.mpr p1
        exact ⟨⟨h4.1, h2 p2⟩, ⟨h4.2, p2⟩⟩
    apply recs_two
    · intro t htm hp
      exact ⟨fun hq => (key t htm).mp ⟨hp, hq⟩, fun hs => ((key t htm).mpr hs).2⟩
    · intro t htm hs
      exact ((key t htm).mpr hs).1
    · intro t htm hs
      exact inspolOut_two hc hf ha hobs htm (hunf t htm) hs.1
  refine ⟨?_, ?_, harr, hwav, hcor, hins, e1, e2, e3, e4, ⟨hb.counts, hcc.counts⟩, ?_, ?_, ?_⟩
  · rw [hb.header, ha.header, hcc.header]
  · rw [hb.targets, ha.targets, hcc.targets, targetsOut_two hc]
  · intro n; rw [hb.arrayLookup, hcc.arrayLookup, harr]
  · intro n; rw [hb.waveLookup, hcc.waveLookup, hwav]
  · intro n; rw [hb.corrLookup, hcc.corrLookup, hcor]

end Verif
