import Verif.Proof.FilterAgain
import Verif.Proof.FilterIter
import Verif.Spec.FilterAll

/-! Lemmas: a filter which everything meets. -/

namespace Verif
open Outcome Spec
variable {R : FP} {f : FilterSpec R} {oi out : OiFits R}

theorem unflagged_chan {fl : List Bool} {n : Nat} (hl : fl.length = n) (h : f.accept_flagged = true ∨ false ∈ fl)
    {P : Nat → Prop} (hp : ∀ j, j < n → fl[j]? = some true ∨ P j) {ks : List Nat} (hk : ks = List.range n) :
    f.accept_flagged = true ∨ ∃ j ∈ ks, fl[j]? = some false ∧ P j := by
  refine h.imp id fun h => ?_
  obtain ⟨j, hj, e⟩ := List.mem_iff_getElem.mp h
  have e' : fl[j]? = some false := by rw [List.getElem?_eq_getElem hj, e]
  refine ⟨j, by rw [hk]; exact List.mem_range.mpr (hl ▸ hj), e', ?_⟩
  rcases hp j (hl ▸ hj) with h | h
  · rw [e'] at h; cases h
  · exact h

theorem accept_or {τ : Type} {l : List τ} {b : Bool} (h : ∀ t ∈ l, b = true) : b = true ∨ l = [] := by
  cases l with
  | nil => exact .inr rfl
  | cons t l => exact .inl (h t (List.mem_cons_self ..))

open Classical in
theorem filtered_all (ha : AllMeet f oi) (hf : Filterable f oi) (ho : Filtered f oi out) : SameButOrphans oi out := by
  have hin := ha.ranges
  have hneg := ha.target
  have h1 : out.visList = oi.visList := by
    rw [ho.vis]
    apply visTables_fix (accept_or fun t ht => (ha.vis t ht).1)
    intro t ht
    obtain ⟨-, hnames, hfl⟩ := ha.vis t ht
    obtain ⟨w, hw, hwo, hr⟩ := hin.vis t ht
    have hn := (hf.vis t ht w hw).2
    have hwf := hf.wf.vis t ht
    have hks := keptChans_all hwo
    have hk : ∀ r ∈ t.record, VisKept f w r := fun r h =>
      ⟨Or.inl hneg, (hr r h).1, (hr r h).2.1,
        unflagged_chan ((hwf.recs r h).flag.trans hn.symm) (hfl.imp id fun h' => h' r h) (hr r h).2.2 hks⟩
    refine ⟨w, hw, ⟨hnames, ⟨0, ?_, hwo 0 ?_⟩, ?_⟩, ?_⟩
    · rw [hn]; exact Nat.pos_of_ne_zero hwf.chans
    · rw [hn]; exact Nat.pos_of_ne_zero hwf.chans
    · obtain ⟨r, hr⟩ := List.exists_mem_of_ne_nil _ hwf.rows
      exact ⟨r, hr, hk r hr⟩
    · unfold visOut
      rw [recs_full hk (fun r h => visRecOut_full hks hneg (hn ▸ hwf.recs r h) (hr r h).2.2), hks,
        List.length_range, hn]
  have h2 : out.vis2List = oi.vis2List := by
    rw [ho.vis2]
    apply vis2Tables_fix (accept_or fun t ht => (ha.vis2 t ht).1)
    intro t ht
    obtain ⟨-, hnames, hfl⟩ := ha.vis2 t ht
    obtain ⟨w, hw, hwo, hr⟩ := hin.vis2 t ht
    have hn := (hf.vis2 t ht w hw).2
    have hwf := hf.wf.vis2 t ht
    have hks := keptChans_all hwo
    have hk : ∀ r ∈ t.record, Vis2Kept f w r := fun r h =>
      ⟨Or.inl hneg, (hr r h).1, (hr r h).2.1,
        unflagged_chan ((hwf.recs r h).flag.trans hn.symm) (hfl.imp id fun h' => h' r h) (hr r h).2.2 hks⟩
    refine ⟨w, hw, ⟨hnames, ⟨0, ?_, hwo 0 ?_⟩, ?_⟩, ?_⟩
    · rw [hn]; exact Nat.pos_of_ne_zero hwf.chans
    · rw [hn]; exact Nat.pos_of_ne_zero hwf.chans
    · obtain ⟨r, hr⟩ := List.exists_mem_of_ne_nil _ hwf.rows
      exact ⟨r, hr, hk r hr⟩
    · unfold vis2Out
      rw [recs_full hk (fun r h => vis2RecOut_full hks hneg (hn ▸ hwf.recs r h) (hr r h).2.2), hks,
        List.length_range, hn]
  have h3 : out.t3List = oi.t3List := by
    rw [ho.t3]
    apply t3Tables_fix (accept_or fun t ht => by rw [(ha.t3 t ht).1]; rfl)
    intro t ht
    obtain ⟨ha1, ha2, hnames, hfl⟩ := ha.t3 t ht
    obtain ⟨w, hw, hwo, hr⟩ := hin.t3 t ht
    have hn := (hf.t3 t ht w hw).2
    have hwf := hf.wf.t3 t ht
    have hks := keptChans_all hwo
    have hk : ∀ r ∈ t.record, T3Kept f w r := fun r h =>
      ⟨Or.inl hneg, (hr r h).1, (hr r h).2.1, (hr r h).2.2.1, (hr r h).2.2.2.1,
        unflagged_chan ((hwf.recs r h).flag.trans hn.symm) (hfl.imp id fun h' => h' r h) (hr r h).2.2.2.2 hks⟩
    refine ⟨w, hw, ⟨hnames, ⟨0, ?_, hwo 0 ?_⟩, ?_⟩, ?_⟩
    · rw [hn]; exact Nat.pos_of_ne_zero hwf.chans
    · rw [hn]; exact Nat.pos_of_ne_zero hwf.chans
    · obtain ⟨r, hr⟩ := List.exists_mem_of_ne_nil _ hwf.rows
      exact ⟨r, hr, hk r hr⟩
    · unfold t3Out
      rw [recs_full hk (fun r h => t3RecOut_full hks hneg (hn ▸ hwf.recs r h) (Or.inl ha1)
        (Or.inl ha2) (hr r h).2.2.2.2), hks, List.length_range, hn]
  have h4 : out.fluxList = oi.fluxList := by
    rw [ho.flux]
    apply fluxTables_fix (accept_or fun t ht => (ha.flux t ht).1)
    intro t ht
    obtain ⟨-, hnames⟩ := ha.flux t ht
    obtain ⟨w, hw, hwo, hr⟩ := hin.flux t ht
    have hn := hf.flux t ht w hw
    have hwf := hf.wf.flux t ht
    have hk : ∀ r ∈ t.record, FluxKept f r := fun r h =>
      ⟨Or.inl hneg, (hr r h).1⟩
    have hks := keptChans_all hwo
    refine ⟨w, hw, ⟨hnames, ⟨0, ?_, hwo 0 ?_⟩, ?_⟩, ?_⟩
    · rw [hn]; exact Nat.pos_of_ne_zero hwf.chans
    · rw [hn]; exact Nat.pos_of_ne_zero hwf.chans
    · obtain ⟨r, hr⟩ := List.exists_mem_of_ne_nil _ hwf.rows
      exact ⟨r, hr, hk r hr⟩
    · unfold fluxOut
      rw [recs_full hk (fun r h => fluxRecOut_full hks hneg (hn ▸ hwf.recs r h) (hr r h).2), hks,
        List.length_range, hn]
  have href := referenced_congr h1 h2 h3 h4
  have hna : (∀ n, ArrReferenced oi n → Glob f.arrname n) ∧ (∀ n, InsReferenced oi n → Glob f.insname n) ∧
      (∀ n, CorrReferenced oi n → Glob f.corrname n) := by
    refine ⟨?_, ?_, ?_⟩
    · rintro n ⟨-, ⟨t, ht, rfl⟩ | ⟨t, ht, rfl⟩ | ⟨t, ht, rfl⟩ | ⟨t, ht, rfl⟩⟩
      exacts [(ha.vis t ht).2.1.1, (ha.vis2 t ht).2.1.1, (ha.t3 t ht).2.2.1.1, (ha.flux t ht).2.1]
    · rintro n (⟨t, ht, rfl⟩ | ⟨t, ht, rfl⟩ | ⟨t, ht, rfl⟩ | ⟨t, ht, rfl⟩)
      exacts [(ha.vis t ht).2.1.2.1, (ha.vis2 t ht).2.1.2.1, (ha.t3 t ht).2.2.1.2.1, (ha.flux t ht).2.2.1]
    · rintro n ⟨-, ⟨t, ht, rfl⟩ | ⟨t, ht, rfl⟩ | ⟨t, ht, rfl⟩ | ⟨t, ht, rfl⟩⟩
      exacts [(ha.vis t ht).2.1.2.2, (ha.vis2 t ht).2.1.2.2, (ha.t3 t ht).2.2.1.2.2, (ha.flux t ht).2.2.2]
  refine ⟨ho.header, by rw [ho.targets, targetsOut, if_pos hneg], h1, h2, h3, h4, ?_, ?_, ?_⟩
  · rw [ho.array]
    apply List.filter_congr
    intro t _
    simp only [decide_eq_decide, (href _).1]
    exact ⟨fun h => h.2, fun h => ⟨hna.1 _ h, h⟩⟩
  · rw [ho.corr]
    apply List.filter_congr
    intro t _
    simp only [decide_eq_decide, (href _).2.2]
    exact ⟨fun h => h.2, fun h => ⟨hna.2.2 _ h, h⟩⟩
  · rw [ho.wavelength]
    have hwave : ∀ w ∈ oi.wavelengthList, InsReferenced oi w.insname →
        ∀ j, j < w.nwave → WaveOk f w j := by
      intro w hw hr
      have hi : instTable oi w.insname = some w := find_unique hf.unique hw
      rcases hr with ⟨t, ht, e⟩ | ⟨t, ht, e⟩ | ⟨t, ht, e⟩ | ⟨t, ht, e⟩
      · obtain ⟨w', h', hwo, _⟩ := hin.vis t ht
        rw [e, hi] at h'; cases h'; exact hwo
      · obtain ⟨w', h', hwo, _⟩ := hin.vis2 t ht
        rw [e, hi] at h'; cases h'; exact hwo
      · obtain ⟨w', h', hwo, _⟩ := hin.t3 t ht
        rw [e, hi] at h'; cases h'; exact hwo
      · obtain ⟨w', h', hwo, _⟩ := hin.flux t ht
        rw [e, hi] at h'; cases h'; exact hwo
    rw [map_id_of]
    · apply List.filter_congr
      intro w hw
      simp only [decide_eq_decide, (href _).2.1]
      refine ⟨fun h => h.2, fun h => ⟨⟨hna.2.1 _ h, 0, ?_, hwave w hw h 0 ?_⟩, h⟩⟩
      · exact Nat.pos_of_ne_zero (hf.wf.wavelength w hw).chans
      · exact Nat.pos_of_ne_zero (hf.wf.wavelength w hw).chans
    · intro w hw
      obtain ⟨hm, hw⟩ := List.mem_filter.mp hw
      simp only [decide_eq_true_eq] at hw
      exact waveOut_full (hf.wf.wavelength w hm)
        (keptChans_all (hwave w hm ((href _).2.1.mp hw.2)))


end Verif
