import Verif.Proof.FilterMergeFile
import Verif.Props.Again

/-! C109: files filtered and merged in either order. -/

set_option Elab.async false

namespace Verif
open Outcome Spec

variable {R : FP}

section
variable {u u' : Undef R} {fs : Files R} {today today' prog mid outA outB : CStr} {removable : CStr → Bool}
  {opts : List (FilterOpt R)} {j₁ j₂ : CStr × CStr} {more : List (CStr × CStr)} {ois : List (OiFits R)}

/-- The first way: files are merged with oifits-merge, and the output is filtered with oifits-filter. -/
theorem C109_merge_filter_partial (h : Pairwise₂ (Holds u fs) ((j₁ :: j₂ :: more).map (·.1)) ois) (hu : Usable ois)
    (hn : Nameless (userFilter opts)) (hm : PlainName mid) (ho : PlainName outA) (hx : fs mid = none) (hx' : fs outA = none)
    (hne : outA ≠ mid) :
    let r := (oifits_merge u today (prog :: mid :: (j₁ :: j₂ :: more).map (·.1))).run fs
    let r' := (oifits_filter u' today' removable (.args opts false [prog, mid, outA])).run r.files
    r.exit = .code 0 ∧ r'.exit = .code 0 ∧ ∀ u₁, ∃ x, Holds u₁ r'.files outA x ∧
      AcceptedOfAll { userFilter opts with accept_flagged := false } ois x := by
  have hw : ∀ oi ∈ ois, oi.WF := fun oi hoi => by
    obtain ⟨_, -, h⟩ := pairwise₂_mem_right h hoi
    exact h.wf
  have hf : ∀ oi ∈ ois, Filterable (userFilter opts) oi := fun oi hoi => by
    obtain ⟨_, -, h⟩ := pairwise₂_mem_right h hoi
    exact filterable_of_holds h (hu.channels oi hoi) (hu.storable oi hoi).targets.rows
  have hg := usable_together hu hf
  have hne' : ois ≠ [] := by rintro rfl; cases h.1
  have hnf : Nameless { userFilter opts with accept_flagged := false } := ⟨hn.names, hn.target⟩
  obtain ⟨-, hd⟩ := C104_merge_partial (today := today) (prog := prog) h hm.plain hu.storable hu.resolve hu.few hu.dates hx
    hu.joinable hnf
  obtain ⟨h1, m, h2, h3⟩ := C73_merge (today := today) (prog := prog) h hm.plain hu.storable hu.resolve hu.few hu.dates hx
  have hfm := merged_filterable hne' hn.target hg h2
  have him := merged_instruments hg h2
  have hsm := merge_storable hne' hw hu.storable hu.few h2
  have hse := merged_settled hw hu.settled hu.joinable h2
  have hre := merged_references hw hu.joinable h2
  have hin : m.inspolList = [] := by
    obtain ⟨mjd, st, sa, si, sc, as, is, cs, hf⟩ := merge_full h2
    obtain ⟨d1, -⟩ := hf.data _ _ _ hf.ah hf.ih hf.ch
    cases hl : m.inspolList with
    | nil => rfl
    | cons t l =>
      obtain ⟨⟨inp, t⟩, hp, -⟩ := forall₂_right d1 (by rw [hl]; exact List.mem_cons_self ..)
      obtain ⟨k1, k2⟩ := mem_tablesOf hp
      rw [hu.inspol _ k1] at k2
      cases k2
  intro r r'
  obtain ⟨x, hx1, hx2⟩ := h3 u'
  obtain ⟨x₀, hx3, hx4⟩ := hd u'
  obtain rfl : x₀ = x := holds_unique hx3 hx1
  have hfx := saved_filterable (f := userFilter opts) hfm hsm.targets.rows hre.names hx2 hx1
  have hsx : x₀.Storable := storable_again hsm hse hx1.wf hx2.targets hx2.array hx2.inspol hx2.vis hx2.vis2 hx2.t3 hx2.flux
  have hxo : r.files outA = none := by
    have e : r.files = fs.set mid (r.files mid) := by
      obtain ⟨m', e⟩ := merge_ok hw hu.resolve hu.few hu.dates
      rw [h2] at e
      cases e
      have := C71_run (today := today) (prog := prog) h hm.plain h2 (write_oi_fits_eq today _ hsm) hx
      show (Prog.run _ _).files = _
      rw [show r = _ from this]
      simp only [List.map_cons] at this ⊢
      rw [this]
      show fs.set _ _ = fs.set _ (fs.set _ _ _)
      rw [set_same]
    rw [e]
    unfold Files.set
    rw [if_neg hne]
    exact hx'
  obtain ⟨out, hdus, hw', er, hfile⟩ := filter_run (today := today') (prog := prog) (removable := removable) hx1 hm.short ho hfx
    hsx (by rw [hx2.inspol, hin]; rfl) hn.target hxo
  replace er : r' = _ := er
  refine ⟨h1, by rw [er], fun u₁ => ?_⟩
  obtain ⟨y, hy1, hy2⟩ := hfile r'.files (by rw [er]; exact set_same _ _ _) u₁
  refine ⟨y, hy1, accepted_after hx4 ?_⟩
  exact fromFiltered_accepted hfx hn.target (saved_held hx2) (saved_colText hre.targets hx2)
    (saved_instruments hre.names him hx2) ⟨⟨out, hw', hy2⟩, ⟨outA, hy1⟩⟩

/-- The second way: each file is filtered with oifits-filter, and the outputs are merged with oifits-merge. -/
theorem C109_filter_merge_partial (h : Pairwise₂ (Holds u fs) ((j₁ :: j₂ :: more).map (·.1)) ois) (hu : Usable ois)
    (hn : Nameless (userFilter opts))
    (hj : ∀ j ∈ j₁ :: j₂ :: more, j.1.length < FLEN_FILENAME ∧ PlainName j.2 ∧ fs j.2 = none)
    (hd : ((j₁ :: j₂ :: more).map (·.2)).Nodup) (ho : outB.head? ≠ some '!') (hx : fs outB = none)
    (hne : outB ∉ (j₁ :: j₂ :: more).map (·.2)) :
    let q := runAll (filterRuns u today prog removable opts (j₁ :: j₂ :: more)) fs
    let r := (oifits_merge u' today' (prog :: outB :: (j₁ :: j₂ :: more).map (·.2))).run q.2
    (∀ e ∈ q.1, e = .code 0) ∧ r.exit = .code 0 ∧ ∀ u₁, ∃ x, Holds u₁ r.files outB x ∧
      AcceptedOfAll { userFilter opts with accept_flagged := false } ois x := by
  have hf : ∀ oi ∈ ois, Filterable (userFilter opts) oi := fun oi hoi => by
    obtain ⟨_, -, h⟩ := pairwise₂_mem_right h hoi
    exact filterable_of_holds h (hu.channels oi hoi) (hu.storable oi hoi).targets.rows
  have hnf : Nameless { userFilter opts with accept_flagged := false } := ⟨hn.names, hn.target⟩
  obtain ⟨h1, h2, outs, h3, h4⟩ := filter_each (today := today) (prog := prog) (removable := removable) h hj hd
    (fun oi hoi => ⟨hf oi hoi, hu.storable oi hoi, hu.inspol oi hoi⟩) hn.target
  intro q r
  obtain ⟨xs, h5, h6⟩ := pairwise₂_choose (P := Holds u' q.2) (Q := SavedAs today u')
    ⟨h4.1, fun i a b ha hb => h4.2 i a b ha hb u'⟩
  have h7 : Pairwise₂ (FromFiltered today u' q.2 (userFilter opts)) ois xs := by
    have hh := pairwise₂_and_right (pairwise₂_trans h3 h6) (Q := fun x => ∃ name, Holds u' q.2 name x) fun x hx => by
      obtain ⟨n, -, k⟩ := pairwise₂_mem_right h5 hx
      exact ⟨n, k⟩
    exact ⟨hh.1, fun i a b ha hb => ⟨(hh.2 i a b ha hb).1, (hh.2 i a b ha hb).2⟩⟩
  obtain ⟨g1, g2, g3, g4, g5⟩ := fromFiltered_usable hu hn.target hf h7
  obtain ⟨e, hr⟩ := C104_merge_partial (today := today') (prog := prog) h5 ho g1 g2 g3 g4
    (show q.2 outB = none by rw [h2 outB hne]; exact hx) g5 hnf
  refine ⟨h1, e, fun u₁ => ?_⟩
  obtain ⟨x, k1, k2⟩ := hr u₁
  refine ⟨x, k1, accepted_before ⟨h7.1, fun i a b ha hb => ?_⟩ k2⟩
  have hoi := List.mem_of_getElem? ha
  exact fromFiltered_accepted (hf a hoi) hn.target (hu.joinable.held a hoi) (hu.joinable.targets a hoi) (hu.instruments a hoi)
    (h7.2 i a b ha hb)

/-- C109. Whether files are merged and then filtered, or filtered and then merged, programs which iterate over the file made
last, with the criteria given to oifits-filter and rejecting flagged data, see the same data in the same order: those which
they see when they iterate over the original files one after the other. -/
theorem C109_partial (h : Pairwise₂ (Holds u fs) ((j₁ :: j₂ :: more).map (·.1)) ois) (hu : Usable ois)
    (hn : Nameless (userFilter opts))
    (hj : ∀ j ∈ j₁ :: j₂ :: more, j.1.length < FLEN_FILENAME ∧ PlainName j.2 ∧ fs j.2 = none)
    (hd : ((j₁ :: j₂ :: more).map (·.2)).Nodup) (hm : PlainName mid) (ha : PlainName outA) (hb : outB.head? ≠ some '!')
    (hx : fs mid = none ∧ fs outA = none ∧ fs outB = none) (hne : outA ≠ mid ∧ outB ∉ (j₁ :: j₂ :: more).map (·.2)) :
    let rM := (oifits_merge u today (prog :: mid :: (j₁ :: j₂ :: more).map (·.1))).run fs
    let rA := (oifits_filter u' today' removable (.args opts false [prog, mid, outA])).run rM.files
    let q := runAll (filterRuns u today prog removable opts (j₁ :: j₂ :: more)) fs
    let rB := (oifits_merge u' today' (prog :: outB :: (j₁ :: j₂ :: more).map (·.2))).run q.2
    rM.exit = .code 0 ∧ rA.exit = .code 0 ∧ (∀ e ∈ q.1, e = .code 0) ∧ rB.exit = .code 0 ∧
      ∀ u₁ u₂, ∃ x y, Holds u₁ rA.files outA x ∧ Holds u₂ rB.files outB y ∧
        SameAccepted { userFilter opts with accept_flagged := false } x y := by
  obtain ⟨a1, a2, a3⟩ := C109_merge_filter_partial (u' := u') (today := today) (today' := today') (prog := prog)
    (removable := removable) h hu hn hm ha hx.1 hx.2.1 hne.1
  obtain ⟨b1, b2, b3⟩ := C109_filter_merge_partial (u' := u') (today := today) (today' := today') (prog := prog)
    (removable := removable) h hu hn hj hd hb hx.2.2 hne.2
  refine ⟨a1, a2, b1, b2, fun u₁ u₂ => ?_⟩
  obtain ⟨x, hx1, hx2⟩ := a3 u₁
  obtain ⟨y, hy1, hy2⟩ := b3 u₂
  exact ⟨x, y, hx1, hy1, accepted_same hx2 hy2⟩

end

/-! ### Examples -/

theorem Ex.first_settled : Ex.firstRead.Settled :=
  ⟨by decide +kernel, by decide +kernel, by decide +kernel, by decide +kernel, by decide +kernel, by decide +kernel⟩

theorem Ex.first_channels : ChannelsAgree Ex.firstRead :=
  ⟨by decide +kernel, by decide +kernel, by decide +kernel, by decide +kernel, by decide +kernel, by decide +kernel⟩

theorem Ex.first_instruments : AllInstruments Ex.firstRead :=
  ⟨by decide +kernel, by decide +kernel, by decide +kernel, by decide +kernel⟩

theorem Ex.first_date : CardText Ex.firstRead.header.date_obs := by decide +kernel

theorem Ex.usable_both : ∃ oi, Pairwise₂ (Holds Ex.undef Ex.files) ["in", "first"] [oi, Ex.firstRead] ∧
    Spec.Usable [oi, Ex.firstRead] := by
  obtain ⟨oi, h, h1, h2, h3, h4, h5, h6, h7, h8, h9, h10⟩ := Ex.holds_in
  have hu := Ex.usable_in h1 h2 h3 h4 h5 h6 h7 h8 h9 h10
  refine ⟨oi, pairwise₂_two h Ex.holds_first, all_two (Ex.storable_in h1 h2 h3 h4 h5 h6 h7 h8 h9) Ex.storable_first,
    all_two ?_ Ex.first_settled, all_two (Ex.channels_in h2 h5 h6 h7 h8) Ex.first_channels,
    all_two (Ex.instruments_in h2 h5 h6 h7 h8) Ex.first_instruments, all_two (Ex.resolve_in hu) (Ex.resolve_in Ex.usable_first),
    all_two h3 (List.eq_nil_of_length_eq_zero Ex.usable_first.2.2.2.2.1),
    all_two (Ex.dates_in hu) (Ex.dates_in Ex.usable_first), all_two ?_ Ex.first_date, ?_,
    Ex.joinable_in rfl (all_two hu Ex.usable_first)
      (all_two (P := fun o => ∃ name, Holds Ex.undef Ex.files name o) ⟨_, h⟩ ⟨_, Ex.holds_first⟩), ?_⟩
  · refine ⟨?_, ?_, ?_, ?_, ?_, ?_⟩
    · rw [h10]; exact Ex.oic_settled.header
    · rw [h4]; exact Ex.oic_settled.array
    · rw [h5]; exact Ex.oic_settled.vis
    · rw [h6]; exact Ex.oic_settled.vis2
    · rw [h7]; exact Ex.oic_settled.t3
    · rw [h8]; exact Ex.oic_settled.flux
  · rw [h10]; decide +kernel
  · unfold allTargets
    rw [List.map_flatMap, List.flatMap_cons, List.flatMap_cons, List.flatMap_nil, Ex.target_names hu,
      Ex.target_names Ex.usable_first]
    decide +kernel
  · have all : ∀ x, IsWavelength [oi, Ex.firstRead] x → x ∈ Ex.wave.eff_wave := by
      rintro x ⟨o, ho, w, hw, hx⟩
      have hu' : Ex.Usable o := all_two hu Ex.usable_first o ho
      have := List.mem_map_of_mem (f := OiWavelength.eff_wave) hw
      rw [hu'.2.2.1, List.mem_singleton] at this
      rwa [this] at hx
    intro x y hx hy hn
    have key : ∀ x ∈ Ex.wave.eff_wave, ∀ y ∈ Ex.wave.eff_wave,
        FP.ratFP.le (FP.ratFP.lit (mkRat 1 10000000000)) (FP.ratFP.abs (FP.ratFP.toD (FP.ratFP.subF y x))) = false →
          y = x := by decide +kernel
    rcases hn with hn | hn
    · exact hn
    · exact key x (all x hx) y (all y hy) hn

-- Data with wavelengths up to 1.5 micron, without OI_VIS.
example :
    let opts : List (FilterOpt FP.ratFP) := [.accept_vis 0, .wave_max (FP.ratFP.lit 1500)]
    let rM := (oifits_merge Ex.undef "2016-01-02" ["oifits-merge", "mid", "in", "first"]).run Ex.files
    let rA := (oifits_filter Ex.undef "2016-01-03" (fun _ => false) (.args opts false ["oifits-merge", "mid", "outA"])).run
      rM.files
    let q := runAll (filterRuns Ex.undef "2016-01-02" "oifits-merge" (fun _ => false) opts [("in", "f1"), ("first", "f2")])
      Ex.files
    let rB := (oifits_merge Ex.undef "2016-01-03" ["oifits-merge", "outB", "f1", "f2"]).run q.2
    rM.exit = .code 0 ∧ rA.exit = .code 0 ∧ (∀ e ∈ q.1, e = .code 0) ∧ rB.exit = .code 0 ∧
      ∀ u₁ u₂, ∃ x y, Holds u₁ rA.files "outA" x ∧ Holds u₂ rB.files "outB" y ∧
        SameAccepted { userFilter opts with accept_flagged := false } x y := by
  obtain ⟨oi, h, hu⟩ := Ex.usable_both
  exact C109_partial (j₁ := ("in", "f1")) (j₂ := ("first", "f2")) (more := []) h hu
    ⟨fun n => ⟨glob_star n, glob_star n, glob_star n⟩, by decide +kernel⟩
    (all_two ⟨by decide, ⟨by decide, by decide⟩, rfl⟩ ⟨by decide, ⟨by decide, by decide⟩, rfl⟩) (by decide)
    ⟨by decide, by decide⟩ ⟨by decide, by decide⟩ (by decide) ⟨rfl, rfl, rfl⟩ (by decide)

end Verif
