import Verif.Proof.FilterAll
import Verif.Props.EndToEnd

/-! C102: data which meet a filter are left alone. -/

set_option Elab.async false

namespace Verif
open Outcome Spec
variable {R : FP} {f : FilterSpec R} {oi out : OiFits R}

/-- C102. Filtering a dataset in which everything meets the filter changes neither data nor targets, and removes only
tables which no data refer to. -/
theorem C102_unchanged (hf : Filterable f oi) (ha : AllMeet f oi) (h : apply_oi_filter oi f = .ok out) :
    SameButOrphans oi out :=
  filtered_all ha hf (apply_oi_filter_spec hf h)

/-- C102 for oifits-filter. If everything in the input file meets the options, then the program succeeds, and the output
file holds the data and targets of the input file. -/
theorem C102_file {u : Undef R} {fs : Files R} {today prog infile outfile : CStr} {removable : CStr → Bool}
    {opts : List (FilterOpt R)} {clobber : Bool} (h : Holds u fs infile oi) (hi : infile.length < FLEN_FILENAME)
    (ho : PlainName outfile) (hs : oi.Storable) (hc : ChannelsAgree oi)
    (hun : ∀ t ∈ oi.inspolList, InspolUniform (userFilter opts) oi t) (ha : AllMeet (userFilter opts) oi)
    (hx : fs outfile = none ∨ clobber = true ∧ removable outfile = true) :
    let r := (oifits_filter u today removable (.args opts clobber [prog, infile, outfile])).run fs
    r.exit = .code 0 ∧ ∃ out, SameButOrphans oi out ∧ FileOf today r.files outfile out := by
  obtain ⟨h1, out, h2, -, -, h3⟩ := C73_filter_partial h hi ho hs hc hun (.inl ha.target) hx (today := today) (prog := prog)
  exact ⟨h1, out, C102_unchanged (filterable_of_holds h hc hs.targets.rows) ha h2, h3⟩

/-- C102 for oifits-filter without options: it is enough that all values are within the ranges. -/
theorem C102_no_options (h : WithinRanges (userFilter []) oi) : AllMeet (userFilter []) oi where
  target := by show (-1 : Int) < 0; decide
  ranges := h
  vis _ _ := ⟨rfl, ⟨glob_star _, glob_star _, glob_star _⟩, .inl rfl⟩
  vis2 _ _ := ⟨rfl, ⟨glob_star _, glob_star _, glob_star _⟩, .inl rfl⟩
  t3 _ _ := ⟨rfl, rfl, ⟨glob_star _, glob_star _, glob_star _⟩, .inl rfl⟩
  flux _ _ := ⟨rfl, ⟨glob_star _, glob_star _, glob_star _⟩⟩

/-! ### The hypotheses can be met -/

theorem Ex.userFilter_nil : userFilter (R := FP.ratFP) [] = nominalFilter FP.ratFP := by decide +kernel

theorem Ex.channels_in {oi : OiFits FP.ratFP} (h2 : oi.wavelengthList = Ex.oic.wavelengthList)
    (h5 : oi.visList = Ex.oic.visList) (h6 : oi.vis2List = Ex.oic.vis2List) (h7 : oi.t3List = Ex.oic.t3List)
    (h8 : oi.fluxList = Ex.oic.fluxList) : ChannelsAgree oi := by
  refine ⟨?_, ?_, ?_, ?_, ?_, ?_⟩
  · rw [h2]; decide
  · rw [h2]; decide +kernel
  · rw [h2, h5]; decide +kernel
  · rw [h2, h6]; decide +kernel
  · rw [h2, h7]; decide +kernel
  · rw [h2, h8]; decide +kernel

theorem Ex.within_in {oi : OiFits FP.ratFP} (h2 : oi.wavelengthList = Ex.oic.wavelengthList)
    (h5 : oi.visList = Ex.oic.visList) (h6 : oi.vis2List = Ex.oic.vis2List) (h7 : oi.t3List = Ex.oic.t3List)
    (h8 : oi.fluxList = Ex.oic.fluxList) : WithinRanges (userFilter []) oi := by
  have h := Ex.withinRanges
  have hi : ∀ n, instTable oi n = instTable Ex.oi n := fun n => by unfold instTable; rw [h2]; rfl
  rw [Ex.userFilter_nil]
  constructor
  · intro t ht; rw [h5] at ht; rw [hi]; exact h.vis t ht
  · intro t ht; rw [h6] at ht; rw [hi]; exact h.vis2 t ht
  · intro t ht
    rw [h7] at ht
    obtain rfl := List.mem_singleton.mp ht
    obtain ⟨w, k1, k2, k3⟩ := h.t3 Ex.t3 (List.mem_singleton.mpr rfl)
    rw [hi]
    exact ⟨w, k1, k2, k3⟩
  · intro t ht
    rw [h8] at ht
    obtain rfl := List.mem_singleton.mp ht
    obtain ⟨w, k1, k2, k3⟩ := h.flux Ex.flux (List.mem_singleton.mpr rfl)
    rw [hi]
    exact ⟨w, k1, k2, k3⟩

/-- The example file, filtered without options: what is read from the output file has the same data. -/
example (u : Undef FP.ratFP) : ∃ oi out,
    let r := (oifits_filter Ex.undef "2016-01-02" (fun _ => true) (.args [] false ["oifits-filter", "in", "out"])).run Ex.files
    Holds Ex.undef Ex.files "in" oi ∧ Holds u r.files "out" out ∧ r.exit = .code 0 ∧
      out.vis2List = oi.vis2List.map (OiVis2.asRead u.int) ∧ oi.vis2List.length = 2 := by
  obtain ⟨oi, h, h1, h2, h3, h4, h5, h6, h7, h8, h9, -⟩ := Ex.holds_in
  obtain ⟨k1, out, k2, k3⟩ := C102_file (today := ("2016-01-02" : CStr)) (prog := ("oifits-filter" : CStr))
    (outfile := ("out" : CStr)) (removable := fun _ => true) (clobber := false) h (by decide) ⟨by decide, by decide⟩
    (Ex.storable_in h1 h2 h3 h4 h5 h6 h7 h8 h9) (Ex.channels_in h2 h5 h6 h7 h8)
    (by rw [h3]; intro t ht; cases ht) (C102_no_options (Ex.within_in h2 h5 h6 h7 h8)) (.inl rfl)
  obtain ⟨x, k4, k5⟩ := k3 u
  exact ⟨oi, x, h, k4, k1, by rw [k5.vis2, k2.vis2], by rw [h6]; rfl⟩

end Verif
