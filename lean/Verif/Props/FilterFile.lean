import Verif.Proof.FilterFile
import Verif.Props.EndToEnd
import Verif.Props.FilterTwo
import Verif.Props.Again

/-! C95: two runs of oifits-filter and one. -/

set_option Elab.async false

namespace Verif
open Outcome Spec
variable {R : FP}

/-- A filter which asks for no target combines with itself. -/
theorem combines_self {f : FilterSpec R} (h : f.target_id < 0) : Combines f f f where
  arrname := fun _ => ⟨fun x => ⟨x, x⟩, fun x => x.1⟩
  insname := fun _ => ⟨fun x => ⟨x, x⟩, fun x => x.1⟩
  corrname := fun _ => ⟨fun x => ⟨x, x⟩, fun x => x.1⟩
  target := .inl ⟨h, rfl⟩
  mjd_from := fun _ => ⟨fun x => ⟨x, x⟩, fun x => x.1⟩
  mjd_to := fun _ => ⟨fun x => ⟨x, x⟩, fun x => x.1⟩
  wave := fun _ => ⟨fun x => ⟨x, x⟩, fun x => x.1⟩
  bas := fun _ => ⟨fun x => ⟨x, x⟩, fun x => x.1⟩
  uvrad := fun _ => ⟨fun x => ⟨x, x⟩, fun x => x.1⟩
  snr := fun _ => ⟨fun x => ⟨x, x⟩, fun x => x.1⟩
  accept_vis := by simp
  accept_vis2 := by simp
  accept_flux := by simp
  accept_t3amp := ⟨rfl, rfl⟩
  accept_t3phi := ⟨rfl, rfl⟩
  accept_flagged := ⟨rfl, fun h => h⟩

/-- The second of two runs of oifits-filter makes the file which a single run makes. -/
theorem C95_two_runs_partial {u u' : Undef R} {fs : Files R} {today today' prog infile midfile outfile onefile : CStr}
    {removable : CStr → Bool} {opts₁ opts₂ opts : List (FilterOpt R)} {clobber₁ clobber₂ clobber : Bool} {oi : OiFits R}
    (h : Holds u fs infile oi) (hin : infile.length < FLEN_FILENAME) (hm : PlainName midfile) (ho : PlainName outfile)
    (h1 : PlainName onefile) (hc : Combines (userFilter opts₁) (userFilter opts₂) (userFilter opts))
    (hs : oi.Storable) (hd : oi.Settled) (hn : NamesHeld oi) (ha : ChannelsAgree oi) (hi : oi.inspolList = [])
    (ht : TargetThere (userFilter opts) oi) (hxm : fs midfile = none ∨ clobber₁ = true ∧ removable midfile = true)
    (hxo : (fs outfile = none ∧ outfile ≠ midfile) ∨ clobber₂ = true ∧ removable outfile = true)
    (hx1 : fs onefile = none ∨ clobber = true ∧ removable onefile = true) :
    let r₁ := (oifits_filter u today removable (.args opts₁ clobber₁ [prog, infile, midfile])).run fs
    let r₂ := (oifits_filter u' today' removable (.args opts₂ clobber₂ [prog, midfile, outfile])).run r₁.files
    let r := (oifits_filter u today' removable (.args opts clobber [prog, infile, onefile])).run fs
    r₁.exit = .code 0 ∧ r₂.exit = .code 0 ∧ r.exit = .code 0 ∧
      ∃ hdus, r₂.files outfile = some (.fits hdus) ∧ r.files onefile = some (.fits hdus) := by
  have hun (f : FilterSpec R) {x : OiFits R} (hi : x.inspolList = []) : ∀ t ∈ x.inspolList, InspolUniform f x t := by
    intro t ht; rw [hi] at ht; cases ht
  have htf : TargetThere (userFilter opts₁) oi := by
    rcases hc.target with ⟨_, e⟩ | ⟨e, _⟩
    · unfold TargetThere; rw [← e]; exact ht
    · exact .inl e
  -- The first run
  have hf := filterable_of_holds (f := userFilter opts₁) h ha hs.targets.rows
  obtain ⟨a, ea, haf, hai⟩ := apply_oi_filter_ok hf (hun _ hi)
  have hsa := filter_storable hf (hun _ hi) haf hai hs htf
  obtain ⟨hdus₁, hw₁, hfile⟩ := file_of_stored (today := today) hsa
  -- Both filters in memory
  obtain ⟨a', b, c, ea', eb, ec, hsame⟩ := C83_two_filters_no_inspol hc hf htf hi
  rw [ea] at ea'
  obtain rfl := Outcome.ok.inj ea'
  have hia := inspol_none hi hai
  have hg := out_filterable_two (g := userFilter opts₂) hf (hun _ hi) haf hai (Or.inr hsa.targets.rows)
  obtain ⟨b', eb', hbf, hbi⟩ := apply_oi_filter_ok hg (hun _ hia)
  rw [eb] at eb'
  cases eb'
  -- The second run
  obtain ⟨x, hx, hsx⟩ := hfile fs midfile u'
  have hgx : Filterable (userFilter opts₂) x := by
    refine filterable_saved hg hsa.targets.rows (namesHeld_filtered hn haf) hsx hx.wf fun n w hnw hr => ?_
    obtain ⟨hdus, -, hr'⟩ := hx
    have h0 : hdus ≠ [] := by
      rintro rfl
      obtain ⟨st, e⟩ := read_empty u'
      rw [e] at hr'
      cases hr'
    rw [(C17_partial h0 hr' n).2.1 hr]
    exact hnw
  have hix : x.inspolList = [] := by rw [hsx.inspol, hia]; rfl
  obtain ⟨y, ey, hyf, hyi⟩ := apply_oi_filter_ok hgx (hun _ hix)
  have htg : TargetThere (userFilter opts₂) a := by
    rcases hc.target with ⟨e, _⟩ | ⟨e, e'⟩
    · exact .inl e
    · unfold TargetThere at ht ⊢
      rw [haf.targets, targetsOut, if_pos e, ← e']
      exact ht
  have htx : TargetThere (userFilter opts₂) x := by
    refine htg.imp id ?_
    rintro ⟨z, hz, e⟩
    rw [hsx.targets]
    exact ⟨_, List.mem_map_of_mem hz, e⟩
  have hsxs : x.Storable := storable_again hsa (settled_filtered hd haf) hx.wf hsx.targets hsx.array hsx.inspol hsx.vis hsx.vis2
    hsx.t3 hsx.flux
  have hsy := filter_storable hgx (hun _ hix) hyf hyi hsxs htx
  -- The single run
  have hh := filterable_of_holds (f := userFilter opts) h ha hs.targets.rows
  obtain ⟨c', ec', hcf, hci⟩ := apply_oi_filter_ok hh (hun _ hi)
  rw [ec] at ec'
  cases ec'
  have hsc := filter_storable hh (hun _ hi) hcf hci hs ht
  have hfinal : fileOf today' y = fileOf today' c := by
    rw [fileOf_saved (namesHeld_filtered hn haf) (settled_filtered hd haf) hia hsx hbf hbi hyf hyi, fileOf_same hsame]
  intro r₁ r₂ r
  have e₁ : r₁ = _ := C70_run h hin hm ea (out_wf hf (hun _ hi) haf hai) hw₁ hxm
  have e : r = _ := C70_run h hin h1 ec (out_wf hh (hun _ hi) hcf hci) (write_oi_fits_eq today' _ hsc) hx1
  have hx₂ : r₁.files outfile = none ∨ clobber₂ = true ∧ removable outfile = true := by
    refine hxo.imp ?_ id
    rintro ⟨k1, k2⟩
    rw [e₁]
    show Files.set _ _ _ _ = _
    unfold Files.set
    rw [if_neg k2]
    exact k1
  have hx' : Holds u' r₁.files midfile x := by rw [e₁]; exact hx
  have e₂ : r₂ = _ := C70_run hx' hm.short ho ey (out_wf hgx (hun _ hix) hyf hyi) (write_oi_fits_eq today' _ hsy) hx₂
  refine ⟨by rw [e₁], by rw [e₂], by rw [e], fileOf today' y, ?_, ?_⟩
  · rw [e₂]; exact set_same _ _ _
  · rw [e, hfinal]; exact set_same _ _ _

/-- Running the program again on its own output, with the same options, which ask for no target, makes
the same file, if it is still the same day. -/
theorem C95_again_partial {u u' : Undef R} {fs : Files R} {today prog infile midfile outfile : CStr}
    {removable : CStr → Bool} {opts : List (FilterOpt R)} {clobber clobber' : Bool} {oi : OiFits R}
    (h : Holds u fs infile oi) (hin : infile.length < FLEN_FILENAME) (hm : PlainName midfile) (ho : PlainName outfile)
    (hs : oi.Storable) (hd : oi.Settled) (hn : NamesHeld oi) (ha : ChannelsAgree oi) (hi : oi.inspolList = [])
    (ht : (userFilter opts).target_id < 0) (hxm : fs midfile = none ∨ clobber = true ∧ removable midfile = true)
    (hxo : (fs outfile = none ∧ outfile ≠ midfile) ∨ clobber' = true ∧ removable outfile = true) :
    let r₁ := (oifits_filter u today removable (.args opts clobber [prog, infile, midfile])).run fs
    let r₂ := (oifits_filter u' today removable (.args opts clobber' [prog, midfile, outfile])).run r₁.files
    r₁.exit = .code 0 ∧ r₂.exit = .code 0 ∧
      ∃ hdus, r₁.files midfile = some (.fits hdus) ∧ r₂.files outfile = some (.fits hdus) := by
  obtain ⟨k1, k2, -, hdus, k3, k4⟩ := C95_two_runs_partial (u' := u') (today := today) (today' := today) (prog := prog)
    (clobber₂ := clobber') h hin hm ho hm (combines_self ht) hs hd hn ha hi (.inl ht) hxm hxo hxm
  exact ⟨k1, k2, hdus, k4, k3⟩

/-! ### The hypotheses can be met -/

theorem Ex.options_combine : Combines (R := FP.ratFP) (userFilter [.target_id 2]) (userFilter [.accept_vis 0])
    (userFilter [.accept_vis 0, .target_id 2]) where
  arrname := fun _ => ⟨fun x => ⟨x, x⟩, fun x => x.1⟩
  insname := fun _ => ⟨fun x => ⟨x, x⟩, fun x => x.1⟩
  corrname := fun _ => ⟨fun x => ⟨x, x⟩, fun x => x.1⟩
  target := .inl ⟨by decide, rfl⟩
  mjd_from := fun _ => ⟨fun x => ⟨x, x⟩, fun x => x.1⟩
  mjd_to := fun _ => ⟨fun x => ⟨x, x⟩, fun x => x.1⟩
  wave := fun _ => ⟨fun x => ⟨x, x⟩, fun x => x.1⟩
  bas := fun _ => ⟨fun x => ⟨x, x⟩, fun x => x.1⟩
  uvrad := fun _ => ⟨fun x => ⟨x, x⟩, fun x => x.1⟩
  snr := fun _ => ⟨fun x => ⟨x, x⟩, fun x => x.1⟩
  accept_vis := rfl
  accept_vis2 := rfl
  accept_flux := rfl
  accept_t3amp := ⟨rfl, rfl⟩
  accept_t3phi := ⟨rfl, rfl⟩
  accept_flagged := ⟨rfl, fun h => h⟩

theorem Ex.holds_settled : ∃ oi, Holds Ex.undef Ex.files "in" oi ∧ oi.Storable ∧ oi.Settled ∧ NamesHeld oi ∧
    ChannelsAgree oi ∧ oi.inspolList = [] ∧ ∃ x ∈ oi.targets.targ, x.target_id = 2 := by
  obtain ⟨oi, h, h1, h2, h3, h4, h5, h6, h7, h8, h9, h10⟩ := Ex.holds_in
  refine ⟨oi, h, Ex.storable_in h1 h2 h3 h4 h5 h6 h7 h8 h9, ?_, ?_, ?_, h3, ?_⟩
  · refine ⟨?_, ?_, ?_, ?_, ?_, ?_⟩
    · rw [h10]; exact Ex.oic_settled.header
    · rw [h4]; exact Ex.oic_settled.array
    · rw [h5]; exact Ex.oic_settled.vis
    · rw [h6]; exact Ex.oic_settled.vis2
    · rw [h7]; exact Ex.oic_settled.t3
    · rw [h8]; exact Ex.oic_settled.flux
  · refine ⟨?_, ?_, ?_, ?_, ?_, ?_, ?_⟩
    · rw [h4]; decide +kernel
    · rw [h2]; decide +kernel
    · rw [h9]; decide +kernel
    · rw [h5]; decide +kernel
    · rw [h6]; decide +kernel
    · rw [h7]; decide +kernel
    · rw [h8]; decide +kernel
  · refine ⟨?_, ?_, ?_, ?_, ?_, ?_⟩
    · rw [h2]; decide
    · rw [h2]; decide +kernel
    · rw [h2, h5]; decide +kernel
    · rw [h2, h6]; decide +kernel
    · rw [h2, h7]; decide +kernel
    · rw [h2, h8]; decide +kernel
  · rw [h1]; exact ⟨Ex.targ 2 "Star B", by decide +kernel, rfl⟩

-- One target first, then no OI_VIS tables; or both at once.
example (u' : Undef FP.ratFP) :
    let r₁ := (oifits_filter Ex.undef "2016-01-02" (fun _ => false)
      (.args [.target_id 2] false ["oifits-filter", "in", "mid"])).run Ex.files
    let r₂ := (oifits_filter u' "2016-01-03" (fun _ => false)
      (.args [.accept_vis 0] false ["oifits-filter", "mid", "out"])).run r₁.files
    let r := (oifits_filter Ex.undef "2016-01-03" (fun _ => false)
      (.args [.accept_vis 0, .target_id 2] false ["oifits-filter", "in", "one"])).run Ex.files
    r₁.exit = .code 0 ∧ r₂.exit = .code 0 ∧ r.exit = .code 0 ∧
      ∃ hdus, r₂.files "out" = some (.fits hdus) ∧ r.files "one" = some (.fits hdus) := by
  obtain ⟨oi, h, h1, h2, h3, h4, h5, h6⟩ := Ex.holds_settled
  exact C95_two_runs_partial h (by decide) ⟨by decide, by decide⟩ ⟨by decide, by decide⟩ ⟨by decide, by decide⟩
    Ex.options_combine h1 h2 h3 h4 h5 (.inr h6) (.inl rfl) (.inl ⟨rfl, by decide⟩) (.inl rfl)

/-- oifits-filter with `--target-id=2`. -/
def Ex.oneTarget : Final FP.ratFP :=
  (oifits_filter Ex.undef "2016-01-02" (fun _ => true)
    (.args [.target_id 2] false ["oifits-filter", "in", "mid"])).run Ex.files

/-- The same again, on the output. -/
def Ex.oneTargetAgain : Final FP.ratFP :=
  (oifits_filter Ex.undef "2016-01-02" (fun _ => true)
    (.args [.target_id 2] false ["oifits-filter", "mid", "out"])).run Ex.oneTarget.files

theorem Ex.oneTargetAgain_exit : Ex.oneTarget.exit = .code 0 ∧ Ex.oneTargetAgain.exit = .code 0 := by decide +kernel

theorem Ex.oneTargetAgain_file : Ex.oneTargetAgain.files "out" = some (.fits (Ex.parts (Ex.oneTargetAgain.files "out"))) :=
  Ex.parts_of (by decide +kernel)

theorem Ex.oneTargetAgain_read : read_oi_fits Ex.undef (some (Ex.parts (Ex.oneTargetAgain.files "out"))) .ok = .abort :=
  Ex.aborts_of (by decide +kernel)

/-- C95 is false if the same target is asked for twice: it has been renumbered by the first run, so that the
second one does not find it and makes a file which cannot be read. -/
theorem C95_target_counterexample : ∃ (fs : Files FP.ratFP) (infile midfile outfile : CStr) (hdus : List (Hdu FP.ratFP)),
    (∃ oi, Holds Ex.undef fs infile oi ∧ ∃ x ∈ oi.targets.targ, x.target_id = 2) ∧
    let r₁ := (oifits_filter Ex.undef "2016-01-02" (fun _ => true)
      (.args [.target_id 2] false ["oifits-filter", infile, midfile])).run fs
    let r₂ := (oifits_filter Ex.undef "2016-01-02" (fun _ => true)
      (.args [.target_id 2] false ["oifits-filter", midfile, outfile])).run r₁.files
    r₁.exit = .code 0 ∧ r₂.exit = .code 0 ∧ r₂.files outfile = some (.fits hdus) ∧
      read_oi_fits Ex.undef (some hdus) .ok = .abort := by
  obtain ⟨oi, h, -, -, -, -, -, h6⟩ := Ex.holds_settled
  obtain ⟨hdus, h2, h3⟩ : ∃ hdus, Ex.oneTargetAgain.files "out" = some (.fits hdus) ∧
    read_oi_fits Ex.undef (some hdus) .ok = .abort := ⟨_, Ex.oneTargetAgain_file, Ex.oneTargetAgain_read⟩
  obtain ⟨h1, h1'⟩ := Ex.oneTargetAgain_exit
  unfold Ex.oneTargetAgain at h1' h2
  unfold Ex.oneTarget at h1 h1' h2
  exact ⟨Ex.files, "in", "mid", "out", hdus, ⟨oi, h, h6⟩, h1, h1', h2, h3⟩

end Verif
