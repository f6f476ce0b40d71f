import Verif.Props.Cli
import Verif.Props.WriteFile
import Verif.Proof.StorableMerge

/-! C73: the files which the programs make can be read again, and hold what they should. -/

set_option Elab.async false

namespace Verif
open Outcome Spec
variable {R : FP}

theorem file_of_stored {today : CStr} {oi : OiFits R} (h : oi.Storable) :
    ∃ hdus, write_oi_fits today false oi .ok = .ok (some hdus, .ok) ∧
      ∀ (fs : Files R) name, FileOf today (fs.set name (some (.fits hdus))) name oi := by
  obtain ⟨hdus, h1, h2⟩ := C50_partial today h
  refine ⟨hdus, h1, fun fs name u => ?_⟩
  obtain ⟨oi', h3, e1, e2, e3, e4, e5, e6, e7, e8, e9, e10, e11⟩ := h2 u
  exact ⟨oi', ⟨hdus, set_same _ _ _, h3⟩, e1, e2, e3, e4, e5, e6, e7, e8, e9, e10, e11⟩

theorem instTable_some {oi : OiFits R} {n : CStr} {w : OiWavelength R} (h : instTable oi n = some w) :
    w ∈ oi.wavelengthList ∧ w.insname = n := by
  unfold instTable at h
  exact ⟨List.mem_of_find?_eq_some h, by simpa using List.find?_some h⟩

/-- What is read from a file can be filtered. -/
theorem filterable_of_holds {u : Undef R} {fs : Files R} {name : CStr} {oi : OiFits R} {f : FilterSpec R}
    (h : Holds u fs name oi) (hc : ChannelsAgree oi) (ht : oi.targets.targ ≠ []) : Filterable f oi := by
  have hw := h.wf
  obtain ⟨hdus, -, hr⟩ := h
  have h0 : hdus ≠ [] := by
    rintro rfl
    obtain ⟨st, e⟩ := read_empty u
    rw [e] at hr
    cases hr
  have key := fun n => (C17_partial h0 hr n).2.1
  exact {
    wf := hw
    targets := .inr ht
    unique := hc.unique
    fits := fun w hw => Nat.lt_succ_of_le (hc.fits w hw)
    vis := fun t ht w e => ⟨by rw [key _ (.inl ⟨t, ht, rfl⟩)]; exact e,
      hc.vis t ht w (instTable_some e).1 (instTable_some e).2⟩
    vis2 := fun t ht w e => ⟨by rw [key _ (.inr (.inl ⟨t, ht, rfl⟩))]; exact e,
      hc.vis2 t ht w (instTable_some e).1 (instTable_some e).2⟩
    t3 := fun t ht w e => ⟨by rw [key _ (.inr (.inr (.inl ⟨t, ht, rfl⟩)))]; exact e,
      hc.t3 t ht w (instTable_some e).1 (instTable_some e).2⟩
    flux := fun t ht w e => hc.flux t ht w (instTable_some e).1 (instTable_some e).2 }

section
variable {u : Undef R} {fs : Files R} {today prog infile outfile : CStr} {removable : CStr → Bool}
  {opts : List (FilterOpt R)} {clobber : Bool} {oi : OiFits R}

/-- C73 for oifits-filter. The program succeeds, and the output file can be read and holds the filtered dataset, if the
input file is consistent and the target which is asked for is in it. -/
theorem C73_filter_partial (h : Holds u fs infile oi) (hi : infile.length < FLEN_FILENAME) (ho : PlainName outfile)
    (hs : oi.Storable) (hc : ChannelsAgree oi) (hun : ∀ t ∈ oi.inspolList, InspolUniform (userFilter opts) oi t)
    (ht : TargetThere (userFilter opts) oi) (hx : fs outfile = none ∨ clobber = true ∧ removable outfile = true) :
    let r := (oifits_filter u today removable (.args opts clobber [prog, infile, outfile])).run fs
    r.exit = .code 0 ∧ ∃ out, apply_oi_filter oi (userFilter opts) = .ok out ∧ Filtered (userFilter opts) oi out ∧
      InspolFiltered (userFilter opts) oi out ∧ FileOf today r.files outfile out := by
  have hf := filterable_of_holds (f := userFilter opts) h hc hs.targets.rows
  obtain ⟨out, h1, h2, h3⟩ := apply_oi_filter_ok hf hun
  obtain ⟨hdus, h4, h5⟩ := file_of_stored (today := today) (filter_storable hf hun h2 h3 hs ht)
  intro r
  have hr : r = _ := C70_run h hi ho h1 (out_wf hf hun h2 h3) h4 hx
  rw [hr]
  exact ⟨rfl, out, h1, h2, h3, h5 _ _⟩

/-- C73 for oifits-merge. -/
theorem C73_merge {in1 in2 : CStr} {more : List CStr} {ois : List (OiFits R)}
    (h : Pairwise₂ (Holds u fs) (in1 :: in2 :: more) ois) (ho : outfile.head? ≠ some '!')
    (hs : ∀ oi ∈ ois, oi.Storable) (ht : ∀ oi ∈ ois, TargetsResolve oi)
    (hn : (distinct ((allTargets ois).map (·.target))).length < 100) (hd : GoodDates ois) (hx : fs outfile = none) :
    let r := (oifits_merge u today (prog :: outfile :: in1 :: in2 :: more)).run fs
    r.exit = .code 0 ∧ ∃ out, merge_oi_fits_list ois = .ok out ∧ FileOf today r.files outfile out := by
  have hw : ∀ oi ∈ ois, oi.WF := fun oi hoi => by
    obtain ⟨i, hi, he⟩ := List.mem_iff_getElem.mp hoi
    have hi' : i < (in1 :: in2 :: more).length := by rw [h.1]; exact hi
    exact (h.2 i _ _ (List.getElem?_eq_getElem hi') (by rw [List.getElem?_eq_getElem hi, he])).wf
  have hne : ois ≠ [] := by
    rintro rfl
    cases h.1
  obtain ⟨out, h1⟩ := merge_ok hw ht hn hd
  obtain ⟨hdus, h4, h5⟩ := file_of_stored (today := today) (merge_storable hne hw hs hn h1)
  intro r
  have hr : r = _ := C71_run h ho h1 h4 hx
  rw [hr]
  exact ⟨rfl, out, h1, h5 _ _⟩

/-- C73 for oifits-upgrade. -/
theorem C73_upgrade {origin observer insmode : CStr} {more : List CStr} (h : Holds u fs infile oi)
    (ho : outfile.head? ≠ some '!') (hv : oi.header.content ≠ "OIFITS2") (ha : oi.arrayList ≠ []) (hs : oi.Storable)
    (hx : fs outfile = none) :
    let r := (oifits_upgrade u today (prog :: infile :: outfile :: origin :: observer :: insmode :: more)).run fs
    r.exit = .code 0 ∧ FileOf today r.files outfile (withKeywords oi origin observer insmode) := by
  have hs' : (withKeywords oi origin observer insmode).Storable :=
    ⟨hs.1, hs.2, hs.3, hs.4, hs.5, hs.6, hs.7, hs.8, hs.9⟩
  obtain ⟨hdus, h4, h5⟩ := file_of_stored (today := today) hs'
  intro r
  have hr : r = _ := C72_run h ho (by simpa [is_oi_fits_two] using hv) ha h4 hx
  rw [hr]
  exact ⟨rfl, h5 _ _⟩

end

/-- The parts of a FITS file, if it is one. -/
def Ex.parts : Option (FileData FP.ratFP) → List (Hdu FP.ratFP)
  | some (.fits hdus) => hdus
  | _ => []

/-- Whether it is a FITS file. -/
def Ex.isFits : Option (FileData FP.ratFP) → Bool
  | some (.fits _) => true
  | _ => false

theorem Ex.parts_of {d : Option (FileData FP.ratFP)} (h : Ex.isFits d = true) : d = some (.fits (Ex.parts d)) := by
  match d, h with
  | some (.fits _), _ => rfl

/-- Whether the program has aborted. -/
def Ex.aborts {α : Type} : Outcome α → Bool
  | .abort => true
  | _ => false

theorem Ex.aborts_of {α : Type} {x : Outcome α} (h : Ex.aborts x = true) : x = .abort := by
  match x, h with
  | .abort, _ => rfl

/-- What oifits-filter does if it is asked for a target which is not there. -/
def Ex.noTarget : Final FP.ratFP :=
  (oifits_filter Ex.undef "2016-01-02" (fun _ => true)
    (.args [.target_id 77] false ["oifits-filter", "in", "out"])).run Ex.files

theorem Ex.noTarget_exit : Ex.noTarget.exit = .code 0 := by decide +kernel

theorem Ex.noTarget_file : Ex.noTarget.files "out" = some (.fits (Ex.parts (Ex.noTarget.files "out"))) :=
  Ex.parts_of (by decide +kernel)

theorem Ex.noTarget_read : read_oi_fits Ex.undef (some (Ex.parts (Ex.noTarget.files "out"))) .ok = .abort :=
  Ex.aborts_of (by decide +kernel)

theorem Ex.holds_in : ∃ oi, Holds Ex.undef Ex.files "in" oi ∧ oi.targets = Ex.oic.targets ∧
    oi.wavelengthList = Ex.oic.wavelengthList ∧ oi.inspolList = [] ∧ oi.arrayList = Ex.oic.arrayList ∧
    oi.visList = Ex.oic.visList ∧ oi.vis2List = Ex.oic.vis2List ∧ oi.t3List = Ex.oic.t3List ∧
    oi.fluxList = Ex.oic.fluxList ∧ oi.corrList = Ex.oic.corrList ∧ oi.header = Ex.oic.header := by
  obtain ⟨hdus, h1, oi', h3, e1, e2, e3, e4, e5, e6, e7, e8, e9, e10, e11⟩ :=
    C50_exact_partial "2016-01-01" Ex.oic_storable Ex.undef (Ex.oic_exact _)
  rw [write_oi_fits_eq _ _ Ex.oic_storable] at h1
  cases h1
  exact ⟨oi', ⟨_, rfl, h3⟩, e2, e4, e6, e3, e7, e8, e9, e10, e5, e1⟩

/-- C73 is false of oifits-filter if the target it is asked for is not there: it ends with status 0, but reading the
output file makes the reading program abort. -/
theorem C73_target_counterexample : ∃ (fs : Files FP.ratFP) (opts : List (FilterOpt FP.ratFP)) (infile outfile : CStr)
    (hdus : List (Hdu FP.ratFP)),
    (∃ oi, Holds Ex.undef fs infile oi) ∧
    let r := (oifits_filter Ex.undef "2016-01-02" (fun _ => true) (.args opts false ["oifits-filter", infile, outfile])).run fs
    r.exit = .code 0 ∧ r.files outfile = some (.fits hdus) ∧ read_oi_fits Ex.undef (some hdus) .ok = .abort := by
  obtain ⟨oi, h, -⟩ := Ex.holds_in
  obtain ⟨hdus, h2, h3⟩ : ∃ hdus, Ex.noTarget.files "out" = some (.fits hdus) ∧
    read_oi_fits Ex.undef (some hdus) .ok = .abort := ⟨_, Ex.noTarget_file, Ex.noTarget_read⟩
  have h1 := Ex.noTarget_exit
  unfold Ex.noTarget at h1 h2
  exact ⟨Ex.files, [.target_id 77], "in", "out", hdus, ⟨oi, h⟩, h1, h2, h3⟩

/-! Examples. -/

theorem Ex.storable_in {oi : OiFits FP.ratFP} (h1 : oi.targets = Ex.oic.targets)
    (h2 : oi.wavelengthList = Ex.oic.wavelengthList) (h3 : oi.inspolList = []) (h4 : oi.arrayList = Ex.oic.arrayList)
    (h5 : oi.visList = Ex.oic.visList) (h6 : oi.vis2List = Ex.oic.vis2List) (h7 : oi.t3List = Ex.oic.t3List)
    (h8 : oi.fluxList = Ex.oic.fluxList) (h9 : oi.corrList = Ex.oic.corrList) : oi.Storable := by
  have := Ex.oic_storable
  refine ⟨?_, ?_, ?_, ?_, ?_, ?_, ?_, ?_, ?_⟩
  · rw [h1]; exact this.targets
  · rw [h4]; exact this.array
  · rw [h2]; exact this.wavelength
  · rw [h9]; exact this.corr
  · rw [h3]; intro t ht; cases ht
  · rw [h5]; exact this.vis
  · rw [h6]; exact this.vis2
  · rw [h7]; exact this.t3
  · rw [h8]; exact this.flux

-- The hypotheses of `C73_filter_partial` are met.
example : ∃ oi, Holds Ex.undef Ex.files "in" oi ∧ oi.Storable ∧ ChannelsAgree oi ∧
    (∀ t ∈ oi.inspolList, InspolUniform (userFilter [.target_id 2]) oi t) ∧
    TargetThere (userFilter [.target_id 2]) oi ∧ Ex.files "out" = none ∧ PlainName ("out" : CStr) := by
  obtain ⟨oi, h, h1, h2, h3, h4, h5, h6, h7, h8, h9, -⟩ := Ex.holds_in
  refine ⟨oi, h, Ex.storable_in h1 h2 h3 h4 h5 h6 h7 h8 h9, ?_, ?_, .inr ?_, rfl, ⟨by decide, by decide⟩⟩
  · refine ⟨?_, ?_, ?_, ?_, ?_, ?_⟩
    · rw [h2]; decide
    · rw [h2]; decide +kernel
    · rw [h2, h5]; decide +kernel
    · rw [h2, h6]; decide +kernel
    · rw [h2, h7]; decide +kernel
    · rw [h2, h8]; decide +kernel
  · rw [h3]; intro t ht; cases ht
  · rw [h1]; exact ⟨Ex.targ 2 "Star B", by decide +kernel, rfl⟩

theorem Ex.denotes_mem {oi : OiFits FP.ratFP} {id : Int} (h : id ∈ oi.targets.targ.map (·.target_id)) :
    ∃ n, DenotesTarget oi id n := by
  suffices H : ∀ l : List (Target FP.ratFP), id ∈ l.map (·.target_id) → ∃ t, FirstWith (fun t => t.target_id = id) l t by
    obtain ⟨t, ht⟩ := H _ h
    exact ⟨_, t, ht, rfl⟩
  intro l
  induction l with
  | nil => intro h; cases h
  | cons x l ih =>
    intro h
    by_cases hx : x.target_id = id
    · exact ⟨x, [], l, rfl, hx, fun _ h => by cases h⟩
    · rcases List.mem_cons.mp h with h | h
      · exact absurd h.symm hx
      · obtain ⟨t, pre, post, e, h1, h2⟩ := ih h
        refine ⟨t, x :: pre, post, by rw [e]; rfl, h1, fun y hy => ?_⟩
        rcases List.mem_cons.mp hy with rfl | hy
        · exact hx
        · exact h2 y hy

-- The hypotheses of `C73_merge` are met by a file merged with itself.
example : ∃ ois, Pairwise₂ (Holds Ex.undef Ex.files) ["in", "in"] ois ∧ (∀ oi ∈ ois, oi.Storable) ∧
    (∀ oi ∈ ois, TargetsResolve oi) ∧ (distinct ((allTargets ois).map (·.target))).length < 100 ∧ GoodDates ois ∧
    Ex.files "out" = none := by
  obtain ⟨oi, h, h1, h2, h3, h4, h5, h6, h7, h8, h9, h10⟩ := Ex.holds_in
  refine ⟨[oi, oi], ⟨rfl, fun i x y hx hy => ?_⟩, fun o ho => ?_, fun o ho => ?_, ?_, fun o ho => ?_, rfl⟩
  · match i, hx, hy with
    | 0, rfl, rfl => exact h
    | 1, rfl, rfl => exact h
  · have : o = oi := by simpa using ho
    rw [this]
    exact Ex.storable_in h1 h2 h3 h4 h5 h6 h7 h8 h9
  · have : o = oi := by simpa using ho
    rw [this]
    refine ⟨?_, ?_, ?_, ?_, ?_⟩ <;> intro t ht r hr <;> refine Ex.denotes_mem ?_ <;> rw [h1]
    · rw [h3] at ht; cases ht
    · rw [h5] at ht
      exact (by decide +kernel : ∀ t ∈ Ex.oic.visList, ∀ r ∈ t.record, r.target_id ∈ Ex.oic.targets.targ.map (·.target_id)) t ht r hr
    · rw [h6] at ht
      exact (by decide +kernel : ∀ t ∈ Ex.oic.vis2List, ∀ r ∈ t.record, r.target_id ∈ Ex.oic.targets.targ.map (·.target_id)) t ht r hr
    · rw [h7] at ht
      exact (by decide +kernel : ∀ t ∈ Ex.oic.t3List, ∀ r ∈ t.record, r.target_id ∈ Ex.oic.targets.targ.map (·.target_id)) t ht r hr
    · rw [h8] at ht
      exact (by decide +kernel : ∀ t ∈ Ex.oic.fluxList, ∀ r ∈ t.record, r.target_id ∈ Ex.oic.targets.targ.map (·.target_id)) t ht r hr
  · unfold allTargets
    simp only [List.flatMap_cons, List.flatMap_nil, h1]
    decide +kernel
  · have : o = oi := by simpa using ho
    rw [this, h10]
    exact Ex.both_dates Ex.oi (by simp [Ex.both])

/-- The dataset in the file called first. -/
def Ex.firstRead : OiFits FP.ratFP :=
  match read_oi_fits Ex.undef (some Ex.first) .ok with
  | .ok (some oi, .ok) => oi
  | _ => Ex.oic

/-- Whether a dataset has been read without error. -/
def Ex.isRead {α : Type} : Outcome (Option α × Status) → Bool
  | .ok (some _, .ok) => true
  | _ => false

theorem Ex.holds_first : Holds Ex.undef Ex.files "first" Ex.firstRead := by
  refine ⟨Ex.first, rfl, ?_⟩
  have h : Ex.isRead (read_oi_fits Ex.undef (some Ex.first) .ok) = true := by decide +kernel
  unfold Ex.firstRead
  match read_oi_fits Ex.undef (some Ex.first) .ok, h with
  | .ok (some oi, .ok), _ => rfl

theorem Ex.first_numbers : Ex.firstRead.header.content ≠ "OIFITS2" ∧ Ex.firstRead.arrayList.length ≠ 0 ∧
    Ex.firstRead.targets.targ.length ≠ 0 ∧ (∀ x ∈ Ex.firstRead.targets.targ, Spec.Int16 x.target_id) ∧
    (∀ t ∈ Ex.firstRead.arrayList, (FP.ratFP.keyD t.arrayx).isSome ∧ (FP.ratFP.keyD t.arrayy).isSome ∧
      (FP.ratFP.keyD t.arrayz).isSome ∧ ∀ e ∈ t.elem, Spec.Int16 e.sta_index) ∧
    Ex.firstRead.inspolList.length = 0 ∧
    (∀ t ∈ Ex.firstRead.visList, t.nwave < 10000 ∧ (∀ r ∈ t.record, Spec.Int16 r.target_id) ∧
      ∀ r ∈ t.record, Spec.Int16 r.sta_index.1 ∧ Spec.Int16 r.sta_index.2) ∧
    (∀ t ∈ Ex.firstRead.vis2List, t.nwave < 10000 ∧ (∀ r ∈ t.record, Spec.Int16 r.target_id) ∧
      ∀ r ∈ t.record, Spec.Int16 r.sta_index.1 ∧ Spec.Int16 r.sta_index.2) ∧
    (∀ t ∈ Ex.firstRead.t3List, t.nwave < 10000 ∧ (∀ r ∈ t.record, Spec.Int16 r.target_id) ∧
      ∀ r ∈ t.record, Spec.Int16 r.sta_index.1 ∧ Spec.Int16 r.sta_index.2.1 ∧ Spec.Int16 r.sta_index.2.2) ∧
    (∀ t ∈ Ex.firstRead.fluxList, t.nwave < 10000 ∧ (FP.ratFP.keyD t.fov).isSome ∧
      (∀ r ∈ t.record, Spec.Int16 r.target_id) ∧ ∀ r ∈ t.record, Spec.Int16 r.sta_index) := by
  decide +kernel

-- The hypotheses of `C73_upgrade` are met.
example : Holds Ex.undef Ex.files "first" Ex.firstRead ∧ Ex.firstRead.header.content ≠ "OIFITS2" ∧
    Ex.firstRead.arrayList ≠ [] ∧ Ex.firstRead.Storable ∧ Ex.files "out" = none := by
  have hw := Ex.holds_first.wf
  obtain ⟨h1, h2, h3, h4, h5, h6, h7, h8, h9, h10⟩ := Ex.first_numbers
  refine ⟨Ex.holds_first, h1, ?_, ⟨⟨?_, h4⟩, fun t ht => ?_, hw.wavelength, hw.corr, fun t ht => ?_, fun t ht => ?_,
    fun t ht => ?_, fun t ht => ?_, fun t ht => ?_⟩, ?_⟩
  · exact fun h => h2 (congrArg List.length h)
  · exact fun h => h3 (congrArg List.length h)
  · obtain ⟨a, b, c, d⟩ := h5 t ht; exact ⟨hw.array t ht, a, b, c, d⟩
  · rw [List.eq_nil_of_length_eq_zero h6] at ht; cases ht
  · obtain ⟨a, b, c⟩ := h7 t ht; exact ⟨hw.vis t ht, a, b, c⟩
  · obtain ⟨a, b, c⟩ := h8 t ht; exact ⟨hw.vis2 t ht, a, b, c⟩
  · obtain ⟨a, b, c⟩ := h9 t ht; exact ⟨hw.t3 t ht, a, b, c⟩
  · obtain ⟨a, b, c, d⟩ := h10 t ht; exact ⟨hw.flux t ht, a, fun _ => b, c, fun _ => d⟩
  · rfl

end Verif
