import Verif.Proof.Calls
import Verif.Props.Conform
import Verif.Props.WriteFile

/-! C86: tables written one by one, in any order, are read back. -/

set_option Elab.async false

namespace Verif
open Outcome Spec
variable {R : FP}

/-- C86. A program calls the functions which write the header and single tables in any order, the header once, with
any EXTVER numbers. All calls succeed; the file has the header in the primary HDU, wherever in the order it was
written, and then the tables in the order of the calls. -/
theorem C86_file (today : CStr) {calls : List (WriteCall R)} (hc : ∀ c ∈ calls, c.Storable) {header : OiHeader}
    (hh : calls.filterMap WriteCall.header? = [header]) :
    makeFile today false calls = .ok (some (fileOfCalls today header calls), .ok) :=
  makeFile_eq today calls hc hh

/-- C86, except for what `asRead` says about each type of table. If there is an OI_TARGET table among those written, the
file can be read: the dataset has the header, the first OI_TARGET table and, type by type, all tables in the order
in which they were written. -/
theorem C86_partial (today : CStr) {calls : List (WriteCall R)} (hc : ∀ c ∈ calls, c.Storable) {header : OiHeader}
    (hh : calls.filterMap WriteCall.header? = [header]) {t : OiTarget R}
    (ht : (calls.filterMap WriteCall.target?).head? = some t) :
    ∃ hdus, makeFile today false calls = .ok (some hdus, .ok) ∧
    ∀ u, ∃ oi, read_oi_fits u (some hdus) .ok = .ok (some oi, .ok) ∧
      oi.header = header.asRead today ∧
      oi.targets = t.asRead u.str ∧
      oi.arrayList = (calls.filterMap WriteCall.array?).map (fun x => x.1.asRead) ∧
      oi.wavelengthList = (calls.filterMap WriteCall.wavelength?).map (fun x => x.1.asRead) ∧
      oi.corrList = (calls.filterMap WriteCall.corr?).map (fun x => x.1.asRead) ∧
      oi.inspolList = (calls.filterMap WriteCall.inspol?).map (fun x => x.1.asRead) ∧
      oi.visList = (calls.filterMap WriteCall.vis?).map (fun x => x.1.asRead u.int) ∧
      oi.vis2List = (calls.filterMap WriteCall.vis2?).map (fun x => x.1.asRead u.int) ∧
      oi.t3List = (calls.filterMap WriteCall.t3?).map (fun x => x.1.asRead u.int) ∧
      oi.fluxList = (calls.filterMap WriteCall.flux?).map (fun x => x.1.asRead u.int) ∧
      oi.CountsAgree := by
  refine ⟨_, makeFile_eq today calls hc hh, fun u => ?_⟩
  have hb := readBody_calls today (header := header) hc ht u
  refine ⟨_, by rw [read_oi_fits, if_neg (by decide)]; simp only [hb]; rfl, ?_⟩
  have hs := (assemble_spec (header.asRead today) (t.asRead u.str)
      ((calls.filterMap WriteCall.array?).map fun x => OiArray.asRead x.1)
      ((calls.filterMap WriteCall.wavelength?).map fun x => OiWavelength.asRead x.1)
      ((calls.filterMap WriteCall.corr?).map fun x => OiCorr.asRead x.1)
      ((calls.filterMap WriteCall.inspol?).map fun x => OiInspol.asRead x.1)
      ((calls.filterMap WriteCall.vis?).map fun x => OiVis.asRead u.int x.1)
      ((calls.filterMap WriteCall.vis2?).map fun x => OiVis2.asRead u.int x.1)
      ((calls.filterMap WriteCall.t3?).map fun x => OiT3.asRead u.int x.1)
      ((calls.filterMap WriteCall.flux?).map fun x => OiFlux.asRead u.int x.1)).1
  rw [← hs]
  exact ⟨rfl, rfl, rfl, rfl, rfl, rfl, rfl, rfl, rfl, rfl, rfl, rfl, rfl, rfl, rfl, rfl, rfl, rfl⟩

/-- C86: if the format can hold what is written without loss, and none of the tables is an OI_INSPOL table, all is read back
unchanged. -/
theorem C86_exact_partial (today : CStr) {calls : List (WriteCall R)} (hc : ∀ c ∈ calls, c.Storable) {header : OiHeader}
    (hh : calls.filterMap WriteCall.header? = [header]) {t : OiTarget R}
    (ht : (calls.filterMap WriteCall.target?).head? = some t) (u : Undef R)
    (he : ∀ c ∈ calls, c.Exact today u.int u.str) :
    ∃ hdus, makeFile today false calls = .ok (some hdus, .ok) ∧
    ∃ oi, read_oi_fits u (some hdus) .ok = .ok (some oi, .ok) ∧ oi.header = header ∧ oi.targets = t ∧
      oi.arrayList = (calls.filterMap WriteCall.array?).map (·.1) ∧
      oi.wavelengthList = (calls.filterMap WriteCall.wavelength?).map (·.1) ∧
      oi.corrList = (calls.filterMap WriteCall.corr?).map (·.1) ∧ oi.inspolList = [] ∧
      oi.visList = (calls.filterMap WriteCall.vis?).map (·.1) ∧
      oi.vis2List = (calls.filterMap WriteCall.vis2?).map (·.1) ∧
      oi.t3List = (calls.filterMap WriteCall.t3?).map (·.1) ∧
      oi.fluxList = (calls.filterMap WriteCall.flux?).map (·.1) ∧ oi.CountsAgree := by
  obtain ⟨hdus, h1, h2⟩ := C86_partial today hc hh ht
  obtain ⟨oi, h3, e1, e2, e3, e4, e5, e6, e7, e8, e9, e10, e11⟩ := h2 u
  refine ⟨hdus, h1, oi, h3, ?_, ?_, ?_, ?_, ?_, ?_, ?_, ?_, ?_, ?_, e11⟩
  · obtain ⟨c, m1, m2⟩ := List.mem_filterMap.mp (show header ∈ calls.filterMap WriteCall.header? by rw [hh]; simp)
    have := he c m1
    cases c <;> cases m2
    rw [e1, OiHeader.Exact.eq this]
  · obtain ⟨c, m1, m2⟩ := List.mem_filterMap.mp (List.mem_of_mem_head? (Option.mem_def.mpr ht))
    have := he c m1
    cases c <;> cases m2
    rw [e2, OiTarget.Exact.eq this]
  · rw [e3]
    refine List.map_congr_left fun x hx => ?_
    obtain ⟨c, m1, m2⟩ := List.mem_filterMap.mp hx
    have := he c m1
    cases c <;> cases m2
    exact OiArray.Exact.eq this
  · rw [e4]
    refine List.map_congr_left fun x hx => ?_
    obtain ⟨c, m1, m2⟩ := List.mem_filterMap.mp hx
    have := he c m1
    cases c <;> cases m2
    exact OiWavelength.Exact.eq this
  · rw [e5]
    refine List.map_congr_left fun x hx => ?_
    obtain ⟨c, m1, m2⟩ := List.mem_filterMap.mp hx
    have := he c m1
    cases c <;> cases m2
    exact OiCorr.Exact.eq this
  · rw [e6, List.map_eq_nil_iff, List.filterMap_eq_nil_iff]
    intro c m
    have := he c m
    cases c <;> first | rfl | exact this.elim
  · rw [e7]
    refine List.map_congr_left fun x hx => ?_
    obtain ⟨c, m1, m2⟩ := List.mem_filterMap.mp hx
    have := he c m1
    cases c <;> cases m2
    exact OiVis.Exact.eq this
  · rw [e8]
    refine List.map_congr_left fun x hx => ?_
    obtain ⟨c, m1, m2⟩ := List.mem_filterMap.mp hx
    have := he c m1
    cases c <;> cases m2
    exact OiVis2.Exact.eq this
  · rw [e9]
    refine List.map_congr_left fun x hx => ?_
    obtain ⟨c, m1, m2⟩ := List.mem_filterMap.mp hx
    have := he c m1
    cases c <;> cases m2
    exact OiT3.Exact.eq this
  · rw [e10]
    refine List.map_congr_left fun x hx => ?_
    obtain ⟨c, m1, m2⟩ := List.mem_filterMap.mp hx
    have := he c m1
    cases c <;> cases m2
    exact OiFlux.Exact.eq this

/-- An existing file is not overwritten. -/
theorem C86_no_overwrite (today : CStr) (calls : List (WriteCall R)) :
    ∃ st, st ≠ .ok ∧ makeFile today true calls = .ok (none, st) :=
  ⟨.other 105, by decide, rfl⟩

/-- Either all calls succeed and there is a file, or there is none. -/
theorem C86_all_or_none (today : CStr) (calls : List (WriteCall R)) {hdus : Option (List (Hdu R))} {st : Status}
    (h : makeFile today false calls = .ok (hdus, st)) : hdus.isSome ↔ st = .ok := by
  unfold makeFile at h
  rw [if_neg Bool.false_ne_true] at h
  cases hr : runWrites today calls (⟨[], 0, .ok⟩ : FState R) with
  | ok x =>
    rw [hr] at h
    obtain ⟨_, s⟩ := x
    by_cases hs : s.status = .ok
    · have h : Outcome.ok (some s.hdus, Status.ok) = .ok (hdus, st) := by
        rw [← h]
        show _ = if s.status ≠ .ok then _ else _
        rw [if_neg (by simpa using hs)]
        rfl
      cases h
      simp
    · have h : Outcome.ok (none, s.status) = .ok (hdus, st) := by
        rw [← h]
        show _ = if s.status ≠ .ok then _ else _
        rw [if_pos hs]
        rfl
      cases h
      simpa using hs
  | abort => rw [hr] at h; cases h
  | ub => rw [hr] at h; cases h

/-- If no OI_TARGET table was written, reading the file is an error. -/
theorem C86_no_target (today : CStr) {calls : List (WriteCall R)} (hc : ∀ c ∈ calls, c.Storable) {header : OiHeader}
    (hh : calls.filterMap WriteCall.header? = [header]) (ht : calls.filterMap WriteCall.target? = []) :
    ∃ hdus, makeFile today false calls = .ok (some hdus, .ok) ∧
    ∀ u, ∃ st, st ≠ .ok ∧ read_oi_fits u (some hdus) .ok = .ok (none, st) := by
  refine ⟨_, makeFile_eq today calls hc hh, fun u => ⟨.BAD_HDU_NUM, by decide, ?_⟩⟩
  rw [read_oi_fits, if_neg (by decide)]
  obtain ⟨s, hs, hst⟩ := readBody_no_target today header ht u
  simp only [hs, Outcome.bind_ok]
  rw [hst]
  rfl

/-- oitable-demo: its tables are read back, one of each type. -/
theorem C86_demo_partial (today date content : CStr) {d : DemoInput R} (hd : d.Storable) :
    ∃ hdus, demo_write today false date content d = .ok (some hdus, .ok) ∧
    ∀ u, ∃ oi, read_oi_fits u (some hdus) .ok = .ok (some oi, .ok) ∧
      oi.targets = d.targets.asRead u.str ∧ oi.arrayList = [d.array.asRead] ∧ oi.wavelengthList = [d.wave.asRead] ∧
      oi.corrList = [d.corr.asRead] ∧ oi.inspolList = [d.inspol.asRead] ∧ oi.visList = [d.vis.asRead u.int] ∧
      oi.vis2List = [d.vis2.asRead u.int] ∧ oi.t3List = [d.t3.asRead u.int] ∧ oi.fluxList = [d.flux.asRead u.int] ∧
      oi.header.origin = "ESO" ∧ oi.header.date_obs = keyStr d.vis.date_obs ∧
      d.targets.targ.head?.map (fun t => keyStr t.target) = some oi.header.object := by
  obtain ⟨x, xs, hx⟩ := List.exists_cons_of_ne_nil hd.targets.rows
  obtain ⟨header, hh, h1, h2, h3⟩ : ∃ header, demoHeader date content d = .ok header ∧ header.origin = "ESO" ∧
      header.date_obs = d.vis.date_obs ∧ header.object = x.target := by
    unfold demoHeader
    rw [hx]
    exact ⟨_, rfl, rfl, rfl, rfl⟩
  have hc : ∀ c ∈ demoCalls header d, c.Storable := by
    intro c hc
    simp only [demoCalls, List.mem_cons, List.not_mem_nil, or_false] at hc
    rcases hc with rfl | rfl | rfl | rfl | rfl | rfl | rfl | rfl | rfl | rfl
    · trivial
    · exact hd.targets
    · exact hd.vis
    · exact hd.vis2
    · exact hd.t3
    · exact hd.flux
    · exact hd.array
    · exact hd.wave
    · exact hd.corr
    · exact hd.inspol
  obtain ⟨hdus, e1, e2⟩ := C86_partial today hc (header := header) rfl (t := d.targets) rfl
  refine ⟨hdus, ?_, fun u => ?_⟩
  · unfold demo_write
    rw [hh]
    exact e1
  · obtain ⟨oi, f1, f2, f3, f4, f5, f6, f7, f8, f9, f10, f11, -⟩ := e2 u
    refine ⟨oi, f1, f3, f4, f5, f6, f7, f8, f9, f10, f11, ?_⟩
    rw [f2, hx]
    refine ⟨?_, ?_, ?_⟩
    · show keyStr header.origin = _
      rw [h1]
      rfl
    · show keyStr header.date_obs = _
      rw [h2]
    · show some (keyStr x.target) = some (keyStr header.object)
      rw [h3]

/-! ### Examples -/

/-- Tables of data first, the header in the middle, EXTVER numbers out of order, two OI_VIS2 tables. -/
def Ex.calls : List (WriteCall FP.ratFP) :=
  [.vis2 Ex.vis2 7, .wavelength Ex.wave 3, .vis Ex.vis 1, .header Ex.header, .vis2 { Ex.vis2 with insname := "INS2" } 2,
   .target Ex.targets, .array Ex.array 1, .corr Ex.corr 1]

theorem Ex.vis2_ins2_storable : ({ Ex.vis2 with insname := "INS2" } : OiVis2 FP.ratFP).Storable :=
  ⟨⟨Ex.vis2_wf.rows, Ex.vis2_wf.chans, Ex.vis2_wf.recs⟩, by decide, by decide +kernel, by decide +kernel⟩

theorem Ex.calls_storable : ∀ c ∈ Ex.calls, c.Storable := by
  intro c hc
  simp only [Ex.calls, List.mem_cons, List.not_mem_nil, or_false] at hc
  rcases hc with rfl | rfl | rfl | rfl | rfl | rfl | rfl | rfl
  · exact Ex.vis2_storable
  · exact Ex.wave_wf
  · exact Ex.vis_storable
  · trivial
  · exact Ex.vis2_ins2_storable
  · exact Ex.targets_storable
  · exact Ex.array_storable
  · exact Ex.corr_wf

theorem Ex.calls_exact (str : CStr) : ∀ c ∈ Ex.calls, c.Exact "2016-01-01" 1 str := by
  intro c hc
  simp only [Ex.calls, List.mem_cons, List.not_mem_nil, or_false] at hc
  rcases hc with rfl | rfl | rfl | rfl | rfl | rfl | rfl | rfl
  · exact Ex.vis2_exact
  · exact Ex.wave_exact
  · exact Ex.vis_exact _
  · exact Ex.header_exact
  · exact { Ex.vis2_exact with insname := by decide +kernel }
  · exact Ex.targets_exact str
  · exact Ex.array_exact
  · exact Ex.corr_exact

-- All is read back from the file which these calls make.
example : ∃ hdus, makeFile "2016-01-01" false Ex.calls = .ok (some hdus, .ok) ∧
    ∃ oi, read_oi_fits ⟨1, none, none, "junk", true, 'x'⟩ (some hdus) .ok = .ok (some oi, .ok) ∧
      oi.header = Ex.header ∧ oi.visList = [Ex.vis] ∧ oi.vis2List = [Ex.vis2, { Ex.vis2 with insname := "INS2" }] := by
  obtain ⟨hdus, h1, oi, h2, h3, -, -, -, -, -, h4, h5, -⟩ :=
    C86_exact_partial "2016-01-01" Ex.calls_storable (header := Ex.header) rfl (t := Ex.targets) rfl
      ⟨1, none, none, "junk", true, 'x'⟩ (Ex.calls_exact _)
  exact ⟨hdus, h1, oi, h2, h3, h4, h5⟩

/-- C86 is false of OI_INSPOL tables: the Jones matrices change. -/
theorem C86_inspol_counterexample : ∃ calls : List (WriteCall FP.ratFP), (∀ c ∈ calls, c.Storable) ∧
    calls.filterMap WriteCall.header? = [Ex.header] ∧ ∀ today, ∃ hdus, makeFile today false calls = .ok (some hdus, .ok) ∧
    ∀ u, ∃ oi, read_oi_fits u (some hdus) .ok = .ok (some oi, .ok) ∧
      oi.inspolList.map (·.record.map (·.jxx)) ≠ (calls.filterMap WriteCall.inspol?).map (·.1.record.map (·.jxx)) := by
  have hc : ∀ c ∈ ([.header Ex.header, .inspol Ex.inspol 1, .target Ex.targets] : List (WriteCall FP.ratFP)), c.Storable := by
    intro c hc
    simp only [List.mem_cons, List.not_mem_nil, or_false] at hc
    rcases hc with rfl | rfl | rfl
    · trivial
    · exact Ex.inspol_storable
    · exact Ex.targets_storable
  refine ⟨_, hc, rfl, fun today => ?_⟩
  obtain ⟨hdus, h1, h2⟩ := C86_partial today hc (header := Ex.header) rfl (t := Ex.targets) rfl
  refine ⟨hdus, h1, fun u => ?_⟩
  obtain ⟨oi, h3, -, -, -, -, -, e, -⟩ := h2 u
  refine ⟨oi, h3, ?_⟩
  rw [e]
  decide +kernel

/-- The tables of the example, as if taken from a text file. -/
def Ex.demoInput : DemoInput FP.ratFP :=
  ⟨Ex.array, Ex.targets, Ex.wave, Ex.corr, Ex.inspol, Ex.vis, Ex.vis2, Ex.t3, Ex.flux⟩

example : Ex.demoInput.Storable :=
  ⟨Ex.targets_storable, Ex.array_storable, Ex.wave_wf, Ex.corr_wf, Ex.inspol_storable, Ex.vis_storable, Ex.vis2_storable,
    Ex.t3_storable, Ex.flux_storable⟩

-- Tables without targets.
example : ∃ calls : List (WriteCall FP.ratFP), (∀ c ∈ calls, c.Storable) ∧
    calls.filterMap WriteCall.header? = [Ex.header] ∧ calls.filterMap WriteCall.target? = [] ∧ calls.length = 2 := by
  refine ⟨[.vis Ex.vis 1, .header Ex.header], fun c hc => ?_, rfl, rfl, rfl⟩
  simp only [List.mem_cons, List.not_mem_nil, or_false] at hc
  rcases hc with rfl | rfl
  · exact Ex.vis_storable
  · trivial

end Verif
