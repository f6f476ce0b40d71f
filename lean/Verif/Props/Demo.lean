import Verif.Proof.Demo
import Verif.Props.Conform

/-! C84: the program oitable-demo lists the tables of data of a file. -/

set_option Elab.async false

namespace Verif
open Outcome Spec
variable {R : FP}

/-- C84, exactly what is done. The program ends with success if and only if the header and the targets can be read, all
OI_VIS tables after the OI_TARGET table and all other tables of data can be read, all tables to which they refer can be
read, and there is an OI_VIS table among those if there are OI_VIS2 tables. It lists those tables, the OI_VIS2 tables
with the CORRNAME of the last OI_VIS table. Missing: OI_VIS tables before the OI_TARGET table, and the CORRNAME of the
OI_VIS2 tables. -/
theorem C84_exact_partial (u : Undef R) {hdus : List (Hdu R)} (hp : PlainFile hdus) (lines : List DemoLine) :
    demo_read u (some hdus) = .ok (lines, true) ↔
      ∃ p d, HeadRead hdus p ∧ DemoReads u hdus ((positions "OI_VIS" hdus).filter fun i => decide (p < i)) d ∧
        (d.vis2 = [] ∨ d.vis ≠ []) ∧ lines = d.printed :=
  demo_read_iff u hp lines

/-- C84 for files in which the OI_TARGET table comes before all OI_VIS tables and there are no OI_VIS2 tables. -/
theorem C84_partial (u : Undef R) {hdus : List (Hdu R)} (hp : PlainFile hdus) (lines : List DemoLine)
    (hfirst : ∀ p, hdus.findIdx? (isTable "OI_TARGET") = some p → ∀ i ∈ positions "OI_VIS" hdus, p < i)
    (hno : positions "OI_VIS2" hdus = []) :
    demo_read u (some hdus) = .ok (lines, true) ↔ DemoListsAll u hdus lines := by
  rw [C84_exact_partial u hp]
  have hfil : ∀ p, HeadRead hdus p →
      (positions "OI_VIS" hdus).filter (fun i => decide (p < i)) = positions "OI_VIS" hdus := by
    intro p hh
    rw [List.filter_eq_self]
    intro i hi
    exact decide_eq_true (hfirst p hh.2.1 i hi)
  have hnil : ∀ {ps d}, DemoReads u hdus ps d → d.vis2 = [] := by
    intro ps d h
    have := h.vis2.1
    rw [hno] at this
    simpa using this.symm
  constructor
  · rintro ⟨p, d, h1, h2, -, rfl⟩
    refine ⟨p, d, h1, hfil p h1 ▸ h2, ?_⟩
    simp only [DemoTables.printed, DemoTables.lines, hnil h2, List.map_nil]
  · rintro ⟨p, d, h1, h2, rfl⟩
    refine ⟨p, d, h1, (hfil p h1).symm ▸ h2, .inl (hnil h2), ?_⟩
    simp only [DemoTables.printed, DemoTables.lines, hnil h2, List.map_nil]

/-- What is printed is right exactly if all OI_VIS2 tables have the CORRNAME of the last OI_VIS table. -/
theorem C84_right_iff (d : DemoTables R) :
    d.printed = d.lines ↔ ∀ t ∈ d.vis2, t.corrname = (d.vis.getLast?.map (·.corrname)).getD [] := by
  unfold DemoTables.printed DemoTables.lines
  simp only [List.append_assoc, List.append_cancel_left_eq]
  rw [List.append_cancel_right_eq, List.map_inj_left]
  constructor
  · intro h t ht
    exact (congrArg DemoLine.corrname (h t ht)).symm
  · intro h t ht
    show _ = vis2Line t
    rw [← h t ht]
    rfl

/-- The tables listed are those which `read_oi_fits` reads from the file, if both end with success and the OI_TARGET
table comes before all OI_VIS tables. -/
theorem C84_dataset (u : Undef R) {hdus : List (Hdu R)} (hp : PlainFile hdus) {lines : List DemoLine}
    (hfirst : ∀ p, hdus.findIdx? (isTable "OI_TARGET") = some p → ∀ i ∈ positions "OI_VIS" hdus, p < i)
    {oi : OiFits R} {st : Status} (hr : read_oi_fits u (some hdus) .ok = .ok (some oi, st))
    (h : demo_read u (some hdus) = .ok (lines, true)) : lines = (DemoTables.of oi).printed := by
  obtain ⟨p, d, h1, h2, -, rfl⟩ := (C84_exact_partial u hp lines).mp h
  obtain ⟨-, -, -, e1, e2, e3, e4, e5⟩ := C66_tables hp.primary hp.names hr
  have hfil : (positions "OI_VIS" hdus).filter (fun i => decide (p < i)) = positions "OI_VIS" hdus := by
    rw [List.filter_eq_self]
    intro i hi
    exact decide_eq_true (hfirst p h1.2.1 i hi)
  rw [hfil] at h2
  have key : ∀ {τ : Type} {f : Nat → Option τ} {ps : List Nat} {l : List τ}, ps.map f = l.map some → ps.filterMap f = l := by
    intro τ f ps l he
    have : ps.filterMap f = (ps.map f).filterMap id := by rw [List.filterMap_map]; rfl
    rw [this, he, List.filterMap_map]
    exact List.filterMap_some
  rw [key h2.inspol.1] at e1
  rw [key h2.vis.1] at e2
  rw [key h2.vis2.1] at e3
  rw [key h2.t3.1] at e4
  rw [key h2.flux.1] at e5
  show d.printed = _
  rw [show DemoTables.of oi = d by unfold DemoTables.of; rw [e1, e2, e3, e4, e5]]

/-- A file which cannot be opened is an error. -/
theorem C84_unopened (u : Undef R) : demo_read u none = .ok ([], false) := rfl

/-! ### Files which show what is wrong -/

/-- A test for a keyword with a string. -/
def Ex.keyStr (k : CStr) (h : Hdu FP.ratFP) : Bool :=
  match h.keys.lookup k with
  | some (.str _) => true
  | none => true
  | _ => false

theorem Ex.keyStr_key {k : CStr} {h : Hdu FP.ratFP} (hk : Ex.keyStr k h = true) : StringKey k h := by
  intro v hv
  unfold Ex.keyStr at hk
  rw [hv] at hk
  cases v with
  | str s => exact ⟨s, rfl⟩
  | _ => cases hk

/-- A test for what a file as expected has. -/
def Ex.plain (hdus : List (Hdu FP.ratFP)) : Bool :=
  !hdus.isEmpty && (hdus.drop 1).all (fun h => decide (h.type = .binary)) && hdus.all (Ex.keyStr "EXTNAME") &&
    hdus.all (Ex.keyStr "ARRNAME") && hdus.all (Ex.keyStr "INSNAME") && hdus.all (Ex.keyStr "CORRNAME")

theorem Ex.plain_file {hdus : List (Hdu FP.ratFP)} (h : Ex.plain hdus = true) : PlainFile hdus := by
  simp only [Ex.plain, Bool.and_eq_true, List.all_eq_true, decide_eq_true_eq] at h
  obtain ⟨⟨⟨⟨⟨h1, h2⟩, h3⟩, h4⟩, h5⟩, h6⟩ := h
  exact ⟨(by rintro rfl; cases h1), h2, fun h hh => Ex.keyStr_key (h3 h hh), fun h hh => Ex.keyStr_key (h4 h hh),
    fun h hh => Ex.keyStr_key (h5 h hh), fun h hh => Ex.keyStr_key (h6 h hh)⟩

/-- A test for the outcome of the program. -/
def Ex.demoShows (x : Outcome (List DemoLine × Bool)) (tables corrnames : List CStr) : Bool :=
  match x with
  | .ok (l, true) => decide (l.map (·.table) = tables) && decide (l.map (·.corrname) = corrnames)
  | _ => false

theorem Ex.demo_shown {x : Outcome (List DemoLine × Bool)} {tables corrnames : List CStr}
    (h : Ex.demoShows x tables corrnames = true) :
    ∃ l, x = .ok (l, true) ∧ l.map (·.table) = tables ∧ l.map (·.corrname) = corrnames := by
  unfold Ex.demoShows at h
  split at h
  · rw [Bool.and_eq_true, decide_eq_true_eq, decide_eq_true_eq] at h
    exact ⟨_, rfl, h⟩
  · cases h

/-- A dataset without OI_VIS2 tables. -/
def Ex.demoFile : List (Hdu FP.ratFP) := fileOf "2016-01-01" { Ex.good with vis2List := [] }

theorem Ex.demoFile_facts : Ex.plain Ex.demoFile = true ∧
    Ex.demoShows (demo_read Ex.undef (some Ex.demoFile)) ["OI_VIS", "OI_T3", "OI_FLUX"] ["CORR1", "CORR1", "CORR1"] = true ∧
    Ex.demoFile.findIdx? (isTable "OI_TARGET") = some 1 ∧ positions "OI_VIS" Ex.demoFile = [5] ∧
    positions "OI_VIS2" Ex.demoFile = [] ∧ Ex.isRead (read_oi_fits Ex.undef (some Ex.demoFile) .ok) = true := by
  decide +kernel

-- The hypotheses are met by this file, and its three tables of data are listed.
example : ∃ lines, PlainFile Ex.demoFile ∧ DemoListsAll Ex.undef Ex.demoFile lines ∧
    lines.map (·.table) = ["OI_VIS", "OI_T3", "OI_FLUX"] := by
  obtain ⟨h1, h2, h3, h4, h5, -⟩ := Ex.demoFile_facts
  obtain ⟨l, e1, e2, -⟩ := Ex.demo_shown h2
  refine ⟨l, Ex.plain_file h1, (C84_partial _ (Ex.plain_file h1) l ?_ h5).mp e1, e2⟩
  intro p hp i hi
  rw [h3] at hp
  cases hp
  rw [h4] at hi
  rw [List.mem_singleton.mp hi]
  decide

/-- The same file with the OI_TARGET table at the end. -/
def Ex.targetLast : List (Hdu FP.ratFP) :=
  Ex.demoFile.take 1 ++ Ex.demoFile.drop 2 ++ (Ex.demoFile.drop 1).take 1

theorem Ex.targetLast_facts : Ex.plain Ex.targetLast = true ∧
    Ex.demoShows (demo_read Ex.undef (some Ex.targetLast)) ["OI_T3", "OI_FLUX"] ["CORR1", "CORR1"] = true ∧
    positions "OI_VIS" Ex.targetLast = [4] := by
  decide +kernel

/-- C84 fails: OI_VIS tables before the OI_TARGET table are left out, with success. -/
theorem C84_counterexample_order : ∃ lines, PlainFile Ex.targetLast ∧
    demo_read Ex.undef (some Ex.targetLast) = .ok (lines, true) ∧ ¬ DemoListsAll Ex.undef Ex.targetLast lines := by
  obtain ⟨h1, h2, h3⟩ := Ex.targetLast_facts
  obtain ⟨l, e1, e2, -⟩ := Ex.demo_shown h2
  refine ⟨l, Ex.plain_file h1, e1, ?_⟩
  rintro ⟨p, d, -, hd, rfl⟩
  have hv := hd.vis.1
  rw [h3] at hv
  cases hvis : d.vis with
  | nil => rw [hvis] at hv; simp at hv
  | cons t ts =>
    unfold DemoTables.lines at e2
    rw [hvis] at e2
    have e2 : ("OI_VIS" : CStr) :: _ = ("OI_T3" : CStr) :: _ := e2
    exact absurd (List.cons.inj e2).1 (by decide)

/-- A file whose OI_VIS2 tables have no CORRNAME. -/
def Ex.noCorr : List (Hdu FP.ratFP) :=
  fileOf "2016-01-01" { Ex.good with vis2List := [{ Ex.vis2 with corrname := [] }] }

theorem Ex.noCorr_facts : Ex.plain Ex.noCorr = true ∧
    Ex.demoShows (demo_read Ex.undef (some Ex.noCorr)) ["OI_VIS", "OI_VIS2", "OI_T3", "OI_FLUX"]
      ["CORR1", "CORR1", "CORR1", "CORR1"] = true ∧
    (positions "OI_VIS2" Ex.noCorr).map (fun i => (readable (read_next_oi_vis2 Ex.undef Ex.undef.vis2) Ex.noCorr i).map
      (·.corrname)) = [some []] ∧ positions "OI_VIS" Ex.noCorr = [5] := by
  decide +kernel

/-- C84 fails: an OI_VIS2 table is listed with the CORRNAME of an OI_VIS table. -/
theorem C84_counterexample_corrname : ∃ lines, PlainFile Ex.noCorr ∧
    demo_read Ex.undef (some Ex.noCorr) = .ok (lines, true) ∧ ¬ DemoListsAll Ex.undef Ex.noCorr lines := by
  obtain ⟨h1, h2, h3, h4⟩ := Ex.noCorr_facts
  obtain ⟨l, e1, -, e2⟩ := Ex.demo_shown h2
  refine ⟨l, Ex.plain_file h1, e1, ?_⟩
  rintro ⟨p, d, -, hd, rfl⟩
  have hv := congrArg List.length hd.vis.1
  rw [h4, List.length_map, List.length_map] at hv
  have hw := hd.vis2.1
  have hw : (d.vis2.map (fun t => some t.corrname)) = [some []] := by
    rw [← h3]
    have := congrArg (List.map (Option.map (fun t : OiVis2 FP.ratFP => t.corrname))) hw
    rw [List.map_map, List.map_map] at this
    exact this.symm
  match hvis : d.vis, hvis2 : d.vis2 with
  | [], _ => rw [hvis] at hv; simp at hv
  | t :: t' :: ts, _ => rw [hvis] at hv; simp at hv
  | [t], [] => rw [hvis2] at hw; cases hw
  | [t], w :: ws =>
    rw [hvis2] at hw
    have hwc : w.corrname = [] := Option.some.inj (List.cons.inj hw).1
    unfold DemoTables.lines at e2
    rw [hvis, hvis2] at e2
    have e2 : t.corrname :: w.corrname :: _ = ("CORR1" : CStr) :: ("CORR1" : CStr) :: _ := e2
    have := (List.cons.inj (List.cons.inj e2).2).1
    rw [hwc] at this
    cases this

/-- A file with OI_VIS2 tables but no OI_VIS table. -/
def Ex.noVis : List (Hdu FP.ratFP) := fileOf "2016-01-01" { Ex.good with visList := [] }

theorem Ex.noVis_facts : Ex.plain Ex.noVis = true ∧
    (match demo_read Ex.undef (some Ex.noVis) with | .ub => true | _ => false) = true := by
  decide +kernel

/-- C84 fails: memory which has not been initialised is printed if there are OI_VIS2 tables but no OI_VIS table. -/
theorem C84_counterexample_undefined : PlainFile Ex.noVis ∧ demo_read Ex.undef (some Ex.noVis) = .ub := by
  obtain ⟨h1, h2⟩ := Ex.noVis_facts
  refine ⟨Ex.plain_file h1, ?_⟩
  match demo_read Ex.undef (some Ex.noVis), h2 with
  | .ub, _ => rfl

end Verif
