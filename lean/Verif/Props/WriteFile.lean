import Verif.Proof.FitsWriteFile
import Verif.Proof.FitsReadFile
import Verif.Proof.FitsTame
import Verif.Proof.FitsExact
import Verif.Proof.Check
import Verif.Spec.ExampleFits
import Verif.Spec.Read

/-! Properties of writing a dataset to a file and of reading it back: C50, C52, C55 and
C62. What a file contains is in `Spec/Fits.lean`, what changes on reading in
`Spec/RoundTrip.lean`. -/

namespace Verif
open Outcome Spec

variable {R : FP}

/-! ### C50: a whole file -/

/-- C50, except for what `asRead` says about each type of table. In particular the Jones
matrices of OI_INSPOL tables are not preserved (`C50_inspol_counterexample`). -/
theorem C50_partial (today : CStr) {oi : OiFits R} (h : oi.Storable) :
    ∃ hdus, write_oi_fits today false oi .ok = .ok (some hdus, .ok) ∧
    ∀ u, ∃ oi', read_oi_fits u (some hdus) .ok = .ok (some oi', .ok) ∧
      oi'.header = oi.header.asRead today ∧
      oi'.targets = oi.targets.asRead u.str ∧
      oi'.arrayList = oi.arrayList.map OiArray.asRead ∧
      oi'.wavelengthList = oi.wavelengthList.map OiWavelength.asRead ∧
      oi'.corrList = oi.corrList.map OiCorr.asRead ∧
      oi'.inspolList = oi.inspolList.map OiInspol.asRead ∧
      oi'.visList = oi.visList.map (OiVis.asRead u.int) ∧
      oi'.vis2List = oi.vis2List.map (OiVis2.asRead u.int) ∧
      oi'.t3List = oi.t3List.map (OiT3.asRead u.int) ∧
      oi'.fluxList = oi.fluxList.map (OiFlux.asRead u.int) ∧
      oi'.CountsAgree := by
  refine ⟨_, write_oi_fits_eq today oi h, fun u => ?_⟩
  have hb := readBody_fileOf today h u
  refine ⟨_, by rw [read_oi_fits, if_neg (by decide)]; simp only [hb]; rfl, ?_⟩
  have hs := (assemble_spec (oi.header.asRead today)
      (oi.targets.asRead u.str) (oi.arrayList.map OiArray.asRead)
      (oi.wavelengthList.map OiWavelength.asRead) (oi.corrList.map OiCorr.asRead)
      (oi.inspolList.map OiInspol.asRead) (oi.visList.map (OiVis.asRead u.int))
      (oi.vis2List.map (OiVis2.asRead u.int)) (oi.t3List.map (OiT3.asRead u.int))
      (oi.fluxList.map (OiFlux.asRead u.int))).1
  rw [← hs]
  exact ⟨rfl, rfl, rfl, rfl, rfl, rfl, rfl, rfl, rfl, rfl, rfl, rfl, rfl, rfl, rfl, rfl, rfl, rfl⟩

theorem eq_map_of_fixed {α : Type} {f : α → α} {l : List α} (h : ∀ x ∈ l, f x = x) : l.map f = l := by
  conv => rhs; rw [← List.map_id l]
  exact List.map_congr_left h

/-- C50: all tables come back unchanged and in the same order if the file can hold them
without loss and none is an OI_INSPOL table. -/
theorem C50_exact_partial (today : CStr) {oi : OiFits R} (h : oi.Storable) (u : Undef R)
    (he : oi.Exact today u.int u.str) :
    ∃ hdus, write_oi_fits today false oi .ok = .ok (some hdus, .ok) ∧
    ∃ oi', read_oi_fits u (some hdus) .ok = .ok (some oi', .ok) ∧
      oi'.header = oi.header ∧ oi'.targets = oi.targets ∧ oi'.arrayList = oi.arrayList ∧
      oi'.wavelengthList = oi.wavelengthList ∧ oi'.corrList = oi.corrList ∧
      oi'.inspolList = oi.inspolList ∧ oi'.visList = oi.visList ∧ oi'.vis2List = oi.vis2List ∧
      oi'.t3List = oi.t3List ∧ oi'.fluxList = oi.fluxList ∧ oi'.CountsAgree := by
  obtain ⟨hdus, h1, h2⟩ := C50_partial today h
  obtain ⟨oi', h3, e1, e2, e3, e4, e5, e6, e7, e8, e9, e10, e11⟩ := h2 u
  refine ⟨hdus, h1, oi', h3, ?_, ?_, ?_, ?_, ?_, ?_, ?_, ?_, ?_, ?_, e11⟩
  · rw [e1, he.header.eq]
  · rw [e2, he.targets.eq]
  · rw [e3]; exact eq_map_of_fixed fun t ht => (he.array t ht).eq
  · rw [e4]; exact eq_map_of_fixed fun t ht => (he.wavelength t ht).eq
  · rw [e5]; exact eq_map_of_fixed fun t ht => (he.corr t ht).eq
  · rw [e6, he.inspol]; rfl
  · rw [e7]; exact eq_map_of_fixed fun t ht => (he.vis t ht).eq
  · rw [e8]; exact eq_map_of_fixed fun t ht => (he.vis2 t ht).eq
  · rw [e9]; exact eq_map_of_fixed fun t ht => (he.t3 t ht).eq
  · rw [e10]; exact eq_map_of_fixed fun t ht => (he.flux t ht).eq

example : ∃ hdus, write_oi_fits "2016-01-01" false Ex.oic .ok = .ok (some hdus, .ok) ∧
    ∃ oi', read_oi_fits ⟨1, none, none, "junk", true, 'x'⟩ (some hdus) .ok = .ok (some oi', .ok) ∧
      oi'.visList = [Ex.vis] ∧ oi'.vis2List = [Ex.vis2, Ex.vis2] := by
  obtain ⟨hdus, h1, oi', h2, -, -, -, -, -, -, h3, h4, -⟩ :=
    C50_exact_partial "2016-01-01" Ex.oic_storable ⟨1, none, none, "junk", true, 'x'⟩ (Ex.oic_exact _)
  exact ⟨hdus, h1, oi', h2, h3, h4⟩

/-- C50 is false of datasets with OI_INSPOL tables: the Jones matrices change. -/
theorem C50_inspol_counterexample : ∃ oi : OiFits FP.ratFP, oi.Storable ∧
    ∀ today, ∃ hdus, write_oi_fits today false oi .ok = .ok (some hdus, .ok) ∧
    ∀ u, ∃ oi', read_oi_fits u (some hdus) .ok = .ok (some oi', .ok) ∧
      oi'.inspolList.map (·.record.map (·.jxx)) ≠ oi.inspolList.map (·.record.map (·.jxx)) := by
  refine ⟨Ex.oi, Ex.oi_storable, fun today => ?_⟩
  obtain ⟨hdus, h1, h2⟩ := C50_partial today Ex.oi_storable
  refine ⟨hdus, h1, fun u => ?_⟩
  obtain ⟨oi', h3, -, -, -, -, -, e, -⟩ := h2 u
  refine ⟨oi', h3, ?_⟩
  rw [e]
  decide +kernel

/-- An existing file is not overwritten, and nothing is written when there is an error
already. -/
theorem C50_no_overwrite (today : CStr) (oi : OiFits R) :
    ∃ st, st ≠ .ok ∧ write_oi_fits today true oi .ok = .ok (none, st) :=
  ⟨.other 105, by decide, rfl⟩

/-! ### C52: EXTVER -/

theorem fileOf_stringName (today : CStr) (oi : OiFits R) : ∀ h ∈ Spec.fileOf today oi, StringName h := by
  intro h hh
  have hidx {τ : Type} {l : List τ} {f : Nat → τ → Hdu R} {e : CStr}
      (hf : ∀ k t, (f k t).keys.lookup ("EXTNAME" : CStr) = some (.str e)) (hm : h ∈ l.mapIdx f) : StringName h := by
    rw [List.mapIdx_eq_zipIdx_map] at hm
    obtain ⟨y, _, rfl⟩ := List.mem_map.mp hm
    intro v hv
    rw [hf] at hv; cases hv; exact ⟨_, rfl⟩
  simp only [Spec.fileOf, List.mem_cons, List.mem_append] at hh
  rcases hh with rfl | rfl | ((((((hm | hm) | hm) | hm) | hm) | hm) | hm) | hm
  · intro v hv
    have : (Spec.hduPrimary (R := R) today oi.header).keys.lookup ("EXTNAME" : CStr) = none := by
      rw [primary_keys]; lk_skip; rfl
    rw [this] at hv; cases hv
  · intro v hv
    have : (Spec.hduTarget oi.targets).keys.lookup ("EXTNAME" : CStr) = some (.str ("OI_TARGET" : CStr)) := rfl
    rw [this] at hv; cases hv; exact ⟨_, rfl⟩
  · exact hidx (fun _ _ => rfl) hm
  · exact hidx (fun _ _ => rfl) hm
  · exact hidx (fun _ _ => rfl) hm
  · exact hidx (fun _ _ => rfl) hm
  · exact hidx (fun _ _ => rfl) hm
  · exact hidx (fun _ _ => rfl) hm
  · exact hidx (fun _ _ => rfl) hm
  · exact hidx (fun _ _ => rfl) hm

theorem fileOf_filter (name today : CStr) (oi : OiFits R) :
    (fileOf today oi).filter (isTable name) = ((fileOf today oi).drop 1).filter (Hdu.isNamed name) := by
  have h1 : (fileOf today oi).filter (isTable name) = (fileOf today oi).filter (Hdu.isNamed name) :=
    List.filter_congr fun h hh => (isNamed_eq_isTable (fileOf_stringName today oi h hh)).symm
  rw [h1]
  rfl

theorem extver_of {τ : Type} {l : List τ} {f : τ → Int → Hdu R}
    (hf : ∀ t v, (f t v).keys.lookup ("EXTVER" : CStr) = some (.int v)) :
    (l.zipIdx.map fun x => f x.1 (x.2 + 1)).map (fun h => h.keys.lookup ("EXTVER" : CStr))
      = (List.range l.length).map fun (k : Nat) => some (.int (k + 1)) := by
  apply List.ext_getElem
  · simp
  · intro i h1 h2
    simp only [List.getElem_map, List.getElem_zipIdx, List.getElem_range, hf]
    simp

/-- The values of EXTVER of the tables with the given EXTNAME, in file order. -/
def Spec.extvers (name : CStr) (hdus : List (Hdu R)) : List (Option (KeyVal R)) :=
  (hdus.filter (isTable name)).map fun h => h.keys.lookup ("EXTVER" : CStr)

/-- The numbers from 1 to `n`, as values of a keyword. -/
def Spec.oneTo (n : Nat) : List (Option (KeyVal R)) := (List.range n).map fun (k : Nat) => some (.int (k + 1))

/-- C52. -/
theorem C52_extver (today : CStr) {oi : OiFits R} (h : oi.Storable) :
    ∃ hdus, write_oi_fits today false oi .ok = .ok (some hdus, .ok) ∧
      extvers "OI_ARRAY" hdus = oneTo oi.arrayList.length ∧
      extvers "OI_WAVELENGTH" hdus = oneTo oi.wavelengthList.length ∧
      extvers "OI_CORR" hdus = oneTo oi.corrList.length ∧
      extvers "OI_INSPOL" hdus = oneTo oi.inspolList.length ∧
      extvers "OI_VIS" hdus = oneTo oi.visList.length ∧
      extvers "OI_VIS2" hdus = oneTo oi.vis2List.length ∧
      extvers "OI_T3" hdus = oneTo oi.t3List.length ∧
      extvers "OI_FLUX" hdus = oneTo oi.fluxList.length := by
  refine ⟨_, write_oi_fits_eq today oi h, ?_⟩
  simp only [extvers, oneTo, fileOf_filter, fileOf_array, fileOf_wavelength, fileOf_corr, fileOf_inspol, fileOf_vis,
    fileOf_vis2, fileOf_t3, fileOf_flux]
  refine ⟨extver_of fun _ _ => rfl, extver_of fun _ _ => rfl, extver_of fun _ _ => rfl, extver_of fun _ _ => rfl,
    extver_of fun t v => ?_, extver_of fun t v => ?_, extver_of fun t v => ?_, extver_of fun t v => ?_⟩
  · rw [vis_keys]; lk_skip; rfl
  · unfold hduVis2; simp only [List.append_assoc]; lk_skip; rfl
  · unfold hduT3; simp only [List.append_assoc]; lk_skip; rfl
  · unfold hduFlux; simp only [List.append_assoc]; lk_skip; rfl

example : ∃ hdus, write_oi_fits "2016-01-01" false Ex.oi .ok = .ok (some hdus, .ok) ∧
    extvers "OI_VIS2" hdus = [some (.int 1), some (.int 2)] := by
  obtain ⟨hdus, h, -, -, -, -, -, h2, -⟩ := C52_extver "2016-01-01" Ex.oi_storable
  exact ⟨hdus, h, h2⟩

/-! ### C55: column formats -/

theorem bind_ok_mapM {α β : Type} {f : α → Outcome β} {g : α → β} {l : List α} (h : ∀ x ∈ l, f x = .ok (g x)) :
    l.mapM f = .ok (l.map g) := by
  induction l with
  | nil => rfl
  | cons a l ih =>
    rw [List.mapM_cons, h a (by simp), bind_ok, ih fun x hx => h x (by simp [hx])]
    rfl

/-- A template with its mark replaced by a number. -/
def Spec.expanded (n : Nat) : CStr → CStr
  | '?' :: rest => dec n ++ rest
  | t => t

/-- C55: for up to 9999 channels, marks are replaced by the number and templates without a
mark are left as they are. -/
theorem C55_make_tform {template : List CStr} (ht : template ≠ []) {n : Nat} (hn : n < 10000) :
    make_tform template n = .ok (template.map (expanded n)) := by
  have hg : guardAssert (decide (template.length ≠ 0)) = .ok () := by
    cases template with
    | nil => exact absurd rfl ht
    | cons => rfl
  rw [make_tform, hg, bind_ok]
  refine bind_ok_mapM fun t _ => ?_
  unfold expandTform expanded
  split
  · rename_i rest _
    have h1 := (fmtInt_length_lt n).mpr hn
    have h2 : (fmtInt (n : Int) ++ rest).length < ('?' :: rest).length + 4 := by
      simp only [List.length_append, List.length_cons]; omega
    simp only [h2, decide_true, guardAssert_true, bind_ok, pure_eq, snprintf]
    rw [List.take_of_length_le (by omega), fmtInt_nat]
  · rename_i hx
    split
    · exact absurd rfl (hx _)
    · rfl

example : make_tform ["I", "?D", "?L"] 123 = .ok ["I", "123D", "123L"] := by decide +kernel

/-- C55: with more channels, a template with a mark aborts the program; nothing else
happens, in particular no buffer overflows. -/
theorem C55_too_many {template : List CStr} {n : Nat} (hn : 10000 ≤ n)
    (hm : ∃ rest, '?' :: rest ∈ template) : make_tform template n = .abort := by
  obtain ⟨rest, hm⟩ := hm
  have hne : template ≠ [] := List.ne_nil_of_mem hm
  have hg : guardAssert (decide (template.length ≠ 0)) = .ok () := by
    cases template with
    | nil => exact absurd rfl hne
    | cons => rfl
  rw [make_tform, hg, bind_ok]
  clear hg hne
  have hmark (r : CStr) : expandTform n ('?' :: r) = .abort := by
    have h1 : ¬ (fmtInt (n : Int)).length < 5 := fun h => by have := (fmtInt_length_lt n).mp h; omega
    have h2 : ¬ (fmtInt (n : Int) ++ r).length < ('?' :: r).length + 4 := by
      simp only [List.length_append, List.length_cons]; omega
    unfold expandTform
    simp only [h2, decide_false]
    rfl
  have hany (t : CStr) : expandTform n t = .abort ∨ ∃ x, expandTform n t = .ok x := by
    by_cases h : ∃ r, t = '?' :: r
    · obtain ⟨r, rfl⟩ := h; exact .inl (hmark r)
    · right; unfold expandTform; split
      · rename_i r; exact absurd ⟨r, rfl⟩ h
      · exact ⟨_, rfl⟩
  induction template with
  | nil => cases hm
  | cons t l ih =>
    rw [List.mapM_cons]
    rcases List.mem_cons.mp hm with rfl | hm
    · rw [hmark]; rfl
    · rcases hany t with h | ⟨x, h⟩
      · rw [h]; rfl
      · rw [h, bind_ok, ih hm]; rfl

example : make_tform ["I", "?D"] 10000 = .abort := C55_too_many (n := 10000) (Nat.le_refl _) ⟨"D", by decide⟩

/-! ### C62: files written follow the format -/

/-- C62: a file written has exactly the HDUs `fileOf` lists, with the columns, formats,
units, keywords and contents given there. -/
theorem C62_contents (today : CStr) {oi : OiFits R} (h : oi.Storable) :
    write_oi_fits today false oi .ok = .ok (some (fileOf today oi), .ok) := write_oi_fits_eq today oi h

example : write_oi_fits "2016-01-01" false Ex.oi .ok = .ok (some (fileOf "2016-01-01" Ex.oi), .ok) :=
  C62_contents _ Ex.oi_storable

theorem hasColumn_names {h : Hdu R} {l : List CStr} (hl : ∀ c ∈ l, c ∈ h.cols.map (·.name)) :
    ∀ c ∈ l, hasColumn c h = true := by
  intro c hc
  obtain ⟨x, hx, rfl⟩ := List.mem_map.mp (hl c hc)
  exact List.any_eq_true.mpr ⟨x, hx, by simp⟩

theorem name_strCol {α : Type} (n : CStr) (k) (l : List α) (f) : (strCol (R := R) n k l f).name = n := rfl
theorem name_intsCol {α : Type} (n : CStr) (ty k) (l : List α) (f) : (intsCol (R := R) n ty k l f).name = n := rfl
theorem name_dblsCol {α : Type} (n : CStr) (k u) (l : List α) (f) : (dblsCol (R := R) n k u l f).name = n := rfl
theorem name_fltsCol {α : Type} (n : CStr) (k u) (l : List α) (f) : (fltsCol (R := R) n k u l f).name = n := rfl
theorem name_cpxsCol {α : Type} (n : CStr) (k) (l : List α) (f) : (cpxsCol (R := R) n k l f).name = n := rfl
theorem name_logsCol {α : Type} (n : CStr) (k d) (l : List α) (f) : (logsCol (R := R) n k d l f).name = n := rfl

theorem hasKeyword_names {h : Hdu R} {l : List CStr} (hl : ∀ c ∈ l, c ∈ h.keys.map (·.1)) :
    ∀ c ∈ l, hasKeyword c h = true := by
  intro c hc
  have hm := hl c hc
  unfold hasKeyword
  generalize h.keys = ks at hm
  induction ks with
  | nil => cases hm
  | cons a ks ih =>
    obtain ⟨k, v⟩ := a
    rw [List.lookup_cons]
    by_cases hk : c = k
    · subst hk; simp
    · rw [List.map_cons] at hm
      rcases List.mem_cons.mp hm with rfl | hm
      · exact absurd rfl hk
      · rw [show (c == k) = false by simpa using hk]; exact ih hm

theorem complete_target (t : OiTarget R) : Complete "OI_TARGET" (hduTarget t) := by
  refine ⟨fun l hl => ?_, fun l hl => ?_⟩
  · cases hl
    intro c hc
    simp only [List.mem_cons, List.not_mem_nil, or_false] at hc
    rcases hc with rfl | rfl | rfl | rfl | rfl | rfl | rfl | rfl | rfl | rfl | rfl | rfl | rfl | rfl | rfl | rfl |
      rfl <;> rfl
  · cases hl
    intro c hc
    rw [List.mem_singleton.mp hc]; rfl

theorem complete_array (t : OiArray R) (v : Int) : Complete "OI_ARRAY" (hduArray t v) := by
  refine ⟨fun l hl => ?_, fun l hl => ?_⟩
  · cases hl
    refine hasColumn_names ?_
    intro c hc
    simp only [List.mem_cons, List.not_mem_nil, or_false] at hc
    rcases hc with rfl | rfl | rfl | rfl | rfl <;>
      simp [hduArray, name_strCol, name_intsCol, name_dblsCol, name_fltsCol, name_cpxsCol, name_logsCol]
  · cases hl
    refine hasKeyword_names ?_
    intro c hc
    simp only [List.mem_cons, List.not_mem_nil, or_false] at hc
    rcases hc with rfl | rfl | rfl | rfl | rfl | rfl <;> simp [hduArray]

theorem complete_wavelength (t : OiWavelength R) (v : Int) : Complete "OI_WAVELENGTH" (hduWavelength t v) := by
  refine ⟨fun l hl => ?_, fun l hl => ?_⟩
  · cases hl
    refine hasColumn_names ?_
    intro c hc
    simp only [List.mem_cons, List.not_mem_nil, or_false] at hc
    rcases hc with rfl | rfl <;>
      simp [hduWavelength, name_strCol, name_intsCol, name_dblsCol, name_fltsCol, name_cpxsCol, name_logsCol]
  · cases hl
    refine hasKeyword_names ?_
    intro c hc
    simp only [List.mem_cons, List.not_mem_nil, or_false] at hc
    rcases hc with rfl | rfl <;> simp [hduWavelength]

theorem complete_corr (t : OiCorr R) (v : Int) : Complete "OI_CORR" (hduCorr t v) := by
  refine ⟨fun l hl => ?_, fun l hl => ?_⟩
  · cases hl
    refine hasColumn_names ?_
    intro c hc
    simp only [List.mem_cons, List.not_mem_nil, or_false] at hc
    rcases hc with rfl | rfl | rfl <;>
      simp [hduCorr, name_strCol, name_intsCol, name_dblsCol, name_fltsCol, name_cpxsCol, name_logsCol]
  · cases hl
    refine hasKeyword_names ?_
    intro c hc
    simp only [List.mem_cons, List.not_mem_nil, or_false] at hc
    rcases hc with rfl | rfl | rfl <;> simp [hduCorr]

theorem complete_inspol (t : OiInspol R) (v : Int) : Complete "OI_INSPOL" (hduInspol t v) := by
  refine ⟨fun l hl => ?_, fun l hl => ?_⟩
  · cases hl
    refine hasColumn_names ?_
    intro c hc
    simp only [List.mem_cons, List.not_mem_nil, or_false] at hc
    rcases hc with rfl | rfl | rfl | rfl | rfl | rfl | rfl | rfl | rfl <;>
      simp [hduInspol, name_strCol, name_intsCol, name_dblsCol, name_fltsCol, name_cpxsCol, name_logsCol]
  · cases hl
    refine hasKeyword_names ?_
    intro c hc
    simp only [List.mem_cons, List.not_mem_nil, or_false] at hc
    rcases hc with rfl | rfl | rfl | rfl | rfl | rfl <;> simp [hduInspol]

theorem complete_vis (t : OiVis R) (v : Int) : Complete "OI_VIS" (hduVis t v) := by
  refine ⟨fun l hl => ?_, fun l hl => ?_⟩
  · cases hl
    intro c hc
    simp only [List.mem_cons, List.not_mem_nil, or_false] at hc
    obtain ⟨_, _, _, _, corrname, _, _, _, _, cplx, refmap, _, _, _, _⟩ := t
    cases corrname <;> cases cplx <;> cases refmap
    all_goals
      rcases hc with rfl | rfl | rfl | rfl | rfl | rfl | rfl | rfl | rfl | rfl | rfl | rfl <;> rfl
  · cases hl
    refine hasKeyword_names ?_
    intro c hc
    simp only [List.mem_cons, List.not_mem_nil, or_false] at hc
    rcases hc with rfl | rfl | rfl <;> simp [hduVis]

theorem complete_vis2 (t : OiVis2 R) (v : Int) : Complete "OI_VIS2" (hduVis2 t v) := by
  refine ⟨fun l hl => ?_, fun l hl => ?_⟩
  · cases hl
    refine hasColumn_names ?_
    intro c hc
    simp only [List.mem_cons, List.not_mem_nil, or_false] at hc
    rcases hc with rfl | rfl | rfl | rfl | rfl | rfl | rfl | rfl | rfl | rfl <;>
      simp [hduVis2, name_strCol, name_intsCol, name_dblsCol, name_fltsCol, name_cpxsCol, name_logsCol]
  · cases hl
    refine hasKeyword_names ?_
    intro c hc
    simp only [List.mem_cons, List.not_mem_nil, or_false] at hc
    rcases hc with rfl | rfl | rfl <;> simp [hduVis2]

theorem complete_t3 (t : OiT3 R) (v : Int) : Complete "OI_T3" (hduT3 t v) := by
  refine ⟨fun l hl => ?_, fun l hl => ?_⟩
  · cases hl
    refine hasColumn_names ?_
    intro c hc
    simp only [List.mem_cons, List.not_mem_nil, or_false] at hc
    rcases hc with rfl | rfl | rfl | rfl | rfl | rfl | rfl | rfl | rfl | rfl | rfl | rfl | rfl | rfl <;>
      simp [hduT3, name_strCol, name_intsCol, name_dblsCol, name_fltsCol, name_cpxsCol, name_logsCol]
  · cases hl
    refine hasKeyword_names ?_
    intro c hc
    simp only [List.mem_cons, List.not_mem_nil, or_false] at hc
    rcases hc with rfl | rfl | rfl <;> simp [hduT3]

theorem complete_flux (t : OiFlux R) (v : Int) : Complete "OI_FLUX" (hduFlux t v) := by
  refine ⟨fun l hl => ?_, fun l hl => ?_⟩
  · cases hl
    intro c hc
    simp only [List.mem_cons, List.not_mem_nil, or_false] at hc
    obtain ⟨_, _, arrname, _, corrname, _, _, _, _, _, _⟩ := t
    cases corrname <;> cases arrname
    all_goals
      rcases hc with rfl | rfl | rfl | rfl | rfl | rfl <;> rfl
  · cases hl
    intro c hc
    simp only [List.mem_cons, List.not_mem_nil, or_false] at hc
    obtain ⟨_, _, arrname, _, corrname, _, _, _, _, _, _⟩ := t
    cases arrname
    all_goals
      rcases hc with rfl | rfl | rfl | rfl <;> rfl

/-- C62: in a file written, every table has the mandatory columns and keywords of its type. -/
theorem C62_mandatory (today : CStr) {oi : OiFits R} (h : oi.Storable) :
    ∃ hdus, write_oi_fits today false oi .ok = .ok (some hdus, .ok) ∧
      ∀ name, ∀ h ∈ hdus, isTable name h = true → Complete name h := by
  refine ⟨_, write_oi_fits_eq today oi h, fun name h hh ht => ?_⟩
  have hidx {τ : Type} {l : List τ} {f : τ → Int → Hdu R} {e : CStr}
      (hf : ∀ t v, (f t v).keys.lookup ("EXTNAME" : CStr) = some (.str e)) (hb : ∀ t v, (f t v).type = .binary)
      (hc : ∀ t v, Complete e (f t v))
      (hm : h ∈ l.mapIdx fun k t => f t (k + 1)) : Complete name h := by
    rw [List.mapIdx_eq_zipIdx_map] at hm
    obtain ⟨y, _, rfl⟩ := List.mem_map.mp hm
    unfold isTable at ht
    rw [hf, hb] at ht
    rw [← show e = name by simpa using ht]
    exact hc _ _
  simp only [Spec.fileOf, List.mem_cons, List.mem_append] at hh
  rcases hh with rfl | rfl | ((((((hm | hm) | hm) | hm) | hm) | hm) | hm) | hm
  · cases ht
  · have : name = ("OI_TARGET" : CStr) := by
      have : (("OI_TARGET" : CStr) == name) = true := ht
      exact (eq_of_beq this).symm
    subst this
    exact complete_target _
  · exact hidx (fun _ _ => rfl) (fun _ _ => rfl) complete_array hm
  · exact hidx (fun _ _ => rfl) (fun _ _ => rfl) complete_wavelength hm
  · exact hidx (fun _ _ => rfl) (fun _ _ => rfl) complete_corr hm
  · exact hidx (fun _ _ => rfl) (fun _ _ => rfl) complete_inspol hm
  · exact hidx (fun _ _ => rfl) (fun _ _ => rfl) complete_vis hm
  · exact hidx (fun _ _ => rfl) (fun _ _ => rfl) complete_vis2 hm
  · exact hidx (fun _ _ => rfl) (fun _ _ => rfl) complete_t3 hm
  · exact hidx (fun _ _ => rfl) (fun _ _ => rfl) complete_flux hm

example : ∃ hdus, write_oi_fits "2016-01-01" false Ex.oi .ok = .ok (some hdus, .ok) ∧
    ∀ h ∈ hdus, isTable "OI_VIS" h = true → hasColumn "VISAMP" h = true := by
  obtain ⟨hdus, h1, h2⟩ := C62_mandatory "2016-01-01" Ex.oi_storable
  exact ⟨hdus, h1, fun h hh ht => (h2 _ h hh ht).1 _ rfl _ (by decide)⟩

end Verif
