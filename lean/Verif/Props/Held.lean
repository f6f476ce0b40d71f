import Verif.Props.EndToEnd
import Verif.Proof.HeldFile

/-! C77: what is read from a file is what the file holds (`Verif/Spec/Held.lean`). -/

set_option Elab.async false

namespace Verif
open Outcome Spec

variable {R : FP} {α : Type}

/-- C77, the primary header: a dataset read from a file which says that it is in version 2 of
the format has the header of the file. (For other files, see `C66_header`.) -/
theorem C77_header {u : Undef R} {hdus : List (Hdu R)} (h0 : hdus ≠ []) {oi : OiFits R} {st : Status}
    (h : read_oi_fits u (some hdus) .ok = .ok (some oi, st)) :
    ∃ p hd, hdus[0]? = some p ∧ HeaderIn p hd ∧
      (TextKey p "CONTENT" "OIFITS2" → oi.header = hd) ∧
      (¬ TextKey p "CONTENT" "OIFITS2" → set_oi_header { oi with header := hd } = .ok oi) := by
  obtain ⟨-, header, s', h1, h2, h3⟩ := C66_header h0 h
  obtain ⟨p, h4, h5⟩ := header_tells h0 h2 h1
  have hc : TextKey p "CONTENT" "OIFITS2" ↔ header.content = "OIFITS2" := by
    have := h5.content
    unfold OptText TextKey at *
    constructor
    · intro e
      rw [e] at this
      rcases this with this | ⟨this, -⟩
      · exact (Except.ok.inj this).symm
      · cases this
    · intro e
      rw [e] at this
      rcases this with this | ⟨-, this⟩
      · exact this
      · cases this
  refine ⟨p, header, h4, h5, fun e => ?_, fun e => ?_⟩
  · rwa [if_pos (hc.mp e)] at h3
  · rwa [if_neg fun e' => e (hc.mpr e')] at h3

/-- C77, targets: they are those in the first OI_TARGET table. -/
theorem C77_targets {u : Undef R} {hdus : List (Hdu R)} (h0 : hdus ≠ []) (hn : ∀ h ∈ hdus, StringName h)
    {oi : OiFits R} {st : Status} (h : read_oi_fits u (some hdus) .ok = .ok (some oi, st)) :
    ∃ t, hdus.find? (isTable "OI_TARGET") = some t ∧ TargetsIn t oi.targets := by
  obtain ⟨⟨s0, s1, rfl, h2, h3⟩, -⟩ := C66_header h0 h
  exact targets_tell u hn h3 h2

/-- C77, OI_ARRAY tables: all are read, in file order. -/
theorem C77_array {u : Undef R} {hdus : List (Hdu R)} (h0 : hdus ≠ []) (hn : ∀ h ∈ hdus, StringName h)
    {oi : OiFits R} {st : Status} (h : read_oi_fits u (some hdus) .ok = .ok (some oi, st)) :
    HeldAt ArrayIn hdus (positions "OI_ARRAY" hdus) oi.arrayList :=
  heldAt_all (C66_tables h0 hn h).1 fun _ hp => (next_tells hn
    (fun _ _ _ ht => tells_array (binary_of_isTable ht) u u.array) hp).1

/-- C77, OI_WAVELENGTH tables: all are read, in file order. -/
theorem C77_wavelength {u : Undef R} {hdus : List (Hdu R)} (h0 : hdus ≠ []) (hn : ∀ h ∈ hdus, StringName h)
    {oi : OiFits R} {st : Status} (h : read_oi_fits u (some hdus) .ok = .ok (some oi, st)) :
    HeldAt WavelengthIn hdus (positions "OI_WAVELENGTH" hdus) oi.wavelengthList :=
  heldAt_all (C66_tables h0 hn h).2.1 fun _ hp => (next_tells hn
    (fun _ _ _ ht => tells_wavelength (binary_of_isTable ht) u u.wave) hp).1

/-- C77, OI_CORR tables. -/
theorem C77_corr {u : Undef R} {hdus : List (Hdu R)} (h0 : hdus ≠ []) (hn : ∀ h ∈ hdus, StringName h)
    {oi : OiFits R} {st : Status} (h : read_oi_fits u (some hdus) .ok = .ok (some oi, st)) :
    Held CorrIn "OI_CORR" hdus oi.corrList :=
  held_some (C66_tables h0 hn h).2.2.1 fun _ hp => next_tells hn
    (fun _ _ _ ht => tells_corr (binary_of_isTable ht) u u.corr) hp

/-- C77, OI_INSPOL tables, except for the elements of the Jones matrices, which are not read as
they are stored (`C49_inspol_counterexample`). -/
theorem C77_inspol_partial {u : Undef R} {hdus : List (Hdu R)} (h0 : hdus ≠ []) (hn : ∀ h ∈ hdus, StringName h)
    {oi : OiFits R} {st : Status} (h : read_oi_fits u (some hdus) .ok = .ok (some oi, st)) :
    Held InspolIn "OI_INSPOL" hdus oi.inspolList :=
  held_some (C66_tables h0 hn h).2.2.2.1 fun _ hp => next_tells hn
    (fun _ _ _ ht => tells_inspol (binary_of_isTable ht) u u.inspol) hp

/-- C77, OI_VIS tables, of files in which those of version 2 which name an OI_CORR table have the
columns which refer to it (see `C77_vis_counterexample`). -/
theorem C77_vis_partial {u : Undef R} {hdus : List (Hdu R)} (h0 : hdus ≠ []) (hn : ∀ h ∈ hdus, StringName h)
    (hcorr : VisIndexed hdus)
    {oi : OiFits R} {st : Status} (h : read_oi_fits u (some hdus) .ok = .ok (some oi, st)) :
    Held VisIn "OI_VIS" hdus oi.visList :=
  held_some (C66_tables h0 hn h).2.2.2.2.1 fun _ hp => next_tells hn
    (fun _ h hat ht => tells_vis (binary_of_isTable ht) (hcorr h (List.mem_of_getElem? hat) ht) u u.vis) hp

/-- C77, OI_VIS2 tables. -/
theorem C77_vis2 {u : Undef R} {hdus : List (Hdu R)} (h0 : hdus ≠ []) (hn : ∀ h ∈ hdus, StringName h)
    {oi : OiFits R} {st : Status} (h : read_oi_fits u (some hdus) .ok = .ok (some oi, st)) :
    Held Vis2In "OI_VIS2" hdus oi.vis2List :=
  held_some (C66_tables h0 hn h).2.2.2.2.2.1 fun _ hp => next_tells hn
    (fun _ _ _ ht => tells_vis2 (binary_of_isTable ht) u u.vis2) hp

/-- C77, OI_T3 tables. -/
theorem C77_t3 {u : Undef R} {hdus : List (Hdu R)} (h0 : hdus ≠ []) (hn : ∀ h ∈ hdus, StringName h)
    {oi : OiFits R} {st : Status} (h : read_oi_fits u (some hdus) .ok = .ok (some oi, st)) :
    Held T3In "OI_T3" hdus oi.t3List :=
  held_some (C66_tables h0 hn h).2.2.2.2.2.2.1 fun _ hp => next_tells hn
    (fun _ _ _ ht => tells_t3 (binary_of_isTable ht) u u.t3) hp

/-- C77, OI_FLUX tables, of files in which they have their mandatory columns and keywords
(see `C77_flux_counterexample`). -/
theorem C77_flux_partial {u : Undef R} {hdus : List (Hdu R)} (h0 : hdus ≠ []) (hn : ∀ h ∈ hdus, StringName h)
    (hc : FluxComplete hdus)
    {oi : OiFits R} {st : Status} (h : read_oi_fits u (some hdus) .ok = .ok (some oi, st)) :
    Held FluxIn "OI_FLUX" hdus oi.fluxList :=
  held_some (C66_tables h0 hn h).2.2.2.2.2.2.2 fun _ hp => next_tells hn
    (fun _ h hat ht => (tells_flux (binary_of_isTable ht) (hc h (List.mem_of_getElem? hat) ht).1
      (hc h (List.mem_of_getElem? hat) ht).2 u u.flux).harden) hp

/-- C77: a file in which no table is empty is read without an error if it holds a header and
targets, and each of its OI_ARRAY and OI_WAVELENGTH tables is as it should be. -/
theorem C77_succeeds (u : Undef R) {hdus : List (Hdu R)} (hn : ∀ h ∈ hdus, StringName h) (hemp : NoEmptyTables hdus)
    {p t : Hdu R} {hd : OiHeader} {tg : OiTarget R} (hp : hdus[0]? = some p) (hhd : HeaderIn p hd)
    (ht : hdus.find? (isTable "OI_TARGET") = some t) (htg : TargetsIn t tg)
    (harr : ∀ p ∈ positions "OI_ARRAY" hdus, ∃ h a, hdus[p]? = some h ∧ ArrayIn h a)
    (hwav : ∀ p ∈ positions "OI_WAVELENGTH" hdus, ∃ h a, hdus[p]? = some h ∧ WavelengthIn h a) :
    ∃ oi, read_oi_fits u (some hdus) .ok = .ok (some oi, .ok) := by
  obtain ⟨oi, s, h1, h2⟩ := readBody_succeeds u hn hemp hp hhd ht htg
    (fun p hp => (next_tells hn (fun _ _ _ ht => tells_array (binary_of_isTable ht) u u.array) hp).2 (harr p hp))
    (fun p hp => (next_tells hn (fun _ _ _ ht => tells_wavelength (binary_of_isTable ht) u u.wave) hp).2 (hwav p hp))
  refine ⟨oi, ?_⟩
  rw [read_oi_fits, if_neg (by decide)]
  show Outcome.bind (readBody u ⟨hdus, 0, .ok⟩) _ = _
  rw [h1]
  simp only [Outcome.bind, h2]
  rfl

theorem mapM_getElem {β : Type} {f : β → Option α} {l : List β} {ys : List α} (hm : l.mapM f = some ys) (e : Nat) {x : β}
    (hx : l[e]? = some x) : ys[e]? = f x := by
  induction l generalizing ys e with
  | nil => simp at hx
  | cons y l ih =>
    simp only [List.mapM_cons, Option.bind_eq_bind, Option.bind_eq_some_iff] at hm
    obtain ⟨a, ha, as, has, hm⟩ := hm
    cases hm
    cases e with
    | zero => cases hx; simp [ha]
    | succ e => simpa using ih has e (by simpa using hx)

/-- What `Cells` means: the elements in a row of the first column of that name, if there are as
many of them in each row as are asked for. (Complex columns are seen as real columns of twice the
length.) -/
theorem C77_cells {conv : Cell R → Option α} {h : Hdu R} {name : CStr} {i n : Nat} {xs : List α}
    (hi : 0 < i) (hc : Cells conv h name i n xs) :
    ∃ c, h.cols.find? (fun c => upper c.name == upper name) = some c ∧ i ≤ h.nrows ∧
      (c.type ≠ .C → n ≤ c.nelem → xs.length = n ∧ ∀ e, e < n → xs[e]? = conv (c.data (i - 1) e)) := by
  obtain ⟨k, h1, h2⟩ := hc
  obtain ⟨j, hj, rfl⟩ : ∃ j, (h.cols.findIdx? fun c => upper c.name == upper name) = some j ∧ k = j + 1 := by
    unfold Hdu.colnum at h1
    split at h1
    · split at h1
      · cases h1; exact ⟨_, by assumption, rfl⟩
      · cases h1
    · cases h1
  obtain ⟨hlt, h3, h4⟩ := List.findIdx?_eq_some_iff_getElem.mp hj
  have hcol : h.cols[j + 1 - 1]? = some h.cols[j] := List.getElem?_eq_getElem hlt
  unfold Hdu.readCol at h2
  rw [hcol] at h2
  simp only at h2
  split at h2
  · cases h2
  split at h2
  · cases h2
  rename_i hr
  refine ⟨h.cols[j], ?_, ?_, fun ht hle => ?_⟩
  · rw [List.find?_eq_some_iff_getElem]
    exact ⟨h3, j, hlt, rfl, fun a ha => by simpa using h4 a ha⟩
  · have := Nat.zero_le ((n - 1) / h.cols[j].realNelem)
    omega
  · rw [if_neg ht] at h2
    split at h2
    · rename_i ys hy
      cases h2
      have hl := mapM_length hy
      simp only [Col.get, List.length_map, List.length_range] at hl
      refine ⟨hl, fun e he => ?_⟩
      have := mapM_getElem hy e (x := h.cols[j].data (i - 1) e) ?_
      · exact this
      · have : e < h.cols[j].nelem := by omega
        simp [Col.get, he, Nat.div_eq_of_lt this, Nat.mod_eq_of_lt this]
    · cases h2

example : Dbls (hduWavelength Ex.wave 1) "eff_wave" 2 1 [Ex.num (mkRat 2 1000000)] := ⟨1, rfl, by decide +kernel⟩

/-! ### Examples -/

/-- A file of version 1 of the format: there is no CONTENT keyword, and tables lack the columns
and keywords of version 2. -/
def Ex.oneFile : List (Hdu FP.ratFP) :=
  let old (h : Hdu FP.ratFP) (cols : List CStr) : Hdu FP.ratFP :=
    { h with keys := h.keys.map fun k => if k.1 = ("OI_REVN" : CStr) then (k.1, .int 1) else k
             cols := h.cols.filter fun c => !cols.contains c.name }
  [⟨.image, [("ORIGIN", .str "ESO")], [], 0⟩, old (hduTarget Ex.targets) ["CATEGORY"],
   old (hduArray Ex.array 1) ["FOV", "FOVTYPE"], old (hduWavelength Ex.wave 1) [],
   old (hduVis { Ex.vis with corrname := [], usevisrefmap := false, usecomplex := false } 1) [],
   old (hduVis2 Ex.vis2 1) [], old (hduT3 Ex.t3 1) []]

theorem Ex.oneFile_names : ∀ h ∈ Ex.oneFile, StringName h := by
  intro h hh v hv
  have : ∀ h ∈ Ex.oneFile, (match h.keys.lookup ("EXTNAME" : CStr) with
      | some (.str _) => true | none => true | _ => false) = true := by decide +kernel
  have := this h hh
  rw [hv] at this
  cases v with
  | str s => exact ⟨s, rfl⟩
  | _ => cases this

/-- What is read from it. -/
def Ex.oneRead : OiFits FP.ratFP :=
  match read_oi_fits Ex.undef (some Ex.oneFile) .ok with
  | .ok (some oi, .ok) => oi
  | _ => Ex.oic

theorem Ex.oneFile_isRead : Ex.isRead (read_oi_fits Ex.undef (some Ex.oneFile) .ok) = true := by decide +kernel

theorem Ex.oneFile_read : read_oi_fits Ex.undef (some Ex.oneFile) .ok = .ok (some Ex.oneRead, .ok) := by
  have h := Ex.oneFile_isRead
  unfold Ex.oneRead
  match read_oi_fits Ex.undef (some Ex.oneFile) .ok, h with
  | .ok (some oi, .ok), _ => rfl

theorem Ex.oneFile_facts : (positions "OI_ARRAY" Ex.oneFile = [2] ∧ positions "OI_VIS" Ex.oneFile = [4] ∧
      positions "OI_VIS2" Ex.oneFile = [5]) ∧
    Ex.oneRead.arrayList.map (fun t => (t.revision, t.elem.map (·.fovtype))) = [(1, [("FWHM" : CStr), "FWHM", "FWHM"])] ∧
    Ex.oneRead.visList.map (fun t => (t.amptyp, t.amporder)) = [(([] : CStr), -1)] ∧
    Ex.oneRead.vis2List.length = 1 ∧ Ex.oneRead.t3List.length = 1 := by decide +kernel

theorem Ex.oneFile_vis : VisIndexed Ex.oneFile := by
  intro h hh ht h1
  have : ∀ h ∈ Ex.oneFile, isTable "OI_VIS" h = true → hasKeyword "CORRNAME" h = false := by decide +kernel
  intro hc
  rw [Correlated, this h hh ht] at hc
  cases hc

theorem Ex.oneFile_flux : FluxComplete Ex.oneFile := by
  intro h hh ht
  have : ∀ h ∈ Ex.oneFile, isTable "OI_FLUX" h = false := by decide +kernel
  rw [this h hh] at ht
  cases ht

theorem Ex.oneFile_full : NoEmptyTables Ex.oneFile := by
  intro h hh hb
  have : ∀ h ∈ Ex.oneFile, h.type = .binary → h.nrows ≠ 0 ∧ ∀ c ∈ h.cols, c.rep ≠ 0 := by decide +kernel
  exact this h hh hb

-- The hypotheses of the theorems are met by a file of version 1 which has OI_VIS, OI_VIS2 and OI_T3 tables ...
example : ∃ h a, Ex.oneFile[2]? = some h ∧ ArrayIn h a ∧ ∃ h b, Ex.oneFile[4]? = some h ∧ VisIn h b := by
  have ha := C77_array (by decide) Ex.oneFile_names Ex.oneFile_read
  obtain ⟨ps, hv, hv1, hv2⟩ := C77_vis_partial (by decide) Ex.oneFile_names Ex.oneFile_vis Ex.oneFile_read
  obtain ⟨⟨e1, e2, -⟩, e3, e4, -⟩ := Ex.oneFile_facts
  rw [e1] at ha
  rw [e2] at hv
  obtain ⟨t, ht⟩ : ∃ t, Ex.oneRead.arrayList[0]? = some t := by
    have := congrArg List.length e3
    simp only [List.length_map, List.length_cons, List.length_nil] at this
    exact ⟨_, List.getElem?_eq_getElem (by omega)⟩
  obtain ⟨v, hv'⟩ : ∃ t, Ex.oneRead.visList[0]? = some t := by
    have := congrArg List.length e4
    simp only [List.length_map, List.length_cons, List.length_nil] at this
    exact ⟨_, List.getElem?_eq_getElem (by omega)⟩
  obtain ⟨h, h1, h2⟩ := ha.2 0 2 t rfl ht
  have hlen : ps.length = 1 := by
    rw [hv1.1]
    simpa using congrArg List.length e4
  have hps : ps = [4] := by
    obtain ⟨p, rfl⟩ := List.length_eq_one_iff.mp hlen
    simpa using hv.subset List.mem_cons_self
  subst hps
  obtain ⟨h', h3, h4⟩ := hv1.2 0 4 v rfl hv'
  exact ⟨h, t, h1, h2, h', v, h3, h4⟩

-- ... which also meets those of `C77_succeeds`, whatever the undefined values are.
example (u : Undef FP.ratFP) : ∃ oi, read_oi_fits u (some Ex.oneFile) .ok = .ok (some oi, .ok) := by
  obtain ⟨p, hd, h1, h2, -⟩ := C77_header (by decide) Ex.oneFile_read
  obtain ⟨t, h3, h4⟩ := C77_targets (by decide) Ex.oneFile_names Ex.oneFile_read
  refine C77_succeeds u Ex.oneFile_names Ex.oneFile_full h1 h2 h3 h4 ?_ ?_
  · have ha := C77_array (by decide) Ex.oneFile_names Ex.oneFile_read
    intro p hp
    obtain ⟨i, hi⟩ := List.getElem?_of_mem hp
    have hlt : i < Ex.oneRead.arrayList.length := by
      rw [← ha.1]; exact (List.getElem?_eq_some_iff.mp hi).1
    obtain ⟨h, h5, h6⟩ := ha.2 i p _ hi (List.getElem?_eq_getElem hlt)
    exact ⟨h, _, h5, h6⟩
  · have ha := C77_wavelength (by decide) Ex.oneFile_names Ex.oneFile_read
    intro p hp
    obtain ⟨i, hi⟩ := List.getElem?_of_mem hp
    have hlt : i < Ex.oneRead.wavelengthList.length := by
      rw [← ha.1]; exact (List.getElem?_eq_some_iff.mp hi).1
    obtain ⟨h, h5, h6⟩ := ha.2 i p _ hi (List.getElem?_eq_getElem hlt)
    exact ⟨h, _, h5, h6⟩

-- Files in version 2 meet the hypotheses about OI_VIS and OI_FLUX tables, which name an OI_CORR table here.
example : VisIndexed (fileOf "2016-01-01" Ex.oic) ∧ FluxComplete (fileOf "2016-01-01" Ex.oic) ∧
    (positions "OI_VIS" (fileOf "2016-01-01" Ex.oic)).length = 1 ∧
    (positions "OI_FLUX" (fileOf "2016-01-01" Ex.oic)).length = 1 := by
  refine ⟨fun h hh ht _ _ => ?_, fun h hh ht => ?_, by decide +kernel, by decide +kernel⟩
  · have : ∀ h ∈ fileOf "2016-01-01" Ex.oic, isTable "OI_VIS" h = true →
      hasColumn "CORRINDX_VISAMP" h = true ∧ hasColumn "CORRINDX_VISPHI" h = true := by decide +kernel
    exact this h hh ht
  · have : ∀ h ∈ fileOf "2016-01-01" Ex.oic, isTable "OI_FLUX" h = true →
      (∀ c ∈ (mandatoryColumns.lookup ("OI_FLUX" : CStr)).getD [], hasColumn c h = true) ∧
      (∀ k ∈ (mandatoryKeywords.lookup ("OI_FLUX" : CStr)).getD [], hasKeyword k h = true) ∧
      hasColumn "CORRINDX_FLUXDATA" h = true := by decide +kernel
    obtain ⟨h1, h2, h3⟩ := this h hh ht
    exact ⟨⟨fun l hl c hc => h1 c (by rw [hl]; exact hc), fun l hl k hk => h2 k (by rw [hl]; exact hk)⟩, fun _ => h3⟩

/-! ### Counterexamples -/

/-- A file with an OI_VIS table which names an OI_CORR table but has no CORRINDX_VISAMP column. -/
def Ex.unindexed : List (Hdu FP.ratFP) :=
  (fileOf "2016-01-01" Ex.oic).map fun h => { h with cols := h.cols.filter fun c => c.name != ("CORRINDX_VISAMP" : CStr) }

/-- What is read from it. -/
def Ex.unindexedRead : OiFits FP.ratFP :=
  match read_oi_fits Ex.undef (some Ex.unindexed) .ok with
  | .ok (some oi, .ok) => oi
  | _ => Ex.oic

theorem Ex.unindexed_facts : Ex.isRead (read_oi_fits Ex.undef (some Ex.unindexed) .ok) = true ∧
    (positions "OI_VIS" Ex.unindexed = [5]) ∧
    (Ex.unindexed[5]?.map fun h => (hasColumn "VISREFMAP" h, hasColumn "CORRINDX_VISAMP" h, hasKeyword "CORRNAME" h))
      = some (true, false, true) ∧
    Ex.unindexedRead.visList.map (fun t => (t.revision, t.usevisrefmap, t.record.map fun r => r.corrindx_visamp))
      = [(2, false, [Ex.undef.int, Ex.undef.int])] := by decide +kernel

/-- One table is read, from the only place where there is one. -/
theorem held_one {In : Hdu R → α → Prop} {name : CStr} {hdus : List (Hdu R)} {a : α} {p : Nat}
    (hh : Held In name hdus [a]) (hp : positions name hdus = [p]) : ∃ h, hdus[p]? = some h ∧ In h a := by
  obtain ⟨ps, h1, h2, -⟩ := hh
  obtain ⟨q, rfl⟩ := List.length_eq_one_iff.mp h2.1
  rw [hp] at h1
  have : q = p := by simpa using h1.subset List.mem_cons_self
  subst this
  exact h2.2 0 q a rfl rfl

/-- C77 is false of OI_VIS tables of version 2 which name an OI_CORR table and lack the column
CORRINDX_VISAMP: such a table is read without an error, but an array VISREFMAP which
it has is left out, and the indices into the OI_CORR table are undefined. -/
theorem C77_vis_counterexample : ∃ (u : Undef FP.ratFP) (hdus : List (Hdu FP.ratFP)) (oi : OiFits FP.ratFP),
    read_oi_fits u (some hdus) .ok = .ok (some oi, .ok) ∧ ¬ Held VisIn "OI_VIS" hdus oi.visList ∧
    (∃ h, hdus.find? (isTable "OI_VIS") = some h ∧ hasColumn "VISREFMAP" h = true) ∧
    (∀ t ∈ oi.visList, t.usevisrefmap = false ∧ ∀ r ∈ t.record, r.corrindx_visamp = u.int) ∧ oi.visList ≠ [] := by
  obtain ⟨h1, h2, h3, h4⟩ := Ex.unindexed_facts
  refine ⟨Ex.undef, Ex.unindexed, Ex.unindexedRead, ?_, ?_, ?_, ?_, ?_⟩
  · unfold Ex.unindexedRead
    match read_oi_fits Ex.undef (some Ex.unindexed) .ok, h1 with
    | .ok (some oi, .ok), _ => rfl
  · generalize Ex.unindexedRead.visList = l at h4
    obtain ⟨t, rfl⟩ : ∃ t, l = [t] := List.length_eq_one_iff.mp (by simpa using congrArg List.length h4)
    · simp only [List.map_cons, List.map_nil, List.cons.injEq, Prod.mk.injEq] at h4
      obtain ⟨⟨h5, h6, -⟩, -⟩ := h4
      intro hh
      obtain ⟨h, h7, h8⟩ := held_one hh h2
      rw [h7] at h3
      simp only [Option.map_some, Option.some.injEq, Prod.mk.injEq] at h3
      have := h8.usevisrefmap (by rw [h5]; decide)
      rw [h6, h3.1] at this
      cases this
  · have : (Ex.unindexed.find? (isTable "OI_VIS")).map (hasColumn "VISREFMAP") = some true := by decide +kernel
    rw [Option.map_eq_some_iff] at this
    exact this
  · generalize Ex.unindexedRead.visList = l at h4
    obtain ⟨t, rfl⟩ : ∃ t, l = [t] := List.length_eq_one_iff.mp (by simpa using congrArg List.length h4)
    · simp only [List.map_cons, List.map_nil, List.cons.injEq, Prod.mk.injEq] at h4
      intro t' ht
      rw [List.mem_singleton.mp ht]
      refine ⟨h4.1.2.1, fun r hr => ?_⟩
      have : r.corrindx_visamp ∈ t.record.map fun r => r.corrindx_visamp := List.mem_map_of_mem hr
      rw [h4.1.2.2] at this
      simpa using this
  · intro e; rw [e] at h4; cases h4

/-- A file with an OI_FLUX table which has no MJD, FLAG and STA_INDEX columns. -/
def Ex.noMjd : List (Hdu FP.ratFP) :=
  (fileOf "2016-01-01" { Ex.oic with fluxList := [{ Ex.flux with corrname := [] }] }).map fun h =>
    if isTable "OI_FLUX" h then { h with cols := h.cols.filter fun c => c.name != ("MJD" : CStr) &&
      c.name != ("FLAG" : CStr) && c.name != ("STA_INDEX" : CStr) } else h

/-- What is read from it. -/
def Ex.noMjdRead : OiFits FP.ratFP :=
  match read_oi_fits Ex.undef (some Ex.noMjd) .ok with
  | .ok (some oi, .ok) => oi
  | _ => Ex.oic

theorem Ex.noMjd_facts : Ex.isRead (read_oi_fits Ex.undef (some Ex.noMjd) .ok) = true ∧
    positions "OI_FLUX" Ex.noMjd = [9] ∧ (Ex.noMjd[9]?.map (hasColumn "MJD")) = some false ∧
    (Ex.noMjdRead.fluxList.map fun t => t.record.map fun r => r.mjd) = [[Ex.undef.dbl]] := by decide +kernel

/-- C77 is false of OI_FLUX tables without a column MJD: if there is no STA_INDEX column either,
the table is read without an error, and the times are undefined. -/
theorem C77_flux_counterexample : ∃ (u : Undef FP.ratFP) (hdus : List (Hdu FP.ratFP)) (oi : OiFits FP.ratFP),
    read_oi_fits u (some hdus) .ok = .ok (some oi, .ok) ∧ ¬ Held FluxIn "OI_FLUX" hdus oi.fluxList ∧
    (∀ t ∈ oi.fluxList, ∀ r ∈ t.record, r.mjd = u.dbl) ∧ oi.fluxList ≠ [] := by
  obtain ⟨h1, h2, h3, h4⟩ := Ex.noMjd_facts
  refine ⟨Ex.undef, Ex.noMjd, Ex.noMjdRead, ?_, ?_, ?_, ?_⟩
  · unfold Ex.noMjdRead
    match read_oi_fits Ex.undef (some Ex.noMjd) .ok, h1 with
    | .ok (some oi, .ok), _ => rfl
  · generalize Ex.noMjdRead.fluxList = l at h4
    obtain ⟨t, rfl⟩ : ∃ t, l = [t] := List.length_eq_one_iff.mp (by simpa using congrArg List.length h4)
    simp only [List.map_cons, List.map_nil, List.cons.injEq] at h4
    intro hh
    obtain ⟨h, h7, h8⟩ := held_one hh h2
    rw [h7] at h3
    simp only [Option.map_some, Option.some.injEq] at h3
    obtain ⟨r, hr⟩ : ∃ r, t.record[0]? = some r := by
      have := congrArg List.length h4.1
      simp only [List.length_map, List.length_cons, List.length_nil] at this
      exact ⟨_, List.getElem?_eq_getElem (by omega)⟩
    obtain ⟨k, hk, -⟩ := (h8.record.row 0 r hr).mjd
    have hb : h.type = .binary := by
      unfold Hdu.colnum at hk
      split at hk
      · assumption
      · cases hk
    rw [(colnum_ok_iff _ hb).mp ⟨k, hk⟩] at h3
    cases h3
  · generalize Ex.noMjdRead.fluxList = l at h4
    obtain ⟨t, rfl⟩ : ∃ t, l = [t] := List.length_eq_one_iff.mp (by simpa using congrArg List.length h4)
    simp only [List.map_cons, List.map_nil, List.cons.injEq] at h4
    intro t' ht r hr
    rw [List.mem_singleton.mp ht] at hr
    have : r.mjd ∈ t.record.map fun r => r.mjd := List.mem_map_of_mem hr
    rw [h4.1] at this
    simpa using this
  · intro e; rw [e] at h4; cases h4

end Verif
