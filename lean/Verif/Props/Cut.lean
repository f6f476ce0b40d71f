import Verif.Proof.Cut
import Verif.Props.ConformKept

/-! C82: what is left when writing is cut short. -/

set_option Elab.async false

namespace Verif
open Outcome Spec
variable {R : FP}

/-- `write_oi_fits` makes the calls of `writeCalls` one after another, and reports the status in the end. -/
theorem C82_calls (today : CStr) (oi : OiFits R) :
    write_oi_fits today false oi .ok
      = (runCalls (writeCalls today oi) newFile >>= fun x => .ok (some x.2.hdus, x.2.status)) := by
  rw [runCalls_writeCalls]
  rfl

/-- C82. At whatever call the program is killed, the file has the first HDUs of the complete file, unaltered. -/
theorem C82_killed (today : CStr) {oi : OiFits R} (h : oi.Storable) (k : Nat) :
    ∃ whole s, write_oi_fits today false oi .ok = .ok (some whole, .ok) ∧ whole.length = (writeCalls today oi).length ∧
      runCalls ((writeCalls today oi).take k) newFile = .ok ((), s) ∧ s.status = .ok ∧ s.hdus = whole.take k := by
  refine ⟨_, _, write_oi_fits_eq today oi h, ?_, writeCalls_cut h k, rfl, rfl⟩
  rw [fileOf_length, writeCalls_length]

/-- C82. If a call ends with an error, the file stays as that call has left it, and the error is reported. -/
theorem C82_error (today : CStr) (oi : OiFits R) (k : Nat) (fails : FitsM R Unit) {s s' : FState R}
    (hk : runCalls ((writeCalls today oi).take k) newFile = .ok ((), s)) (hf : fails s = .ok ((), s'))
    (he : s'.status ≠ .ok) :
    runCalls ((writeCalls today oi).take k ++ fails :: (writeCalls today oi).drop (k + 1)) newFile = .ok ((), s') := by
  rw [runCalls_append, FitsM.bind_ok hk, runCalls, FitsM.bind_ok hf]
  exact runCalls_err (fun c hc => writeCalls_err today oi c (List.mem_of_mem_drop hc)) he

/-- C82. If the program is killed after it has written `n` tables, reading the file gives the first `n` tables of the
dataset which the complete file gives. Once there is a table of data, all tables to which data refer are there. -/
theorem C82_read (today : CStr) {oi : OiFits R} (h : oi.Storable) (n : Nat) :
    ∃ whole s, write_oi_fits today false oi .ok = .ok (some whole, .ok) ∧
      runCalls ((writeCalls today oi).take (n + 2)) newFile = .ok ((), s) ∧
    ∀ u, ∃ all part, read_oi_fits u (some whole) .ok = .ok (some all, .ok) ∧
      read_oi_fits u (some s.hdus) .ok = .ok (some part, .ok) ∧ part.CountsAgree ∧
      part.header = all.header ∧ part.targets = all.targets ∧
      part.arrayList = (firstTables n all).arrayList ∧ part.wavelengthList = (firstTables n all).wavelengthList ∧
      part.corrList = (firstTables n all).corrList ∧ part.inspolList = (firstTables n all).inspolList ∧
      part.visList = (firstTables n all).visList ∧ part.vis2List = (firstTables n all).vis2List ∧
      part.t3List = (firstTables n all).t3List ∧ part.fluxList = (firstTables n all).fluxList ∧
      (HasData part → part.arrayList = all.arrayList ∧ part.wavelengthList = all.wavelengthList ∧
        part.corrList = all.corrList ∧ part.inspolList = all.inspolList) := by
  refine ⟨_, _, write_oi_fits_eq today oi h, writeCalls_cut h (n + 2), fun u => ?_⟩
  obtain ⟨hdus, h1, h2⟩ := C50_partial today h
  rw [write_oi_fits_eq today _ h] at h1
  cases h1
  obtain ⟨all, h3, a1, a2, a3, a4, a5, a6, a7, a8, a9, a10, -⟩ := h2 u
  obtain ⟨hdus, h1, h2⟩ := C50_partial today (firstTables_storable h n)
  rw [write_oi_fits_eq today _ (firstTables_storable h n)] at h1
  cases h1
  obtain ⟨part, h4, e1, e2, e3, e4, e5, e6, e7, e8, e9, e10, e11⟩ := h2 u
  rw [show (fileState ((fileOf today oi).take (n + 2))).hdus = (fileOf today oi).take (n + 2) from rfl,
    fileOf_firstTables]
  have f3 : part.arrayList = (firstTables n all).arrayList := by
    simp only [e3, firstTables, a3, List.map_take]
  have f4 : part.wavelengthList = (firstTables n all).wavelengthList := by
    simp only [e4, firstTables, a3, a4, List.map_take, List.length_map]
  have f5 : part.corrList = (firstTables n all).corrList := by
    simp only [e5, firstTables, a3, a4, a5, List.map_take, List.length_map]
  have f6 : part.inspolList = (firstTables n all).inspolList := by
    simp only [e6, firstTables, a3, a4, a5, a6, List.map_take, List.length_map]
  have f7 : part.visList = (firstTables n all).visList := by
    simp only [e7, firstTables, a3, a4, a5, a6, a7, List.map_take, List.length_map]
  have f8 : part.vis2List = (firstTables n all).vis2List := by
    simp only [e8, firstTables, a3, a4, a5, a6, a7, a8, List.map_take, List.length_map]
  have f9 : part.t3List = (firstTables n all).t3List := by
    simp only [e9, firstTables, a3, a4, a5, a6, a7, a8, a9, List.map_take, List.length_map]
  have f10 : part.fluxList = (firstTables n all).fluxList := by
    simp only [e10, firstTables, a3, a4, a5, a6, a7, a8, a9, a10, List.map_take, List.length_map]
  refine ⟨all, part, h3, h4, e11, by rw [e1, a1]; rfl, by rw [e2, a2]; rfl, f3, f4, f5, f6, f7, f8, f9, f10,
    fun hd => ?_⟩
  have hd' : HasData (firstTables n all) := by
    unfold HasData at hd ⊢
    rwa [f7, f8, f9, f10] at hd
  obtain ⟨r1, r2, r3, r4⟩ := firstTables_refs hd'
  exact ⟨by rw [f3, r1], by rw [f4, r2], by rw [f5, r3], by rw [f6, r4]⟩

/-- C82. If the program is killed before it has written the targets, reading the file is an error. -/
theorem C82_no_targets (today : CStr) (oi : OiFits R) :
    ∃ s, runCalls ((writeCalls today oi).take 1) newFile = .ok ((), s) ∧
    ∀ u, ∃ st, st ≠ .ok ∧ read_oi_fits u (some s.hdus) .ok = .ok (none, st) := by
  refine ⟨endState [] (hduPrimary today oi.header), ?_, fun u => ?_⟩
  · show runCalls [write_oi_header today oi.header] newFile = _
    rw [runCalls, newFile, FitsM.bind_ok (write_oi_header_eq _ _ _)]
    rfl
  have hs : ∀ h ∈ [hduPrimary (R := R) today oi.header], StringName h := by
    intro h hh
    exact fileOf_stringName today oi h (by rw [List.mem_singleton.mp hh]; exact List.mem_cons_self)
  have h0 : (endState [] (hduPrimary (R := R) today oi.header)).hdus ≠ [] := by simp [endState]
  rcases C63_ends u h0 with ⟨oi', h1⟩ | h1 | h1
  · obtain ⟨⟨s0, s1, e1, e2, e3⟩, -⟩ := C66_header h0 h1
    have hst : s0.status = .ok := by
      by_contra hne
      rw [read_oi_target, guardStatus_err hne] at e3
      rw [(Prod.mk.inj (Outcome.ok.inj e3)).2] at hne
      exact hne e2
    obtain ⟨s', m1, m2, m3⟩ := movnam_cases "OI_TARGET" hst
    have hne : s'.status ≠ .ok := by
      intro hok
      obtain ⟨h, hat, hb⟩ := m3 hok
      have hm : h ∈ s'.hdus := List.mem_of_getElem? hat.cur
      rw [m2, e1] at hm
      have hm : h ∈ [hduPrimary (R := R) today oi.header] := hm
      rw [List.mem_singleton.mp hm] at hb
      cases hb
    obtain ⟨a, ha⟩ := (inert_key_int (R := R) "OI_REVN" u.target.revision).run s' hne
    rw [read_oi_target, guardStatus_ok hst, FitsM.bind_ok m1, FitsM.bind_ok ha, guardStatus_err hne] at e3
    rw [(Prod.mk.inj (Outcome.ok.inj e3)).2] at hne
    exact absurd e2 hne
  · exact h1
  · refine absurd (fun h hh hb => ?_) h1.2
    have hh : h ∈ [hduPrimary (R := R) today oi.header] := hh
    rw [List.mem_singleton.mp hh] at hb
    cases hb

/-- The dataset with its first tables conforms if the dataset does. -/
theorem firstTables_conforms {oi : OiFits R} {n : Nat} (hv : V2 oi) (hc : Conforms oi)
    (hd : HasData (firstTables n oi)) : Conforms (firstTables n oi) := by
  obtain ⟨r1, r2, r3, r4⟩ := firstTables_refs hd
  have m1 : ∀ t ∈ (firstTables n oi).visList, t ∈ oi.visList := fun t ht => List.mem_of_mem_take ht
  have m2 : ∀ t ∈ (firstTables n oi).vis2List, t ∈ oi.vis2List := fun t ht => List.mem_of_mem_take ht
  have m3 : ∀ t ∈ (firstTables n oi).t3List, t ∈ oi.t3List := fun t ht => List.mem_of_mem_take ht
  have m4 : ∀ t ∈ (firstTables n oi).fluxList, t ∈ oi.fluxList := fun t ht => List.mem_of_mem_take ht
  obtain ⟨v1, v2, v3, v4, v5, v6, v7, v8, v9⟩ := hc.revisions.1 hv
  exact {
    tables := ⟨fun _ => by rw [r1]; exact hc.tables.1 hv, by rw [r2]; exact hc.tables.2.1,
      hd.imp_right (Or.imp_right (Or.imp_right fun h => ⟨hv, h⟩))⟩
    revisions := ⟨fun _ => ⟨v1, by rw [r1]; exact v2, by rw [r2]; exact v3, fun t ht => v4 t (m1 t ht),
      fun t ht => v5 t (m2 t ht), fun t ht => v6 t (m3 t ht), fun t ht => v7 t (m4 t ht), by rw [r3]; exact v8,
      by rw [r4]; exact v9⟩, fun h => absurd hv h⟩
    header := hc.header
    frame := by rw [r1]; exact hc.frame
    amptyp := fun h t ht => hc.amptyp h t (m1 t ht)
    calstat := fun t ht => hc.calstat t (m4 t ht)
    visrefmap := fun t ht => hc.visrefmap t (m1 t ht)
    unique := hc.unique
    targetVis := fun t ht => hc.targetVis t (m1 t ht)
    targetVis2 := fun t ht => hc.targetVis2 t (m2 t ht)
    targetT3 := fun t ht => hc.targetT3 t (m3 t ht)
    targetFlux := fun t ht => hc.targetFlux t (m4 t ht)
    arrInspol := by rw [r4]; exact hc.arrInspol
    arrVis := fun h t ht => hc.arrVis h t (m1 t ht)
    arrVis2 := fun h t ht => hc.arrVis2 h t (m2 t ht)
    arrT3 := fun h t ht => hc.arrT3 h t (m3 t ht)
    arrFlux := fun h t ht => hc.arrFlux h t (m4 t ht)
    staInspol := by rw [r4]; exact hc.staInspol
    staVis := fun t ht => hc.staVis t (m1 t ht)
    staVis2 := fun t ht => hc.staVis2 t (m2 t ht)
    staT3 := fun t ht => hc.staT3 t (m3 t ht)
    staFlux := fun t ht => hc.staFlux t (m4 t ht)
    corrVis := fun t ht => hc.corrVis t (m1 t ht)
    corrVis2 := fun t ht => hc.corrVis2 t (m2 t ht)
    corrT3 := fun t ht => hc.corrT3 t (m3 t ht)
    corrFlux := fun t ht => hc.corrFlux t (m4 t ht)
    errVis := fun t ht => hc.errVis t (m1 t ht)
    errVis2 := fun t ht => hc.errVis2 t (m2 t ht)
    errT3 := fun t ht => hc.errT3 t (m3 t ht)
    t3amp := fun t ht => hc.t3amp t (m3 t ht)
    waveorder := by rw [r2]; exact hc.waveorder
    timeVis := fun h t ht => hc.timeVis h t (m1 t ht)
    timeVis2 := fun h t ht => hc.timeVis2 h t (m2 t ht)
    timeT3 := fun h t ht => hc.timeT3 h t (m3 t ht)
    fluxC := fun t ht => hc.fluxC t (m4 t ht)
    fluxU := fun t ht => hc.fluxU t (m4 t ht) }

/-- C82. What is left of a conforming dataset once a table of data has been written conforms too, so that oifits-check
passes the file. -/
theorem C82_conforms {today : CStr} {oi : OiFits R} {n : Nat} (hv : V2 oi) (hc : Conforms oi) (hd : NamesDistinct oi)
    (ht : TextsFit oi) (hz : ZeroTime R) (htoday : CardText today ∧ today ≠ []) (hst : oi.Storable)
    (hdata : HasData (firstTables n oi)) (hsh : SharedReferences (firstTables n oi)) :
    ∃ s, runCalls ((writeCalls today oi).take (n + 2)) newFile = .ok ((), s) ∧
    ∀ u, ∃ oi', read_oi_fits u (some s.hdus) .ok = .ok (some oi', .ok) ∧ Conforms oi' := by
  obtain ⟨r1, r2, r3, r4⟩ := firstTables_refs hdata
  have hn : NamesDistinct (firstTables n oi) :=
    ⟨by rw [r1]; exact hd.arrays, by rw [r1]; exact hd.arrayLookup, by rw [r3]; exact hd.corrLookup⟩
  have htx : TextsFit (firstTables n oi) :=
    ⟨ht.header, ht.targets, by rw [r1]; exact ht.array, by rw [r3]; exact ht.corr, by rw [r4]; exact ht.inspol,
      fun t h => ht.vis t (List.mem_of_mem_take h), fun t h => ht.vis2 t (List.mem_of_mem_take h),
      fun t h => ht.t3 t (List.mem_of_mem_take h), fun t h => ht.flux t (List.mem_of_mem_take h)⟩
  obtain ⟨hdus, h1, h2⟩ := C76_partial (today := today) (oi := firstTables n oi) hv (firstTables_conforms hv hc hdata) hn
    htx hsh hz htoday (firstTables_storable hst n)
  rw [write_oi_fits_eq today _ (firstTables_storable hst n)] at h1
  cases h1
  refine ⟨_, writeCalls_cut hst (n + 2), fun u => ?_⟩
  rw [show (fileState ((fileOf today oi).take (n + 2))).hdus = (fileOf today oi).take (n + 2) from rfl,
    fileOf_firstTables]
  exact h2 u

/-! ### Examples -/

-- The hypotheses of `C82_killed` and `C82_read` are met.
example : Ex.good.Storable ∧ (writeCalls "2016-01-01" Ex.good).length = 10 := ⟨Ex.good_storable, rfl⟩

-- The hypotheses of `C82_error` are met: the disc is full when the third table is written.
example : ∃ (fails : FitsM FP.ratFP Unit) (s s' : FState FP.ratFP),
    runCalls ((writeCalls "2016-01-01" Ex.good).take 4) newFile = .ok ((), s) ∧ fails s = .ok ((), s') ∧
    s'.status ≠ .ok ∧ s'.hdus.length = 4 :=
  ⟨setStatus (.other 106), _, _, writeCalls_cut Ex.good_storable 4, rfl, by decide, rfl⟩

/-- C82: nothing tells that such a file is not complete. The program has been killed with one of five tables of
data in the file, which is read without an error and which oifits-check passes. -/
theorem C82_unnoticed : ∃ (oi : OiFits FP.ratFP) (k : Nat) (s : FState FP.ratFP), oi.Storable ∧ Conforms oi ∧
    k < (writeCalls ("2016-01-01" : CStr) oi).length ∧
    runCalls ((writeCalls "2016-01-01" oi).take k) newFile = .ok ((), s) ∧
    ∀ u, ∃ oi', read_oi_fits u (some s.hdus) .ok = .ok (some oi', .ok) ∧ Conforms oi' ∧
      oi.vis2List ≠ [] ∧ oi'.vis2List = [] := by
  have hsh : SharedReferences (firstTables 4 Ex.good) := ⟨fun t ht => (by cases ht), fun t ht => (by cases ht)⟩
  have hdata : HasData (firstTables 4 Ex.good) := .inl (by decide +kernel)
  obtain ⟨s, h1, h2⟩ := C82_conforms (today := "2016-01-01") (n := 4) (oi := Ex.good) rfl Ex.good_keeps
    (Ex.names_like rfl rfl rfl rfl) Ex.good_texts Ex.zero_time (by decide +kernel) Ex.good_storable hdata hsh
  have e := (writeCalls_cut (today := "2016-01-01") Ex.good_storable 6).symm.trans h1
  rw [fileOf_firstTables "2016-01-01" Ex.good 4] at e
  have e' : fileOf "2016-01-01" (firstTables 4 Ex.good) = s.hdus := congrArg FState.hdus (Prod.mk.inj (Outcome.ok.inj e)).2
  obtain ⟨_, h3, h4⟩ := C50_partial "2016-01-01" (firstTables_storable Ex.good_storable 4)
  rw [write_oi_fits_eq _ _ (firstTables_storable Ex.good_storable 4), e'] at h3
  cases h3
  refine ⟨Ex.good, 6, s, Ex.good_storable, Ex.good_keeps, by decide +kernel, h1, fun u => ?_⟩
  obtain ⟨oi', h5, h6⟩ := h2 u
  obtain ⟨part, h7, -, -, -, -, -, -, -, h8, -⟩ := h4 u
  rw [h5] at h7
  cases h7
  exact ⟨oi', h5, h6, by decide +kernel, h8⟩

end Verif
