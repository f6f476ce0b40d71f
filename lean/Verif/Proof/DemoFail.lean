import Verif.Proof.DemoMain

/-! What `demo_read` does with the file made if a table is missing to which another refers. -/

namespace Verif
open Outcome Spec

variable {R : FP} {α τ : Type}

/-- Reading the tables referred to returns. -/
def RefsRun (hdus : List (Hdu R)) (refs : FitsM R Unit) : Prop :=
  ∀ s : FState R, s.hdus = hdus → ∃ s', refs s = .ok ((), s') ∧ s'.hdus = hdus

theorem RefsRun.seq {hdus : List (Hdu R)} {m n : FitsM R Unit} (hm : RefsRun hdus m) (hn : RefsRun hdus n) :
    RefsRun hdus (do m; n) := by
  intro s hs
  obtain ⟨s1, e1, h1⟩ := hm s hs
  obtain ⟨s2, e2, h2⟩ := hn s1 h1
  refine ⟨s2, ?_, h2⟩
  show (m >>= fun _ => n) s = _
  rw [FitsM.bind_ok e1, e2]

theorem RefsRun.ite {hdus : List (Hdu R)} {m : FitsM R Unit} {c : Prop} [Decidable c] (hm : RefsRun hdus m) :
    RefsRun hdus (if c then m else pure ()) := by
  split
  · exact hm
  · exact fun s hs => ⟨s, rfl, hs⟩

/-- Reading by name through the second connection returns, if the only table of this type can be read. -/
theorem onSecond_run {name keyword value : CStr} {old : α} {chdu : Option CStr → FitsM R α} {read : FitsM R α}
    (hread : read = guardStatus old (next_named_hdu name >>= fun _ => guardStatus old (chdu none)))
    (hc : ∀ {h : Hdu R} {s : FState R}, At s h → h.keys.lookup keyword = some (.str value) →
      chdu none s = chdu (some value) s)
    (herr : ∀ s : FState R, s.status ≠ .ok → chdu (some value) s = .ok (old, s))
    {hdus : List (Hdu R)} (hp : PlainFile hdus)
    (hk : ∀ h ∈ hdus, StringKey keyword h) {i : Nat} {a : α} (hpos : positions name hdus = [i])
    (hr : readable read hdus i = some a) :
    RefsRun hdus
      (onSecond (guardStatus old (specific_named_hdu name keyword value >>= fun _ => chdu (some value)))) := by
  rintro ⟨hd, c, st⟩ hs
  have hs : hd = hdus := hs
  subst hs
  suffices h : ∃ x s', guardStatus old (specific_named_hdu name keyword value >>= fun _ => chdu (some value))
      (⟨hd, 0, st⟩ : FState R) = .ok (x, s') by
    obtain ⟨x, s', h⟩ := h
    unfold onSecond
    rw [show (⟨hd, c, st⟩ : FState R).hdus = hd from rfl, show (⟨hd, c, st⟩ : FState R).status = st from rfl, h]
    exact ⟨⟨hd, c, s'.status⟩, rfl, rfl⟩
  by_cases hst : st = .ok
  · subst hst
    by_cases hex : ∃ h ∈ hd.drop 1, isTableOf name keyword value h = true
    · obtain ⟨h, hh, ht⟩ := hex
      obtain ⟨k, hk', he⟩ := List.getElem_of_mem hh
      have hat : hd[k + 1]? = some h := by
        rw [show k + 1 = 1 + k by omega, ← List.getElem?_drop, List.getElem?_eq_getElem hk', he]
      have hmem : ∀ j, 0 < j → (hd[j]?).any (isTableOf name keyword value) = true → j = i := by
        intro j h0 hj
        have : j ∈ positions name hd := by
          cases e : hd[j]? with
          | none => rw [e] at hj; cases hj
          | some x =>
            rw [e] at hj
            have hj : isTableOf name keyword value x = true := hj
            unfold isTableOf at hj
            rw [Bool.and_eq_true] at hj
            exact mem_positions.mpr ⟨h0, x, e, hj.1⟩
        rw [hpos] at this
        exact List.mem_singleton.mp this
      have hany : (hd[k + 1]?).any (isTableOf name keyword value) = true := by rw [hat]; exact ht
      have e := hmem (k + 1) (by omega) hany
      have hf : FirstAt (isTableOf name keyword value) hd i := by
        refine ⟨by omega, e ▸ hany, fun j h0 hlt => ?_⟩
        cases hb : (hd[j]?).any (isTableOf name keyword value) with
        | false => rfl
        | true => exact absurd (hmem j h0 hb) (by omega)
      rw [read_by_name hc hp.names hk 0 hf (tablesBefore_of hp.tables), ← hread]
      unfold readable at hr
      split at hr
      · exact ⟨_, _, by assumption⟩
      · cases hr
    · have habs : ∀ h ∈ hd.drop 1, isTableOf name keyword value h = false := by
        intro h hh
        cases hb : isTableOf name keyword value h with
        | false => rfl
        | true => exact absurd ⟨h, hh, hb⟩ hex
      obtain ⟨s1, h1, -⟩ := read_no_name herr hp.tables hp.names hk 0 habs
      exact ⟨_, _, h1⟩
  · exact ⟨_, _, guardStatus_err hst _ _⟩

/-- The only table of its type is read, and a table to which it refers cannot be. -/
theorem demoTables_fail {name : CStr} {old : τ} {read : FitsM R τ} (h : ReadsNext name old read)
    {line : τ → Outcome DemoLine} {refs : τ → FitsM R Unit} {P : τ → Prop} {hdus : List (Hdu R)}
    (hn : ∀ h ∈ hdus, StringName h) (hrefs : ∀ t, RefsEnd hdus (P t) (refs t)) (hrun : ∀ t, RefsRun hdus (refs t))
    {c i : Nat} (hc : c < hdus.length) (hpos : tablesAfter name hdus c = [i]) {t : τ} {l : DemoLine}
    (hr : readable read hdus i = some t) (hl : line t = .ok l) (hP : ¬ P t) :
    ∃ s', demoTables read line refs ⟨hdus, c, .ok⟩ = .ok (([t], [l], false), s') := by
  have hnum : fits_get_num_hdus (⟨hdus, c, .ok⟩ : FState R) = .ok (hdus.length, ⟨hdus, c, .ok⟩) := by
    simp [fits_get_num_hdus]
  rcases h.step hn hc with ⟨h1, -⟩ | ⟨j, h1, h2, h3, h4, h5⟩
  · rw [hpos] at h1; cases h1
  rw [hpos] at h1
  obtain ⟨rfl, -⟩ := List.cons.inj h1
  have hrd : ∃ s1, read ⟨hdus, i - 1, .ok⟩ = .ok (t, s1) ∧ s1.status = .ok := by
    unfold readable at hr
    split at hr
    · rename_i a s1 he
      by_cases hs1 : s1.status = .ok
      · rw [if_pos hs1] at hr
        cases hr
        exact ⟨s1, he, hs1⟩
      · rw [if_neg hs1] at hr; cases hr
    · cases hr
  obtain ⟨s1, h6, h7⟩ := hrd
  rw [← h4] at h6
  obtain ⟨h8, h9, -⟩ := h5 _ _ h6
  have hs1 : s1 = ⟨hdus, i, .ok⟩ := by
    obtain ⟨a, b, d⟩ := s1
    simp only at h7 h8 h9
    rw [h7, h8, h9]
  subst hs1
  obtain ⟨s2, h10, h11⟩ := hrun t ⟨hdus, i, .ok⟩ rfl
  obtain ⟨e1, e2⟩ := (hrefs t).fail i hP s2 h10
  have hlift : FitsM.lift (R := R) (line t) ⟨hdus, i, .ok⟩ = .ok (l, ⟨hdus, i, .ok⟩) := by rw [hl]; rfl
  obtain ⟨fuel, hfuel⟩ : ∃ fuel, hdus.length + 1 = fuel + 2 := ⟨hdus.length - 1, by omega⟩
  have hend : demoLoop read line refs (fuel + 1) s2 = .ok (([], []), s2) := by
    obtain ⟨body, -, rfl⟩ := h.shape
    rw [demoLoop, FitsM.bind_ok (guardStatus_err e1 _ _), FitsM.bind_ok (run_getStatus s2), if_pos e1]
    rfl
  have hloop : demoLoop read line refs (fuel + 2) ⟨hdus, c, .ok⟩ = .ok (([t], [l]), s2) := by
    rw [demoLoop, FitsM.bind_ok h6, FitsM.bind_ok (run_getStatus _), if_neg (by simp), FitsM.bind_ok hlift,
      FitsM.bind_ok h10, FitsM.bind_ok hend]
    rfl
  refine ⟨s2, ?_⟩
  unfold demoTables
  rw [FitsM.bind_ok hnum, hfuel, FitsM.bind_ok hloop, FitsM.bind_ok (run_getStatus s2), if_neg e2]
  rfl

/-- The same if all tables to which it refers are there. -/
theorem demoTables_pass {name : CStr} {old : τ} {read : FitsM R τ} (h : ReadsNext name old read)
    {line : τ → Outcome DemoLine} {refs : τ → FitsM R Unit} {P : τ → Prop} {hdus : List (Hdu R)}
    (hn : ∀ h ∈ hdus, StringName h) (hrefs : ∀ t, RefsEnd hdus (P t) (refs t))
    {c i : Nat} (hc : c < hdus.length) (hpos : tablesAfter name hdus c = [i]) {t : τ} {l : DemoLine}
    (hr : readable read hdus i = some t) (hl : line t = .ok l) (hP : P t) :
    ∃ s', demoTables read line refs ⟨hdus, c, .ok⟩ = .ok (([t], [l], true), s') ∧ s'.status = .ok ∧ s'.hdus = hdus := by
  obtain ⟨s', e⟩ := (demoTables_iff h hn hrefs hc [t] [l]).mpr
    ⟨by rw [hpos]; exact (allRead_one hr).mpr ⟨rfl, hP⟩, by show [line t] = _; rw [hl]; rfl⟩
  exact ⟨s', e, demoTables_state h hn hrefs hc e⟩

variable {today : CStr} {header : OiHeader} {d : DemoInput R}

/-- The names by which a table refers to others are those of tables. -/
def DemoInput.Links (d : DemoInput R) (a i c : CStr) : Prop :=
  (keyStr a ≠ [] → keyStr a = keyStr d.array.arrname) ∧ (keyStr c ≠ [] → keyStr c = keyStr d.corr.corrname) ∧
    keyStr i = keyStr d.wave.insname

/-- What `demo_read` of the file made lists if a name does not match. -/
theorem demoFile_fail (u : Undef R) {oi : OiFits R} {st : Status}
    (h : read_oi_fits u (some (demoFile today header d)) .ok = .ok (some oi, st))
    (h1 : oi.arrayList = [d.array.asRead]) (h2 : oi.wavelengthList = [d.wave.asRead])
    (h3 : oi.corrList = [d.corr.asRead]) (h4 : oi.inspolList = [d.inspol.asRead]) (h5 : oi.visList = [d.vis.asRead u.int])
    (h6 : oi.vis2List = [d.vis2.asRead u.int]) (h7 : oi.t3List = [d.t3.asRead u.int])
    (h8 : oi.fluxList = [d.flux.asRead u.int]) :
    (¬ d.Links d.vis.arrname d.vis.insname d.vis.corrname →
      demo_read u (some (demoFile today header d)) = .ok (d.listed.take 1, false)) ∧
    (d.Links d.vis.arrname d.vis.insname d.vis.corrname →
      (¬ d.Links d.vis2.arrname d.vis2.insname d.vis2.corrname →
        demo_read u (some (demoFile today header d)) = .ok (d.listed.take 2, false)) ∧
      (d.Links d.vis2.arrname d.vis2.insname d.vis2.corrname →
        (¬ d.Links d.t3.arrname d.t3.insname d.t3.corrname →
          demo_read u (some (demoFile today header d)) = .ok (d.listed.take 3, false)) ∧
        (d.Links d.t3.arrname d.t3.insname d.t3.corrname →
          (¬ d.Links d.flux.arrname d.flux.insname d.flux.corrname →
            demo_read u (some (demoFile today header d)) = .ok (d.listed.take 4, false)) ∧
          (d.Links d.flux.arrname d.flux.insname d.flux.corrname →
            keyStr d.inspol.arrname ≠ keyStr d.array.arrname →
            demo_read u (some (demoFile today header d)) = .ok (d.listed.take 5, false))))) := by
  have hp := demoFile_plain today header d
  obtain ⟨p1, p2, p3, p4, p5, p6, p7, p8, p9⟩ := demoFile_positions today header d
  obtain ⟨r1, r2, r3, r4, r5, r6, r7, r8⟩ := C66_tables hp.primary hp.names h
  rw [h1] at r1; rw [h2] at r2; rw [h3] at r3; rw [h4] at r4; rw [h5] at r5; rw [h6] at r6; rw [h7] at r7; rw [h8] at r8
  have r1 := readable_map p5 r1
  have r2 := readable_map p6 r2
  have r3 := readable_one p7 r3
  have r4 := readable_one p8 r4
  have r5 := readable_one p1 r5
  have r6 := readable_one p2 r6
  have r7 := readable_one p3 r7
  have r8 := readable_one p4 r8
  have ra : ∀ v, Resolves "OI_ARRAY" "ARRNAME" v (read_next_oi_array u u.array) (demoFile today header d) ↔
      v = keyStr d.array.arrname := fun v => resolves_one p5 rfl rfl (by rw [r1]; rfl)
  have rw_ : ∀ v, Resolves "OI_WAVELENGTH" "INSNAME" v (read_next_oi_wavelength u u.wave) (demoFile today header d) ↔
      v = keyStr d.wave.insname := fun v => resolves_one p6 rfl rfl (by rw [r2]; rfl)
  have rc : ∀ v, Resolves "OI_CORR" "CORRNAME" v (read_next_oi_corr u u.corr) (demoFile today header d) ↔
      v = keyStr d.corr.corrname := fun v => resolves_one p7 rfl rfl (by rw [r3]; rfl)
  have refs : ∀ a i c, RefsRead u (demoFile today header d) (keyStr a) (keyStr i) (keyStr c) ↔ d.Links a i c := by
    intro a i c
    constructor
    · rintro ⟨x, y, z⟩
      exact ⟨fun e => (ra _).mp (x e), fun e => (rc _).mp (y e), (rw_ _).mp z⟩
    · rintro ⟨x, y, z⟩
      exact ⟨fun e => (ra _).mpr (x e), fun e => (rc _).mpr (y e), (rw_ _).mpr z⟩
  have runArr : ∀ v, RefsRun (demoFile today header d) (onSecond (read_oi_array u v u.array)) := fun v =>
    onSecond_run (chdu := read_oi_array_chdu u u.array) rfl (fun hat hl => array_chdu_name hat hl u u.array)
      (fun _ h => guardStatus_err h _ _) hp hp.arrnames p5 r1
  have runCorr : ∀ v, RefsRun (demoFile today header d) (onSecond (read_oi_corr u v u.corr)) := fun v =>
    onSecond_run (chdu := read_oi_corr_chdu u u.corr) rfl (fun hat hl => corr_chdu_name hat hl u u.corr)
      (fun _ h => guardStatus_err h _ _) hp hp.corrnames p7 r3
  have runWave : ∀ v, RefsRun (demoFile today header d) (onSecond (read_oi_wavelength u v u.wave)) := fun v =>
    onSecond_run (chdu := read_oi_wavelength_chdu u u.wave) rfl (fun hat hl => wavelength_chdu_name hat hl u u.wave)
      (fun _ h => guardStatus_err h _ _) hp hp.insnames p6 r2
  have run : ∀ a i c, RefsRun (demoFile today header d) (demoRefs u a i c) := fun a i c =>
    (runArr a).ite.seq ((runCorr c).ite.seq (runWave i))
  have head : HeadRead (demoFile today header d) 1 := by
    obtain ⟨p, hd, e1, e2, -⟩ := C77_header hp.primary h
    obtain ⟨t, e3, e4⟩ := C77_targets hp.primary hp.names h
    refine ⟨⟨p, hd, e1, e2⟩, p9, t, _, ?_, e4⟩
    rw [List.find?_eq_some_iff_getElem] at e3
    obtain ⟨e5, i, hi, e6, e7⟩ := e3
    have : (demoFile today header d).findIdx? (isTable "OI_TARGET") = some i := by
      rw [List.findIdx?_eq_some_iff_getElem]
      exact ⟨hi, e6 ▸ e5, fun j hj => by simpa using e7 j hj⟩
    rw [p9] at this
    cases this
    rw [← e6]
    exact List.getElem?_eq_getElem hi
  obtain ⟨hd, tg, g1, g2⟩ := (head_read u hp.primary hp.names).1 1 head
  have hlen : (demoFile today header d).length = 10 := rfl
  have q1 : tablesAfter "OI_VIS" (demoFile today header d) 1 = [2] := by rw [tablesAfter_eq, p1]; rfl
  have q2 : tablesAfter "OI_VIS2" (demoFile today header d) 0 = [3] := (tablesAfter_zero _ hp.primary).trans p2
  have q3 : tablesAfter "OI_T3" (demoFile today header d) 0 = [4] := (tablesAfter_zero _ hp.primary).trans p3
  have q4 : tablesAfter "OI_FLUX" (demoFile today header d) 0 = [5] := (tablesAfter_zero _ hp.primary).trans p4
  have q5 : tablesAfter "OI_INSPOL" (demoFile today header d) 0 = [9] := (tablesAfter_zero _ hp.primary).trans p8
  have start : ∀ {lines : List DemoLine}, (∃ s', demoBody u ⟨demoFile today header d, 0, .ok⟩ = .ok ((lines, false), s')) →
      demo_read u (some (demoFile today header d)) = .ok (lines, false) := by
    rintro lines ⟨s', e⟩
    show (demoBody u ⟨demoFile today header d, 0, .ok⟩ >>= fun x => Outcome.ok x.1) = _
    rw [e]
    rfl
  have refsEnd := fun a i c => demoRefs_end u hp a i c
  generalize hdus : demoFile today header d = F at *
  have hx : ∀ c, c < 10 → c < F.length := fun c h => hlen ▸ h
  have hmov : ∀ s : FState R, s.status = .ok → s.hdus = F → ∃ ty, fits_movabs_hdu 1 s = .ok (ty, ⟨F, 0, .ok⟩) := by
    rintro ⟨a, b, c⟩ e1 e2
    obtain ⟨p, rest, rfl⟩ := List.exists_cons_of_ne_nil hp.primary
    have e1 : c = .ok := e1
    have e2 : a = p :: rest := e2
    subst e1; subst e2
    exact ⟨p.type, rfl⟩
  have hin : ∃ s', demoTables (read_next_oi_inspol u u.inspol) (fun t => .ok ⟨"OI_INSPOL", t.arrname, [], []⟩)
      (fun t => onSecond (read_oi_array u t.arrname u.array)) ⟨F, 0, .ok⟩ = .ok (([d.inspol.asRead],
        [⟨"OI_INSPOL", keyStr d.inspol.arrname, [], []⟩], false), s') ∨ keyStr d.inspol.arrname = keyStr d.array.arrname := by
    by_cases e : keyStr d.inspol.arrname = keyStr d.array.arrname
    · exact ⟨⟨F, 0, .ok⟩, .inr e⟩
    · obtain ⟨s', e⟩ := demoTables_fail (readsNext_inspol u u.inspol)
        (line := fun t => .ok ⟨"OI_INSPOL", t.arrname, [], []⟩) hp.names (fun t => array_end u hp t.arrname)
        (fun t => runArr _) (hx 0 (by omega)) q5 r4 rfl ((ra _).not.mpr e)
      exact ⟨s', .inl e⟩
  have fvis : ¬ d.Links d.vis.arrname d.vis.insname d.vis.corrname → ∃ s', demoTables (read_next_oi_vis u u.vis)
      (fun t => .ok ⟨"OI_VIS", t.arrname, t.insname, t.corrname⟩) (fun t => demoRefs u t.arrname t.insname t.corrname)
      ⟨F, 1, .ok⟩ = .ok (([d.vis.asRead u.int],
        [⟨"OI_VIS", keyStr d.vis.arrname, keyStr d.vis.insname, keyStr d.vis.corrname⟩], false), s') := fun n =>
    demoTables_fail (readsNext_vis u u.vis) (line := fun t => .ok ⟨"OI_VIS", t.arrname, t.insname, t.corrname⟩)
      hp.names (fun t => refsEnd _ _ _) (fun t => run _ _ _) (hx 1 (by omega)) q1 r5 rfl ((refs _ _ _).not.mpr n)
  have pvis : d.Links d.vis.arrname d.vis.insname d.vis.corrname → ∃ s', demoTables (read_next_oi_vis u u.vis)
      (fun t => .ok ⟨"OI_VIS", t.arrname, t.insname, t.corrname⟩) (fun t => demoRefs u t.arrname t.insname t.corrname)
      ⟨F, 1, .ok⟩ = .ok (([d.vis.asRead u.int],
        [⟨"OI_VIS", keyStr d.vis.arrname, keyStr d.vis.insname, keyStr d.vis.corrname⟩], true), s') ∧
        s'.status = .ok ∧ s'.hdus = F := fun n =>
    demoTables_pass (readsNext_vis u u.vis) (line := fun t => .ok ⟨"OI_VIS", t.arrname, t.insname, t.corrname⟩)
      hp.names (fun t => refsEnd _ _ _) (hx 1 (by omega)) q1 r5 rfl ((refs _ _ _).mpr n)
  have fvis2 : ¬ d.Links d.vis2.arrname d.vis2.insname d.vis2.corrname → ∃ s', demoTables (read_next_oi_vis2 u u.vis2)
      (demoVis2Line [d.vis.asRead u.int].getLast?) (fun t => demoRefs u t.arrname t.insname t.corrname)
      ⟨F, 0, .ok⟩ = .ok (([d.vis2.asRead u.int],
        [⟨"OI_VIS2", keyStr d.vis2.arrname, keyStr d.vis2.insname, keyStr d.vis.corrname⟩], false), s') := fun n =>
    demoTables_fail (readsNext_vis2 u u.vis2) (line := demoVis2Line [d.vis.asRead u.int].getLast?)
      hp.names (fun t => refsEnd _ _ _) (fun t => run _ _ _) (hx 0 (by omega)) q2 r6 rfl ((refs _ _ _).not.mpr n)
  have pvis2 : d.Links d.vis2.arrname d.vis2.insname d.vis2.corrname → ∃ s', demoTables (read_next_oi_vis2 u u.vis2)
      (demoVis2Line [d.vis.asRead u.int].getLast?) (fun t => demoRefs u t.arrname t.insname t.corrname)
      ⟨F, 0, .ok⟩ = .ok (([d.vis2.asRead u.int],
        [⟨"OI_VIS2", keyStr d.vis2.arrname, keyStr d.vis2.insname, keyStr d.vis.corrname⟩], true), s') ∧
        s'.status = .ok ∧ s'.hdus = F := fun n =>
    demoTables_pass (readsNext_vis2 u u.vis2) (line := demoVis2Line [d.vis.asRead u.int].getLast?)
      hp.names (fun t => refsEnd _ _ _) (hx 0 (by omega)) q2 r6 rfl ((refs _ _ _).mpr n)
  have ft3 : ¬ d.Links d.t3.arrname d.t3.insname d.t3.corrname → ∃ s', demoTables (read_next_oi_t3 u u.t3)
      (fun t => .ok ⟨"OI_T3", t.arrname, t.insname, t.corrname⟩) (fun t => demoRefs u t.arrname t.insname t.corrname)
      ⟨F, 0, .ok⟩ = .ok (([d.t3.asRead u.int],
        [⟨"OI_T3", keyStr d.t3.arrname, keyStr d.t3.insname, keyStr d.t3.corrname⟩], false), s') := fun n =>
    demoTables_fail (readsNext_t3 u u.t3) (line := fun t => .ok ⟨"OI_T3", t.arrname, t.insname, t.corrname⟩)
      hp.names (fun t => refsEnd _ _ _) (fun t => run _ _ _) (hx 0 (by omega)) q3 r7 rfl ((refs _ _ _).not.mpr n)
  have pt3 : d.Links d.t3.arrname d.t3.insname d.t3.corrname → ∃ s', demoTables (read_next_oi_t3 u u.t3)
      (fun t => .ok ⟨"OI_T3", t.arrname, t.insname, t.corrname⟩) (fun t => demoRefs u t.arrname t.insname t.corrname)
      ⟨F, 0, .ok⟩ = .ok (([d.t3.asRead u.int],
        [⟨"OI_T3", keyStr d.t3.arrname, keyStr d.t3.insname, keyStr d.t3.corrname⟩], true), s') ∧
        s'.status = .ok ∧ s'.hdus = F := fun n =>
    demoTables_pass (readsNext_t3 u u.t3) (line := fun t => .ok ⟨"OI_T3", t.arrname, t.insname, t.corrname⟩)
      hp.names (fun t => refsEnd _ _ _) (hx 0 (by omega)) q3 r7 rfl ((refs _ _ _).mpr n)
  have fflux : ¬ d.Links d.flux.arrname d.flux.insname d.flux.corrname → ∃ s', demoTables (read_next_oi_flux u u.flux)
      (fun t => .ok ⟨"OI_FLUX", t.arrname, t.insname, t.corrname⟩) (fun t => demoRefs u t.arrname t.insname t.corrname)
      ⟨F, 0, .ok⟩ = .ok (([d.flux.asRead u.int],
        [⟨"OI_FLUX", keyStr d.flux.arrname, keyStr d.flux.insname, keyStr d.flux.corrname⟩], false), s') := fun n =>
    demoTables_fail (readsNext_flux u u.flux) (line := fun t => .ok ⟨"OI_FLUX", t.arrname, t.insname, t.corrname⟩)
      hp.names (fun t => refsEnd _ _ _) (fun t => run _ _ _) (hx 0 (by omega)) q4 r8 rfl ((refs _ _ _).not.mpr n)
  have pflux : d.Links d.flux.arrname d.flux.insname d.flux.corrname → ∃ s', demoTables (read_next_oi_flux u u.flux)
      (fun t => .ok ⟨"OI_FLUX", t.arrname, t.insname, t.corrname⟩) (fun t => demoRefs u t.arrname t.insname t.corrname)
      ⟨F, 0, .ok⟩ = .ok (([d.flux.asRead u.int],
        [⟨"OI_FLUX", keyStr d.flux.arrname, keyStr d.flux.insname, keyStr d.flux.corrname⟩], true), s') ∧
        s'.status = .ok ∧ s'.hdus = F := fun n =>
    demoTables_pass (readsNext_flux u u.flux) (line := fun t => .ok ⟨"OI_FLUX", t.arrname, t.insname, t.corrname⟩)
      hp.names (fun t => refsEnd _ _ _) (hx 0 (by omega)) q4 r8 rfl ((refs _ _ _).mpr n)
  clear r1 r2 r3 r4 r5 r6 r7 r8 ra rw_ rc refs runArr runCorr runWave run refsEnd
  refine ⟨fun n1 => start ?_, fun y1 => ⟨fun n2 => start ?_, fun y2 => ⟨fun n3 => start ?_, fun y3 =>
    ⟨fun n4 => start ?_, fun y4 n5 => start ?_⟩⟩⟩⟩
  all_goals
    unfold demoBody
    rw [FitsM.bind_ok g1, FitsM.bind_ok g2, FitsM.bind_ok (run_getStatus _), if_neg (by simp)]
  · obtain ⟨s', e⟩ := fvis n1
    rw [FitsM.bind_ok e, if_pos rfl]
    exact ⟨s', rfl⟩
  all_goals
    obtain ⟨s1, e1, x1, z1⟩ := pvis y1
    obtain ⟨_, m1⟩ := hmov s1 x1 z1
    rw [FitsM.bind_ok e1, if_neg (by simp), FitsM.bind_ok m1]
    dsimp only
  · obtain ⟨s', e⟩ := fvis2 n2
    rw [FitsM.bind_ok e, if_pos rfl]
    exact ⟨s', rfl⟩
  all_goals
    obtain ⟨s2, e2, x2, z2⟩ := pvis2 y2
    obtain ⟨_, m2⟩ := hmov s2 x2 z2
    rw [FitsM.bind_ok e2, if_neg (by simp), FitsM.bind_ok m2]
  · obtain ⟨s', e⟩ := ft3 n3
    rw [FitsM.bind_ok e, if_pos rfl]
    exact ⟨s', rfl⟩
  all_goals
    obtain ⟨s3, e3, x3, z3⟩ := pt3 y3
    obtain ⟨_, m3⟩ := hmov s3 x3 z3
    rw [FitsM.bind_ok e3, if_neg (by simp), FitsM.bind_ok m3]
  · obtain ⟨s', e⟩ := fflux n4
    rw [FitsM.bind_ok e, if_pos rfl]
    exact ⟨s', rfl⟩
  obtain ⟨s4, e4, x4, z4⟩ := pflux y4
  obtain ⟨_, m4⟩ := hmov s4 x4 z4
  rw [FitsM.bind_ok e4, if_neg (by simp), FitsM.bind_ok m4]
  obtain ⟨s', e | e⟩ := hin
  · rw [FitsM.bind_ok e]
    exact ⟨s', rfl⟩
  · exact absurd e n5

end Verif
