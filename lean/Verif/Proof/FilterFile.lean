import Verif.Spec.FilterFile
import Verif.Proof.FitsAgain
import Verif.Proof.FilterTwo
import Verif.Proof.Storable

/-! Filtering what has been written to a file and read back. -/

namespace Verif
open Outcome Spec Classical

variable {R : FP} {f : FilterSpec R}

/-! ### Tables -/

theorem filter_through {α : Type} {l : List α} {g F F' : α → α} {P Q : α → Prop} (h : ∀ r, P (g r) ↔ Q r)
    (e : ∀ r, F (g r) = g (F' r)) :
    ((l.map g).filter fun r => decide (P r)).map F = ((l.filter fun r => decide (Q r)).map F').map g := by
  rw [List.filter_map, List.map_map, List.map_map]
  have : ((fun r => decide (P r)) ∘ g) = fun r => decide (Q r) := by
    funext r
    simp only [Function.comp_apply, h r]
  rw [this]
  exact List.map_congr_left fun r _ => e r

theorem find?_congr_mem {α : Type} {l : List α} {p q : α → Bool} (h : ∀ x ∈ l, p x = q x) : l.find? p = l.find? q := by
  induction l with
  | nil => rfl
  | cons x l ih =>
    rw [List.find?_cons, List.find?_cons, h x List.mem_cons_self, ih fun y hy => h y (List.mem_cons_of_mem _ hy)]

theorem instTable_asRead {a b : OiFits R} (hn : NamesHeld a) (hw : b.wavelengthList = a.wavelengthList.map OiWavelength.asRead)
    {n : CStr} (h : CardText n) : instTable b (keyStr n) = (instTable a n).map OiWavelength.asRead := by
  unfold instTable
  rw [hw, List.find?_map]
  congr 1
  refine find?_congr_mem fun w hm => ?_
  show (keyStr w.insname == keyStr n) = _
  rw [(hn.wavelength w hm).eq, h.eq]

theorem visOut_asRead (w : OiWavelength R) (t : OiVis R) (junk : Int) :
    visOut f w.asRead (t.asRead junk) = (visOut f w t).asRead junk := by
  unfold visOut OiVis.asRead
  dsimp only
  congr 1
  exact filter_through (fun r => ⟨fun h => ⟨h.target, h.mjd, h.bas, h.unflagged⟩, fun h => ⟨h.target, h.mjd, h.bas, h.unflagged⟩⟩) fun r => rfl

theorem visRemains_asRead {w : OiWavelength R} {t : OiVis R} (junk : Int)
    (h : CardText t.arrname ∧ CardText t.insname ∧ CardText t.corrname) :
    VisRemains f w.asRead (t.asRead junk) ↔ VisRemains f w t := by
  have e : NamesOk f (t.asRead junk).arrname (t.asRead junk).insname (t.asRead junk).corrname ↔
      NamesOk f t.arrname t.insname t.corrname := by
    show NamesOk f (keyStr t.arrname) (keyStr t.insname) (keyStr t.corrname) ↔ _
    rw [h.1.eq, h.2.1.eq, h.2.2.eq]
  constructor
  · rintro ⟨h1, h2, r', hr', hk⟩
    obtain ⟨r, hr, rfl⟩ := List.mem_map.mp hr'
    exact ⟨e.mp h1, h2, r, hr, hk.target, hk.mjd, hk.bas, hk.unflagged⟩
  · rintro ⟨h1, h2, r, hr, hk⟩
    exact ⟨e.mpr h1, h2, _, List.mem_map_of_mem hr, hk.target, hk.mjd, hk.bas, hk.unflagged⟩

theorem visTables_asRead {a b : OiFits R} (hn : NamesHeld a) (hw : b.wavelengthList = a.wavelengthList.map OiWavelength.asRead)
    {junk : Int} (h : b.visList = a.visList.map (OiVis.asRead junk)) :
    visTables f b = (visTables f a).map (OiVis.asRead junk) := by
  unfold visTables
  split
  · rw [h, List.filterMap_map, List.map_filterMap]
    refine filterMap_congr' fun t ht => ?_
    have ht := hn.vis t ht
    show (match instTable b (keyStr t.insname) with
      | none => none
      | some w => if VisRemains f w (t.asRead junk) then some (visOut f w (t.asRead junk)) else none) = _
    rw [instTable_asRead hn hw ht.2.1]
    cases instTable a t.insname with
    | none => rfl
    | some w =>
      simp only [Option.map_some, visRemains_asRead junk ht, visOut_asRead]
      split <;> rfl
  · rfl

theorem vis2Out_asRead (w : OiWavelength R) (t : OiVis2 R) (junk : Int) :
    vis2Out f w.asRead (t.asRead junk) = (vis2Out f w t).asRead junk := by
  unfold vis2Out OiVis2.asRead
  dsimp only
  congr 1
  exact filter_through (fun r => ⟨fun h => ⟨h.target, h.mjd, h.bas, h.unflagged⟩, fun h => ⟨h.target, h.mjd, h.bas, h.unflagged⟩⟩) fun r => rfl

theorem vis2Remains_asRead {w : OiWavelength R} {t : OiVis2 R} (junk : Int)
    (h : CardText t.arrname ∧ CardText t.insname ∧ CardText t.corrname) :
    Vis2Remains f w.asRead (t.asRead junk) ↔ Vis2Remains f w t := by
  have e : NamesOk f (t.asRead junk).arrname (t.asRead junk).insname (t.asRead junk).corrname ↔
      NamesOk f t.arrname t.insname t.corrname := by
    show NamesOk f (keyStr t.arrname) (keyStr t.insname) (keyStr t.corrname) ↔ _
    rw [h.1.eq, h.2.1.eq, h.2.2.eq]
  constructor
  · rintro ⟨h1, h2, r', hr', hk⟩
    obtain ⟨r, hr, rfl⟩ := List.mem_map.mp hr'
    exact ⟨e.mp h1, h2, r, hr, hk.target, hk.mjd, hk.bas, hk.unflagged⟩
  · rintro ⟨h1, h2, r, hr, hk⟩
    exact ⟨e.mpr h1, h2, _, List.mem_map_of_mem hr, hk.target, hk.mjd, hk.bas, hk.unflagged⟩

theorem vis2Tables_asRead {a b : OiFits R} (hn : NamesHeld a) (hw : b.wavelengthList = a.wavelengthList.map OiWavelength.asRead)
    {junk : Int} (h : b.vis2List = a.vis2List.map (OiVis2.asRead junk)) :
    vis2Tables f b = (vis2Tables f a).map (OiVis2.asRead junk) := by
  unfold vis2Tables
  split
  · rw [h, List.filterMap_map, List.map_filterMap]
    refine filterMap_congr' fun t ht => ?_
    have ht := hn.vis2 t ht
    show (match instTable b (keyStr t.insname) with
      | none => none
      | some w => if Vis2Remains f w (t.asRead junk) then some (vis2Out f w (t.asRead junk)) else none) = _
    rw [instTable_asRead hn hw ht.2.1]
    cases instTable a t.insname with
    | none => rfl
    | some w =>
      simp only [Option.map_some, vis2Remains_asRead junk ht, vis2Out_asRead]
      split <;> rfl
  · rfl

theorem t3Out_asRead (w : OiWavelength R) (t : OiT3 R) (junk : Int) :
    t3Out f w.asRead (t.asRead junk) = (t3Out f w t).asRead junk := by
  unfold t3Out OiT3.asRead
  dsimp only
  congr 1
  exact filter_through (fun r => ⟨fun h => ⟨h.target, h.mjd, h.basAB, h.basBC, h.basAC, h.unflagged⟩, fun h => ⟨h.target, h.mjd, h.basAB, h.basBC, h.basAC, h.unflagged⟩⟩) fun r => rfl

theorem t3Remains_asRead {w : OiWavelength R} {t : OiT3 R} (junk : Int)
    (h : CardText t.arrname ∧ CardText t.insname ∧ CardText t.corrname) :
    T3Remains f w.asRead (t.asRead junk) ↔ T3Remains f w t := by
  have e : NamesOk f (t.asRead junk).arrname (t.asRead junk).insname (t.asRead junk).corrname ↔
      NamesOk f t.arrname t.insname t.corrname := by
    show NamesOk f (keyStr t.arrname) (keyStr t.insname) (keyStr t.corrname) ↔ _
    rw [h.1.eq, h.2.1.eq, h.2.2.eq]
  constructor
  · rintro ⟨h1, h2, r', hr', hk⟩
    obtain ⟨r, hr, rfl⟩ := List.mem_map.mp hr'
    exact ⟨e.mp h1, h2, r, hr, hk.target, hk.mjd, hk.basAB, hk.basBC, hk.basAC, hk.unflagged⟩
  · rintro ⟨h1, h2, r, hr, hk⟩
    exact ⟨e.mpr h1, h2, _, List.mem_map_of_mem hr, hk.target, hk.mjd, hk.basAB, hk.basBC, hk.basAC, hk.unflagged⟩

theorem t3Tables_asRead {a b : OiFits R} (hn : NamesHeld a) (hw : b.wavelengthList = a.wavelengthList.map OiWavelength.asRead)
    {junk : Int} (h : b.t3List = a.t3List.map (OiT3.asRead junk)) :
    t3Tables f b = (t3Tables f a).map (OiT3.asRead junk) := by
  unfold t3Tables
  split
  · rw [h, List.filterMap_map, List.map_filterMap]
    refine filterMap_congr' fun t ht => ?_
    have ht := hn.t3 t ht
    show (match instTable b (keyStr t.insname) with
      | none => none
      | some w => if T3Remains f w (t.asRead junk) then some (t3Out f w (t.asRead junk)) else none) = _
    rw [instTable_asRead hn hw ht.2.1]
    cases instTable a t.insname with
    | none => rfl
    | some w =>
      simp only [Option.map_some, t3Remains_asRead junk ht, t3Out_asRead]
      split <;> rfl
  · rfl

theorem fluxOut_asRead (w : OiWavelength R) (t : OiFlux R) (junk : Int) :
    fluxOut f w.asRead (t.asRead junk) = (fluxOut f w t).asRead junk := by
  unfold fluxOut OiFlux.asRead
  dsimp only
  congr 1
  exact filter_through (fun r => ⟨fun h => ⟨h.target, h.mjd⟩, fun h => ⟨h.target, h.mjd⟩⟩) fun r => rfl

theorem fluxRemains_asRead {w : OiWavelength R} {t : OiFlux R} (junk : Int)
    (h : CardText t.arrname ∧ CardText t.insname ∧ CardText t.corrname) :
    FluxRemains f w.asRead (t.asRead junk) ↔ FluxRemains f w t := by
  have e : NamesOk f (t.asRead junk).arrname (t.asRead junk).insname (t.asRead junk).corrname ↔
      NamesOk f t.arrname t.insname t.corrname := by
    show NamesOk f (keyStr t.arrname) (keyStr t.insname) (keyStr t.corrname) ↔ _
    rw [h.1.eq, h.2.1.eq, h.2.2.eq]
  constructor
  · rintro ⟨h1, h2, r', hr', hk⟩
    obtain ⟨r, hr, rfl⟩ := List.mem_map.mp hr'
    exact ⟨e.mp h1, h2, r, hr, hk.target, hk.mjd⟩
  · rintro ⟨h1, h2, r, hr, hk⟩
    exact ⟨e.mpr h1, h2, _, List.mem_map_of_mem hr, hk.target, hk.mjd⟩

theorem fluxTables_asRead {a b : OiFits R} (hn : NamesHeld a) (hw : b.wavelengthList = a.wavelengthList.map OiWavelength.asRead)
    {junk : Int} (h : b.fluxList = a.fluxList.map (OiFlux.asRead junk)) :
    fluxTables f b = (fluxTables f a).map (OiFlux.asRead junk) := by
  unfold fluxTables
  split
  · rw [h, List.filterMap_map, List.map_filterMap]
    refine filterMap_congr' fun t ht => ?_
    have ht := hn.flux t ht
    show (match instTable b (keyStr t.insname) with
      | none => none
      | some w => if FluxRemains f w (t.asRead junk) then some (fluxOut f w (t.asRead junk)) else none) = _
    rw [instTable_asRead hn hw ht.2.1]
    cases instTable a t.insname with
    | none => rfl
    | some w =>
      simp only [Option.map_some, fluxRemains_asRead junk ht, fluxOut_asRead]
      split <;> rfl
  · rfl

/-! ### Names -/

theorem namesHeld_filtered {oi out : OiFits R} (hn : NamesHeld oi) (ho : Filtered f oi out) : NamesHeld out where
  array := fun t ht => by
    rw [ho.array] at ht
    exact hn.array t (List.mem_filter.mp ht).1
  wavelength := fun t ht => by
    rw [ho.wavelength] at ht
    obtain ⟨w, hw, rfl⟩ := List.mem_map.mp ht
    exact hn.wavelength w (List.mem_filter.mp hw).1
  corr := fun t ht => by
    rw [ho.corr] at ht
    exact hn.corr t (List.mem_filter.mp ht).1
  vis := fun t ht => by
    rw [ho.vis] at ht
    obtain ⟨_, t, hm, w, _, _, rfl⟩ := mem_visTables.mp ht
    exact hn.vis t hm
  vis2 := fun t ht => by
    rw [ho.vis2] at ht
    obtain ⟨_, t, hm, w, _, _, rfl⟩ := mem_vis2Tables.mp ht
    exact hn.vis2 t hm
  t3 := fun t ht => by
    rw [ho.t3] at ht
    obtain ⟨_, t, hm, w, _, _, rfl⟩ := mem_t3Tables.mp ht
    exact hn.t3 t hm
  flux := fun t ht => by
    rw [ho.flux] at ht
    obtain ⟨_, t, hm, w, _, _, rfl⟩ := mem_fluxTables.mp ht
    exact hn.flux t hm

theorem settled_filtered {oi out : OiFits R} (hs : oi.Settled) (ho : Filtered f oi out) : out.Settled where
  header := by rw [ho.header]; exact hs.header
  array := fun t ht => by
    rw [ho.array] at ht
    exact hs.array t (List.mem_filter.mp ht).1
  vis := fun t ht => by
    rw [ho.vis] at ht
    obtain ⟨_, t, hm, w, _, _, rfl⟩ := mem_visTables.mp ht
    exact hs.vis t hm
  vis2 := fun t ht => by
    rw [ho.vis2] at ht
    obtain ⟨_, t, hm, w, _, _, rfl⟩ := mem_vis2Tables.mp ht
    exact hs.vis2 t hm
  t3 := fun t ht => by
    rw [ho.t3] at ht
    obtain ⟨_, t, hm, w, _, _, rfl⟩ := mem_t3Tables.mp ht
    exact hs.t3 t hm
  flux := fun t ht => by
    rw [ho.flux] at ht
    obtain ⟨_, t, hm, w, _, _, rfl⟩ := mem_fluxTables.mp ht
    exact hs.flux t hm

theorem inspol_none {oi out : OiFits R} (hi : oi.inspolList = []) (h : InspolFiltered f oi out) : out.inspolList = [] := by
  rw [h, hi]; rfl

section
variable {a a' b b' : OiFits R} {today : CStr} {u : Undef R}

/-- A dataset read back can be filtered like the original one. -/
theorem filterable_saved (hf : Filterable f a) (ht : a.targets.targ ≠ []) (hn : NamesHeld a) (hs : SavedAs today u a a')
    (hw : a'.WF) (hl : ∀ n w, instTable a' n = some w → InsReferenced a' n → oi_fits_lookup_wavelength a' n = some w) :
    Filterable f a' := by
  have key {n : CStr} (hc : CardText n) {w' : OiWavelength R} (h : instTable a' (keyStr n) = some w') :
      ∃ w, instTable a n = some w ∧ w' = w.asRead := by
    rw [instTable_asRead hn hs.wavelength hc] at h
    obtain ⟨w, h1, h2⟩ := Option.map_eq_some_iff.mp h
    exact ⟨w, h1, h2.symm⟩
  have names : a'.wavelengthList.map OiWavelength.insname = a.wavelengthList.map OiWavelength.insname := by
    rw [hs.wavelength, List.map_map]
    exact List.map_congr_left fun w hm => (hn.wavelength w hm).eq
  refine ⟨hw, .inr ?_, ?_, ?_, ?_, ?_, ?_, ?_⟩
  · rw [hs.targets]
    simpa [OiTarget.asRead] using ht
  · rw [names]; exact hf.unique
  · intro w hm
    have : w.insname ∈ a'.wavelengthList.map OiWavelength.insname := List.mem_map_of_mem hm
    rw [names] at this
    obtain ⟨v, hv, e⟩ := List.mem_map.mp this
    rw [← e]; exact hf.fits v hv
  · intro t ht w' hw'
    refine ⟨hl _ _ hw' (.inl ⟨t, ht, rfl⟩), ?_⟩
    rw [hs.vis] at ht
    obtain ⟨t, hm, rfl⟩ := List.mem_map.mp ht
    obtain ⟨w, h1, rfl⟩ := key (hn.vis t hm).2.1 hw'
    exact (hf.vis t hm w h1).2
  · intro t ht w' hw'
    refine ⟨hl _ _ hw' (.inr (.inl ⟨t, ht, rfl⟩)), ?_⟩
    rw [hs.vis2] at ht
    obtain ⟨t, hm, rfl⟩ := List.mem_map.mp ht
    obtain ⟨w, h1, rfl⟩ := key (hn.vis2 t hm).2.1 hw'
    exact (hf.vis2 t hm w h1).2
  · intro t ht w' hw'
    refine ⟨hl _ _ hw' (.inr (.inr (.inl ⟨t, ht, rfl⟩))), ?_⟩
    rw [hs.t3] at ht
    obtain ⟨t, hm, rfl⟩ := List.mem_map.mp ht
    obtain ⟨w, h1, rfl⟩ := key (hn.t3 t hm).2.1 hw'
    exact (hf.t3 t hm w h1).2
  · intro t ht w' hw'
    rw [hs.flux] at ht
    obtain ⟨t, hm, rfl⟩ := List.mem_map.mp ht
    obtain ⟨w, h1, rfl⟩ := key (hn.flux t hm).2.1 hw'
    exact hf.flux t hm w h1

theorem hduTarget_filtered (t : OiTarget R) (junk : CStr) :
    hduTarget (targetsOut f (t.asRead junk)) = hduTarget (targetsOut f t) := by
  by_cases hc : f.target_id < 0
  · rw [targetsOut, targetsOut, if_pos hc, if_pos hc, hduTarget_again]
  · rw [targetsOut, targetsOut, if_neg hc, if_neg hc]
    have e : (t.asRead junk).targ.reverse.find? (fun x => x.target_id == f.target_id) =
        (t.targ.reverse.find? fun x => x.target_id == f.target_id).map fun x : Target R =>
          { x with
            target := colStr 32 x.target
            veltyp := colStr 8 x.veltyp
            veldef := colStr 8 x.veldef
            spectyp := colStr 32 x.spectyp
            category := if t.usecategory then colStr 3 x.category else junk } := by
      rw [OiTarget.asRead, ← List.map_reverse, List.find?_map]
      rfl
    rw [e]
    cases t.targ.reverse.find? fun x => x.target_id == f.target_id with
    | none => rfl
    | some x =>
      simp only [Option.map_some, hduTarget, strCol, intsCol, dblsCol, fltsCol, List.map_cons, List.map_nil, colStr_colStr, optCols]
      rfl

theorem referenced_saved (hn : NamesHeld b) (h1 : b'.visList = b.visList.map (OiVis.asRead u.int))
    (h2 : b'.vis2List = b.vis2List.map (OiVis2.asRead u.int)) (h3 : b'.t3List = b.t3List.map (OiT3.asRead u.int))
    (h4 : b'.fluxList = b.fluxList.map (OiFlux.asRead u.int)) (n : CStr) :
    (ArrReferenced b' n ↔ ArrReferenced b n) ∧ (InsReferenced b' n ↔ InsReferenced b n) ∧
      (CorrReferenced b' n ↔ CorrReferenced b n) := by
  have key {τ : Type} (l : List τ) (g : τ → τ) (name : τ → CStr) (h : ∀ t ∈ l, name (g t) = name t) :
      (∃ t ∈ l.map g, name t = n) ↔ ∃ t ∈ l, name t = n := by
    constructor
    · rintro ⟨t, ht, rfl⟩
      obtain ⟨s, hs, rfl⟩ := List.mem_map.mp ht
      exact ⟨s, hs, (h s hs).symm⟩
    · rintro ⟨t, ht, rfl⟩
      exact ⟨g t, List.mem_map_of_mem ht, h t ht⟩
  unfold ArrReferenced InsReferenced CorrReferenced
  rw [h1, h2, h3, h4]
  refine ⟨?_, ?_, ?_⟩
  · rw [key _ _ OiVis.arrname fun t ht => (hn.vis t ht).1.eq, key _ _ OiVis2.arrname fun t ht => (hn.vis2 t ht).1.eq,
      key _ _ OiT3.arrname fun t ht => (hn.t3 t ht).1.eq, key _ _ OiFlux.arrname fun t ht => (hn.flux t ht).1.eq]
  · rw [key _ _ OiVis.insname fun t ht => (hn.vis t ht).2.1.eq, key _ _ OiVis2.insname fun t ht => (hn.vis2 t ht).2.1.eq,
      key _ _ OiT3.insname fun t ht => (hn.t3 t ht).2.1.eq, key _ _ OiFlux.insname fun t ht => (hn.flux t ht).2.1.eq]
  · rw [key _ _ OiVis.corrname fun t ht => (hn.vis t ht).2.2.eq, key _ _ OiVis2.corrname fun t ht => (hn.vis2 t ht).2.2.eq,
      key _ _ OiT3.corrname fun t ht => (hn.t3 t ht).2.2.eq, key _ _ OiFlux.corrname fun t ht => (hn.flux t ht).2.2.eq]

theorem filter_map_saved {τ : Type} {l : List τ} {g : τ → τ} {P Q : τ → Prop} [DecidablePred P] [DecidablePred Q]
    (h : ∀ t ∈ l, P (g t) ↔ Q t) :
    (l.map g).filter (fun t => decide (P t)) = (l.filter fun t => decide (Q t)).map g := by
  rw [List.filter_map]
  congr 1
  refine List.filter_congr fun t ht => ?_
  simp only [Function.comp_apply, h t ht]

/-- Filtering a dataset that has been written and read back, and writing the result, makes the same file as filtering the
original one and writing the result. -/
theorem fileOf_saved (hn : NamesHeld a) (hd : a.Settled) (hi : a.inspolList = []) (hs : SavedAs today u a a')
    (hb : Filtered f a b) (hbi : InspolFiltered f a b) (hb' : Filtered f a' b') (hbi' : InspolFiltered f a' b')
    (today' : CStr) : fileOf today' b' = fileOf today' b := by
  have e1 : b'.visList = b.visList.map (OiVis.asRead u.int) := by
    rw [hb.vis, hb'.vis]; exact visTables_asRead hn hs.wavelength hs.vis
  have e2 : b'.vis2List = b.vis2List.map (OiVis2.asRead u.int) := by
    rw [hb.vis2, hb'.vis2]; exact vis2Tables_asRead hn hs.wavelength hs.vis2
  have e3 : b'.t3List = b.t3List.map (OiT3.asRead u.int) := by
    rw [hb.t3, hb'.t3]; exact t3Tables_asRead hn hs.wavelength hs.t3
  have e4 : b'.fluxList = b.fluxList.map (OiFlux.asRead u.int) := by
    rw [hb.flux, hb'.flux]; exact fluxTables_asRead hn hs.wavelength hs.flux
  have href := referenced_saved (namesHeld_filtered hn hb) e1 e2 e3 e4
  have e5 : b'.arrayList = b.arrayList.map OiArray.asRead := by
    rw [hb.array, hb'.array, hs.array]
    refine filter_map_saved fun t ht => ?_
    show Glob f.arrname (keyStr t.arrname) ∧ ArrReferenced b' (keyStr t.arrname) ↔ _
    rw [(hn.array t ht).eq, (href _).1]
  have e6 : b'.corrList = b.corrList.map OiCorr.asRead := by
    rw [hb.corr, hb'.corr, hs.corr]
    refine filter_map_saved fun t ht => ?_
    show Glob f.corrname (keyStr t.corrname) ∧ CorrReferenced b' (keyStr t.corrname) ↔ _
    rw [(hn.corr t ht).eq, (href _).2.2]
  have e7 : b'.wavelengthList = b.wavelengthList.map OiWavelength.asRead := by
    rw [hb.wavelength, hb'.wavelength, hs.wavelength]
    rw [filter_map_saved (Q := fun w => WaveRemains f w ∧ InsReferenced b w.insname), List.map_map, List.map_map]
    · rfl
    · intro w hw
      have e : w.asRead.insname = w.insname := (hn.wavelength w hw).eq
      rw [e, (href _).2.1]
      exact ⟨fun h => ⟨⟨e ▸ h.1.name, h.1.chan⟩, h.2⟩, fun h => ⟨⟨e.symm ▸ h.1.name, h.1.chan⟩, h.2⟩⟩
  have hd' := settled_filtered hd hb
  have h8 : b'.inspolList = [] := inspol_none (by rw [hs.inspol, hi]; rfl) hbi'
  unfold fileOf
  rw [hb'.header, hs.header, ← hb.header, hb'.targets, hs.targets, hduTarget_filtered, ← hb.targets, e1, e2, e3, e4, e5, e6, e7,
    h8, inspol_none hi hbi, hduPrimary_again hd'.header,
    mapIdx_again (f := hduArray) fun t ht k => hduArray_again (hd'.array t ht) k,
    mapIdx_again (f := hduWavelength) fun t _ k => hduWavelength_again t k,
    mapIdx_again (f := hduCorr) fun t _ k => hduCorr_again t k,
    mapIdx_again (f := hduVis) fun t ht k => hduVis_again (hd'.vis t ht) _ k,
    mapIdx_again (f := hduVis2) fun t ht k => hduVis2_again (hd'.vis2 t ht) _ k,
    mapIdx_again (f := hduT3) fun t ht k => hduT3_again (hd'.t3 t ht) _ k,
    mapIdx_again (f := hduFlux) fun t ht k => hduFlux_again (hd'.flux t ht) _ k]

end

theorem fileOf_same {a b : OiFits R} (h : SameContents a b) (today : CStr) : fileOf today a = fileOf today b := by
  unfold fileOf
  rw [h.header, h.targets, h.arrayList, h.wavelengthList, h.corrList, h.inspolList, h.visList, h.vis2List, h.t3List,
    h.fluxList]

end Verif
