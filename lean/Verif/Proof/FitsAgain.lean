import Verif.Props.ReadFile
import Verif.Spec.Again

/-! Writing what has been read. -/

namespace Verif
open Outcome Spec
variable {R : FP}

theorem rtrim_last (s : CStr) : (rtrim s).getLast? ≠ some ' ' := by
  unfold rtrim
  rw [List.getLast?_reverse]
  intro h
  have := List.head?_dropWhile_not (fun c => c == ' ') s.reverse
  rw [h] at this
  simp at this

theorem colStr_colStr (w : Nat) (s : CStr) : colStr w (colStr w s) = colStr w s :=
  (⟨colStr_length_le w s, rtrim_last _⟩ : ColText w (colStr w s)).eq

theorem cardFit_sum (n : Nat) (s : CStr) : ((cardFit n s).map fun c => if c = '\'' then 2 else 1).sum ≤ n := by
  induction s generalizing n with
  | nil => simp [cardFit]
  | cons c s ih =>
    unfold cardFit
    by_cases h : (if c = '\'' then 2 else 1) ≤ n
    · simp only [if_pos h]
      rw [List.map_cons, List.sum_cons]
      have := ih (n - if c = '\'' then 2 else 1)
      omega
    · simp only [if_neg h]
      simp

theorem rtrim_append (s : CStr) : ∃ b, rtrim s ++ b = s := by
  unfold rtrim
  refine ⟨(s.reverse.takeWhile (· == ' ')).reverse, ?_⟩
  rw [← List.reverse_append, List.takeWhile_append_dropWhile, List.reverse_reverse]

theorem keyStr_card (s : CStr) : CardText (keyStr s) := by
  refine ⟨?_, rtrim_last _⟩
  have h := cardFit_sum 68 s
  obtain ⟨b, hb⟩ := rtrim_append (cardFit 68 s)
  unfold keyStr
  rw [← hb, List.map_append, List.sum_append] at h
  omega

theorem keyStr_keyStr (s : CStr) : keyStr (keyStr s) = keyStr s := (keyStr_card s).eq

theorem keyStr_nil : keyStr [] = [] := rfl

section
variable {α β : Type} (name : CStr) (w : Nat) (recs : List α) (g : α → β)
theorem strCol_map (f : β → CStr) : (strCol name w (recs.map g) f : Col R) = strCol name w recs (fun x => f (g x)) := by
  simp [strCol, Function.comp_def]
theorem intsCol_map (ty : ColType) (f : β → List Int) :
    (intsCol name ty w (recs.map g) f : Col R) = intsCol name ty w recs (fun x => f (g x)) := by
  simp [intsCol, Function.comp_def]
theorem dblsCol_map (un : Option CStr) (f : β → List R.Dbl) :
    (dblsCol name w un (recs.map g) f : Col R) = dblsCol name w un recs (fun x => f (g x)) := by
  simp [dblsCol, Function.comp_def]
theorem fltsCol_map (un : Option CStr) (f : β → List R.Flt) :
    (fltsCol name w un (recs.map g) f : Col R) = fltsCol name w un recs (fun x => f (g x)) := by
  simp [fltsCol, Function.comp_def]
theorem logsCol_map (td : Option CStr) (f : β → List Bool) :
    (logsCol name w td (recs.map g) f : Col R) = logsCol name w td recs (fun x => f (g x)) := by
  simp [logsCol, Function.comp_def]
end

theorem strCol_colStr {α : Type} (name : CStr) (w : Nat) (recs : List α) (f : α → CStr) :
    (strCol name w recs (fun x => colStr w (f x)) : Col R) = strCol name w recs f := by
  simp [strCol, colStr_colStr]

theorem hduArray_again {t : OiArray R} (h : Settles t.arrayx ∧ Settles t.arrayy ∧ Settles t.arrayz) (k : Int) :
    hduArray t.asRead k = hduArray t k := by
  obtain ⟨h1, h2, h3⟩ := h
  unfold Settles at h1 h2 h3
  simp only [hduArray, OiArray.asRead, keyStr_keyStr, h1.eq, h2.eq, h3.eq, strCol_map, intsCol_map, dblsCol_map,
    fltsCol_map, strCol_colStr, List.length_map]

theorem hduTarget_again (t : OiTarget R) (junk : CStr) : hduTarget (t.asRead junk) = hduTarget t := by
  simp only [hduTarget, OiTarget.asRead, strCol_map, intsCol_map, dblsCol_map,
    fltsCol_map, strCol_colStr, List.length_map]
  cases hc : t.usecategory
  · simp [optCols]
  · simp [strCol_colStr]

theorem hduWavelength_again (t : OiWavelength R) (k : Int) : hduWavelength t.asRead k = hduWavelength t k := by
  simp only [hduWavelength, OiWavelength.asRead, keyStr_keyStr]

theorem hduCorr_again (t : OiCorr R) (k : Int) : hduCorr t.asRead k = hduCorr t k := by
  simp only [hduCorr, OiCorr.asRead, keyStr_keyStr]

theorem optOrder_again (name : CStr) (v : Int) :
    (optOrder name (if v ≥ 0 then v else -1) : List (CStr × KeyVal R)) = optOrder name v := by
  unfold optOrder
  by_cases h : v ≥ 0
  · rw [if_pos h]
  · rw [if_neg h, if_neg h, if_neg (by decide)]

theorem hduVis_again {t : OiVis R} (h : CardText t.arrname ∧ CardText t.corrname ∧ CardText t.amptyp ∧ CardText t.phityp)
    (junk : Int) (k : Int) : hduVis (t.asRead junk) k = hduVis t k := by
  obtain ⟨h1, h2, h3, h4⟩ := h
  simp only [hduVis, visCols, OiVis.asRead, keyStr_keyStr, intsCol_map, dblsCol_map,
    logsCol_map, List.length_map, h1.eq, h2.eq, h3.eq, h4.eq, optOrder_again]
  have e : (if t.amptyp = ("correlated flux" : CStr) then
        some (keyStr (if t.amptyp = ("correlated flux" : CStr) then keyStr t.ampunit else [])) else none)
      = if t.amptyp = ("correlated flux" : CStr) then some (keyStr t.ampunit) else none := by
    by_cases ha : t.amptyp = ("correlated flux" : CStr)
    · rw [if_pos ha, if_pos ha, if_pos ha, keyStr_keyStr]
    · rw [if_neg ha, if_neg ha]
  rw [e]
  by_cases hc : t.corrname = []
  · cases hu : t.usecomplex
    · simp only [if_pos hc, optCols, Bool.false_eq_true, if_false]
    · simp only [if_pos hc, optCols, if_true, keyStr_keyStr]
  · cases hu : t.usecomplex
    · simp only [if_neg hc, optCols, Bool.false_eq_true, if_false]
    · simp only [if_neg hc, optCols, if_true, keyStr_keyStr, true_and, if_pos (show t.corrname ≠ [] from hc)]

theorem hduVis2_again {t : OiVis2 R} (h : CardText t.arrname ∧ CardText t.corrname)
    (junk : Int) (k : Int) : hduVis2 (t.asRead junk) k = hduVis2 t k := by
  obtain ⟨h1, h2⟩ := h
  simp only [hduVis2, OiVis2.asRead, keyStr_keyStr, intsCol_map, dblsCol_map,
    logsCol_map, List.length_map, h1.eq, h2.eq]
  by_cases hc : t.corrname = [] <;> simp [hc, optCols]

theorem hduT3_again {t : OiT3 R} (h : CardText t.arrname ∧ CardText t.corrname)
    (junk : Int) (k : Int) : hduT3 (t.asRead junk) k = hduT3 t k := by
  obtain ⟨h1, h2⟩ := h
  simp only [hduT3, OiT3.asRead, keyStr_keyStr, intsCol_map, dblsCol_map,
    logsCol_map, List.length_map, h1.eq, h2.eq]
  by_cases hc : t.corrname = [] <;> simp [hc, optCols]

theorem hduFlux_again {t : OiFlux R} (h : CardText t.arrname ∧ CardText t.corrname ∧ CardText t.fovtype ∧
    (t.fovtype ≠ [] → Settles t.fov)) (junk : Int) (k : Int) : hduFlux (t.asRead junk) k = hduFlux t k := by
  obtain ⟨h1, h2, h3, h4⟩ := h
  have h5 : keyStr (if (if t.calstat = ' ' then '\x00' else t.calstat) = '\x00' then []
      else [if t.calstat = ' ' then '\x00' else t.calstat]) = keyStr (if t.calstat = '\x00' then [] else [t.calstat]) := by
    by_cases hb : t.calstat = ' '
    · rw [hb]; rfl
    · simp [hb]
  simp only [hduFlux, OiFlux.asRead, keyStr_keyStr, intsCol_map, dblsCol_map,
    logsCol_map, List.length_map, h1.eq, h2.eq, h3.eq, h5]
  by_cases hc : t.corrname = [] <;> by_cases ha : t.arrname = [] <;> by_cases hf : t.fovtype = [] <;>
    simp [hc, ha, hf, optCols]
  all_goals exact CardNum.eq (h4 hf)

theorem hduPrimary_again {t : OiHeader} (h : ∀ s ∈ [t.referenc, t.author, t.prog_id, t.procsoft,
    t.obstech], CardText s) (today today' : CStr) :
    (hduPrimary today' (t.asRead today) : Hdu R) = hduPrimary today' t := by
  have h1 := h t.referenc (by simp)
  have h2 := h t.author (by simp)
  have h3 := h t.prog_id (by simp)
  have h4 := h t.procsoft (by simp)
  have h5 := h t.obstech (by simp)
  simp only [hduPrimary, OiHeader.asRead, keyStr_keyStr, h1.eq, h2.eq, h3.eq, h4.eq, h5.eq]

theorem storable_again {oi oi' : OiFits R} (h : oi.Storable) (hs : oi.Settled) (hw : oi'.WF) {str : CStr} {int : Int}
    (e2 : oi'.targets = oi.targets.asRead str)
    (e3 : oi'.arrayList = oi.arrayList.map OiArray.asRead)
    (e6 : oi'.inspolList = oi.inspolList.map OiInspol.asRead)
    (e7 : oi'.visList = oi.visList.map (OiVis.asRead int))
    (e8 : oi'.vis2List = oi.vis2List.map (OiVis2.asRead int))
    (e9 : oi'.t3List = oi.t3List.map (OiT3.asRead int))
    (e10 : oi'.fluxList = oi.fluxList.map (OiFlux.asRead int)) : oi'.Storable := by
  refine ⟨?_, ?_, hw.wavelength, hw.corr, ?_, ?_, ?_, ?_, ?_⟩
  · rw [e2]
    refine ⟨by simpa [OiTarget.asRead] using h.targets.rows, ?_⟩
    intro x hx
    obtain ⟨y, hy, rfl⟩ := List.mem_map.mp hx
    exact h.targets.target_id y hy
  · intro t' ht
    have hwf := hw.array t' ht
    rw [e3] at ht
    obtain ⟨t, hm, rfl⟩ := List.mem_map.mp ht
    obtain ⟨h1, h2, h3⟩ := hs.array t hm
    have hk {x : R.Dbl} (hx : Settles x) : (R.keyD (asKey x)).isSome := by
      rw [show R.keyD (asKey x) = some (asKey x) from hx]; rfl
    refine ⟨hwf, hk h1, hk h2, hk h3, ?_⟩
    intro x hx
    obtain ⟨y, hy, rfl⟩ := List.mem_map.mp hx
    exact (h.array t hm).sta_index y hy
  · intro t' ht
    have hwf := hw.inspol t' ht
    rw [e6] at ht
    obtain ⟨t, hm, rfl⟩ := List.mem_map.mp ht
    refine ⟨hwf, (h.inspol t hm).nwave, ?_, ?_⟩
    all_goals
      intro x hx
      obtain ⟨y, hy, rfl⟩ := List.mem_map.mp hx
    · exact (h.inspol t hm).target_id y hy
    · exact (h.inspol t hm).sta_index y hy
  · intro t' ht
    have hwf := hw.vis t' ht
    rw [e7] at ht
    obtain ⟨t, hm, rfl⟩ := List.mem_map.mp ht
    refine ⟨hwf, (h.vis t hm).nwave, ?_, ?_⟩
    all_goals
      intro x hx
      obtain ⟨y, hy, rfl⟩ := List.mem_map.mp hx
    · exact (h.vis t hm).target_id y hy
    · exact (h.vis t hm).sta_index y hy
  · intro t' ht
    have hwf := hw.vis2 t' ht
    rw [e8] at ht
    obtain ⟨t, hm, rfl⟩ := List.mem_map.mp ht
    refine ⟨hwf, (h.vis2 t hm).nwave, ?_, ?_⟩
    all_goals
      intro x hx
      obtain ⟨y, hy, rfl⟩ := List.mem_map.mp hx
    · exact (h.vis2 t hm).target_id y hy
    · exact (h.vis2 t hm).sta_index y hy
  · intro t' ht
    have hwf := hw.t3 t' ht
    rw [e9] at ht
    obtain ⟨t, hm, rfl⟩ := List.mem_map.mp ht
    refine ⟨hwf, (h.t3 t hm).nwave, ?_, ?_⟩
    all_goals
      intro x hx
      obtain ⟨y, hy, rfl⟩ := List.mem_map.mp hx
    · exact (h.t3 t hm).target_id y hy
    · exact (h.t3 t hm).sta_index y hy
  · intro t' ht
    have hwf := hw.flux t' ht
    rw [e10] at ht
    obtain ⟨t, hm, rfl⟩ := List.mem_map.mp ht
    obtain ⟨h1, h2, h3, h4⟩ := hs.flux t hm
    refine ⟨hwf, (h.flux t hm).nwave, ?_, ?_, ?_⟩
    · intro hf
      have hf' : t.fovtype ≠ [] := fun h => hf (by simp only [OiFlux.asRead, h]; rfl)
      simp only [OiFlux.asRead, if_neg hf']
      rw [show R.keyD (asKey t.fov) = some (asKey t.fov) from h4 hf']; rfl
    · intro x hx
      obtain ⟨y, hy, rfl⟩ := List.mem_map.mp hx
      exact (h.flux t hm).target_id y hy
    · intro ha x hx
      have ha' : t.arrname ≠ [] := fun h => ha (by simp only [OiFlux.asRead, h]; rfl)
      obtain ⟨y, hy, rfl⟩ := List.mem_map.mp hx
      simp only [if_neg ha']
      exact (h.flux t hm).sta_index ha' y hy

theorem mapIdx_again {τ : Type} {l : List τ} {g : τ → τ} {f : τ → Int → Hdu R} (h : ∀ t ∈ l, ∀ k, f (g t) k = f t k) :
    ((l.map g).mapIdx fun k t => f t (k + 1)) = l.mapIdx fun k t => f t (k + 1) := by
  refine List.ext_getElem (by simp) fun i h1 h2 => ?_
  simp only [List.getElem_mapIdx, List.getElem_map]
  exact h _ (List.getElem_mem _) _

theorem fileOf_again {oi oi' : OiFits R} (hs : oi.Settled) (hi : oi.inspolList = []) {today str : CStr} {int : Int}
    (e1 : oi'.header = oi.header.asRead today)
    (e2 : oi'.targets = oi.targets.asRead str)
    (e3 : oi'.arrayList = oi.arrayList.map OiArray.asRead)
    (e4 : oi'.wavelengthList = oi.wavelengthList.map OiWavelength.asRead)
    (e5 : oi'.corrList = oi.corrList.map OiCorr.asRead)
    (e6 : oi'.inspolList = oi.inspolList.map OiInspol.asRead)
    (e7 : oi'.visList = oi.visList.map (OiVis.asRead int))
    (e8 : oi'.vis2List = oi.vis2List.map (OiVis2.asRead int))
    (e9 : oi'.t3List = oi.t3List.map (OiT3.asRead int))
    (e10 : oi'.fluxList = oi.fluxList.map (OiFlux.asRead int)) (today' : CStr) :
    fileOf today' oi' = fileOf today' oi := by
  unfold fileOf
  rw [e1, e2, e3, e4, e5, e6, e7, e8, e9, e10, hi, hduPrimary_again hs.header, hduTarget_again,
    mapIdx_again (f := hduArray) fun t ht k => hduArray_again (hs.array t ht) k,
    mapIdx_again (f := hduWavelength) fun t _ k => hduWavelength_again t k,
    mapIdx_again (f := hduCorr) fun t _ k => hduCorr_again t k,
    mapIdx_again (f := hduVis) fun t ht k => hduVis_again (hs.vis t ht) _ k,
    mapIdx_again (f := hduVis2) fun t ht k => hduVis2_again (hs.vis2 t ht) _ k,
    mapIdx_again (f := hduT3) fun t ht k => hduT3_again (hs.t3 t ht) _ k,
    mapIdx_again (f := hduFlux) fun t ht k => hduFlux_again (hs.flux t ht) _ k]
  rfl

end Verif
