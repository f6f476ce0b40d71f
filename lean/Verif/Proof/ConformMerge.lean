import Verif.Props.Merge
import Verif.Spec.ConformMerge

/-! Merging conforming datasets. -/

set_option Elab.async false

namespace Verif
open Outcome Spec

variable {R : FP} {ins : List (OiFits R)} {out oi : OiFits R}

/-- What each table of the merged dataset comes from. -/
theorem corresponds_mem {τ : Type} {tabs : OiFits R → List τ} {P : OiFits R → τ → τ → Prop}
    (hc : Corresponds tabs ins out P) {t' : τ} (ht : t' ∈ tabs out) :
    ∃ (i : Nat) (p : OiFits R × τ), (tablesOf tabs ins)[i]? = some p ∧ (tabs out)[i]? = some t' ∧ p.1 ∈ ins ∧ p.2 ∈ tabs p.1 ∧ P p.1 p.2 t' := by
  obtain ⟨i, hi, rfl⟩ := List.mem_iff_getElem.mp ht
  have hi' : i < (tablesOf tabs ins).length := by rw [hc.1]; exact hi
  obtain ⟨m1, m2⟩ := mem_tablesOf (List.getElem_mem hi')
  exact ⟨i, _, List.getElem?_eq_getElem hi', List.getElem?_eq_getElem hi, m1, m2,
    hc.2 i _ _ (List.getElem?_eq_getElem hi') (List.getElem?_eq_getElem hi)⟩

theorem corresponds_and {τ : Type} {tabs : OiFits R → List τ} {P Q : OiFits R → τ → τ → Prop}
    (hp : Corresponds tabs ins out P) (hq : Corresponds tabs ins out Q) :
    Corresponds tabs ins out fun i t t' => P i t t' ∧ Q i t t' :=
  ⟨hp.1, fun i x y hx hy => ⟨hp.2 i x y hx hy, hq.2 i x y hx hy⟩⟩

theorem pairwise₂_right {α β : Type} {P : α → β → Prop} {l : List α} {l' : List β} (h : Pairwise₂ P l l')
    {y : β} (hy : y ∈ l') : ∃ x ∈ l, P x y := by
  obtain ⟨i, hi, rfl⟩ := List.mem_iff_getElem.mp hy
  have hi' : i < l.length := by rw [h.1]; exact hi
  exact ⟨l[i], List.getElem_mem hi', h.2 i _ _ (List.getElem?_eq_getElem hi') (List.getElem?_eq_getElem hi)⟩

theorem corresponds_ne_nil {τ : Type} {tabs : OiFits R → List τ} {P : OiFits R → τ → τ → Prop}
    (hc : Corresponds tabs ins out P) (ho : oi ∈ ins) (h : tabs oi ≠ []) : tabs out ≠ [] := by
  intro hn
  have := hc.1
  rw [hn] at this
  obtain ⟨t, ht⟩ := List.exists_mem_of_ne_nil _ h
  have hm : (oi, t) ∈ tablesOf tabs ins := by
    unfold tablesOf
    exact List.mem_flatMap.mpr ⟨oi, ho, List.mem_map.mpr ⟨t, ht, rfl⟩⟩
  rw [List.eq_nil_of_length_eq_zero this] at hm
  cases hm

/-- A conforming dataset of version 2 has what version 2 requires. -/
theorem ready_of_v2 (hc : Conforms oi) (hv : V2 oi) : ReadyForV2 oi where
  arrays := hc.tables.1 hv
  vis := fun t ht => ⟨hc.arrVis hv t ht, hc.amptyp hv t ht⟩
  vis2 := hc.arrVis2 hv
  t3 := hc.arrT3 hv
  flux := (hc.revisions.1 hv).2.2.2.2.2.2.1
  corr := (hc.revisions.1 hv).2.2.2.2.2.2.2.1
  inspol := (hc.revisions.1 hv).2.2.2.2.2.2.2.2

/-- Revision numbers of a conforming dataset. -/
structure Revs (oi : OiFits R) : Prop where
  target : oi.targets.revision = 1 ∨ oi.targets.revision = 2
  array : ∀ t ∈ oi.arrayList, t.revision = 1 ∨ t.revision = 2
  wavelength : ∀ t ∈ oi.wavelengthList, t.revision = 1 ∨ t.revision = 2
  vis : ∀ t ∈ oi.visList, t.revision = 1 ∨ V2 oi ∧ t.revision = 2
  vis2 : ∀ t ∈ oi.vis2List, t.revision = 1 ∨ V2 oi ∧ t.revision = 2
  t3 : ∀ t ∈ oi.t3List, t.revision = 1 ∨ V2 oi ∧ t.revision = 2

theorem revs_of (hc : Conforms oi) : Revs oi := by
  by_cases hv : V2 oi
  · obtain ⟨h1, h2, h3, h4, h5, h6, -⟩ := hc.revisions.1 hv
    exact ⟨.inr h1, fun t ht => .inr (h2 t ht), fun t ht => .inr (h3 t ht), fun t ht => .inr ⟨hv, h4 t ht⟩,
      fun t ht => .inr ⟨hv, h5 t ht⟩, fun t ht => .inr ⟨hv, h6 t ht⟩⟩
  · obtain ⟨h1, h2, h3, h4, h5, h6⟩ := hc.revisions.2 hv
    exact ⟨.inl h1, fun t ht => .inl (h2 t ht), fun t ht => .inl (h3 t ht), fun t ht => .inl (h4 t ht),
      fun t ht => .inl (h5 t ht), fun t ht => .inl (h6 t ht)⟩

theorem positive_of (hr : ReadyForV2 oi) (h : Revs oi) : RevisionsPositive oi where
  target := by have := h.target; omega
  array := fun t ht => by have := h.array t ht; omega
  wavelength := fun t ht => by have := h.wavelength t ht; omega
  corr := fun t ht => by rw [hr.corr t ht]
  inspol := fun t ht => by rw [hr.inspol t ht]
  vis := fun t ht => by rcases h.vis t ht with h | ⟨-, h⟩ <;> omega
  vis2 := fun t ht => by rcases h.vis2 t ht with h | ⟨-, h⟩ <;> omega
  t3 := fun t ht => by rcases h.t3 t ht with h | ⟨-, h⟩ <;> omega
  flux := fun t ht => by rw [hr.flux t ht]

theorem upgraded_two {r : Int} (h : r = 1 ∨ r = 2) : upgraded r = 2 := by
  rcases h with rfl | rfl <;> rfl

theorem maxRev_two {rev : Int} (h : rev = 2) (hr : ∀ oi ∈ ins, oi.targets.revision = 1 ∨ oi.targets.revision = 2) :
    maxRev rev ins = 2 := by
  induction ins generalizing rev with
  | nil => exact h
  | cons oi ins ih =>
    unfold maxRev
    rw [List.foldl_cons]
    refine ih ?_ fun o ho => hr o (List.mem_cons_of_mem _ ho)
    have := hr oi List.mem_cons_self
    split <;> omega

theorem ascending_take {w w' : OiWavelength R} {n : Nat} (h : Ascending w) (he : w'.eff_wave = w.eff_wave.take n) :
    Ascending w' := by
  intro i hi
  refine h i ?_
  unfold Inverted Has at *
  rw [he] at hi
  simp only [List.getElem?_take] at hi
  split at hi
  · split at hi
    · exact hi
    · simp at hi
  · split at hi
    · cases hx : w.eff_wave[i]? with
      | none => rw [hx] at hi; simp at hi
      | some x => rw [hx] at hi; simp at hi
    · simp at hi

theorem summarises_ne_nil {vals : List CStr} {v : CStr} (h : Summarises "UNKNOWN" vals v) : v ≠ [] := by
  rcases h with ⟨-, rfl⟩ | ⟨h, -⟩ | ⟨-, rfl⟩
  · decide
  · exact h
  · decide

theorem strlcpy_ne_nil {s : CStr} (h : s ≠ []) : strlcpy s FLEN_VALUE ≠ [] := by
  unfold strlcpy FLEN_VALUE
  cases s with
  | nil => exact absurd rfl h
  | cons c s => simp

theorem newName_ne_nil {base n : CStr} {k : Int} (h : base ≠ []) : newName base n k ≠ [] := by
  unfold newName snprintf FLEN_VALUE
  split
  · simp
  · cases base with
    | nil => exact absurd rfl h
    | cons c s => simp

theorem replaceOptName_nil {h : HMap CStr} : replaceOptName h [] = [] := rfl

section
variable {mjd : Int} {st : List (Target R) × HMap Int} {sa : NS (OiArray R)} {si : NS (OiWavelength R)}
  {sc : NS (OiCorr R)} {as is cs : List (HMap CStr)}

/-- A new name of an array is empty only if the old one is. -/
theorem Full.arr_ne_nil (h : Full ins out mjd st sa si sc as is cs)
    (hn : ∀ oi ∈ ins, ∀ t ∈ oi.arrayList, t.arrname ≠ []) {inp : OiFits R} {hh : HMap CStr}
    (hi : HInv (arrOps R) inp.arrayList sa.list hh) {n : CStr} (hne : n ≠ []) : replaceOptName hh n ≠ [] := by
  unfold replaceOptName
  rw [if_pos (List.length_pos_of_ne_nil hne)]
  unfold replaceName
  cases hl : hh.lookup n with
  | none => exact hne
  | some v =>
    obtain ⟨x, -, -, y, hy, rfl, -⟩ := hi.sound n v hl
    obtain ⟨i, hi', rfl⟩ := List.mem_iff_getElem.mp hy
    obtain ⟨x', hx, d, m, hd, e, hm⟩ := h.ainv.src i _ (List.getElem?_eq_getElem hi')
    obtain ⟨oi, ho, hx⟩ := List.mem_flatMap.mp hx
    have h1 : (arrOps R).name d ≠ [] := by
      rw [arr_dup hd]
      exact hn oi ho x' hx
    have hlen : m ≠ [] := by
      rcases hm with rfl | rfl
      · exact h1
      · exact strlcpy_ne_nil (newName_ne_nil (by simp [arrOps]))
    rw [e]
    exact strlcpy_ne_nil hlen

/-- ARRNAMEs, and CORRNAMEs, stay empty or not. -/
theorem Full.names (h : Full ins out mjd st sa si sc as is cs) (hw : ∀ oi ∈ ins, oi.WF)
    (hn : ∀ oi ∈ ins, ∀ t ∈ oi.arrayList, t.arrname ≠ []) :
    Corresponds OiFits.inspolList ins out (fun _ t t' => t'.arrname = [] ↔ t.arrname = []) ∧
    Corresponds OiFits.visList ins out (fun _ t t' => (t'.arrname = [] ↔ t.arrname = []) ∧
      (t.corrname = [] → t'.corrname = [])) ∧
    Corresponds OiFits.vis2List ins out (fun _ t t' => (t'.arrname = [] ↔ t.arrname = []) ∧
      (t.corrname = [] → t'.corrname = [])) ∧
    Corresponds OiFits.t3List ins out (fun _ t t' => (t'.arrname = [] ↔ t.arrname = []) ∧
      (t.corrname = [] → t'.corrname = [])) ∧
    Corresponds OiFits.fluxList ins out (fun _ t t' => (t'.arrname = [] ↔ t.arrname = []) ∧
      (t.corrname = [] → t'.corrname = [])) := by
  obtain ⟨d1, d2, d3, d4, d5⟩ := h.data _ _ _ h.ah h.ih h.ch
  have key : ∀ {inp : OiFits R} {hh : HMap CStr} {n n' : CStr},
      HInv (arrOps R) inp.arrayList sa.list hh → n' = replaceOptName hh n → (n' = [] ↔ n = []) := by
    rintro inp hh n n' hv rfl
    refine ⟨fun e => ?_, fun e => by rw [e]; rfl⟩
    by_contra hne
    exact h.arr_ne_nil hn hv hne e
  have kc : ∀ {hh : HMap CStr} {n n' : CStr}, n' = replaceOptName hh n → n = [] → n' = [] := by
    rintro hh n n' rfl rfl; rfl
  refine ⟨corresponds_of d1 ?_, corresponds_of d2 ?_, corresponds_of d3 ?_, corresponds_of d4 ?_, corresponds_of d5 ?_⟩
  · rintro inp hi t ht t' ⟨a, i, c, hv, -, -, he⟩
    exact key hv (mergedInspol_spec ((hw inp hi).inspol t ht) he).2.2.1
  · rintro inp hi t ht t' ⟨a, i, c, hv, -, -, he⟩
    have e := mergedVis_spec ((hw inp hi).vis t ht) he
    exact ⟨key hv e.2.2.2.1, kc e.2.2.2.2.2⟩
  · rintro inp hi t ht t' ⟨a, i, c, hv, -, -, he⟩
    have e := mergedVis2_spec ((hw inp hi).vis2 t ht) he
    exact ⟨key hv e.2.2.1, kc e.2.2.2.2⟩
  · rintro inp hi t ht t' ⟨a, i, c, hv, -, -, he⟩
    have e := mergedT3_spec ((hw inp hi).t3 t ht) he
    exact ⟨key hv e.2.2.1, kc e.2.2.2.2⟩
  · rintro inp hi t ht t' ⟨a, i, c, hv, -, -, he⟩
    have e := mergedFlux_spec ((hw inp hi).flux t ht) he
    exact ⟨key hv e.2.2.1, kc e.2.2.2.2⟩

/-- The OI_ARRAY and OI_WAVELENGTH tables of the merged dataset are like some of the inputs. -/
theorem Full.tables (h : Full ins out mjd st sa si sc as is cs) :
    (∀ a' ∈ out.arrayList, ∃ oi ∈ ins, ∃ a ∈ oi.arrayList, a'.frame = a.frame ∧ a'.revision = upgraded a.revision) ∧
    (∀ w' ∈ out.wavelengthList, ∃ oi ∈ ins, ∃ w ∈ oi.wavelengthList, w'.eff_wave = w.eff_wave.take w.nwave ∧
      w'.revision = upgraded w.revision) ∧
    (∀ c' ∈ out.corrList, ∃ oi ∈ ins, ∃ c ∈ oi.corrList, c'.revision = c.revision) := by
  rw [h.arrays.1, h.waves.1, h.corrs.1]
  refine ⟨fun y hy => ?_, fun y hy => ?_, fun y hy => ?_⟩
  · obtain ⟨i, hi, rfl⟩ := List.mem_iff_getElem.mp hy
    obtain ⟨x, hx, d, n, hd, e, -⟩ := h.ainv.src i _ (List.getElem?_eq_getElem hi)
    obtain ⟨oi, hoi, hx⟩ := List.mem_flatMap.mp hx
    refine ⟨oi, hoi, x, hx, ?_⟩
    rw [e, arr_dup hd]
    exact ⟨rfl, rfl⟩
  · obtain ⟨i, hi, rfl⟩ := List.mem_iff_getElem.mp hy
    obtain ⟨x, hx, d, n, hd, e, -⟩ := h.iinv.src i _ (List.getElem?_eq_getElem hi)
    obtain ⟨oi, hoi, hx⟩ := List.mem_flatMap.mp hx
    refine ⟨oi, hoi, x, hx, ?_⟩
    rw [e, (wave_dup hd).2.2.2]
    exact ⟨rfl, rfl⟩
  · obtain ⟨i, hi, rfl⟩ := List.mem_iff_getElem.mp hy
    obtain ⟨x, hx, d, n, hd, e, -⟩ := h.cinv.src i _ (List.getElem?_eq_getElem hi)
    obtain ⟨oi, hoi, hx⟩ := List.mem_flatMap.mp hx
    refine ⟨oi, hoi, x, hx, ?_⟩
    rw [e, corr_dup hd]
    rfl

theorem hinv_ne_nil {τ : Type} {o : Ops τ} {done list : List τ} {h : HMap CStr} (hi : HInv o done list h)
    (hd : done ≠ []) : list ≠ [] := by
  rintro rfl
  obtain ⟨x, hx⟩ := List.exists_mem_of_ne_nil _ hd
  cases hl : h.lookup (o.name x) with
  | none => exact hi.complete x hx hl
  | some v =>
    obtain ⟨-, -, -, y, hy, -⟩ := hi.sound _ _ hl
    cases hy

theorem forall₂_left {α β : Type} {P : α → β → Prop} {l : List α} {l' : List β} (h : List.Forall₂ P l l') {x : α}
    (hx : x ∈ l) : ∃ y, P x y := by
  induction h with
  | nil => cases hx
  | cons hp _ ih =>
    rcases List.mem_cons.mp hx with rfl | hx
    · exact ⟨_, hp⟩
    · exact ih hx

end

theorem stations_kept {ρ : Type} {f : ρ → List Int} {inp : OiFits R} {n n' : CStr} {recs recs' : List ρ}
    (hs : Stations inp n f recs) (hd : NamesDistinct inp) (hn : n' = [] ↔ n = []) (hf : ArrFound inp out n n')
    (hr : ∀ r' ∈ recs', ∃ r ∈ recs, f r' = f r) : Stations out n' f recs' := by
  intro hne r' hr' s hs'
  have hne' : n ≠ [] := fun e => hne (hn.mpr e)
  obtain ⟨r, h1, h2⟩ := hr r' hr'
  rw [h2] at hs'
  obtain ⟨a, h3, e, h4, h5⟩ := hs hne' r h1 s hs'
  obtain ⟨h6, h7⟩ := hd.arrayLookup _ _ h3
  obtain ⟨a', h8, h9⟩ := hf a h6 h7 hne'
  obtain ⟨e', h10, h11⟩ := h9.2.2.2 e h4
  exact ⟨a', h8, e', h10, h11.1.trans h5⟩

theorem corr_kept {inp : OiFits R} {n n' : CStr} (hs : CorrKnown inp n) (hd : NamesDistinct inp)
    (hn : n = [] → n' = []) (hf : CorrFound inp out n n') : CorrKnown out n' := by
  intro hne
  have hne' : n ≠ [] := fun e => hne (hn e)
  obtain ⟨c, h3⟩ := Option.isSome_iff_exists.mp (hs hne')
  obtain ⟨h6, h7⟩ := hd.corrLookup _ _ h3
  obtain ⟨c', h8, -⟩ := hf c h6 h7 hne'
  rw [h8]
  rfl

theorem target_kept {ρ : Type} {id : ρ → Int} {inp : OiFits R} {l l' : List ρ} (h : SameTargets id inp out l l') :
    ∀ r ∈ l', TargetKnown out (id r) := by
  intro r hr
  obtain ⟨r0, -, n, -, t, ht, -⟩ := pairwise₂_right h hr
  obtain ⟨pre, post, h1, h2, -⟩ := ht
  exact ⟨t, by rw [h1]; simp, h2⟩

theorem date_ne_nil {d : Date} : snprintf FLEN_VALUE (fmtDate d) ≠ [] := by
  unfold snprintf fmtDate FLEN_VALUE
  intro h
  rcases List.take_eq_nil_iff.mp h with h | h
  · cases h
  · simp at h

/-- Merging conforming datasets gives a conforming one. -/
theorem merge_conforms (hne : ins ≠ []) (hw : ∀ oi ∈ ins, oi.WF) (hc : ∀ oi ∈ ins, Conforms oi)
    (hv1 : ∀ oi ∈ ins, V2 oi ∨ ReadyForV2 oi) (hm : NamesMergeable ins) (hl : ∀ oi ∈ ins, NamesDistinct oi)
    (hh : ∀ oi ∈ ins, HeaderFits oi)
    (hz : ZeroTime R) (h : merge_oi_fits_list ins = .ok out) : Conforms out := by
  have hv : ∀ oi ∈ ins, ReadyForV2 oi := fun oi ho => (hv1 oi ho).elim (ready_of_v2 (hc oi ho)) id
  have hrev : ∀ oi ∈ ins, Revs oi := fun oi ho => revs_of (hc oi ho)
  have hpos : ∀ oi ∈ ins, RevisionsPositive oi := fun oi ho => positive_of (hv oi ho) (hrev oi ho)
  obtain ⟨oi0, ho0⟩ := List.exists_mem_of_ne_nil _ hne
  obtain ⟨g1, g2, -⟩ := C44_header hh h
  have hu := C38_unique_names h
  obtain ⟨a1, a2, a3, a4, a5⟩ := C42_lookup_partial hw hm.unique hm.arrays hm.fit hpos h
  obtain ⟨c2, c3, c4, c5⟩ := C58_lookup_partial hw hm.unique hm.corrs hm.fit h
  obtain ⟨-, t2, t3, t4, t5⟩ := C39_same_targets hw h
  have s1 := C40_inspol_preserved hw h
  have s2 := C40_vis_preserved_partial hw h
  have s3 := C40_vis2_preserved hw h
  have s4 := C40_t3_preserved hw h
  have s5 := C40_flux_preserved hw h
  obtain ⟨mjd, st, sa, si, sc, as, is, cs, hf⟩ := merge_full h
  obtain ⟨n1, n2, n3, n4, n5⟩ := hf.names hw hm.named
  obtain ⟨b1, b2, b3⟩ := hf.tables
  have V := fun t' ht => corresponds_mem (corresponds_and (corresponds_and a2 c2) (corresponds_and t2
    (corresponds_and s2 n2))) (t' := t') ht
  have W := fun t' ht => corresponds_mem (corresponds_and (corresponds_and a3 c3) (corresponds_and t3
    (corresponds_and s3 n3))) (t' := t') ht
  have T := fun t' ht => corresponds_mem (corresponds_and (corresponds_and a4 c4) (corresponds_and t4
    (corresponds_and s4 n4))) (t' := t') ht
  have F := fun t' ht => corresponds_mem (corresponds_and (corresponds_and a5 c5) (corresponds_and t5
    (corresponds_and s5 n5))) (t' := t') ht
  have I := fun t' ht => corresponds_mem (corresponds_and a1 (corresponds_and s1 n1)) (t' := t') ht
  have hv2 : V2 out := g1
  have hz0 : ¬ NonZeroTime (R.lit 0) := by
    have e : (0.0 : Rat) = 0 := by decide +kernel
    unfold ZeroTime at hz
    rw [e] at hz
    exact hz
  have sta : ∀ {t t' : OiFlux R}, FluxSame t t' → (HasStation t' ↔ HasStation t) := by
    intro t t' hs
    have hr := hs.2
    unfold HasStation
    constructor
    · rintro ⟨r', h1, h2⟩
      cases h3 : t.record[0]? with
      | none =>
        have := hr.1
        rw [List.getElem?_eq_none_iff] at h3
        have h4 := List.getElem?_eq_some_iff.mp h1
        obtain ⟨h4, -⟩ := h4
        omega
      | some r =>
        refine ⟨r, rfl, ?_⟩
        have := hr.2 0 _ _ h3 h1
        rw [this] at h2
        exact h2
    · rintro ⟨r, h1, h2⟩
      cases h3 : t'.record[0]? with
      | none =>
        have := hr.1
        rw [List.getElem?_eq_none_iff] at h3
        obtain ⟨h4, -⟩ := List.getElem?_eq_some_iff.mp h1
        omega
      | some r' =>
        refine ⟨r', rfl, ?_⟩
        rw [hr.2 0 _ _ h1 h3]
        exact h2
  refine ⟨⟨fun _ => ?_, ?_, ?_⟩, ⟨fun _ => ⟨?_, ?_, ?_, ?_, ?_, ?_, ?_, ?_, ?_⟩, fun hn => absurd hv2 hn⟩, fun _ => ?_,
    ?_, fun _ => ?_, ?_, ?_, hu.1, ?_, ?_, ?_, ?_, ?_, fun _ => ?_, fun _ => ?_, fun _ => ?_, fun _ => ?_,
    ?_, ?_, ?_, ?_, ?_, ?_, ?_, ?_, ?_, ?_, ?_, ?_, ?_, ?_, fun _ => ?_, fun _ => ?_, fun _ => ?_, ?_, ?_⟩
  -- tables
  · obtain ⟨_, hi⟩ := forall₂_left hf.ah ho0
    rw [hf.arrays.1]
    exact hinv_ne_nil hi (hv oi0 ho0).arrays
  · obtain ⟨_, hi⟩ := forall₂_left hf.ih ho0
    rw [hf.waves.1]
    exact hinv_ne_nil hi (hc oi0 ho0).tables.2.1
  · rcases (hc oi0 ho0).tables.2.2 with e | e | e | ⟨-, e⟩
    · exact .inl (corresponds_ne_nil s2 ho0 e)
    · exact .inr (.inl (corresponds_ne_nil s3 ho0 e))
    · exact .inr (.inr (.inl (corresponds_ne_nil s4 ho0 e)))
    · exact .inr (.inr (.inr ⟨hv2, corresponds_ne_nil s5 ho0 e⟩))
  -- revision numbers
  · rw [hf.targets]
    exact maxRev_two rfl fun oi ho => (hrev oi ho).target
  · intro t ht
    obtain ⟨oi, ho, a, ha, -, e⟩ := b1 t ht
    rw [e]
    exact upgraded_two ((hrev oi ho).array a ha)
  · intro t ht
    obtain ⟨oi, ho, a, ha, -, e⟩ := b2 t ht
    rw [e]
    exact upgraded_two ((hrev oi ho).wavelength a ha)
  · intro t ht
    obtain ⟨_, p, -, -, ho, hp, -, -, ⟨e, -⟩, -⟩ := V t ht
    rw [e.1]
    exact upgraded_two (((hrev _ ho).vis _ hp).imp_right And.right)
  · intro t ht
    obtain ⟨_, p, -, -, ho, hp, -, -, e, -⟩ := W t ht
    rw [e.1]
    exact upgraded_two (((hrev _ ho).vis2 _ hp).imp_right And.right)
  · intro t ht
    obtain ⟨_, p, -, -, ho, hp, -, -, e, -⟩ := T t ht
    rw [e.1]
    exact upgraded_two (((hrev _ ho).t3 _ hp).imp_right And.right)
  · intro t ht
    obtain ⟨_, p, -, -, ho, hp, -, -, e, -⟩ := F t ht
    rw [e.1]
    exact (hv _ ho).flux p.2 hp
  · intro t ht
    obtain ⟨oi, ho, a, ha, e⟩ := b3 t ht
    rw [e]
    exact (hv oi ho).corr a ha
  · intro t ht
    obtain ⟨_, p, -, -, ho, hp, -, e, -⟩ := I t ht
    rw [e.1]
    exact (hv _ ho).inspol p.2 hp
  -- header
  · intro s hs
    have hd : out.header.date = ("[unset]" : CStr) := by rw [hf.header]; rfl
    have hdo : out.header.date_obs ≠ [] := by
      rw [hf.header]
      simp only [mergedHeader]
      exact date_ne_nil
    simp only [List.mem_cons, List.not_mem_nil, or_false] at hs
    rcases hs with rfl | rfl | rfl | rfl | rfl | rfl | rfl | rfl
    · exact summarises_ne_nil (g2 _ (by simp [mandatoryKeys]))
    · rw [hd]; decide
    · exact hdo
    all_goals exact summarises_ne_nil (g2 _ (by simp [mandatoryKeys]))
  -- keywords
  · intro t ht
    obtain ⟨oi, ho, a, ha, e, -⟩ := b1 t ht
    rw [e]
    exact (hc oi ho).frame a ha
  · intro t ht
    obtain ⟨_, p, -, -, ho, hp, -, -, ⟨e, -⟩, -⟩ := V t ht
    rw [e.1]
    exact ((hv _ ho).vis _ hp).2
  · intro t ht
    obtain ⟨_, p, -, -, ho, hp, -, -, e, -⟩ := F t ht
    rw [e.1]
    exact (hc _ ho).calstat p.2 hp
  · intro t ht
    obtain ⟨_, p, -, -, ho, hp, -, -, ⟨e, -⟩, -⟩ := V t ht
    rw [e.1]
    exact (hc _ ho).visrefmap p.2 hp
  -- targets
  · intro t ht
    obtain ⟨_, p, -, -, ho, hp, -, e, -⟩ := V t ht
    exact target_kept e
  · intro t ht
    obtain ⟨_, p, -, -, ho, hp, -, e, -⟩ := W t ht
    exact target_kept e
  · intro t ht
    obtain ⟨_, p, -, -, ho, hp, -, e, -⟩ := T t ht
    exact target_kept e
  · intro t ht
    obtain ⟨_, p, -, -, ho, hp, -, e, -⟩ := F t ht
    exact target_kept e
  -- ARRNAME
  · intro t ht
    obtain ⟨_, p, -, -, ho, hp, -, -, e⟩ := I t ht
    exact fun en => (hc _ ho).arrInspol _ hp (e.mp en)
  · intro t ht
    obtain ⟨_, p, -, -, ho, hp, -, -, -, e, -⟩ := V t ht
    exact fun en => ((hv _ ho).vis _ hp).1 (e.mp en)
  · intro t ht
    obtain ⟨_, p, -, -, ho, hp, -, -, -, e, -⟩ := W t ht
    exact fun en => (hv _ ho).vis2 _ hp (e.mp en)
  · intro t ht
    obtain ⟨_, p, -, -, ho, hp, -, -, -, e, -⟩ := T t ht
    exact fun en => (hv _ ho).t3 _ hp (e.mp en)
  · intro t ht hu
    obtain ⟨_, p, -, -, ho, hp, -, -, e', e, -⟩ := F t ht
    rw [e'.1] at hu
    exact fun en => ((hc _ ho).fluxU _ hp hu).1 (e.mp en)
  -- stations
  · intro t ht
    obtain ⟨_, p, -, -, ho, hp, a, e, n⟩ := I t ht
    refine stations_kept ((hc _ ho).staInspol _ hp) (hl _ ho) n a fun r' hr' => ?_
    obtain ⟨r, hr, e⟩ := pairwise₂_right e.2 hr'
    exact ⟨r, hr, by rw [e]⟩
  · intro t ht
    obtain ⟨_, p, -, -, ho, hp, ⟨a, -⟩, -, ⟨e, -⟩, n, -⟩ := V t ht
    refine stations_kept ((hc _ ho).staVis _ hp) (hl _ ho) n a fun r' hr' => ?_
    obtain ⟨r, hr, e⟩ := pairwise₂_right e.2 hr'
    exact ⟨r, hr, by rw [e]⟩
  · intro t ht
    obtain ⟨_, p, -, -, ho, hp, ⟨a, -⟩, -, e, n, -⟩ := W t ht
    refine stations_kept ((hc _ ho).staVis2 _ hp) (hl _ ho) n a fun r' hr' => ?_
    obtain ⟨r, hr, e⟩ := pairwise₂_right e.2 hr'
    exact ⟨r, hr, by rw [e]⟩
  · intro t ht
    obtain ⟨_, p, -, -, ho, hp, ⟨a, -⟩, -, e, n, -⟩ := T t ht
    refine stations_kept ((hc _ ho).staT3 _ hp) (hl _ ho) n a fun r' hr' => ?_
    obtain ⟨r, hr, e⟩ := pairwise₂_right e.2 hr'
    exact ⟨r, hr, by rw [e]⟩
  · intro t ht
    obtain ⟨_, p, -, -, ho, hp, ⟨a, -⟩, -, e, n, -⟩ := F t ht
    refine stations_kept ((hc _ ho).staFlux _ hp) (hl _ ho) n a fun r' hr' => ?_
    obtain ⟨r, hr, e⟩ := pairwise₂_right e.2 hr'
    exact ⟨r, hr, by rw [e]⟩
  -- correlations
  · intro t ht
    obtain ⟨_, p, -, -, ho, hp, ⟨-, a⟩, -, -, -, n⟩ := V t ht
    exact corr_kept ((hc _ ho).corrVis _ hp) (hl _ ho) n a
  · intro t ht
    obtain ⟨_, p, -, -, ho, hp, ⟨-, a⟩, -, -, -, n⟩ := W t ht
    exact corr_kept ((hc _ ho).corrVis2 _ hp) (hl _ ho) n a
  · intro t ht
    obtain ⟨_, p, -, -, ho, hp, ⟨-, a⟩, -, -, -, n⟩ := T t ht
    exact corr_kept ((hc _ ho).corrT3 _ hp) (hl _ ho) n a
  · intro t ht
    obtain ⟨_, p, -, -, ho, hp, ⟨-, a⟩, -, -, -, n⟩ := F t ht
    exact corr_kept ((hc _ ho).corrFlux _ hp) (hl _ ho) n a
  -- errors
  · intro t ht r' hr' j hj
    obtain ⟨_, p, -, -, ho, hp, -, -, ⟨e, -⟩, -⟩ := V t ht
    obtain ⟨r, hr, e'⟩ := pairwise₂_right e.2 hr'
    rw [e.1] at hj
    rw [e']
    exact (hc _ ho).errVis _ hp r hr j hj
  · intro t ht r' hr' j hj
    obtain ⟨_, p, -, -, ho, hp, -, -, e, -⟩ := W t ht
    obtain ⟨r, hr, e'⟩ := pairwise₂_right e.2 hr'
    rw [e.1] at hj
    rw [e']
    exact (hc _ ho).errVis2 _ hp r hr j hj
  · intro t ht r' hr' j hj
    obtain ⟨_, p, -, -, ho, hp, -, -, e, -⟩ := T t ht
    obtain ⟨r, hr, e'⟩ := pairwise₂_right e.2 hr'
    rw [e.1] at hj
    rw [e']
    exact (hc _ ho).errT3 _ hp r hr j hj
  · intro t ht r' hr' j hj
    obtain ⟨_, p, -, -, ho, hp, -, -, e, -⟩ := T t ht
    obtain ⟨r, hr, e'⟩ := pairwise₂_right e.2 hr'
    rw [e.1] at hj
    rw [e']
    exact (hc _ ho).t3amp _ hp r hr j hj
  · intro w hw'
    obtain ⟨oi, ho, a, ha, e, -⟩ := b2 w hw'
    exact ascending_take ((hc oi ho).waveorder a ha) e
  -- TIME
  · intro t ht r' hr'
    obtain ⟨_, p, -, -, ho, hp, -, -, ⟨e, -⟩, -⟩ := V t ht
    obtain ⟨r, hr, e'⟩ := pairwise₂_right e.2 hr'
    rw [e']
    show ¬ NonZeroTime (upgradedTime p.2.revision r.time)
    unfold upgradedTime
    split
    · exact hz0
    · next hn => exact (hc _ ho).timeVis (((hrev _ ho).vis _ hp).resolve_left hn).1 _ hp r hr
  · intro t ht r' hr'
    obtain ⟨_, p, -, -, ho, hp, -, -, e, -⟩ := W t ht
    obtain ⟨r, hr, e'⟩ := pairwise₂_right e.2 hr'
    rw [e']
    show ¬ NonZeroTime (upgradedTime p.2.revision r.time)
    unfold upgradedTime
    split
    · exact hz0
    · next hn => exact (hc _ ho).timeVis2 (((hrev _ ho).vis2 _ hp).resolve_left hn).1 _ hp r hr
  · intro t ht r' hr'
    obtain ⟨_, p, -, -, ho, hp, -, -, e, -⟩ := T t ht
    obtain ⟨r, hr, e'⟩ := pairwise₂_right e.2 hr'
    rw [e']
    show ¬ NonZeroTime (upgradedTime p.2.revision r.time)
    unfold upgradedTime
    split
    · exact hz0
    · next hn => exact (hc _ ho).timeT3 (((hrev _ ho).t3 _ hp).resolve_left hn).1 _ hp r hr
  -- spectra
  · intro t ht hcal
    obtain ⟨_, p, -, -, ho, hp, -, -, e, n, -⟩ := F t ht
    rw [sta e, n]
    rw [e.1] at hcal
    exact (hc _ ho).fluxC _ hp hcal
  · intro t ht hcal
    obtain ⟨_, p, -, -, ho, hp, -, -, e, n, -⟩ := F t ht
    rw [sta e, Ne, n]
    have e1 := e.1
    rw [e1] at hcal ⊢
    exact (hc _ ho).fluxU _ hp hcal

end Verif
