import Verif.Proof.FilterConform
import Verif.Proof.FitsAgain
import Verif.Props.EndToEnd

/-! Writing and reading a dataset which conforms to the standard gives one which conforms. -/

namespace Verif
open Outcome Spec

variable {R : FP} {today : CStr} {u : Undef R} {fs : Files R} {name : CStr} {oi oi' : OiFits R}

theorem frame_card {s : CStr} (h : s ∈ frames) : keyStr s = s :=
  CardText.eq ((by decide +kernel : ∀ s ∈ frames, CardText s) s h)

theorem amptyp_card {s : CStr} (h : s ∈ amptyps) : keyStr s = s :=
  CardText.eq ((by decide +kernel : ∀ s ∈ amptyps, CardText s) s h)

theorem phityp_card {s : CStr} (h : s ∈ phityps) : keyStr s = s :=
  CardText.eq ((by decide +kernel : ∀ s ∈ phityps, CardText s) s h)

theorem fovtype_card {s : CStr} (h : s ∈ fovtypes) : keyStr s = s :=
  CardText.eq ((by decide +kernel : ∀ s ∈ fovtypes, CardText s) s h)

theorem find_asRead {τ : Type} {nm : τ → CStr} {g : τ → τ} (hg : ∀ t, nm (g t) = keyStr (nm t)) {n : CStr} {a : τ} :
    ∀ {l : List τ}, (∀ t ∈ l, CardText (nm t)) → (l.map nm).Nodup → a ∈ l → nm a = n →
      (l.map g).find? (fun t => nm t == n) = some (g a) := by
  intro l ht hd ha he
  cases hf : (l.map g).find? (fun t => nm t == n) with
  | none =>
    have h2 := List.find?_eq_none.mp hf (g a) (List.mem_map.mpr ⟨a, ha, rfl⟩)
    rw [hg, (ht a ha).eq, he] at h2
    simp at h2
  | some b =>
    obtain ⟨b, hb, rfl⟩ := List.mem_map.mp (List.mem_of_find?_eq_some hf)
    have h2 := List.find?_some hf
    rw [hg, (ht b hb).eq] at h2
    rw [unique_of_nodup hd hb ha ((by simpa using h2 : nm b = n).trans he.symm)]

theorem find_asRead_some {τ : Type} {nm : τ → CStr} {g : τ → τ} (hg : ∀ t, nm (g t) = keyStr (nm t)) {n : CStr} {a : τ}
    {l : List τ} (ht : ∀ t ∈ l, CardText (nm t)) (ha : a ∈ l) (he : nm a = n) :
      ((l.map g).find? (fun t => nm t == n)).isSome := by
  cases hf : (l.map g).find? (fun t => nm t == n) with
  | none =>
    have h2 := List.find?_eq_none.mp hf (g a) (List.mem_map.mpr ⟨a, ha, rfl⟩)
    rw [hg, (ht a ha).eq, he] at h2
    simp at h2
  | some b => rfl

theorem holds_lookups (h : Holds u fs name oi) (n : CStr) :
    (n ≠ [] → ((∃ t ∈ oi.visList, t.arrname = n) ∨ (∃ t ∈ oi.vis2List, t.arrname = n) ∨
        (∃ t ∈ oi.t3List, t.arrname = n) ∨ ∃ t ∈ oi.fluxList, t.arrname = n) →
      oi_fits_lookup_array oi n = oi.arrayList.find? fun a => a.arrname == n) ∧
    (((∃ t ∈ oi.visList, t.insname = n) ∨ (∃ t ∈ oi.vis2List, t.insname = n) ∨
        (∃ t ∈ oi.t3List, t.insname = n) ∨ ∃ t ∈ oi.fluxList, t.insname = n) →
      oi_fits_lookup_wavelength oi n = oi.wavelengthList.find? fun w => w.insname == n) ∧
    (n ≠ [] → ((∃ t ∈ oi.visList, t.corrname = n) ∨ (∃ t ∈ oi.vis2List, t.corrname = n) ∨
        (∃ t ∈ oi.t3List, t.corrname = n)) →
      oi_fits_lookup_corr oi n = oi.corrList.find? fun c => c.corrname == n) := by
  obtain ⟨hdus, -, hr⟩ := h
  have h0 : hdus ≠ [] := by
    rintro rfl
    obtain ⟨st, e⟩ := read_empty u
    rw [e] at hr
    cases hr
  exact C17_partial h0 hr n

theorem asRead_mem {τ : Type} {l l' : List τ} {g : τ → τ} (he : l' = l.map g) {t : τ} (ht : t ∈ l') :
    ∃ s ∈ l, t = g s := by
  rw [he] at ht
  obtain ⟨s, hs, rfl⟩ := List.mem_map.mp ht
  exact ⟨s, hs, rfl⟩

theorem mem_asRead {τ : Type} {l l' : List τ} {g : τ → τ} (he : l' = l.map g) {s : τ} (hs : s ∈ l) : g s ∈ l' := by
  rw [he]; exact List.mem_map.mpr ⟨s, hs, rfl⟩

theorem meets_of_v2 (hv : V2 oi) (hc : Conforms oi) : MeetsV2 oi where
  header := fun s hs => hc.header hv s (by
    simp only [List.mem_cons, List.not_mem_nil, or_false] at hs ⊢
    rcases hs with h | h | h | h | h | h | h <;> simp [h])
  arrays := hc.tables.1 hv
  vis := fun t ht => ⟨hc.arrVis hv t ht, hc.amptyp hv t ht⟩
  vis2 := hc.arrVis2 hv
  t3 := hc.arrT3 hv

theorem saved_conforms_of (hz : ZeroTime R) (htoday : CardText today ∧ today ≠ []) (h : Holds u fs name oi')
    (hs : SavedAs today u oi oi') (hv : MeetsV2 oi) (hc : Conforms oi) (hd : NamesDistinct oi) (ht : TextsFit oi)
    (hsh : SharedReferences oi) : Conforms oi' := by
  have hv' : V2 oi' := by unfold V2; rw [hs.header]; rfl
  -- the array which is found
  have helem : ∀ n, n ≠ [] → ((∃ t ∈ oi.visList, t.arrname = n) ∨ (∃ t ∈ oi.vis2List, t.arrname = n) ∨
      (∃ t ∈ oi.t3List, t.arrname = n) ∨ ∃ t ∈ oi.fluxList, t.arrname = n) → ∀ s, ElementKnown oi n s →
      ElementKnown oi' n s := by
    rintro n hne href s ⟨a, h1, e, h2, h3⟩
    obtain ⟨h4, h5⟩ := hd.arrayLookup _ _ h1
    refine ⟨a.asRead, ?_, ?_⟩
    · refine ((holds_lookups h n).1 hne ?_).trans ?_
      · rcases href with ⟨t, h6, h7⟩ | ⟨t, h6, h7⟩ | ⟨t, h6, h7⟩ | ⟨t, h6, h7⟩
        · exact .inl ⟨_, mem_asRead hs.vis h6, ((ht.vis t h6).1.eq).trans h7⟩
        · exact .inr (.inl ⟨_, mem_asRead hs.vis2 h6, ((ht.vis2 t h6).1.eq).trans h7⟩)
        · exact .inr (.inr (.inl ⟨_, mem_asRead hs.t3 h6, ((ht.t3 t h6).1.eq).trans h7⟩))
        · exact .inr (.inr (.inr ⟨_, mem_asRead hs.flux h6, ((ht.flux t h6).1.eq).trans h7⟩))
      · rw [hs.array]
        exact find_asRead (nm := OiArray.arrname) (fun _ => rfl) ht.array hd.arrays h4 h5
    · exact ⟨_, List.mem_map.mpr ⟨e, h2, rfl⟩, h3⟩
  have hcorr : ∀ n, ((∃ t ∈ oi.visList, t.corrname = n) ∨ (∃ t ∈ oi.vis2List, t.corrname = n) ∨
      ∃ t ∈ oi.t3List, t.corrname = n) → CorrKnown oi n → CorrKnown oi' n := by
    intro n href hk hne
    obtain ⟨c, h1⟩ := Option.isSome_iff_exists.mp (hk hne)
    obtain ⟨h4, h5⟩ := hd.corrLookup _ _ h1
    rw [(holds_lookups h n).2.2 hne (by
      rcases href with ⟨t, h6, h7⟩ | ⟨t, h6, h7⟩ | ⟨t, h6, h7⟩
      · exact .inl ⟨_, mem_asRead hs.vis h6, ((ht.vis t h6).2.eq).trans h7⟩
      · exact .inr (.inl ⟨_, mem_asRead hs.vis2 h6, ((ht.vis2 t h6).2.eq).trans h7⟩)
      · exact .inr (.inr ⟨_, mem_asRead hs.t3 h6, ((ht.t3 t h6).2.eq).trans h7⟩)), hs.corr]
    exact find_asRead_some (nm := OiCorr.corrname) (fun _ => rfl) ht.corr h4 h5
  have htarget : ∀ id, TargetKnown oi id → TargetKnown oi' id := by
    rintro id ⟨x, h1, h2⟩
    unfold TargetKnown
    rw [hs.targets]
    exact ⟨_, List.mem_map.mpr ⟨x, h1, rfl⟩, h2⟩
  refine {
    tables := ?_
    revisions := ?_
    header := ?_
    frame := ?_
    amptyp := ?_
    calstat := ?_
    visrefmap := ?_
    unique := ?_
    targetVis := ?_
    targetVis2 := ?_
    targetT3 := ?_
    targetFlux := ?_
    arrInspol := ?_
    arrVis := ?_
    arrVis2 := ?_
    arrT3 := ?_
    arrFlux := ?_
    staInspol := ?_
    staVis := ?_
    staVis2 := ?_
    staT3 := ?_
    staFlux := ?_
    corrVis := ?_
    corrVis2 := ?_
    corrT3 := ?_
    corrFlux := ?_
    errVis := ?_
    errVis2 := ?_
    errT3 := ?_
    t3amp := ?_
    waveorder := ?_
    timeVis := ?_
    timeVis2 := ?_
    timeT3 := ?_
    fluxC := ?_
    fluxU := ?_ }
  · obtain ⟨h1, h2, h3⟩ := hc.tables
    have hne : ∀ {τ : Type} {l l' : List τ} {g : τ → τ}, l' = l.map g → l ≠ [] → l' ≠ [] := by
      intro τ l l' g he hn hx
      rw [he, List.map_eq_nil_iff] at hx
      exact hn hx
    refine ⟨fun _ => hne hs.array hv.arrays, hne hs.wavelength h2, ?_⟩
    rcases h3 with h3 | h3 | h3 | h3
    · exact .inl (hne hs.vis h3)
    · exact .inr (.inl (hne hs.vis2 h3))
    · exact .inr (.inr (.inl (hne hs.t3 h3)))
    · exact .inr (.inr (.inr ⟨hv', hne hs.flux h3.2⟩))
  · refine ⟨fun _ => ⟨by rw [hs.targets]; rfl, fun t ht => ?_, fun t ht => ?_, fun t ht => ?_, fun t ht => ?_,
      fun t ht => ?_, fun t ht => ?_, fun t ht => ?_, fun t ht => ?_⟩, fun hn => absurd hv' hn⟩
    · obtain ⟨s, -, rfl⟩ := asRead_mem hs.array ht; rfl
    · obtain ⟨s, -, rfl⟩ := asRead_mem hs.wavelength ht; rfl
    · obtain ⟨s, -, rfl⟩ := asRead_mem hs.vis ht; rfl
    · obtain ⟨s, -, rfl⟩ := asRead_mem hs.vis2 ht; rfl
    · obtain ⟨s, -, rfl⟩ := asRead_mem hs.t3 ht; rfl
    · obtain ⟨s, -, rfl⟩ := asRead_mem hs.flux ht; rfl
    · obtain ⟨s, -, rfl⟩ := asRead_mem hs.corr ht; rfl
    · obtain ⟨s, -, rfl⟩ := asRead_mem hs.inspol ht; rfl
  · intro _ s hsm
    have h1 := hv.header
    have h2 := ht.header
    rw [hs.header] at hsm
    simp only [OiHeader.asRead, List.mem_cons, List.not_mem_nil, or_false] at hsm
    simp only [List.mem_cons, List.not_mem_nil, or_false, forall_eq_or_imp, forall_eq] at h1 h2
    obtain ⟨a1, a3, a4, a5, a6, a7, a8⟩ := h1
    obtain ⟨b1, b3, b4, b5, b6, b7, b8⟩ := h2
    rcases hsm with rfl | rfl | rfl | rfl | rfl | rfl | rfl | rfl
    · rw [b1.eq]; exact a1
    · rw [htoday.1.eq]; exact htoday.2
    · rw [b3.eq]; exact a3
    · rw [b4.eq]; exact a4
    · rw [b5.eq]; exact a5
    · rw [b6.eq]; exact a6
    · rw [b7.eq]; exact a7
    · rw [b8.eq]; exact a8
  · intro t' ht'
    obtain ⟨t, h1, rfl⟩ := asRead_mem hs.array ht'
    show keyStr t.frame ∈ frames
    rw [frame_card (hc.frame t h1)]
    exact hc.frame t h1
  · intro _ t' ht'
    obtain ⟨t, h1, rfl⟩ := asRead_mem hs.vis ht'
    show keyStr t.amptyp ∈ amptyps ∧ keyStr t.phityp ∈ phityps
    rw [amptyp_card (hv.vis t h1).2.1, phityp_card (hv.vis t h1).2.2]
    exact (hv.vis t h1).2
  · intro t' ht'
    obtain ⟨t, h1, rfl⟩ := asRead_mem hs.flux ht'
    obtain ⟨h2, h3⟩ := hc.calstat t h1
    show (if t.calstat = ' ' then '\x00' else t.calstat) ∈ ['C', 'U'] ∧ keyStr t.fovtype ∈ fovtypes
    rw [fovtype_card h3, if_neg (fun h => by rw [h] at h2; exact absurd h2 (by decide))]
    exact ⟨h2, h3⟩
  · intro t' ht'
    obtain ⟨t, h1, rfl⟩ := asRead_mem hs.vis ht'
    show t.usevisrefmap = true ↔ (keyStr t.amptyp = _ ∨ keyStr t.phityp = _)
    rw [amptyp_card (hv.vis t h1).2.1, phityp_card (hv.vis t h1).2.2]
    exact hc.visrefmap t h1
  · have h1 := hc.unique
    rw [hs.targets]
    unfold OiTarget.asRead
    dsimp only
    rw [List.map_map]
    have : oi.targets.targ.map (·.target) = oi.targets.targ.map ((·.target) ∘ fun x =>
      { x with
        target := colStr 32 x.target
        veltyp := colStr 8 x.veltyp
        veldef := colStr 8 x.veldef
        spectyp := colStr 32 x.spectyp
        category := if oi.targets.usecategory then colStr 3 x.category else u.str }) := by
      refine List.map_congr_left fun x hx => ?_
      exact (ht.targets x hx).eq.symm
    rw [← this]
    exact h1
  · intro t' ht' r' hr'
    obtain ⟨t, h1, rfl⟩ := asRead_mem hs.vis ht'
    obtain ⟨r, h2, rfl⟩ := List.mem_map.mp hr'
    exact htarget _ (hc.targetVis t h1 r h2)
  · intro t' ht' r' hr'
    obtain ⟨t, h1, rfl⟩ := asRead_mem hs.vis2 ht'
    obtain ⟨r, h2, rfl⟩ := List.mem_map.mp hr'
    exact htarget _ (hc.targetVis2 t h1 r h2)
  · intro t' ht' r' hr'
    obtain ⟨t, h1, rfl⟩ := asRead_mem hs.t3 ht'
    obtain ⟨r, h2, rfl⟩ := List.mem_map.mp hr'
    exact htarget _ (hc.targetT3 t h1 r h2)
  · intro t' ht' r' hr'
    obtain ⟨t, h1, rfl⟩ := asRead_mem hs.flux ht'
    obtain ⟨r, h2, rfl⟩ := List.mem_map.mp hr'
    exact htarget _ (hc.targetFlux t h1 r h2)
  · intro t' ht'
    obtain ⟨t, h1, rfl⟩ := asRead_mem hs.inspol ht'
    show keyStr t.arrname ≠ []
    rw [(ht.inspol t h1).eq]
    exact hc.arrInspol t h1
  · intro _ t' ht'
    obtain ⟨t, h1, rfl⟩ := asRead_mem hs.vis ht'
    show keyStr t.arrname ≠ []
    rw [(ht.vis t h1).1.eq]
    exact (hv.vis t h1).1
  · intro _ t' ht'
    obtain ⟨t, h1, rfl⟩ := asRead_mem hs.vis2 ht'
    show keyStr t.arrname ≠ []
    rw [(ht.vis2 t h1).1.eq]
    exact hv.vis2 t h1
  · intro _ t' ht'
    obtain ⟨t, h1, rfl⟩ := asRead_mem hs.t3 ht'
    show keyStr t.arrname ≠ []
    rw [(ht.t3 t h1).1.eq]
    exact hv.t3 t h1
  · intro _ t' ht' hcal
    obtain ⟨t, h1, rfl⟩ := asRead_mem hs.flux ht'
    show keyStr t.arrname ≠ []
    rw [(ht.flux t h1).1.eq]
    refine (hc.fluxU t h1 ?_).1
    have hcal : (if t.calstat = ' ' then '\x00' else t.calstat) = 'U' := hcal
    split at hcal
    · exact absurd hcal (by decide)
    · exact hcal
  · intro t' ht'
    obtain ⟨t, h1, rfl⟩ := asRead_mem hs.inspol ht'
    show Stations oi' (keyStr t.arrname) _ _
    rw [(ht.inspol t h1).eq]
    intro hne r' hr' s hsm
    obtain ⟨r, h2, rfl⟩ := List.mem_map.mp hr'
    exact helem _ hne (hsh.inspol t h1 (List.ne_nil_of_mem h2)) s (hc.staInspol t h1 hne r h2 s hsm)
  · intro t' ht'
    obtain ⟨t, h1, rfl⟩ := asRead_mem hs.vis ht'
    show Stations oi' (keyStr t.arrname) _ _
    rw [(ht.vis t h1).1.eq]
    intro hne r' hr' s hsm
    obtain ⟨r, h2, rfl⟩ := List.mem_map.mp hr'
    exact helem _ hne (.inl ⟨t, h1, rfl⟩) s (hc.staVis t h1 hne r h2 s hsm)
  · intro t' ht'
    obtain ⟨t, h1, rfl⟩ := asRead_mem hs.vis2 ht'
    show Stations oi' (keyStr t.arrname) _ _
    rw [(ht.vis2 t h1).1.eq]
    intro hne r' hr' s hsm
    obtain ⟨r, h2, rfl⟩ := List.mem_map.mp hr'
    exact helem _ hne (.inr (.inl ⟨t, h1, rfl⟩)) s (hc.staVis2 t h1 hne r h2 s hsm)
  · intro t' ht'
    obtain ⟨t, h1, rfl⟩ := asRead_mem hs.t3 ht'
    show Stations oi' (keyStr t.arrname) _ _
    rw [(ht.t3 t h1).1.eq]
    intro hne r' hr' s hsm
    obtain ⟨r, h2, rfl⟩ := List.mem_map.mp hr'
    exact helem _ hne (.inr (.inr (.inl ⟨t, h1, rfl⟩))) s (hc.staT3 t h1 hne r h2 s hsm)
  · intro t' ht'
    obtain ⟨t, h1, rfl⟩ := asRead_mem hs.flux ht'
    show Stations oi' (keyStr t.arrname) _ _
    rw [(ht.flux t h1).1.eq]
    intro hne r' hr' s hsm
    obtain ⟨r, h2, rfl⟩ := List.mem_map.mp hr'
    rw [if_neg hne] at hsm
    exact helem _ hne (.inr (.inr (.inr ⟨t, h1, rfl⟩))) s (hc.staFlux t h1 hne r h2 s hsm)
  · intro t' ht'
    obtain ⟨t, h1, rfl⟩ := asRead_mem hs.vis ht'
    show CorrKnown oi' (keyStr t.corrname)
    rw [(ht.vis t h1).2.eq]
    exact hcorr _ (.inl ⟨t, h1, rfl⟩) (hc.corrVis t h1)
  · intro t' ht'
    obtain ⟨t, h1, rfl⟩ := asRead_mem hs.vis2 ht'
    show CorrKnown oi' (keyStr t.corrname)
    rw [(ht.vis2 t h1).2.eq]
    exact hcorr _ (.inr (.inl ⟨t, h1, rfl⟩)) (hc.corrVis2 t h1)
  · intro t' ht'
    obtain ⟨t, h1, rfl⟩ := asRead_mem hs.t3 ht'
    show CorrKnown oi' (keyStr t.corrname)
    rw [(ht.t3 t h1).2.eq]
    exact hcorr _ (.inr (.inr ⟨t, h1, rfl⟩)) (hc.corrT3 t h1)
  · intro t' ht'
    obtain ⟨t, h1, rfl⟩ := asRead_mem hs.flux ht'
    show CorrKnown oi' (keyStr t.corrname)
    rw [(ht.flux t h1).2.eq]
    intro hne
    exact hcorr _ (hsh.flux t h1 hne) (hc.corrFlux t h1) hne
  · intro t' ht' r' hr' j hj
    obtain ⟨t, h1, rfl⟩ := asRead_mem hs.vis ht'
    obtain ⟨r, h2, rfl⟩ := List.mem_map.mp hr'
    exact hc.errVis t h1 r h2 j hj
  · intro t' ht' r' hr' j hj
    obtain ⟨t, h1, rfl⟩ := asRead_mem hs.vis2 ht'
    obtain ⟨r, h2, rfl⟩ := List.mem_map.mp hr'
    exact hc.errVis2 t h1 r h2 j hj
  · intro t' ht' r' hr' j hj
    obtain ⟨t, h1, rfl⟩ := asRead_mem hs.t3 ht'
    obtain ⟨r, h2, rfl⟩ := List.mem_map.mp hr'
    exact hc.errT3 t h1 r h2 j hj
  · intro t' ht' r' hr' j hj
    obtain ⟨t, h1, rfl⟩ := asRead_mem hs.t3 ht'
    obtain ⟨r, h2, rfl⟩ := List.mem_map.mp hr'
    exact hc.t3amp t h1 r h2 j hj
  · intro w' hw'
    obtain ⟨w, h1, rfl⟩ := asRead_mem hs.wavelength hw'
    exact hc.waveorder w h1
  · intro _ t' ht' r' hr'
    obtain ⟨t, h1, rfl⟩ := asRead_mem hs.vis ht'
    obtain ⟨r, h2, rfl⟩ := List.mem_map.mp hr'
    exact hz
  · intro _ t' ht' r' hr'
    obtain ⟨t, h1, rfl⟩ := asRead_mem hs.vis2 ht'
    obtain ⟨r, h2, rfl⟩ := List.mem_map.mp hr'
    exact hz
  · intro _ t' ht' r' hr'
    obtain ⟨t, h1, rfl⟩ := asRead_mem hs.t3 ht'
    obtain ⟨r, h2, rfl⟩ := List.mem_map.mp hr'
    exact hz
  · intro t' ht' hcal
    obtain ⟨t, h1, rfl⟩ := asRead_mem hs.flux ht'
    have hcal : (if t.calstat = ' ' then '\x00' else t.calstat) = 'C' := hcal
    have hcal : t.calstat = 'C' := by
      split at hcal
      · exact absurd hcal (by decide)
      · exact hcal
    obtain ⟨h2, -⟩ := hc.fluxC t h1 hcal
    refine ⟨?_, ?_⟩
    · show keyStr t.arrname = []
      rw [h2]; rfl
    · rintro ⟨r', hr', hne⟩
      obtain ⟨r, -, rfl⟩ := List.mem_map.mp (List.mem_of_getElem? hr')
      exact hne (if_pos h2)
  · intro t' ht' hcal
    obtain ⟨t, h1, rfl⟩ := asRead_mem hs.flux ht'
    have hcal : (if t.calstat = ' ' then '\x00' else t.calstat) = 'U' := hcal
    have hcal : t.calstat = 'U' := by
      split at hcal
      · exact absurd hcal (by decide)
      · exact hcal
    obtain ⟨h2, ⟨r, hr, hsta⟩, h3⟩ := hc.fluxU t h1 hcal
    refine ⟨?_, ?_, ?_⟩
    · show keyStr t.arrname ≠ []
      rw [(ht.flux t h1).1.eq]; exact h2
    · unfold HasStation OiFlux.asRead
      simp only [List.getElem?_map, hr, Option.map_some]
      exact ⟨_, rfl, by simpa only [if_neg h2] using hsta⟩
    · show keyStr t.fovtype = []
      rw [h3]; rfl

theorem saved_conforms (hz : ZeroTime R) (htoday : CardText today ∧ today ≠ []) (h : Holds u fs name oi')
    (hs : SavedAs today u oi oi') (hv : V2 oi) (hc : Conforms oi) (hd : NamesDistinct oi) (ht : TextsFit oi)
    (hsh : SharedReferences oi) : Conforms oi' :=
  saved_conforms_of hz htoday h hs (meets_of_v2 hv hc) hc hd ht hsh

end Verif
