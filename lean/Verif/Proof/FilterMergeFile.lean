import Verif.Spec.FilterMergeFile
import Verif.Proof.SavedIter
import Verif.Proof.SavedFilter
import Verif.Proof.FilterFile
import Verif.Proof.ConformMergeFile
import Verif.Props.SavedIter
import Verif.Props.FilterMerge
import Verif.Props.ConformKept

/-! Files filtered and merged in either order: lemmas. -/

namespace Verif
open Outcome Spec

variable {R : FP} {f : FilterSpec R} {today : CStr} {u : Undef R}

/-! ### Datasets read back -/

section
variable {a x : OiFits R}

theorem saved_names (hn : NamesHeld a) (hs : SavedAs today u a x) :
    x.arrayList.map OiArray.arrname = a.arrayList.map OiArray.arrname ∧
    x.wavelengthList.map OiWavelength.insname = a.wavelengthList.map OiWavelength.insname ∧
    x.corrList.map OiCorr.corrname = a.corrList.map OiCorr.corrname := by
  rw [hs.array, hs.wavelength, hs.corr, List.map_map, List.map_map, List.map_map]
  exact ⟨List.map_congr_left fun w hm => (hn.array w hm).eq, List.map_congr_left fun w hm => (hn.wavelength w hm).eq,
    List.map_congr_left fun w hm => (hn.corr w hm).eq⟩

theorem saved_unique (hn : NamesHeld a) (hu : UniqueNames a) (hs : SavedAs today u a x) : UniqueNames x := by
  obtain ⟨e1, e2, e3⟩ := saved_names hn hs
  exact ⟨by rw [e1]; exact hu.array, by rw [e2]; exact hu.wavelength, by rw [e3]; exact hu.corr⟩

theorem saved_held (hs : SavedAs today u a x) : NamesHeld x := by
  constructor
  · rw [hs.array]; intro t ht
    obtain ⟨t, hm, rfl⟩ := List.mem_map.mp ht
    exact keyStr_card _
  · rw [hs.wavelength]; intro t ht
    obtain ⟨t, hm, rfl⟩ := List.mem_map.mp ht
    exact keyStr_card _
  · rw [hs.corr]; intro t ht
    obtain ⟨t, hm, rfl⟩ := List.mem_map.mp ht
    exact keyStr_card _
  · rw [hs.vis]; intro t ht
    obtain ⟨t, hm, rfl⟩ := List.mem_map.mp ht
    exact ⟨keyStr_card _, keyStr_card _, keyStr_card _⟩
  · rw [hs.vis2]; intro t ht
    obtain ⟨t, hm, rfl⟩ := List.mem_map.mp ht
    exact ⟨keyStr_card _, keyStr_card _, keyStr_card _⟩
  · rw [hs.t3]; intro t ht
    obtain ⟨t, hm, rfl⟩ := List.mem_map.mp ht
    exact ⟨keyStr_card _, keyStr_card _, keyStr_card _⟩
  · rw [hs.flux]; intro t ht
    obtain ⟨t, hm, rfl⟩ := List.mem_map.mp ht
    exact ⟨keyStr_card _, keyStr_card _, keyStr_card _⟩

theorem saved_instruments (hn : NamesHeld a) (hi : AllInstruments a) (hs : SavedAs today u a x) : AllInstruments x := by
  have key {n : CStr} (hc : CardText n) (h : ∃ w ∈ a.wavelengthList, w.insname = n) :
      ∃ w ∈ x.wavelengthList, w.insname = keyStr n := by
    obtain ⟨w, hw, rfl⟩ := h
    rw [hs.wavelength]
    exact ⟨_, List.mem_map_of_mem hw, rfl⟩
  constructor
  · rw [hs.vis]; intro t ht
    obtain ⟨t, hm, rfl⟩ := List.mem_map.mp ht
    exact key (hn.vis t hm).2.1 (hi.vis t hm)
  · rw [hs.vis2]; intro t ht
    obtain ⟨t, hm, rfl⟩ := List.mem_map.mp ht
    exact key (hn.vis2 t hm).2.1 (hi.vis2 t hm)
  · rw [hs.t3]; intro t ht
    obtain ⟨t, hm, rfl⟩ := List.mem_map.mp ht
    exact key (hn.t3 t hm).2.1 (hi.t3 t hm)
  · rw [hs.flux]; intro t ht
    obtain ⟨t, hm, rfl⟩ := List.mem_map.mp ht
    exact key (hn.flux t hm).2.1 (hi.flux t hm)

theorem saved_targetNames (hc : ∀ t ∈ a.targets.targ, ColText 32 t.target) (hs : SavedAs today u a x) :
    x.targets.targ.map (·.target) = a.targets.targ.map (·.target) := by
  rw [hs.targets]
  unfold OiTarget.asRead
  rw [List.map_map]
  exact List.map_congr_left fun t ht => (hc t ht).eq

theorem saved_colText (hc : ∀ t ∈ a.targets.targ, ColText 32 t.target) (hs : SavedAs today u a x) :
    ∀ t ∈ x.targets.targ, ColText 32 t.target := by
  intro t ht
  have : t.target ∈ x.targets.targ.map (·.target) := List.mem_map_of_mem ht
  rw [saved_targetNames hc hs] at this
  obtain ⟨t', h1, e⟩ := List.mem_map.mp this
  rw [← e]
  exact hc t' h1

theorem firstWith_map {α : Type} {l : List α} {p : α → Prop} {g : α → α} (hg : ∀ y, p (g y) ↔ p y) {y : α}
    (h : FirstWith p l y) : FirstWith p (l.map g) (g y) := by
  obtain ⟨as, bs, e, h1, h2⟩ := h
  refine ⟨as.map g, bs.map g, by rw [e]; simp, (hg y).mpr h1, ?_⟩
  intro z hz
  obtain ⟨v, hv, rfl⟩ := List.mem_map.mp hz
  exact fun h => h2 v hv ((hg v).mp h)

theorem saved_resolve (ht : TargetsResolve a) (hs : SavedAs today u a x) : TargetsResolve x := by
  have key {id : Int} (h : ∃ n, DenotesTarget a id n) : ∃ n, DenotesTarget x id n := by
    obtain ⟨n, t, h1, -⟩ := h
    have h2 : ∃ y, FirstWith (fun t => t.target_id = id) x.targets.targ y := by
      rw [hs.targets]
      unfold OiTarget.asRead
      refine ⟨_, firstWith_map ?_ h1⟩
      exact fun _ => Iff.rfl
    obtain ⟨y, h2⟩ := h2
    exact ⟨_, y, h2, rfl⟩
  constructor
  · rw [hs.inspol]; intro t ht' r hr
    obtain ⟨t, hm, rfl⟩ := List.mem_map.mp ht'
    obtain ⟨r, hr', rfl⟩ := List.mem_map.mp hr
    exact key (ht.inspol t hm r hr')
  · rw [hs.vis]; intro t ht' r hr
    obtain ⟨t, hm, rfl⟩ := List.mem_map.mp ht'
    obtain ⟨r, hr', rfl⟩ := List.mem_map.mp hr
    exact key (ht.vis t hm r hr')
  · rw [hs.vis2]; intro t ht' r hr
    obtain ⟨t, hm, rfl⟩ := List.mem_map.mp ht'
    obtain ⟨r, hr', rfl⟩ := List.mem_map.mp hr
    exact key (ht.vis2 t hm r hr')
  · rw [hs.t3]; intro t ht' r hr
    obtain ⟨t, hm, rfl⟩ := List.mem_map.mp ht'
    obtain ⟨r, hr', rfl⟩ := List.mem_map.mp hr
    exact key (ht.t3 t hm r hr')
  · rw [hs.flux]; intro t ht' r hr
    obtain ⟨t, hm, rfl⟩ := List.mem_map.mp ht'
    obtain ⟨r, hr', rfl⟩ := List.mem_map.mp hr
    exact key (ht.flux t hm r hr')

theorem saved_filterable {fs : Files R} {name : CStr} (hf : Filterable f a) (ht : a.targets.targ ≠ []) (hn : NamesHeld a)
    (hs : SavedAs today u a x) (h : Holds u fs name x) : Filterable f x := by
  refine filterable_saved hf ht hn hs h.wf fun n w hnw hr => ?_
  rw [holds_lookup h n hr]
  exact hnw

end

/-! ### A filtered dataset -/

section
variable {oi out : OiFits R}

theorem filtered_resolve (ht : f.target_id < 0) (ho : Filtered f oi out) (hi : out.inspolList = [])
    (h : TargetsResolve oi) : TargetsResolve out := by
  have key {id : Int} (h : ∃ n, DenotesTarget oi id n) : ∃ n, DenotesTarget out (targetIdOut f id) n := by
    obtain ⟨n, t, h1, h2⟩ := h
    rw [targetId_kept ht]
    refine ⟨n, t, ?_, h2⟩
    rw [ho.targets, targetsOut, if_pos ht]
    exact h1
  constructor
  · rw [hi]; intro t h; cases h
  · rw [ho.vis]; intro t' ht' r hr
    obtain ⟨_, t, hm, w, _, _, rfl⟩ := mem_visTables.mp ht'
    obtain ⟨r0, hr0, rfl⟩ := List.mem_map.mp hr
    exact key (h.vis t hm r0 (List.mem_filter.mp hr0).1)
  · rw [ho.vis2]; intro t' ht' r hr
    obtain ⟨_, t, hm, w, _, _, rfl⟩ := mem_vis2Tables.mp ht'
    obtain ⟨r0, hr0, rfl⟩ := List.mem_map.mp hr
    exact key (h.vis2 t hm r0 (List.mem_filter.mp hr0).1)
  · rw [ho.t3]; intro t' ht' r hr
    obtain ⟨_, t, hm, w, _, _, rfl⟩ := mem_t3Tables.mp ht'
    obtain ⟨r0, hr0, rfl⟩ := List.mem_map.mp hr
    exact key (h.t3 t hm r0 (List.mem_filter.mp hr0).1)
  · rw [ho.flux]; intro t' ht' r hr
    obtain ⟨_, t, hm, w, _, _, rfl⟩ := mem_fluxTables.mp ht'
    obtain ⟨r0, hr0, rfl⟩ := List.mem_map.mp hr
    exact key (h.flux t hm r0 (List.mem_filter.mp hr0).1)

end

/-! ### A merged dataset -/

theorem mergeKey_card {l : List CStr} (hl : ∀ s ∈ l, CardText s) (required : Bool) : CardText (mergeKey l required []) := by
  rcases mergeKey_summarises required (fun s hs => card_length (hl s hs)) with ⟨-, h⟩ | ⟨-, h, -⟩ | ⟨-, h⟩
  · rw [h]; cases required <;> exact ⟨by decide, by decide⟩
  · exact hl _ h
  · rw [h]; exact ⟨by decide, by decide⟩

theorem merged_settled {ins : List (OiFits R)} {out : OiFits R} (hw : ∀ oi ∈ ins, oi.WF) (hs : ∀ oi ∈ ins, oi.Settled)
    (hj : Joinable ins) (h : merge_oi_fits_list ins = .ok out) : out.Settled := by
  have hn := merged_held hw hj h
  obtain ⟨mjd, st, sa, si, sc, as, is, cs, hf⟩ := merge_full h
  obtain ⟨d1, d2, d3, d4, d5⟩ := hf.data _ _ _ hf.ah hf.ih hf.ch
  constructor
  · have key (g : OiHeader → CStr) (hg : ∀ oi ∈ ins, CardText (g oi.header)) :
        CardText (mergeKey (ins.map fun i => g i.header) false []) := by
      refine mergeKey_card (fun s hs => ?_) false
      obtain ⟨oi, ho, rfl⟩ := List.mem_map.mp hs
      exact hg oi ho
    have hd := fun oi ho => (hs oi ho).header
    simp only [List.forall_mem_cons, List.not_mem_nil, false_imp_iff, implies_true, and_true] at hd
    rw [hf.header]
    simp only [List.forall_mem_cons, List.not_mem_nil, false_imp_iff, implies_true, and_true]
    exact ⟨key _ fun oi ho => (hd oi ho).1, key _ fun oi ho => (hd oi ho).2.1, key _ fun oi ho => (hd oi ho).2.2.1,
      key _ fun oi ho => (hd oi ho).2.2.2.1, key _ fun oi ho => (hd oi ho).2.2.2.2⟩
  · rw [hf.arrays.1]
    intro t ht
    obtain ⟨i, hi, rfl⟩ := List.mem_iff_getElem.mp ht
    obtain ⟨x, hx, d, n, hd, e, -⟩ := hf.ainv.src i _ (List.getElem?_eq_getElem hi)
    obtain ⟨oi, ho, hx⟩ := List.mem_flatMap.mp hx
    have hd' : d.arrayx = x.arrayx ∧ d.arrayy = x.arrayy ∧ d.arrayz = x.arrayz := by
      obtain ⟨y, hy, rfl⟩ := map_eq_ok hd
      rw [dup_array_eq hy]
      unfold upgrade_oi_array
      split <;> exact ⟨rfl, rfl, rfl⟩
    rw [e]
    show Settles d.arrayx ∧ Settles d.arrayy ∧ Settles d.arrayz
    rw [hd'.1, hd'.2.1, hd'.2.2]
    exact (hs oi ho).array x hx
  · intro t' ht'
    obtain ⟨k1, -, k3⟩ := hn.vis t' ht'
    obtain ⟨⟨inp, t⟩, hp, a, i, c, -, -, -, he⟩ := forall₂_right d2 ht'
    obtain ⟨h1, h2⟩ := mem_tablesOf hp
    have E := (mergedVis_spec ((hw _ h1).vis _ h2) he).1.1
    obtain ⟨-, -, g1, g2⟩ := (hs _ h1).vis _ h2
    exact ⟨k1, k3, by rw [E]; exact g1, by rw [E]; exact g2⟩
  · intro t' ht'
    obtain ⟨k1, -, k3⟩ := hn.vis2 t' ht'
    exact ⟨k1, k3⟩
  · intro t' ht'
    obtain ⟨k1, -, k3⟩ := hn.t3 t' ht'
    exact ⟨k1, k3⟩
  · intro t' ht'
    obtain ⟨k1, -, k3⟩ := hn.flux t' ht'
    obtain ⟨⟨inp, t⟩, hp, a, i, c, -, -, -, he⟩ := forall₂_right d5 ht'
    obtain ⟨h1, h2⟩ := mem_tablesOf hp
    have E := (mergedFlux_spec ((hw _ h1).flux _ h2) he).1.1
    obtain ⟨-, -, g1, g2⟩ := (hs _ h1).flux _ h2
    refine ⟨k1, k3, by rw [E]; exact g1, ?_⟩
    rw [E]; exact g2

/-! ### Runs of oifits-filter -/

section
variable {fs : Files R} {prog : CStr} {removable : CStr → Bool} {opts : List (FilterOpt R)}

/-- `out` is `oi` filtered, and can be stored. -/
structure FilteredWell (f : FilterSpec R) (oi out : OiFits R) : Prop where
  filtered : Filtered f oi out
  inspol : InspolFiltered f oi out
  filterable : Filterable f out
  storable : out.Storable

theorem filter_run {infile outfile : CStr} {oi : OiFits R} (h : Holds u fs infile oi) (hi : infile.length < FLEN_FILENAME)
    (ho : PlainName outfile) (hf : Filterable (userFilter opts) oi) (hs : oi.Storable) (hn : oi.inspolList = [])
    (ht : (userFilter opts).target_id < 0) (hx : fs outfile = none) :
    ∃ out hdus, FilteredWell (userFilter opts) oi out ∧
      (oifits_filter u today removable (.args opts false [prog, infile, outfile])).run fs =
        ⟨.code 0, filterOutput oi (userFilter opts) out, fs.set outfile (some (.fits hdus))⟩ ∧
      ∀ fs' : Files R, fs' outfile = some (.fits hdus) → FileOf today fs' outfile out := by
  have hun : ∀ t ∈ oi.inspolList, InspolUniform (userFilter opts) oi t := by rw [hn]; intro t h; cases h
  obtain ⟨out, e, ho', hi'⟩ := apply_oi_filter_ok hf hun
  have hso := filter_storable hf hun ho' hi' hs (.inl ht)
  obtain ⟨hdus, hw, hfile⟩ := file_of_stored (today := today) hso
  refine ⟨out, hdus, ⟨ho', hi', out_filterable hf hun ht ho' hi', hso⟩,
    C70_run h hi ho e (out_wf hf hun ho' hi') hw (.inl hx), fun fs' e' u' => ?_⟩
  obtain ⟨x, ⟨hdus', k1, k2⟩, k3⟩ := hfile fs' outfile u'
  rw [set_same] at k1
  cases k1
  exact ⟨x, ⟨hdus, e', k2⟩, k3⟩

theorem pairwise₂_nil {α β : Type} {P : α → β → Prop} : Pairwise₂ P ([] : List α) ([] : List β) :=
  ⟨rfl, fun i x y h => by cases h⟩

theorem pairwise₂_tail {α β : Type} {P : α → β → Prop} {a : α} {b : β} {l : List α} {l' : List β}
    (h : Pairwise₂ P (a :: l) (b :: l')) : P a b ∧ Pairwise₂ P l l' :=
  ⟨h.2 0 a b rfl rfl, by simpa using h.1, fun i x y hx hy => h.2 (i + 1) x y hx hy⟩

theorem holds_set {infile outfile : CStr} {oi : OiFits R} {d : Option (FileData R)} (h : Holds u fs infile oi)
    (hx : fs outfile = none) : Holds u (fs.set outfile d) infile oi := by
  obtain ⟨hdus, k1, k2⟩ := h
  refine ⟨hdus, ?_, k2⟩
  unfold Files.set
  rw [if_neg]
  · exact k1
  · rintro rfl
    rw [hx] at k1
    cases k1

theorem filter_each {jobs : List (CStr × CStr)} {ois : List (OiFits R)}
    (h : Pairwise₂ (Holds u fs) (jobs.map (·.1)) ois)
    (hj : ∀ j ∈ jobs, j.1.length < FLEN_FILENAME ∧ PlainName j.2 ∧ fs j.2 = none) (hd : (jobs.map (·.2)).Nodup)
    (hf : ∀ oi ∈ ois, Filterable (userFilter opts) oi ∧ oi.Storable ∧ oi.inspolList = [])
    (ht : (userFilter opts).target_id < 0) :
    (∀ e ∈ (runAll (filterRuns u today prog removable opts jobs) fs).1, e = .code 0) ∧
    (∀ n, n ∉ jobs.map (·.2) → (runAll (filterRuns u today prog removable opts jobs) fs).2 n = fs n) ∧
    ∃ outs, Pairwise₂ (FilteredWell (userFilter opts)) ois outs ∧
      Pairwise₂ (FileOf today (runAll (filterRuns u today prog removable opts jobs) fs).2) (jobs.map (·.2)) outs := by
  induction jobs generalizing fs ois with
  | nil =>
    cases ois with
    | nil => exact ⟨fun e he => (by cases he), fun _ _ => rfl, [], pairwise₂_nil, pairwise₂_nil⟩
    | cons _ _ => cases h.1
  | cons j jobs ih =>
    cases ois with
    | nil => cases h.1
    | cons oi ois =>
      obtain ⟨h1, h2⟩ := pairwise₂_tail h
      obtain ⟨k1, k2, k3⟩ := hj j (List.mem_cons_self ..)
      obtain ⟨g1, g2, g3⟩ := hf oi (List.mem_cons_self ..)
      obtain ⟨out, hdus, w, er, hfile⟩ := filter_run (today := today) (prog := prog) (removable := removable) h1 k1 k2 g1 g2
        g3 ht k3
      rw [List.map_cons, List.nodup_cons] at hd
      have hne : ∀ j' ∈ jobs, j'.2 ≠ j.2 := fun j' hm e => hd.1 (e ▸ List.mem_map_of_mem hm)
      have hih := ih (fs := fs.set j.2 (some (.fits hdus))) (ois := ois)
        ⟨h2.1, fun i n y hn hy => holds_set (h2.2 i n y hn hy) k3⟩
        (fun j' hm => ⟨(hj j' (List.mem_cons_of_mem _ hm)).1, (hj j' (List.mem_cons_of_mem _ hm)).2.1, by
          unfold Files.set
          rw [if_neg (hne j' hm)]
          exact (hj j' (List.mem_cons_of_mem _ hm)).2.2⟩)
        hd.2 fun oi hm => hf oi (List.mem_cons_of_mem _ hm)
      obtain ⟨i1, i2, outs, i3, i4⟩ := hih
      have e : runAll (filterRuns u today prog removable opts (j :: jobs)) fs =
          (.code 0 :: (runAll (filterRuns u today prog removable opts jobs) (fs.set j.2 (some (.fits hdus)))).1,
            (runAll (filterRuns u today prog removable opts jobs) (fs.set j.2 (some (.fits hdus)))).2) := by
        show (_ :: _, _) = _
        rw [er]
        rfl
      rw [e]
      refine ⟨?_, ?_, out :: outs, pairwise₂_cons w i3, pairwise₂_cons (hfile _ ?_) i4⟩
      · intro x hx
        rcases List.mem_cons.mp hx with rfl | hx
        · rfl
        · exact i1 x hx
      · intro n hn
        rw [List.map_cons, List.mem_cons, not_or] at hn
        show (runAll _ _).2 n = _
        rw [i2 n hn.2]
        unfold Files.set
        rw [if_neg hn.1]
      · show (runAll _ _).2 j.2 = _
        rw [i2 j.2 hd.1]
        exact set_same _ _ _

theorem pairwise₂_choose {α β γ : Type} {P : α → γ → Prop} {Q : β → γ → Prop} {l : List α} {l' : List β}
    (h : Pairwise₂ (fun a b => ∃ c, P a c ∧ Q b c) l l') : ∃ xs, Pairwise₂ P l xs ∧ Pairwise₂ Q l' xs := by
  induction l generalizing l' with
  | nil =>
    cases l' with
    | nil => exact ⟨[], pairwise₂_nil, pairwise₂_nil⟩
    | cons _ _ => cases h.1
  | cons a l ih =>
    cases l' with
    | nil => cases h.1
    | cons b l' =>
      obtain ⟨⟨c, h1, h2⟩, h3⟩ := pairwise₂_tail h
      obtain ⟨xs, h4, h5⟩ := ih h3
      exact ⟨c :: xs, pairwise₂_cons h1 h4, pairwise₂_cons h2 h5⟩

theorem pairwise₂_trans {α β γ : Type} {P : α → β → Prop} {Q : β → γ → Prop} {l : List α} {l' : List β} {l'' : List γ}
    (h : Pairwise₂ P l l') (h' : Pairwise₂ Q l' l'') : Pairwise₂ (fun a c => ∃ b, P a b ∧ Q b c) l l'' := by
  refine ⟨h.1.trans h'.1, fun i x z hx hz => ?_⟩
  have hi : i < l'.length := by rw [h'.1]; exact (List.getElem?_eq_some_iff.mp hz).1
  exact ⟨l'[i], h.2 i x _ hx (List.getElem?_eq_getElem hi), h'.2 i _ z (List.getElem?_eq_getElem hi) hz⟩

theorem pairwise₂_and_right {α β : Type} {P : α → β → Prop} {Q : β → Prop} {l : List α} {l' : List β}
    (h : Pairwise₂ P l l') (hq : ∀ y ∈ l', Q y) : Pairwise₂ (fun a b => P a b ∧ Q b) l l' :=
  ⟨h.1, fun i x y hx hy => ⟨h.2 i x y hx hy, hq y (List.mem_of_getElem? hy)⟩⟩

end

/-! ### Files which have been filtered can be merged -/

/-- `x` is what a file holds in which `oi` was stored after filtering. -/
structure FromFiltered (today : CStr) (u : Undef R) (fs : Files R) (f : FilterSpec R) (oi x : OiFits R) : Prop where
  out : ∃ o, FilteredWell f oi o ∧ SavedAs today u o x
  file : ∃ name, Holds u fs name x

section
variable {fs : Files R} {ois xs : List (OiFits R)}

theorem usable_together (hu : Usable ois) (hf : ∀ oi ∈ ois, Filterable f oi) : Together f ois where
  filterable := hf
  unique := hu.joinable.unique
  fit := joinable_fit hu.joinable
  plain := hu.joinable.plain
  instruments := hu.instruments
  exact := hu.exact

theorem filtered_arrays {oi out : OiFits R} (ho : Filtered f oi out) :
    (out.arrayList.map OiArray.arrname).Sublist (oi.arrayList.map OiArray.arrname) ∧
    (out.corrList.map OiCorr.corrname).Sublist (oi.corrList.map OiCorr.corrname) := by
  classical
  rw [ho.array, ho.corr]
  exact ⟨List.filter_sublist.map _, List.filter_sublist.map _⟩

theorem fromFiltered_names {oi x : OiFits R} (hn : NamesHeld oi) (h : FromFiltered today u fs f oi x) :
    (x.arrayList.map OiArray.arrname).Sublist (oi.arrayList.map OiArray.arrname) ∧
    (x.wavelengthList.map OiWavelength.insname).Sublist (oi.wavelengthList.map OiWavelength.insname) ∧
    (x.corrList.map OiCorr.corrname).Sublist (oi.corrList.map OiCorr.corrname) := by
  obtain ⟨o, hw, hs⟩ := h.out
  obtain ⟨e1, e2, e3⟩ := saved_names (namesHeld_filtered hn hw.filtered) hs
  rw [e1, e2, e3]
  exact ⟨(filtered_arrays hw.filtered).1, filtered_names hw.filtered, (filtered_arrays hw.filtered).2⟩

theorem fromFiltered_filterable {oi x : OiFits R} (hn : NamesHeld oi) (h : FromFiltered today u fs f oi x) :
    Filterable f x ∧ AllInstruments x ∨ ¬ Filterable f oi := by
  by_cases hf : Filterable f oi
  · left
    obtain ⟨o, hw, hs⟩ := h.out
    obtain ⟨name, hx⟩ := h.file
    have ho := namesHeld_filtered hn hw.filtered
    exact ⟨saved_filterable hw.filterable hw.storable.targets.rows ho hs hx, saved_instruments ho (out_instruments hf hw.filtered) hs⟩
  · exact .inr hf

/-- What has been filtered and stored can be merged. -/
theorem fromFiltered_usable (hu : Usable ois) (ht : f.target_id < 0) (hf : ∀ oi ∈ ois, Filterable f oi)
    (h : Pairwise₂ (FromFiltered today u fs f) ois xs) :
    (∀ x ∈ xs, x.Storable) ∧ (∀ x ∈ xs, TargetsResolve x) ∧ (distinct ((allTargets xs).map (·.target))).length < 100 ∧
      GoodDates xs ∧ Joinable xs := by
  have hnm := hu.joinable.held
  have src : ∀ x ∈ xs, ∃ oi ∈ ois, FromFiltered today u fs f oi x := fun x hx => by
    obtain ⟨oi, h1, h2⟩ := pairwise₂_mem_right h hx
    exact ⟨oi, h1, h2⟩
  have hti : ∀ oi ∈ ois, ∀ x, FromFiltered today u fs f oi x → x.targets.targ.map (·.target) = oi.targets.targ.map (·.target) := by
    intro oi ho x hx
    obtain ⟨o, hw, hs⟩ := hx.out
    have e : o.targets = oi.targets := by rw [hw.filtered.targets, targetsOut, if_pos ht]
    rw [saved_targetNames (by rw [e]; exact hu.joinable.targets oi ho) hs, e]
  refine ⟨?_, ?_, ?_, ?_, ?_, ?_, ?_, ?_, ?_, ?_, ?_, ?_⟩
  · intro x hx
    obtain ⟨oi, ho, h1⟩ := src x hx
    obtain ⟨o, hw, hs⟩ := h1.out
    obtain ⟨name, hh⟩ := h1.file
    exact storable_again hw.storable (settled_filtered (hu.settled oi ho) hw.filtered) hh.wf hs.targets hs.array hs.inspol hs.vis
      hs.vis2 hs.t3 hs.flux
  · intro x hx
    obtain ⟨oi, ho, h1⟩ := src x hx
    obtain ⟨o, hw, hs⟩ := h1.out
    exact saved_resolve (filtered_resolve ht hw.filtered (inspol_none (hu.inspol oi ho) hw.inspol) (hu.resolve oi ho)) hs
  · have : (allTargets xs).map (·.target) = (allTargets ois).map (·.target) := by
      unfold allTargets
      rw [List.map_flatMap, List.map_flatMap]
      exact pairwise₂_flatMap h fun oi ho x _ h1 => hti oi ho x h1
    rw [this]
    exact hu.few
  · intro x hx
    obtain ⟨oi, ho, h1⟩ := src x hx
    obtain ⟨o, hw, hs⟩ := h1.out
    have e : x.header.date_obs = oi.header.date_obs := by
      rw [hs.header]
      show keyStr o.header.date_obs = _
      rw [hw.filtered.header]
      exact (hu.date oi ho).eq
    rw [e]
    exact hu.dates oi ho
  · intro x hx
    obtain ⟨oi, ho, h1⟩ := src x hx
    obtain ⟨o, hw, hs⟩ := h1.out
    exact saved_unique (namesHeld_filtered (hnm oi ho) hw.filtered) (filtered_unique hw.filtered (hu.joinable.unique oi ho)) hs
  · intro x hx
    obtain ⟨oi, ho, h1⟩ := src x hx
    obtain ⟨o, hw, hs⟩ := h1.out
    exact saved_held hs
  · intro x hx
    obtain ⟨oi, ho, h1⟩ := src x hx
    obtain ⟨e1, e2, e3⟩ := fromFiltered_names (hnm oi ho) h1
    obtain ⟨s1, s2, s3⟩ := hu.joinable.short oi ho
    refine ⟨fun t ht => ?_, fun t ht => ?_, fun t ht => ?_⟩
    · obtain ⟨t', h', e⟩ := List.mem_map.mp (e1.subset (List.mem_map_of_mem ht))
      rw [← e]; exact s1 t' h'
    · obtain ⟨t', h', e⟩ := List.mem_map.mp (e2.subset (List.mem_map_of_mem ht))
      rw [← e]; exact s2 t' h'
    · obtain ⟨t', h', e⟩ := List.mem_map.mp (e3.subset (List.mem_map_of_mem ht))
      rw [← e]; exact s3 t' h'
  · have h' : Pairwise₂ (fun oi x => oi ∈ ois ∧ FromFiltered today u fs f oi x) ois xs :=
      ⟨h.1, fun i x y hx hy => ⟨List.mem_of_getElem? hx, h.2 i x y hx hy⟩⟩
    have e1 := (flatMap_sublist h' fun oi x hx => (fromFiltered_names (hnm oi hx.1) hx.2).1).length_le
    have e2 := (flatMap_sublist h' fun oi x hx => (fromFiltered_names (hnm oi hx.1) hx.2).2.2).length_le
    rw [← List.map_flatMap, ← List.map_flatMap, List.length_map, List.length_map] at e1 e2
    exact ⟨lt_of_le_of_lt e1 hu.joinable.few.1, lt_of_le_of_lt e2 hu.joinable.few.2⟩
  · have h' : Pairwise₂ (fun oi x => oi ∈ ois ∧ FromFiltered today u fs f oi x) ois xs :=
      ⟨h.1, fun i x y hx hy => ⟨List.mem_of_getElem? hx, h.2 i x y hx hy⟩⟩
    exact plainNames_sub hu.joinable.plain (flatMap_sublist h' fun oi x hx => (fromFiltered_names (hnm oi hx.1) hx.2).2.1)
  · intro x hx
    obtain ⟨oi, ho, h1⟩ := src x hx
    rcases fromFiltered_filterable (hnm oi ho) h1 with ⟨k1, k2⟩ | k
    · exact instruments_there k1 k2
    · exact absurd (hf oi ho) k
  · have hwl : ∀ y, IsWavelength xs y → IsWavelength ois y := by
      rintro y ⟨x, hx, w, hw, hy⟩
      obtain ⟨oi, ho, h1⟩ := src x hx
      obtain ⟨o, ho', hs⟩ := h1.out
      rw [hs.wavelength] at hw
      obtain ⟨w, hw', rfl⟩ := List.mem_map.mp hw
      exact ⟨oi, ho, filtered_wavelength (hf oi ho) ho'.filtered hw' hy⟩
    refine wavelengthsExact_tables (fun x hx => ?_) fun y z hy hz => hu.exact y z (hwl y hy) (hwl z hz)
    obtain ⟨oi, ho, h1⟩ := src x hx
    obtain ⟨name, hh⟩ := h1.file
    exact hh.wf
  · intro x hx t htm
    obtain ⟨oi, ho, h1⟩ := src x hx
    have : t.target ∈ x.targets.targ.map (·.target) := List.mem_map_of_mem htm
    rw [hti oi ho x h1] at this
    obtain ⟨t', h', e⟩ := List.mem_map.mp this
    rw [← e]
    exact hu.joinable.targets oi ho t' h'

/-- Iterating over what has been filtered and stored gives what it gives over the original. -/
theorem fromFiltered_accepted {oi x : OiFits R} (hf : Filterable f oi) (ht : f.target_id < 0) (hn : NamesHeld oi)
    (hc : ∀ t ∈ oi.targets.targ, ColText 32 t.target) (hi : AllInstruments oi) (h : FromFiltered today u fs f oi x) :
    SameAccepted (noFlagged f) oi x := by
  obtain ⟨o, hw, hs⟩ := h.out
  obtain ⟨name, hh⟩ := h.file
  exact accepted_trans (filtered_accepted hf hw.filterable ht hw.filtered hi)
    (saved_data hw.filterable.wf (out_references hf hw.filterable ht hw.filtered hn hc)
      ⟨hs.targets, hs.wavelength, hs.vis, hs.vis2, hs.t3⟩ hh _) iterates_unique iterates_unique iterates_unique

end

/-! ### What is seen -/

theorem accepted_after {ois : List (OiFits R)} {x y : OiFits R} (h : DataOfAll f ois x) (h' : SameAccepted f x y) :
    AcceptedOfAll f ois y where
  vis := by
    obtain ⟨l, each, h1, h2, h3⟩ := h.vis
    obtain ⟨k, k', g1, g2, g3⟩ := h'.vis
    rw [iterates_unique g1 h1] at g3
    exact ⟨k', each, g2, h2, g3.symm.trans (vis_datum h3)⟩
  vis2 := by
    obtain ⟨l, each, h1, h2, h3⟩ := h.vis2
    obtain ⟨k, k', g1, g2, g3⟩ := h'.vis2
    rw [iterates_unique g1 h1] at g3
    exact ⟨k', each, g2, h2, g3.symm.trans (vis2_datum h3)⟩
  t3 := by
    obtain ⟨l, each, h1, h2, h3⟩ := h.t3
    obtain ⟨k, k', g1, g2, g3⟩ := h'.t3
    rw [iterates_unique g1 h1] at g3
    exact ⟨k', each, g2, h2, g3.symm.trans (t3_datum h3)⟩

theorem each_before {τ ρ δ : Type} {K : IterKind R τ ρ} {datum : OiFits R → Datum τ ρ → δ} {ois xs : List (OiFits R)}
    (hp : Pairwise₂ (fun oi x => ∃ l l', Iterates K oi f l ∧ Iterates K x f l' ∧ l.map (datum oi) = l'.map (datum x)) ois xs)
    {ds : List δ} {each : OiFits R → List (Datum τ ρ)} (he : ∀ x ∈ xs, Iterates K x f (each x))
    (e : ds = xs.flatMap fun x => (each x).map (datum x)) :
    ∃ each' : OiFits R → List (Datum τ ρ), (∀ oi ∈ ois, Iterates K oi f (each' oi)) ∧
      ds = ois.flatMap fun oi => (each' oi).map (datum oi) := by
  classical
  have hc : ∃ each' : OiFits R → List (Datum τ ρ), ∀ oi, (∃ l, Iterates K oi f l) → Iterates K oi f (each' oi) := by
    refine ⟨fun oi => if h : ∃ l, Iterates K oi f l then h.choose else [], fun oi h => ?_⟩
    show Iterates K oi f (if h : ∃ l, Iterates K oi f l then h.choose else [])
    rw [dif_pos h]
    exact h.choose_spec
  obtain ⟨each', hc⟩ := hc
  refine ⟨each', fun oi ho => ?_, ?_⟩
  · obtain ⟨x, -, l, -, hl, -⟩ := pairwise₂_mem_left hp ho
    exact hc oi ⟨l, hl⟩
  · rw [e]
    refine pairwise₂_flatMap hp ?_
    rintro oi ho x hx ⟨l, l', h1, h2, h3⟩
    rw [iterates_unique (he x hx) h2, iterates_unique (hc oi ⟨l, h1⟩) h1, h3]

theorem accepted_before {ois xs : List (OiFits R)} {y : OiFits R} (hp : Pairwise₂ (SameAccepted f) ois xs)
    (h : DataOfAll f xs y) : AcceptedOfAll f ois y where
  vis := by
    obtain ⟨l, each, h1, h2, h3⟩ := h.vis
    obtain ⟨each', k1, k2⟩ := each_before (K := visKind) (datum := visDatum)
      ⟨hp.1, fun i a b ha hb => (hp.2 i a b ha hb).vis⟩ h2 (vis_datum h3)
    exact ⟨l, each', h1, k1, k2⟩
  vis2 := by
    obtain ⟨l, each, h1, h2, h3⟩ := h.vis2
    obtain ⟨each', k1, k2⟩ := each_before (K := vis2Kind) (datum := vis2Datum)
      ⟨hp.1, fun i a b ha hb => (hp.2 i a b ha hb).vis2⟩ h2 (vis2_datum h3)
    exact ⟨l, each', h1, k1, k2⟩
  t3 := by
    obtain ⟨l, each, h1, h2, h3⟩ := h.t3
    obtain ⟨each', k1, k2⟩ := each_before (K := t3Kind) (datum := t3Datum f)
      ⟨hp.1, fun i a b ha hb => (hp.2 i a b ha hb).t3⟩ h2 (t3_datum h3)
    exact ⟨l, each', h1, k1, k2⟩

theorem each_same {τ ρ δ : Type} {K : IterKind R τ ρ} {datum : OiFits R → Datum τ ρ → δ} {ois : List (OiFits R)}
    {each each' : OiFits R → List (Datum τ ρ)} (h : ∀ oi ∈ ois, Iterates K oi f (each oi))
    (h' : ∀ oi ∈ ois, Iterates K oi f (each' oi)) :
    (ois.flatMap fun oi => (each oi).map (datum oi)) = ois.flatMap fun oi => (each' oi).map (datum oi) := by
  induction ois with
  | nil => rfl
  | cons a l ih =>
    rw [List.flatMap_cons, List.flatMap_cons, iterates_unique (h a (List.mem_cons_self ..)) (h' a (List.mem_cons_self ..)),
      ih (fun oi ho => h oi (List.mem_cons_of_mem _ ho)) fun oi ho => h' oi (List.mem_cons_of_mem _ ho)]

theorem accepted_same {ois : List (OiFits R)} {x y : OiFits R} (h : AcceptedOfAll f ois x) (h' : AcceptedOfAll f ois y) :
    SameAccepted f x y where
  vis := by
    obtain ⟨l, each, h1, h2, h3⟩ := h.vis
    obtain ⟨k, each', g1, g2, g3⟩ := h'.vis
    exact ⟨l, k, h1, g1, h3.trans ((each_same h2 g2).trans g3.symm)⟩
  vis2 := by
    obtain ⟨l, each, h1, h2, h3⟩ := h.vis2
    obtain ⟨k, each', g1, g2, g3⟩ := h'.vis2
    exact ⟨l, k, h1, g1, h3.trans ((each_same h2 g2).trans g3.symm)⟩
  t3 := by
    obtain ⟨l, each, h1, h2, h3⟩ := h.t3
    obtain ⟨k, each', g1, g2, g3⟩ := h'.t3
    exact ⟨l, k, h1, g1, h3.trans ((each_same h2 g2).trans g3.symm)⟩

end Verif
