import Verif.Proof.ConformMerge
import Verif.Proof.ConformFile

/-! Merged datasets have what is needed for their files to conform. -/

set_option Elab.async false

namespace Verif
open Outcome Spec

variable {R : FP} {ins : List (OiFits R)} {out oi : OiFits R} {u : Undef R} {fs : Files R} {name : CStr}

/-! ### References -/

theorem mem_zipTables {τ : Type} {tabs : OiFits R → List τ} {q : OiFits R × HMap CStr × HMap CStr × HMap CStr} {t : τ} :
    ∀ {ins : List (OiFits R)} {as is cs : List (HMap CStr)}, (q, t) ∈ zipTables tabs ins as is cs →
    q.1 ∈ ins ∧ t ∈ tabs q.1 ∧
      ∀ {σ : Type} (tabs' : OiFits R → List σ), ∀ s ∈ tabs' q.1, (q, s) ∈ zipTables tabs' ins as is cs
  | inp :: ins, a :: as, i :: is, c :: cs, h => by
    unfold zipTables at h
    rcases List.mem_append.mp h with h | h
    · obtain ⟨x, hx, e⟩ := List.mem_map.mp h
      cases e
      refine ⟨List.mem_cons_self, hx, fun tabs' s hs => ?_⟩
      unfold zipTables
      exact List.mem_append_left _ (List.mem_map.mpr ⟨s, hs, rfl⟩)
    · obtain ⟨h1, h2, h3⟩ := mem_zipTables h
      refine ⟨List.mem_cons_of_mem _ h1, h2, fun tabs' s hs => ?_⟩
      unfold zipTables
      exact List.mem_append_right _ (h3 tabs' s hs)

theorem forall₂_right {α β : Type} {P : α → β → Prop} {l : List α} {l' : List β} (h : List.Forall₂ P l l') {y : β}
    (hy : y ∈ l') : ∃ x ∈ l, P x y := by
  induction h with
  | nil => cases hy
  | cons hp _ ih =>
    rcases List.mem_cons.mp hy with rfl | hy
    · exact ⟨_, List.mem_cons_self, hp⟩
    · obtain ⟨x, hx, h⟩ := ih hy
      exact ⟨x, List.mem_cons_of_mem _ hx, h⟩

theorem forall₂_left' {α β : Type} {P : α → β → Prop} {l : List α} {l' : List β} (h : List.Forall₂ P l l') {x : α}
    (hx : x ∈ l) : ∃ y ∈ l', P x y := by
  induction h with
  | nil => cases hx
  | cons hp _ ih =>
    rcases List.mem_cons.mp hx with rfl | hx
    · exact ⟨_, List.mem_cons_self, hp⟩
    · obtain ⟨y, hy, h⟩ := ih hx
      exact ⟨y, List.mem_cons_of_mem _ hy, h⟩

/-- Merging keeps what refers to the same table referring to the same table. -/
theorem shared_merged (hw : ∀ oi ∈ ins, oi.WF) (hs : ∀ oi ∈ ins, SharedReferences oi)
    (h : merge_oi_fits_list ins = .ok out) : SharedReferences out := by
  obtain ⟨mjd, st, sa, si, sc, as, is, cs, hm⟩ := merge_spec h
  obtain ⟨z1, z2, z3, z4, z5⟩ := hm.zip
  constructor
  · intro t' ht' hne
    obtain ⟨⟨q, t⟩, h1, h2⟩ := forall₂_right z5 ht'
    obtain ⟨h3, h4, h5⟩ := mem_zipTables h1
    have e := (mergedFlux_spec ((hw _ h3).flux t h4) h2).2.2.2.2
    have hne' : t.corrname ≠ [] := by
      intro en; rw [en] at e; exact hne e
    rcases (hs _ h3).flux t h4 hne' with ⟨v, hv, ev⟩ | ⟨v, hv, ev⟩ | ⟨v, hv, ev⟩
    · obtain ⟨v', h6, h7⟩ := forall₂_left' z2 (h5 OiFits.visList v hv)
      refine .inl ⟨v', h6, ?_⟩
      rw [e, (mergedVis_spec ((hw _ h3).vis v hv) h7).2.2.2.2.2, ev]
    · obtain ⟨v', h6, h7⟩ := forall₂_left' z3 (h5 OiFits.vis2List v hv)
      refine .inr (.inl ⟨v', h6, ?_⟩)
      rw [e, (mergedVis2_spec ((hw _ h3).vis2 v hv) h7).2.2.2.2, ev]
    · obtain ⟨v', h6, h7⟩ := forall₂_left' z4 (h5 OiFits.t3List v hv)
      refine .inr (.inr ⟨v', h6, ?_⟩)
      rw [e, (mergedT3_spec ((hw _ h3).t3 v hv) h7).2.2.2.2, ev]
  · intro t' ht' hne
    obtain ⟨⟨q, t⟩, h1, h2⟩ := forall₂_right z1 ht'
    obtain ⟨h3, h4, h5⟩ := mem_zipTables h1
    have E := mergedInspol_spec ((hw _ h3).inspol t h4) h2
    have e := E.2.2.1
    have hne' : t.record ≠ [] := by
      intro en
      have := E.1.2.1
      rw [en] at this
      exact hne (List.eq_nil_of_length_eq_zero this.symm)
    rcases (hs _ h3).inspol t h4 hne' with ⟨v, hv, ev⟩ | ⟨v, hv, ev⟩ | ⟨v, hv, ev⟩ | ⟨v, hv, ev⟩
    · obtain ⟨v', h6, h7⟩ := forall₂_left' z2 (h5 OiFits.visList v hv)
      refine .inl ⟨v', h6, ?_⟩
      rw [e, (mergedVis_spec ((hw _ h3).vis v hv) h7).2.2.2.1, ev]
    · obtain ⟨v', h6, h7⟩ := forall₂_left' z3 (h5 OiFits.vis2List v hv)
      refine .inr (.inl ⟨v', h6, ?_⟩)
      rw [e, (mergedVis2_spec ((hw _ h3).vis2 v hv) h7).2.2.1, ev]
    · obtain ⟨v', h6, h7⟩ := forall₂_left' z4 (h5 OiFits.t3List v hv)
      refine .inr (.inr (.inl ⟨v', h6, ?_⟩))
      rw [e, (mergedT3_spec ((hw _ h3).t3 v hv) h7).2.2.1, ev]
    · obtain ⟨v', h6, h7⟩ := forall₂_left' z5 (h5 OiFits.fluxList v hv)
      refine .inr (.inr (.inr ⟨v', h6, ?_⟩))
      rw [e, (mergedFlux_spec ((hw _ h3).flux v hv) h7).2.2.1, ev]

/-- In a conforming dataset which has been read from a file, spectra and OI_INSPOL tables refer to nothing else than
other data do. -/
theorem shared_of_holds (h : Holds u fs name oi) (hc : Conforms oi) : SharedReferences oi := by
  obtain ⟨hdus, -, hr⟩ := h
  have h0 : hdus ≠ [] := by
    rintro rfl
    obtain ⟨st, e⟩ := read_empty u
    rw [e] at hr
    cases hr
  have hh := (read_gathered h0 hr).2.hashed
  constructor
  · intro t ht hne
    have h1 := hc.corrFlux t ht hne
    unfold oi_fits_lookup_corr at h1
    rw [hh.corr] at h1
    split at h1
    · next hm =>
      have hm := (List.mem_filter.mp hm).1
      simp only [allRefs, List.map_append, List.map_map, List.mem_append, List.mem_map, Function.comp] at hm
      rcases hm with ((⟨v, hv, e⟩ | ⟨v, hv, e⟩) | ⟨v, hv, e⟩) | ⟨v, hv, e⟩
      · exact .inl ⟨v, hv, e⟩
      · exact .inr (.inl ⟨v, hv, e⟩)
      · exact .inr (.inr ⟨v, hv, e⟩)
      · exact absurd e.symm hne
    · cases h1
  · intro t ht hrec
    obtain ⟨r, hr'⟩ := List.exists_mem_of_ne_nil _ hrec
    obtain ⟨a, h1, -⟩ := hc.staInspol t ht (hc.arrInspol t ht) r hr' r.sta_index (List.mem_singleton.mpr rfl)
    rw [hh.array] at h1
    split at h1
    · next hm =>
      have hm := (List.mem_filter.mp hm).1
      simp only [allRefs, List.map_append, List.map_map, List.mem_append, List.mem_map, Function.comp] at hm
      rcases hm with ((⟨v, hv, e⟩ | ⟨v, hv, e⟩) | ⟨v, hv, e⟩) | ⟨v, hv, e⟩
      · exact .inl ⟨v, hv, e⟩
      · exact .inr (.inl ⟨v, hv, e⟩)
      · exact .inr (.inr (.inl ⟨v, hv, e⟩))
      · exact .inr (.inr (.inr ⟨v, hv, e⟩))
    · cases h1

/-! ### Texts -/

/-- The room which a text takes on a header card. -/
def cardLen (s : CStr) : Nat := (s.map fun c => if c = '\'' then 2 else 1).sum

theorem cardLen_append (s t : CStr) : cardLen (s ++ t) = cardLen s + cardLen t := by
  unfold cardLen; rw [List.map_append, List.sum_append]

theorem cardLen_digits {s : CStr} (h : ∀ c ∈ s, c.isDigit = true) : cardLen s = s.length := by
  unfold cardLen
  induction s with
  | nil => rfl
  | cons c s ih =>
    have hc : c ≠ '\'' := by
      rintro rfl
      exact absurd (h _ List.mem_cons_self) (by decide)
    rw [List.map_cons, List.sum_cons, ih fun d hd => h d (List.mem_cons_of_mem _ hd), if_neg hc, List.length_cons]
    omega

theorem length_le_cardLen (s : CStr) : s.length ≤ cardLen s := by
  unfold cardLen
  induction s with
  | nil => exact Nat.le_refl _
  | cons c s ih =>
    rw [List.map_cons, List.sum_cons, List.length_cons]
    split <;> omega

theorem last_digit {s ds : CStr} (hn : Number ds) : (s ++ ds).getLast? ≠ some ' ' := by
  have hne : ds ≠ [] := by
    rintro rfl
    exact absurd hn.1 (by decide)
  rw [List.getLast?_append_of_ne_nil _ hne]
  intro h
  have := hn.2 ' ' (List.mem_of_getLast? h)
  exact absurd this (by decide)

theorem genName_card {base n : CStr} {k : Nat} (hn : cardLen n ≤ 63) (hk : k < 10000) :
    CardText (genName base n k) := by
  have := length_le_cardLen n
  have h4 := fmt3_length hk
  have hd := fmt3_number k
  unfold genName
  rw [if_pos (by omega)]
  constructor
  · show cardLen _ ≤ 68
    rw [cardLen_append, show '_' :: fmtInt0 3 (k : Int) = ['_'] ++ fmtInt0 3 (k : Int) from rfl, cardLen_append,
      cardLen_digits hd.2, show cardLen ['_'] = 1 from rfl]
    omega
  · rw [show n ++ '_' :: fmtInt0 3 (k : Int) = (n ++ ['_']) ++ fmtInt0 3 (k : Int) by simp]
    exact last_digit hd

theorem card_length {s : CStr} (h : CardText s) : s.length < FLEN_VALUE := by
  have h1 : cardLen s ≤ 68 := h.fits
  have := length_le_cardLen s
  unfold FLEN_VALUE
  omega

theorem card_nil : CardText ([] : CStr) := ⟨by decide, by decide⟩

/-- Names of tables of the merged dataset. -/
theorem ninv_card {τ : Type} {o : Ops τ} {done : List τ} {st : NS τ} (hl : o.Laws) (h : NInv o done st)
    (hp : done.length < 10000) (hc : ∀ x ∈ done, CardText (o.name x))
    (hs : ∀ x ∈ done, cardLen (o.name x) ≤ 63) : ∀ y ∈ st.list, CardText (o.name y) := by
  intro y hy
  obtain ⟨i, hi, rfl⟩ := List.mem_iff_getElem.mp hy
  obtain ⟨x, hx, d, n, hd, e, hn⟩ := h.src i _ (List.getElem?_eq_getElem hi)
  rw [e, hl.name_set]
  rcases hn with rfl | rfl
  · rw [hl.name_dup x d hd]
    exact hc x hx
  · have h1 := h.len
    rw [newName_eq hl.base_len (by omega), hl.name_dup x d hd]
    exact genName_card (hs x hx) (by omega)

theorem replaceName_card {τ : Type} {o : Ops τ} {done list : List τ} {hh : HMap CStr} (hi : HInv o done list hh)
    (hc : ∀ y ∈ list, CardText (o.name y)) {n n' : CStr} (hn : CardText n) (e : n' = replaceName hh n) :
    CardText n' := by
  rw [e]
  unfold replaceName
  cases hl : hh.lookup n with
  | none => exact hn
  | some v =>
    obtain ⟨-, -, -, y, hy, rfl, -⟩ := hi.sound n v hl
    show CardText (strlcpy (o.name y) FLEN_VALUE)
    have := hc y hy
    unfold strlcpy
    rw [List.take_of_length_le (by have := card_length this; omega)]
    exact this

theorem replaced_card {τ : Type} {o : Ops τ} {done list : List τ} {hh : HMap CStr} (hi : HInv o done list hh)
    (hc : ∀ y ∈ list, CardText (o.name y)) {n n' : CStr} (hn : CardText n) (e : n' = replaceOptName hh n) :
    CardText n' := by
  rw [e]
  unfold replaceOptName
  split
  · exact replaceName_card hi hc hn rfl
  · exact hn

theorem digit_ne_blank (n : Int) : digit n ≠ ' ' := by
  unfold digit
  have : (n % 10).toNat < 10 := by omega
  generalize (n % 10).toNat = k at this
  revert k
  decide

theorem cardLen_le (s : CStr) : cardLen s ≤ 2 * s.length := by
  unfold cardLen
  induction s with
  | nil => exact Nat.le_refl _
  | cons c s ih =>
    rw [List.map_cons, List.sum_cons, List.length_cons]
    split <;> omega

theorem isoDate_card (d : Date) : CardText (isoDate d) := by
  constructor
  · have : cardLen (isoDate d) ≤ 20 := cardLen_le (isoDate d)
    show cardLen _ ≤ 68
    omega
  · unfold isoDate
    intro h
    exact digit_ne_blank d.day (by simpa using h)

theorem summarises_card {vals : List CStr} {v : CStr} (h : Summarises "UNKNOWN" vals v)
    (hv : ∀ x ∈ vals, CardText x) : CardText v := by
  rcases h with ⟨-, rfl⟩ | ⟨-, h, -⟩ | ⟨-, rfl⟩
  · decide
  · exact hv v h
  · decide

/-- The texts of a merged dataset are ones which a file can hold. -/
theorem texts_merged (hw : ∀ oi ∈ ins, oi.WF) (ht : ∀ oi ∈ ins, TextsFit oi) (hm : NamesMergeable ins)
    (hsn : ∀ oi ∈ ins, NamesShort oi) (hh : ∀ oi ∈ ins, HeaderFits oi) (hd : GoodDates ins)
    (h : merge_oi_fits_list ins = .ok out) : TextsFit out := by
  obtain ⟨-, g2, -⟩ := C44_header hh h
  obtain ⟨-, -, tg⟩ := C38_merged_targets h
  have hdate : CardText out.header.date_obs := by
    by_cases hs : ∃ oi ∈ ins, oi.header.date_obs ≠ []
    · obtain ⟨oi, -, d, -, e, -⟩ := C45_earliest_date hd hs h
      rw [e]
      exact isoDate_card d
    · rw [C45_no_date (fun oi ho => by_contra fun hn => hs ⟨oi, ho, hn⟩) h]
      decide
  obtain ⟨mjd, st, sa, si, sc, as, is, cs, hf⟩ := merge_full h
  have ca : ∀ y ∈ sa.list, CardText ((arrOps R).name y) := by
    refine ninv_card (arrLaws R) hf.ainv ?_ (fun x hx => ?_) (fun x hx => ?_)
    · have := hm.arrays.few
      unfold Spec.allNames at this
      rwa [← List.map_flatMap, List.length_map] at this
    · obtain ⟨oi, ho, hx⟩ := List.mem_flatMap.mp hx
      exact (ht oi ho).array x hx
    · obtain ⟨oi, ho, hx⟩ := List.mem_flatMap.mp hx
      exact (hsn oi ho).array x hx
  have cc : ∀ y ∈ sc.list, CardText ((corrOps R).name y) := by
    refine ninv_card (corrLaws R) hf.cinv ?_ (fun x hx => ?_) (fun x hx => ?_)
    · have := hm.corrs.few
      unfold Spec.allNames at this
      rwa [← List.map_flatMap, List.length_map] at this
    · obtain ⟨oi, ho, hx⟩ := List.mem_flatMap.mp hx
      exact (ht oi ho).corr x hx
    · obtain ⟨oi, ho, hx⟩ := List.mem_flatMap.mp hx
      exact (hsn oi ho).corr x hx
  obtain ⟨d1, d2, d3, d4, d5⟩ := hf.data _ _ _ hf.ah hf.ih hf.ch
  constructor
  · have key : ∀ f ∈ mandatoryKeys, CardText (f out.header) := by
      intro f hf'
      refine summarises_card (g2 f hf') fun x hx => ?_
      obtain ⟨oi, ho, rfl⟩ := List.mem_map.mp hx
      have := (ht oi ho).header
      simp only [mandatoryKeys, List.mem_cons, List.not_mem_nil, or_false] at hf'
      rcases hf' with rfl | rfl | rfl | rfl | rfl | rfl <;> exact this _ (by simp)
    intro s hs
    simp only [List.mem_cons, List.not_mem_nil, or_false] at hs
    rcases hs with rfl | rfl | rfl | rfl | rfl | rfl | rfl
    · exact key _ (by simp [mandatoryKeys])
    · exact hdate
    all_goals exact key _ (by simp [mandatoryKeys])
  · intro x hx
    obtain ⟨t0, h1, h2⟩ := tg x hx
    obtain ⟨pre, post, h3, -⟩ := h1
    have hm0 : t0 ∈ allTargets ins := by rw [h3]; simp
    obtain ⟨oi, ho, hm0⟩ := List.mem_flatMap.mp hm0
    rw [h2]
    exact (ht oi ho).targets t0 hm0
  · rw [hf.arrays.1]; exact ca
  · rw [hf.corrs.1]; exact cc
  · intro t' ht'
    obtain ⟨⟨inp, t⟩, hp, a, i, c, hv, -, -, he⟩ := forall₂_right d1 ht'
    obtain ⟨h1, h2⟩ := mem_tablesOf hp
    exact replaced_card hv ca ((ht _ h1).inspol _ h2) (mergedInspol_spec ((hw _ h1).inspol _ h2) he).2.2.1
  · intro t' ht'
    obtain ⟨⟨inp, t⟩, hp, a, i, c, hv, -, hvc, he⟩ := forall₂_right d2 ht'
    obtain ⟨h1, h2⟩ := mem_tablesOf hp
    have E := mergedVis_spec ((hw _ h1).vis _ h2) he
    exact ⟨replaced_card hv ca ((ht _ h1).vis _ h2).1 E.2.2.2.1, replaced_card hvc cc ((ht _ h1).vis _ h2).2 E.2.2.2.2.2⟩
  · intro t' ht'
    obtain ⟨⟨inp, t⟩, hp, a, i, c, hv, -, hvc, he⟩ := forall₂_right d3 ht'
    obtain ⟨h1, h2⟩ := mem_tablesOf hp
    have E := mergedVis2_spec ((hw _ h1).vis2 _ h2) he
    exact ⟨replaced_card hv ca ((ht _ h1).vis2 _ h2).1 E.2.2.1, replaced_card hvc cc ((ht _ h1).vis2 _ h2).2 E.2.2.2.2⟩
  · intro t' ht'
    obtain ⟨⟨inp, t⟩, hp, a, i, c, hv, -, hvc, he⟩ := forall₂_right d4 ht'
    obtain ⟨h1, h2⟩ := mem_tablesOf hp
    have E := mergedT3_spec ((hw _ h1).t3 _ h2) he
    exact ⟨replaced_card hv ca ((ht _ h1).t3 _ h2).1 E.2.2.1, replaced_card hvc cc ((ht _ h1).t3 _ h2).2 E.2.2.2.2⟩
  · intro t' ht'
    obtain ⟨⟨inp, t⟩, hp, a, i, c, hv, -, hvc, he⟩ := forall₂_right d5 ht'
    obtain ⟨h1, h2⟩ := mem_tablesOf hp
    have E := mergedFlux_spec ((hw _ h1).flux _ h2) he
    exact ⟨replaced_card hv ca ((ht _ h1).flux _ h2).1 E.2.2.1, replaced_card hvc cc ((ht _ h1).flux _ h2).2 E.2.2.2.2⟩

theorem names_merged (hm : NamesMergeable ins) (h : merge_oi_fits_list ins = .ok out) : NamesDistinct out := by
  have hl := C48_merge_lookups h
  obtain ⟨mjd, st, sa, si, sc, as, is, cs, hf⟩ := merge_full h
  exact ⟨hf.nodup_array hm.arrays, hl.array, hl.corr⟩

end Verif
