import Verif.Spec.DemoMain
import Verif.Props.Demo
import Verif.Props.DemoText
import Verif.Props.Held

/-! Lemmas for the whole of `oitable-demo`. -/

namespace Verif
open Outcome Spec

variable {R : FP} {α : Type}

/-! ### Names entered -/

theorem fgetsLine_line {n : Nat} {name rest : CStr} (hl : name.length < n) (h1 : '\n' ∉ name) :
    fgetsLine n (name ++ '\n' :: rest) = (name ++ ['\n'], rest) := by
  induction name generalizing n with
  | nil => cases n with
    | zero => cases hl
    | succ n => rfl
  | cons c s ih =>
    cases n with
    | zero => cases hl
    | succ n =>
      have hc : c ≠ '\n' := fun e => h1 (e ▸ List.mem_cons_self)
      have := ih (n := n) (by simpa using hl) (fun h => h1 (List.mem_cons_of_mem _ h))
      rw [List.cons_append, fgetsLine, if_neg hc, this]
      rfl

theorem fgetsLine_short {n : Nat} {name : CStr} (hl : name.length ≤ n) (h1 : '\n' ∉ name) :
    fgetsLine n name = (name, []) := by
  induction name generalizing n with
  | nil => cases n <;> rfl
  | cons c s ih =>
    cases n with
    | zero => cases hl
    | succ n =>
      have hc : c ≠ '\n' := fun e => h1 (e ▸ List.mem_cons_self)
      have := ih (n := n) (by simpa using hl) (fun h => h1 (List.mem_cons_of_mem _ h))
      rw [fgetsLine, if_neg hc, this]

theorem askName_line {old : Option CStr} {name : CStr} (h : Enterable name) (rest : CStr) :
    askName old (entered name ++ rest) = .ok (name, rest) := by
  have e : entered name ++ rest = name ++ '\n' :: rest := by simp [entered]
  have hl : name.length < FLEN_FILENAME - 1 := by have := h.short; unfold FLEN_FILENAME; omega
  unfold askName
  rw [e, if_neg (by simp), fgetsLine_line hl h.one]
  simp

theorem askName_last {old : Option CStr} {name : CStr} (h : Enterable name) (h0 : name ≠ []) :
    askName old name = .ok (name.dropLast, []) := by
  have hl : name.length ≤ FLEN_FILENAME - 1 := by have := h.short; unfold FLEN_FILENAME; omega
  unfold askName
  rw [if_neg h0, fgetsLine_short hl h.one]

/-- Names are pieces of what is entered. -/
theorem fgetsLine_append (n : Nat) (s : CStr) : (fgetsLine n s).1 ++ (fgetsLine n s).2 = s := by
  induction n generalizing s with
  | zero => rfl
  | succ n ih =>
    cases s with
    | nil => rfl
    | cons c s =>
      rw [fgetsLine]
      split
      · rename_i h; rw [h]; rfl
      · have := ih s
        simp only [List.cons_append, this]

theorem askName_mem {old : Option CStr} {stdin name rest : CStr} (h : askName old stdin = .ok (name, rest)) {c : Char} :
    (c ∈ name → c ∈ stdin ∨ ∃ s, old = some s ∧ c ∈ s) ∧ (c ∈ rest → c ∈ stdin) := by
  unfold askName at h
  split at h
  · rename_i h0
    split at h
    · cases h
    · cases h
    · rename_i s _
      cases h
      exact ⟨fun hc => .inr ⟨s, rfl, List.dropLast_subset _ hc⟩, fun hc => by cases hc⟩
  · have e := fgetsLine_append (FLEN_FILENAME - 1) stdin
    simp only [Outcome.ok.injEq, Prod.mk.injEq] at h
    obtain ⟨rfl, rfl⟩ := h
    exact ⟨fun hc => .inl (e ▸ List.mem_append_left _ (List.dropLast_subset _ hc)),
      fun hc => e ▸ List.mem_append_right _ hc⟩

theorem createPath_plain {fs : Files R} {filename : CStr} (h : filename.head? ≠ some '!') :
    createPath fs filename = (filename, (fs filename).isSome) := by
  unfold createPath
  split
  · exact absurd rfl h
  · rfl

/-! ### Words -/

theorem words_ne_nil {s : CStr} : ∀ w ∈ words s, w ≠ [] := by
  induction s with
  | nil => intro w hw; cases hw
  | cons c s ih =>
    cases hc : isSpace c with
    | true => rw [words_space hc]; exact ih
    | false =>
      have e : words (c :: s) = (c :: (splitWords s).1) :: (splitWords s).2 := by
        simp only [words, splitWords, hc]
        rfl
      rw [e]
      intro w hw
      rcases List.mem_cons.mp hw with rfl | hw
      · exact List.cons_ne_nil _ _
      · refine ih w ?_
        unfold words
        simp only
        split
        · exact hw
        · exact List.mem_cons_of_mem _ hw

theorem rtrim_ne_nil {s : CStr} {c : Char} (hm : c ∈ s) (hc : c ≠ ' ') : rtrim s ≠ [] := by
  unfold rtrim
  intro h
  rw [List.reverse_eq_nil_iff] at h
  have key : ∀ l : CStr, l.dropWhile (· == ' ') = [] → ∀ x ∈ l, x = ' ' := by
    intro l
    induction l with
    | nil => intro _ x hx; cases hx
    | cons a l ih =>
      intro hl x hx
      rw [List.dropWhile_cons] at hl
      split at hl
      · rename_i ha
        rcases List.mem_cons.mp hx with rfl | hx
        · simpa using ha
        · exact ih hl x hx
      · cases hl
  exact hc (key _ h c (List.mem_reverse.mpr hm))

theorem keyStr_word {s w : CStr} (hw : w ∈ words s) : keyStr w ≠ [] := by
  have h1 := words_ne_nil w hw
  have h2 := no_blank w hw
  cases w with
  | nil => exact absurd rfl h1
  | cons c w =>
    refine rtrim_ne_nil (c := c) ?_ ?_
    · rw [cardFit]
      have : (if c = '\'' then 2 else 1) ≤ 68 := by split <;> omega
      simp only [if_pos this]
      exact List.mem_cons_self
    · rintro rfl
      exact absurd (h2 ' ' List.mem_cons_self) (by decide)

/-! ### The file made -/

theorem resolves_one {hdus : List (Hdu R)} {name keyword value s : CStr} {read : FitsM R α} {i : Nat} {h : Hdu R}
    (hpos : positions name hdus = [i]) (hat : hdus[i]? = some h) (hk : h.keys.lookup keyword = some (.str s))
    (hr : (readable read hdus i).isSome = true) : Resolves name keyword value read hdus ↔ value = s := by
  have hmem : ∀ j, 0 < j → (hdus[j]?).any (isTableOf name keyword value) = true → j = i := by
    intro j h0 hj
    have : j ∈ positions name hdus := by
      cases e : hdus[j]? with
      | none => rw [e] at hj; cases hj
      | some x =>
        rw [e] at hj
        have hj : isTableOf name keyword value x = true := hj
        unfold isTableOf at hj
        rw [Bool.and_eq_true] at hj
        exact mem_positions.mpr ⟨h0, x, e, hj.1⟩
    rw [hpos] at this
    exact List.mem_singleton.mp this
  have hi : 0 < i ∧ ∃ h, hdus[i]? = some h ∧ isTable name h = true := mem_positions.mp (hpos ▸ List.mem_singleton.mpr rfl)
  have hany : (hdus[i]?).any (isTableOf name keyword value) = true ↔ value = s := by
    rw [hat]
    show isTableOf name keyword value h = true ↔ _
    obtain ⟨-, h', e, ht⟩ := hi
    rw [hat] at e
    cases e
    unfold isTableOf
    rw [hk, ht]
    simp only [Bool.true_and, beq_iff_eq]
    exact eq_comm
  constructor
  · rintro ⟨j, ⟨h0, h1, -⟩, -⟩
    have := hmem j h0 h1
    subst this
    exact hany.mp h1
  · intro e
    refine ⟨i, ⟨hi.1, hany.mpr e, fun j h0 hlt => ?_⟩, hr⟩
    cases hb : (hdus[j]?).any (isTableOf name keyword value) with
    | false => rfl
    | true => exact absurd (hmem j h0 hb) (by omega)

/-- The file which the program makes. -/
def demoFile (today : CStr) (header : OiHeader) (d : DemoInput R) : List (Hdu R) :=
  fileOfCalls today header (demoCalls header d)

variable {today : CStr} {header : OiHeader} {d : DemoInput R}

theorem demoFile_positions (today : CStr) (header : OiHeader) (d : DemoInput R) :
    positions "OI_VIS" (demoFile today header d) = [2] ∧ positions "OI_VIS2" (demoFile today header d) = [3] ∧
    positions "OI_T3" (demoFile today header d) = [4] ∧ positions "OI_FLUX" (demoFile today header d) = [5] ∧
    positions "OI_ARRAY" (demoFile today header d) = [6] ∧ positions "OI_WAVELENGTH" (demoFile today header d) = [7] ∧
    positions "OI_CORR" (demoFile today header d) = [8] ∧ positions "OI_INSPOL" (demoFile today header d) = [9] ∧
    (demoFile today header d).findIdx? (isTable "OI_TARGET") = some 1 :=
  ⟨rfl, rfl, rfl, rfl, rfl, rfl, rfl, rfl, rfl⟩

/-- Names of tables are strings. -/
def NamesAreStrings (l : List (CStr × KeyVal R)) : Prop :=
  ∀ p ∈ l, p.1 ∈ (["ARRNAME", "INSNAME", "CORRNAME"] : List CStr) → ∃ s, p.2 = .str s

theorem NamesAreStrings.key {k : CStr} {h : Hdu R} (hl : NamesAreStrings h.keys)
    (hk : k ∈ (["ARRNAME", "INSNAME", "CORRNAME"] : List CStr)) : StringKey k h := by
  intro v hv
  generalize h.keys = l at hl hv
  induction l with
  | nil => cases hv
  | cons p l ih =>
    obtain ⟨a, b⟩ := p
    rw [List.lookup_cons] at hv
    split at hv
    · rename_i e
      cases hv
      exact hl _ List.mem_cons_self ((beq_iff_eq.mp e) ▸ hk)
    · exact ih (fun p hp => hl p (List.mem_cons_of_mem _ hp)) hv

theorem names_nil : NamesAreStrings ([] : List (CStr × KeyVal R)) := fun p hp => by cases hp

theorem names_str {a v : CStr} {l : List (CStr × KeyVal R)} (hl : NamesAreStrings l) : NamesAreStrings ((a, .str v) :: l) := by
  intro p hp hk
  rcases List.mem_cons.mp hp with rfl | hp
  · exact ⟨v, rfl⟩
  · exact hl p hp hk

theorem names_other {a : CStr} {v : KeyVal R} {l : List (CStr × KeyVal R)}
    (ha : a ∉ (["ARRNAME", "INSNAME", "CORRNAME"] : List CStr)) (hl : NamesAreStrings l) : NamesAreStrings ((a, v) :: l) := by
  intro p hp hk
  rcases List.mem_cons.mp hp with rfl | hp
  · exact absurd hk ha
  · exact hl p hp hk

theorem names_append {l₁ l₂ : List (CStr × KeyVal R)} (h1 : NamesAreStrings l₁) (h2 : NamesAreStrings l₂) :
    NamesAreStrings (l₁ ++ l₂) := by
  intro p hp hk
  rcases List.mem_append.mp hp with hp | hp
  · exact h1 p hp hk
  · exact h2 p hp hk

theorem names_ite {c : Prop} [Decidable c] {l₁ l₂ : List (CStr × KeyVal R)} (h1 : NamesAreStrings l₁)
    (h2 : NamesAreStrings l₂) : NamesAreStrings (if c then l₁ else l₂) := by
  split
  · exact h1
  · exact h2

theorem names_optKey (name v : CStr) : NamesAreStrings (optKey (R := R) name v) :=
  names_ite names_nil (names_str names_nil)

theorem names_optOrder {name : CStr} (h : name ∉ (["ARRNAME", "INSNAME", "CORRNAME"] : List CStr)) (v : Int) :
    NamesAreStrings (optOrder (R := R) name v) :=
  names_ite (names_other h names_nil) names_nil

theorem demoFile_keys (today : CStr) (header : OiHeader) (d : DemoInput R) :
    ∀ h ∈ demoFile today header d, NamesAreStrings h.keys := by
  intro h hh
  simp only [demoFile, fileOfCalls, demoCalls, List.filterMap_cons, List.filterMap_nil, WriteCall.hdu?, List.mem_cons,
    List.not_mem_nil, or_false] at hh
  rcases hh with rfl | rfl | rfl | rfl | rfl | rfl | rfl | rfl | rfl | rfl
  all_goals
    dsimp only [hduPrimary, hduTarget, hduVis, hduVis2, hduT3, hduFlux, hduArray, hduWavelength, hduCorr, hduInspol]
    repeat' first
      | exact names_nil
      | exact names_optKey _ _
      | exact names_optOrder (by decide) _
      | refine names_append ?_ ?_
      | refine names_str ?_
      | refine names_ite ?_ ?_
      | refine names_other (by decide) ?_

theorem demoFile_plain (today : CStr) (header : OiHeader) (d : DemoInput R) : PlainFile (demoFile today header d) := by
  refine ⟨List.cons_ne_nil _ _, ?_, fileOfCalls_names _ _ _, fun h hh => (demoFile_keys _ _ _ h hh).key (by decide),
    fun h hh => (demoFile_keys _ _ _ h hh).key (by decide), fun h hh => (demoFile_keys _ _ _ h hh).key (by decide)⟩
  intro h hh
  simp only [demoFile, fileOfCalls, demoCalls, List.filterMap_cons, List.filterMap_nil, WriteCall.hdu?, List.mem_cons,
    List.not_mem_nil, or_false, List.drop_succ_cons, List.drop_zero] at hh
  rcases hh with rfl | rfl | rfl | rfl | rfl | rfl | rfl | rfl | rfl <;> rfl

theorem readable_one {name : CStr} {hdus : List (Hdu R)} {read : FitsM R α} {i : Nat} {a : α}
    (hpos : positions name hdus = [i]) (h : [a] = (positions name hdus).filterMap (readable read hdus)) :
    readable read hdus i = some a := by
  rw [hpos, List.filterMap_cons] at h
  cases e : readable read hdus i with
  | none => rw [e] at h; cases h
  | some x => rw [e] at h; cases h; rfl

theorem readable_map {name : CStr} {hdus : List (Hdu R)} {read : FitsM R α} {i : Nat} {a : α}
    (hpos : positions name hdus = [i]) (h : (positions name hdus).map (readable read hdus) = [a].map some) :
    readable read hdus i = some a := by
  rw [hpos] at h
  exact (List.cons.inj h).1

/-- The names by which the tables refer to others are those of the tables. -/
structure DemoInput.Linked (d : DemoInput R) : Prop where
  array : ∀ w ∈ [d.vis.arrname, d.vis2.arrname, d.t3.arrname, d.flux.arrname], keyStr w ≠ [] → keyStr w = keyStr d.array.arrname
  inspol : keyStr d.inspol.arrname = keyStr d.array.arrname
  wave : ∀ w ∈ [d.vis.insname, d.vis2.insname, d.t3.insname, d.flux.insname], keyStr w = keyStr d.wave.insname
  corr : ∀ w ∈ [d.vis.corrname, d.vis2.corrname, d.t3.corrname, d.flux.corrname], keyStr w ≠ [] → keyStr w = keyStr d.corr.corrname

/-- The lines which are printed. -/
def DemoInput.listed (d : DemoInput R) : List DemoLine :=
  [⟨"OI_VIS", keyStr d.vis.arrname, keyStr d.vis.insname, keyStr d.vis.corrname⟩,
   ⟨"OI_VIS2", keyStr d.vis2.arrname, keyStr d.vis2.insname, keyStr d.vis.corrname⟩,
   ⟨"OI_T3", keyStr d.t3.arrname, keyStr d.t3.insname, keyStr d.t3.corrname⟩,
   ⟨"OI_FLUX", keyStr d.flux.arrname, keyStr d.flux.insname, keyStr d.flux.corrname⟩,
   ⟨"OI_INSPOL", keyStr d.inspol.arrname, [], []⟩]

theorem allRead_one {τ : Type} {read : FitsM R τ} {refs : τ → Prop} {hdus : List (Hdu R)} {i : Nat} {a : τ} {l : List τ}
    (hr : readable read hdus i = some a) : AllRead read refs hdus [i] l ↔ l = [a] ∧ refs a := by
  unfold AllRead
  rw [List.map_cons, hr, List.map_nil]
  constructor
  · rintro ⟨h1, h2⟩
    cases l with
    | nil => cases h1
    | cons x l =>
      cases l with
      | nil => cases h1; exact ⟨rfl, h2 _ List.mem_cons_self⟩
      | cons => cases h1
  · rintro ⟨rfl, h⟩
    exact ⟨rfl, fun t ht => (List.mem_singleton.mp ht) ▸ h⟩

/-- When `demo_read` of the file made succeeds, and what it lists. -/
theorem demoFile_read (u : Undef R) {oi : OiFits R} {st : Status}
    (h : read_oi_fits u (some (demoFile today header d)) .ok = .ok (some oi, st))
    (h1 : oi.arrayList = [d.array.asRead]) (h2 : oi.wavelengthList = [d.wave.asRead])
    (h3 : oi.corrList = [d.corr.asRead]) (h4 : oi.inspolList = [d.inspol.asRead]) (h5 : oi.visList = [d.vis.asRead u.int])
    (h6 : oi.vis2List = [d.vis2.asRead u.int]) (h7 : oi.t3List = [d.t3.asRead u.int])
    (h8 : oi.fluxList = [d.flux.asRead u.int]) (lines : List DemoLine) :
    demo_read u (some (demoFile today header d)) = .ok (lines, true) ↔ d.Linked ∧ lines = d.listed := by
  have hp := demoFile_plain today header d
  obtain ⟨p1, p2, p3, p4, p5, p6, p7, p8, p9⟩ := demoFile_positions today header d
  obtain ⟨r1, r2, r3, r4, r5, r6, r7, r8⟩ := C66_tables hp.primary hp.names h
  rw [h1] at r1; rw [h2] at r2; rw [h3] at r3; rw [h4] at r4; rw [h5] at r5; rw [h6] at r6; rw [h7] at r7; rw [h8] at r8
  have r1 := readable_map p5 r1
  have r2 := readable_map p6 r2
  have r3 := readable_one p7 r3
  have r4 := readable_one p8 r4
  have r5 := readable_one p1 r5
  have r6 := readable_one p2 r6
  have r7 := readable_one p3 r7
  have r8 := readable_one p4 r8
  have ra : ∀ v, Resolves "OI_ARRAY" "ARRNAME" v (read_next_oi_array u u.array) (demoFile today header d) ↔
      v = keyStr d.array.arrname := fun v => resolves_one p5 rfl rfl (by rw [r1]; rfl)
  have rw_ : ∀ v, Resolves "OI_WAVELENGTH" "INSNAME" v (read_next_oi_wavelength u u.wave) (demoFile today header d) ↔
      v = keyStr d.wave.insname := fun v => resolves_one p6 rfl rfl (by rw [r2]; rfl)
  have rc : ∀ v, Resolves "OI_CORR" "CORRNAME" v (read_next_oi_corr u u.corr) (demoFile today header d) ↔
      v = keyStr d.corr.corrname := fun v => resolves_one p7 rfl rfl (by rw [r3]; rfl)
  have refs : ∀ a i c, RefsRead u (demoFile today header d) a i c ↔
      (a ≠ [] → a = keyStr d.array.arrname) ∧ (c ≠ [] → c = keyStr d.corr.corrname) ∧ i = keyStr d.wave.insname := by
    intro a i c
    constructor
    · rintro ⟨x, y, z⟩
      exact ⟨fun e => (ra a).mp (x e), fun e => (rc c).mp (y e), (rw_ i).mp z⟩
    · rintro ⟨x, y, z⟩
      exact ⟨fun e => (ra a).mpr (x e), fun e => (rc c).mpr (y e), (rw_ i).mpr z⟩
  have head : HeadRead (demoFile today header d) 1 := by
    obtain ⟨p, hd, e1, e2, -⟩ := C77_header hp.primary h
    obtain ⟨t, e3, e4⟩ := C77_targets hp.primary hp.names h
    refine ⟨⟨p, hd, e1, e2⟩, p9, t, _, ?_, e4⟩
    rw [List.find?_eq_some_iff_getElem] at e3
    obtain ⟨e5, i, hi, e6, e7⟩ := e3
    have : (demoFile today header d).findIdx? (isTable "OI_TARGET") = some i := by
      rw [List.findIdx?_eq_some_iff_getElem]
      exact ⟨hi, e6 ▸ e5, fun j hj => by simpa using e7 j hj⟩
    rw [p9] at this
    cases this
    rw [← e6]
    exact List.getElem?_eq_getElem hi
  have reads : ∀ t : DemoTables R, DemoReads u (demoFile today header d) [2] t ↔
      d.Linked ∧ t = ⟨[d.vis.asRead u.int], [d.vis2.asRead u.int], [d.t3.asRead u.int], [d.flux.asRead u.int],
        [d.inspol.asRead]⟩ := by
    intro t
    constructor
    · rintro ⟨a1, a2, a3, a4, a5⟩
      rw [p2] at a2; rw [p3] at a3; rw [p4] at a4; rw [p8] at a5
      rw [allRead_one r5] at a1; rw [allRead_one r6] at a2; rw [allRead_one r7] at a3; rw [allRead_one r8] at a4
      rw [allRead_one r4, ra] at a5
      rw [refs] at a1 a2 a3 a4
      refine ⟨⟨?_, a5.2, ?_, ?_⟩, ?_⟩
      · simp only [List.mem_cons, List.not_mem_nil, or_false, forall_eq_or_imp, forall_eq]
        exact ⟨a1.2.1, a2.2.1, a3.2.1, a4.2.1⟩
      · simp only [List.mem_cons, List.not_mem_nil, or_false, forall_eq_or_imp, forall_eq]
        exact ⟨a1.2.2.2, a2.2.2.2, a3.2.2.2, a4.2.2.2⟩
      · simp only [List.mem_cons, List.not_mem_nil, or_false, forall_eq_or_imp, forall_eq]
        exact ⟨a1.2.2.1, a2.2.2.1, a3.2.2.1, a4.2.2.1⟩
      · obtain ⟨_, _, _, _, _⟩ := t
        simp only at a1 a2 a3 a4 a5
        rw [a1.1, a2.1, a3.1, a4.1, a5.1]
    · rintro ⟨⟨l1, l2, l3, l4⟩, rfl⟩
      simp only [List.mem_cons, List.not_mem_nil, or_false, forall_eq_or_imp, forall_eq] at l1 l3 l4
      refine ⟨(allRead_one r5).mpr ⟨rfl, (refs _ _ _).mpr ⟨l1.1, l4.1, l3.1⟩⟩, p2 ▸ (allRead_one r6).mpr ⟨rfl, (refs _ _ _).mpr
        ⟨l1.2.1, l4.2.1, l3.2.1⟩⟩, p3 ▸ (allRead_one r7).mpr ⟨rfl, (refs _ _ _).mpr ⟨l1.2.2.1, l4.2.2.1, l3.2.2.1⟩⟩,
        p4 ▸ (allRead_one r8).mpr ⟨rfl, (refs _ _ _).mpr ⟨l1.2.2.2, l4.2.2.2, l3.2.2.2⟩⟩,
        p8 ▸ (allRead_one r4).mpr ⟨rfl, (ra _).mpr l2⟩⟩
  rw [C84_exact_partial u hp]
  constructor
  · rintro ⟨p, t, e1, e2, -, rfl⟩
    have : p = 1 := by have := e1.2.1; rw [p9] at this; cases this; rfl
    subst this
    rw [p1] at e2
    obtain ⟨e3, rfl⟩ := (reads t).mp e2
    exact ⟨e3, rfl⟩
  · rintro ⟨e1, rfl⟩
    have hr := (reads ⟨[d.vis.asRead u.int], [d.vis2.asRead u.int], [d.t3.asRead u.int], [d.flux.asRead u.int],
        [d.inspol.asRead]⟩).mpr ⟨e1, rfl⟩
    exact ⟨1, _, head, by rw [p1]; exact hr, .inr (List.cons_ne_nil _ _), rfl⟩

end Verif
