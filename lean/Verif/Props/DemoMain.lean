import Verif.Proof.DemoMain
import Verif.Proof.DemoFail

/-! C98: oitable-demo as a whole. -/

set_option Elab.async false

namespace Verif
open Spec Outcome

variable {R : FP}

section
variable (N : Numerals R) (u : Undef R) (today : CStr) (texts : CStr → CStr) (fs : Files R)

/-- The names in the text match if and only if the tables refer to tables in the file. -/
theorem linked_iff {d : DemoDoc} {text : CStr} (ht : d.IsText text) (any : Int) :
    (d.tables N any).Linked ↔ d.NamesMatch := by
  have hw : ∀ {w : CStr}, w ∈ d.toks.map Tok.word → keyStr w ≠ [] := fun h => keyStr_word (ht.1 ▸ h)
  have ha : ∀ w ∈ [d.vis.arrname, d.vis2.arrname, d.t3.arrname] ++ d.flux.arrname.toList, keyStr w ≠ [] := by
    intro w hm
    refine hw ?_
    simp only [List.cons_append, List.nil_append, List.mem_cons, Option.mem_toList] at hm
    simp only [List.mem_map]
    rcases hm with rfl | rfl | rfl | hm
    · exact ⟨.str 70 d.vis.arrname, by simp [DemoDoc.toks, VisDoc.toks], rfl⟩
    · exact ⟨.str 70 d.vis2.arrname, by simp [DemoDoc.toks, Vis2Doc.toks], rfl⟩
    · exact ⟨.str 70 d.t3.arrname, by simp [DemoDoc.toks, T3Doc.toks], rfl⟩
    · exact ⟨.str 70 w, by simp [DemoDoc.toks, FluxDoc.toks, hm, option], rfl⟩
  have hco : ∀ w ∈ [d.vis.corrname, d.vis2.corrname, d.t3.corrname, d.flux.corrname], keyStr w ≠ [] := by
    intro w hm
    refine hw ?_
    simp only [List.mem_cons, List.not_mem_nil, or_false] at hm
    simp only [List.mem_map]
    rcases hm with rfl | rfl | rfl | rfl
    · exact ⟨.str 70 d.vis.corrname, by simp [DemoDoc.toks, VisDoc.toks], rfl⟩
    · exact ⟨.str 70 d.vis2.corrname, by simp [DemoDoc.toks, Vis2Doc.toks], rfl⟩
    · exact ⟨.str 70 d.t3.corrname, by simp [DemoDoc.toks, T3Doc.toks], rfl⟩
    · exact ⟨.str 70 d.flux.corrname, by simp [DemoDoc.toks, FluxDoc.toks], rfl⟩
  have hfl : (keyStr (d.flux.arrname.getD []) ≠ [] → keyStr (d.flux.arrname.getD []) = keyStr d.array.arrname) ↔
      ∀ w ∈ d.flux.arrname.toList, keyStr w = keyStr d.array.arrname := by
    cases e : d.flux.arrname with
    | none => exact ⟨fun _ w hw => (nomatch hw), fun _ h => absurd rfl h⟩
    | some w =>
      simp only [Option.getD_some, Option.toList_some, List.mem_singleton, forall_eq]
      exact ⟨fun h => h (ha w (by simp [e])), fun h _ => h⟩
  constructor
  · rintro ⟨h1, h2, h3, h4⟩
    refine ⟨fun w hm => ?_, h3, fun w hm => h4 w hm (hco w hm)⟩
    simp only [List.cons_append, List.nil_append, List.mem_cons] at hm
    rcases hm with rfl | rfl | rfl | rfl | hm
    · exact h1 _ (by simp [DemoDoc.tables, VisDoc.table]) (ha _ (by simp))
    · exact h1 _ (by simp [DemoDoc.tables, Vis2Doc.table]) (ha _ (by simp))
    · exact h1 _ (by simp [DemoDoc.tables, T3Doc.table]) (ha _ (by simp))
    · exact h2
    · exact hfl.mp (h1 _ (by simp [DemoDoc.tables, FluxDoc.table])) w hm
  · rintro ⟨h1, h2, h3⟩
    refine ⟨fun w hm hne => ?_, h1 d.inspol.arrname (by simp), h2, fun w hm _ => h3 w hm⟩
    simp only [List.mem_cons, List.not_mem_nil, or_false] at hm
    rcases hm with rfl | rfl | rfl | rfl
    · exact h1 _ (by simp [DemoDoc.tables, VisDoc.table])
    · exact h1 _ (by simp [DemoDoc.tables, Vis2Doc.table])
    · exact h1 _ (by simp [DemoDoc.tables, T3Doc.table])
    · exact hfl.mpr (fun w hw => h1 w (by simp at hw; simp [hw])) hne

/-- The names by which a table refers to others match if and only if the tables are in the file. -/
theorem links_iff {d : DemoDoc} {text : CStr} (ht : d.IsText text) (any : Int) {a : Option CStr} {i c : CStr}
    (ha : ∀ w ∈ a.toList, Tok.str 70 w ∈ d.toks) (hc : Tok.str 70 c ∈ d.toks) :
    (d.tables N any).Links (a.getD []) i c ↔ d.RefsMatch ⟨a.toList, [i], [c]⟩ := by
  have hw : ∀ {w : CStr}, Tok.str 70 w ∈ d.toks → keyStr w ≠ [] := fun h =>
    keyStr_word (ht.1 ▸ List.mem_map.mpr ⟨_, h, rfl⟩)
  unfold DemoInput.Links DemoDoc.RefsMatch
  simp only [List.mem_singleton, forall_eq]
  constructor
  · rintro ⟨h1, h2, h3⟩
    refine ⟨fun w hm => ?_, h3, h2 (hw hc)⟩
    have e : a = some w := by simpa using hm
    subst e
    exact h1 (hw (ha w hm))
  · rintro ⟨h1, h2, h3⟩
    refine ⟨fun hne => ?_, fun _ => h3, h2⟩
    cases a with
    | none => exact absurd rfl hne
    | some w => exact h1 w (by simp)

/-- What the program does up to the second prompt, and the file it would make. -/
theorem demo_up_to_output {d : DemoDoc} (ho : ∀ t ∈ d.toks, t.OK) (hc : d.Consistent) (hd : d.Distinct)
    (hr : d.InRange N) {textname : CStr} (hn : Enterable textname) (ht : d.IsText (texts textname))
    (hf : fs textname ≠ none) :
    ∃ hdus, d.Holds N u.int hdus ∧
      (∀ u' lines, demo_read u' (some hdus) = .ok (lines, true) ↔
        (d.tables N u.int).Linked ∧ lines = (d.tables N u.int).listed) ∧
      (∀ stdin filename rest, askName (some textname) stdin = .ok (filename, rest) → filename.head? ≠ some '!' →
        oitable_demo N u today texts fs (entered textname ++ stdin) =
          if fs filename = none then demoReadMain u (fs.set filename (some (.fits hdus))) rest
          else ⟨.code 1, [], fs⟩) ∧
      ∀ u' k r, d.refs[k]? = some r → ¬ d.RefsMatch r → (∀ r' ∈ d.refs.take k, d.RefsMatch r') →
        demo_read u' (some hdus) = .ok (d.printed.take (k + 1), false) := by
  obtain ⟨st, h⟩ := C91_partial N u ho hc hd ht
  have hs := demo_storable hc hd hr u.int
  obtain ⟨hdus, h1, h2⟩ := C86_demo_partial today u.str u.str hs
  obtain ⟨x, xs, hx⟩ := List.exists_cons_of_ne_nil hs.targets.rows
  obtain ⟨header, hh⟩ : ∃ header, demoHeader u.str u.str (d.tables N u.int) = .ok header := by
    unfold demoHeader
    rw [hx]
    exact ⟨_, rfl⟩
  have hcalls : ∀ c ∈ demoCalls header (d.tables N u.int), c.Storable := by
    intro c hc
    simp only [demoCalls, List.mem_cons, List.not_mem_nil, or_false] at hc
    rcases hc with rfl | rfl | rfl | rfl | rfl | rfl | rfl | rfl | rfl | rfl
    · trivial
    · exact hs.targets
    · exact hs.vis
    · exact hs.vis2
    · exact hs.t3
    · exact hs.flux
    · exact hs.array
    · exact hs.wave
    · exact hs.corr
    · exact hs.inspol
  have hfile : makeFile today false (demoCalls header (d.tables N u.int)) =
      .ok (some (demoFile today header (d.tables N u.int)), .ok) := C86_file today hcalls rfl
  have e : hdus = demoFile today header (d.tables N u.int) := by
    unfold demo_write at h1
    rw [hh] at h1
    have h1 : makeFile today false (demoCalls header (d.tables N u.int)) = .ok (some hdus, .ok) := h1
    rw [hfile] at h1
    cases h1
    rfl
  subst e
  refine ⟨demoFile today header (d.tables N u.int), fun u' => ?_, fun u' lines => ?_, fun stdin filename rest ha hp => ?_,
    fun u' k r hk hno hyes => ?_⟩
  · obtain ⟨oi, f1, f2, f3, f4, f5, f6, f7, f8, f9, f10, -, f11, -⟩ := h2 u'
    exact ⟨oi, f1, f2, f3, f4, f5, f6, f7, f8, f9, f10, f11⟩
  · obtain ⟨oi, f1, f2, f3, f4, f5, f6, f7, f8, f9, f10, -⟩ := h2 u'
    exact demoFile_read u' f1 f3 f4 f5 f6 f7 f8 f9 f10 lines
  · unfold oitable_demo
    rw [askName_line hn]
    have hf' : (fs textname).isNone = false := by
      cases e : fs textname with
      | none => exact absurd e hf
      | some => rfl
    simp only [hf', h, hh, ha]
    rw [createPath_plain hp]
    cases e : fs filename with
    | none =>
      simp only [Option.isSome_none, hfile, if_true]
      rfl
    | some x =>
      simp only [Option.isSome_some]
      rfl
  · obtain ⟨oi, f1, f2, f3, f4, f5, f6, f7, f8, f9, f10, -⟩ := h2 u'
    have key := demoFile_fail u' f1 f3 f4 f5 f6 f7 f8 f9 f10
    have l1 := links_iff N ht u.int (a := some d.vis.arrname) (i := d.vis.insname) (c := d.vis.corrname)
      (by simp [DemoDoc.toks, VisDoc.toks]) (by simp [DemoDoc.toks, VisDoc.toks])
    have l2 := links_iff N ht u.int (a := some d.vis2.arrname) (i := d.vis2.insname) (c := d.vis2.corrname)
      (by simp [DemoDoc.toks, Vis2Doc.toks]) (by simp [DemoDoc.toks, Vis2Doc.toks])
    have l3 := links_iff N ht u.int (a := some d.t3.arrname) (i := d.t3.insname) (c := d.t3.corrname)
      (by simp [DemoDoc.toks, T3Doc.toks]) (by simp [DemoDoc.toks, T3Doc.toks])
    have l4 := links_iff N ht u.int (a := d.flux.arrname) (i := d.flux.insname) (c := d.flux.corrname)
      (by intro w hw; simp only [Option.mem_toList] at hw; simp [DemoDoc.toks, FluxDoc.toks, hw, option])
      (by simp [DemoDoc.toks, FluxDoc.toks])
    have l5 : keyStr d.inspol.arrname = keyStr d.array.arrname ↔ d.RefsMatch ⟨[d.inspol.arrname], [], []⟩ := by
      simp [DemoDoc.RefsMatch]
    match k, hk with
    | 0, hk => cases hk; exact key.1 (l1.not.mpr hno)
    | 1, hk =>
      cases hk
      exact (key.2 (l1.mpr (hyes _ (by simp [DemoDoc.refs])))).1 (l2.not.mpr hno)
    | 2, hk =>
      cases hk
      exact ((key.2 (l1.mpr (hyes _ (by simp [DemoDoc.refs])))).2 (l2.mpr (hyes _ (by simp [DemoDoc.refs])))).1
        (l3.not.mpr hno)
    | 3, hk =>
      cases hk
      exact (((key.2 (l1.mpr (hyes _ (by simp [DemoDoc.refs])))).2 (l2.mpr (hyes _ (by simp [DemoDoc.refs])))).2
        (l3.mpr (hyes _ (by simp [DemoDoc.refs])))).1 (l4.not.mpr hno)
    | 4, hk =>
      cases hk
      exact (((key.2 (l1.mpr (hyes _ (by simp [DemoDoc.refs])))).2 (l2.mpr (hyes _ (by simp [DemoDoc.refs])))).2
        (l3.mpr (hyes _ (by simp [DemoDoc.refs])))).2 (l4.mpr (hyes _ (by simp [DemoDoc.refs]))) (l5.not.mpr hno)

theorem listed_eq (d : DemoDoc) (any : Int) : (d.tables N any).listed = d.printed := rfl

theorem printed_eq {d : DemoDoc} (h : d.NamesMatch) : d.printed = d.listing := by
  have : keyStr d.vis.corrname = keyStr d.vis2.corrname := (h.corr _ (by simp)).trans (h.corr _ (by simp)).symm
  simp [DemoDoc.printed, DemoDoc.listing, this]

/-- The names match if those of every table do. -/
theorem namesMatch_iff (d : DemoDoc) : d.NamesMatch ↔ ∀ r ∈ d.refs, d.RefsMatch r := by
  simp only [DemoDoc.refs, DemoDoc.RefsMatch, List.mem_cons, List.not_mem_nil, or_false, forall_eq_or_imp, forall_eq,
    List.mem_singleton, false_imp_iff, implies_true, and_true]
  constructor
  · rintro ⟨h1, h2, h3⟩
    simp only [List.cons_append, List.nil_append, List.mem_cons, List.not_mem_nil, or_false, forall_eq_or_imp,
      forall_eq] at h1 h2 h3
    obtain ⟨a1, a2, a3, a4, a5⟩ := h1
    obtain ⟨b1, b2, b3, b4⟩ := h2
    obtain ⟨c1, c2, c3, c4⟩ := h3
    exact ⟨⟨a1, b1, c1⟩, ⟨a2, b2, c2⟩, ⟨a3, b3, c3⟩, ⟨a5, b4, c4⟩, a4⟩
  · rintro ⟨⟨a1, b1, c1⟩, ⟨a2, b2, c2⟩, ⟨a3, b3, c3⟩, ⟨a5, b4, c4⟩, a4⟩
    refine ⟨?_, ?_, ?_⟩ <;> simp only [List.cons_append, List.nil_append, List.mem_cons, List.not_mem_nil, or_false,
      forall_eq_or_imp, forall_eq]
    · exact ⟨a1, a2, a3, a4, a5⟩
    · exact ⟨b1, b2, b3, b4⟩
    · exact ⟨c1, c2, c3, c4⟩

/-- C98 for names on lines of their own, texts as in C91, and an output file which is not there. The file is made and holds
what the text describes. If the names in the text match, the tables of data in it are listed, with their names, and
the program ends with success. Otherwise the listing ends with the first table whose names do not match, and the
program ends with failure. Missing: names at the end of the input. -/
theorem C98_partial {d : DemoDoc} (ho : ∀ t ∈ d.toks, t.OK) (hc : d.Consistent) (hd : d.Distinct) (hr : d.InRange N)
    {textname filename : CStr} (hn : Enterable textname) (hn' : Enterable filename) (hx : filename.head? ≠ some '!')
    (ht : d.IsText (texts textname)) (hf : fs textname ≠ none) (hf' : fs filename = none) (rest : CStr) :
    ∃ hdus, d.Holds N u.int hdus ∧
      (d.NamesMatch →
        oitable_demo N u today texts fs (entered textname ++ entered filename ++ entered filename ++ rest) =
          ⟨.code 0, d.listing, fs.set filename (some (.fits hdus))⟩) ∧
      (∀ k r, d.refs[k]? = some r → ¬ d.RefsMatch r → (∀ r' ∈ d.refs.take k, d.RefsMatch r') →
        oitable_demo N u today texts fs (entered textname ++ entered filename ++ entered filename ++ rest) =
          ⟨.code 1, d.printed.take (k + 1), fs.set filename (some (.fits hdus))⟩) := by
  obtain ⟨hdus, h1, h2, h3, h4⟩ := demo_up_to_output N u today texts fs ho hc hd hr hn ht hf
  have e := h3 (entered filename ++ (entered filename ++ rest)) filename _ (askName_line hn' _) hx
  rw [if_pos hf'] at e
  rw [List.append_assoc, List.append_assoc, e]
  have hs : fs.set filename (some (.fits hdus)) filename = some (.fits hdus) := if_pos rfl
  refine ⟨hdus, h1, fun hm => ?_, fun k r hk hno hyes => ?_⟩
  · have hl := (h2 u (d.tables N u.int).listed).mpr ⟨(linked_iff N ht u.int).mpr hm, rfl⟩
    unfold demoReadMain
    rw [askName_line hn']
    simp only [hs, hl, listed_eq, printed_eq hm]
    rfl
  · have hl := h4 u k r hk hno hyes
    unfold demoReadMain
    rw [askName_line hn']
    simp only [hs, hl]
    rfl

/-- If names in the text do not match the program ends with failure, and not all tables are listed or a name of the last
one does not match. -/
theorem C98_mismatch {d : DemoDoc} (ho : ∀ t ∈ d.toks, t.OK) (hc : d.Consistent) (hd : d.Distinct) (hr : d.InRange N)
    {textname filename : CStr} (hn : Enterable textname) (hn' : Enterable filename) (hx : filename.head? ≠ some '!')
    (ht : d.IsText (texts textname)) (hf : fs textname ≠ none) (hf' : fs filename = none) (rest : CStr)
    (hm : ¬ d.NamesMatch) :
    ∃ hdus k r, d.Holds N u.int hdus ∧ d.refs[k]? = some r ∧ ¬ d.RefsMatch r ∧
      oitable_demo N u today texts fs (entered textname ++ entered filename ++ entered filename ++ rest) =
        ⟨.code 1, d.printed.take (k + 1), fs.set filename (some (.fits hdus))⟩ := by
  obtain ⟨hdus, h1, -, h2⟩ := C98_partial N u today texts fs ho hc hd hr hn hn' hx ht hf hf' rest
  rw [namesMatch_iff] at hm
  have key : ∀ l : List DocRefs, (¬ ∀ r ∈ l, d.RefsMatch r) →
      ∃ k r, l[k]? = some r ∧ ¬ d.RefsMatch r ∧ ∀ r' ∈ l.take k, d.RefsMatch r' := by
    intro l
    induction l with
    | nil => intro h; exact absurd (fun r hr => by cases hr) h
    | cons a l ih =>
      intro h
      by_cases ha : d.RefsMatch a
      · obtain ⟨k, r, e1, e2, e3⟩ := ih fun hl => h fun r hr => by
          rcases List.mem_cons.mp hr with rfl | hr
          · exact ha
          · exact hl r hr
        refine ⟨k + 1, r, e1, e2, fun r' hr' => ?_⟩
        rw [List.take_succ_cons] at hr'
        rcases List.mem_cons.mp hr' with rfl | hr'
        · exact ha
        · exact e3 r' hr'
      · exact ⟨0, a, rfl, ha, fun r' hr' => by cases hr'⟩
  obtain ⟨k, r, e1, e2, e3⟩ := key _ hm
  exact ⟨hdus, k, r, h1, e1, e2, h2 k r e1 e2 e3⟩

/-- A file which is there already is left as it is, and the program ends with failure. -/
theorem C98_exists {d : DemoDoc} (ho : ∀ t ∈ d.toks, t.OK) (hc : d.Consistent) (hd : d.Distinct) (hr : d.InRange N)
    {textname filename : CStr} (hn : Enterable textname) (hn' : Enterable filename) (hx : filename.head? ≠ some '!')
    (ht : d.IsText (texts textname)) (hf : fs textname ≠ none) (hf' : fs filename ≠ none) (rest : CStr) :
    oitable_demo N u today texts fs (entered textname ++ entered filename ++ rest) = ⟨.code 1, [], fs⟩ := by
  obtain ⟨hdus, h1, h2, h3, -⟩ := demo_up_to_output N u today texts fs ho hc hd hr hn ht hf
  have e := h3 (entered filename ++ rest) filename _ (askName_line hn' _) hx
  rw [if_neg hf'] at e
  rw [List.append_assoc, e]

/-- Whatever is entered, and whatever the files are: no file which is there is changed if no `!` is entered. -/
theorem C98_keeps (stdin : CStr) (hb : '!' ∉ stdin) {name : CStr} {x : FileData R} (hx : fs name = some x) :
    (oitable_demo N u today texts fs stdin).files name = some x := by
  have hrm : ∀ (fs' : Files R) (s : CStr), (demoReadMain u fs' s).files = fs' := by
    intro fs' s
    unfold demoReadMain
    split
    · split <;> rfl
    · rfl
    · rfl
  unfold oitable_demo
  split
  · rename_i textname stdin1 e1
    split
    · exact hx
    · split
      · split
        · split
          · rename_i filename stdin2 e2
            have hno : '!' ∉ filename := by
              intro hm
              rcases (askName_mem e2).1 hm with h | ⟨s, h, h'⟩
              · exact hb ((askName_mem e1).2 h)
              · cases h
                rcases (askName_mem e1).1 h' with h | ⟨s, h, -⟩
                · exact hb h
                · cases h
            rw [createPath_plain fun e => hno (List.mem_of_mem_head? e)]
            simp only
            have hset : ∀ y, fs filename = none → (fs.set filename y) name = some x := by
              intro y hnone
              have : name ≠ filename := by rintro rfl; rw [hx] at hnone; cases hnone
              exact (if_neg this).trans hx
            cases e : fs filename with
            | some z => exact hx
            | none =>
              simp only [Option.isSome_none]
              split
              · rw [hrm]; exact hset _ e
              · exact hset _ e
              · exact hset _ e
              · exact hset _ e
          · exact hx
          · exact hx
        · exact hx
        · exact hx
      · exact hx
      · exact hx
  · exact hx
  · exact hx

/-- Only one file is touched: the one whose name is entered second, without a leading `!`. -/
theorem C98_one_file (stdin : CStr) : ∃ path, ∀ name, name ≠ path →
    (oitable_demo N u today texts fs stdin).files name = fs name := by
  have hrm : ∀ (fs' : Files R) (s : CStr), (demoReadMain u fs' s).files = fs' := by
    intro fs' s
    unfold demoReadMain
    split
    · split <;> rfl
    · rfl
    · rfl
  have hset : ∀ (path : CStr) y name, name ≠ path → (fs.set path y) name = fs name := fun path y name h => if_neg h
  unfold oitable_demo
  split
  · split
    · exact ⟨[], fun _ _ => rfl⟩
    · split
      · split
        · split
          · rename_i filename stdin2 e2
            generalize createPath fs filename = p
            obtain ⟨path, there⟩ := p
            refine ⟨path, fun name hne => ?_⟩
            simp only
            split
            · rw [hrm]; exact hset _ _ _ hne
            · cases there
              · exact hset _ _ _ hne
              · rfl
            · exact hset _ _ _ hne
            · exact hset _ _ _ hne
          · exact ⟨[], fun _ _ => rfl⟩
          · exact ⟨[], fun _ _ => rfl⟩
        · exact ⟨[], fun _ _ => rfl⟩
        · exact ⟨[], fun _ _ => rfl⟩
      · exact ⟨[], fun _ _ => rfl⟩
      · exact ⟨[], fun _ _ => rfl⟩
  · exact ⟨[], fun _ _ => rfl⟩
  · exact ⟨[], fun _ _ => rfl⟩

/-! ### What is wrong -/

/-- If the last line of the input has no newline, a name loses its last character: the file is made, but not found when
its name is entered again. -/
theorem C98_last_line {d : DemoDoc} (ho : ∀ t ∈ d.toks, t.OK) (hc : d.Consistent) (hd : d.Distinct) (hr : d.InRange N)
    {textname filename : CStr} (hn : Enterable textname) (hn' : Enterable filename) (hx : filename.head? ≠ some '!')
    (ht : d.IsText (texts textname)) (hf : fs textname ≠ none) (hf' : fs filename = none) (h0 : filename ≠ [])
    (hcut : fs filename.dropLast = none) :
    ∃ hdus, d.Holds N u.int hdus ∧
      oitable_demo N u today texts fs (entered textname ++ entered filename ++ filename) =
        ⟨.code 1, [], fs.set filename (some (.fits hdus))⟩ := by
  obtain ⟨hdus, h1, h2, h3, -⟩ := demo_up_to_output N u today texts fs ho hc hd hr hn ht hf
  have e := h3 (entered filename ++ filename) filename _ (askName_line hn' _) hx
  rw [if_pos hf'] at e
  refine ⟨hdus, h1, ?_⟩
  rw [List.append_assoc, e]
  unfold demoReadMain
  rw [askName_last hn' h0]
  have hne : filename.dropLast ≠ filename := by
    intro he
    have := congrArg List.length he
    rw [List.length_dropLast] at this
    have := List.length_pos_iff.mpr h0
    omega
  have hs : fs.set filename (some (.fits hdus)) filename.dropLast = none := (if_neg hne).trans hcut
  simp only [hs, C84_unopened]
  rfl

/-- If the input ends after the name of the text, the file is made all the same, under the name of the text without
its last character. -/
theorem C98_no_output_name {d : DemoDoc} (ho : ∀ t ∈ d.toks, t.OK) (hc : d.Consistent) (hd : d.Distinct) (hr : d.InRange N)
    {textname : CStr} (hn : Enterable textname) (h0 : textname ≠ []) (hx : textname.dropLast.head? ≠ some '!')
    (ht : d.IsText (texts textname)) (hf : fs textname ≠ none) (hcut : fs textname.dropLast = none) :
    ∃ hdus, d.Holds N u.int hdus ∧
      oitable_demo N u today texts fs (entered textname) = ⟨.ub, [], fs.set textname.dropLast (some (.fits hdus))⟩ := by
  obtain ⟨hdus, h1, h2, h3, -⟩ := demo_up_to_output N u today texts fs ho hc hd hr hn ht hf
  have ha : askName (some textname) [] = .ok (textname.dropLast, []) := by
    unfold askName
    rw [if_pos rfl]
    cases textname with
    | nil => exact absurd rfl h0
    | cons => rfl
  have e := h3 [] _ _ ha hx
  rw [if_pos hcut, List.append_nil] at e
  exact ⟨hdus, h1, e.trans rfl⟩

/-- Without any input, memory which has not been initialised is used. -/
theorem C98_no_input : oitable_demo N u today texts fs [] = ⟨.ub, [], fs⟩ := rfl

/-- A text file which is not there is read from. -/
theorem C98_no_text {textname : CStr} (hn : Enterable textname) (hf : fs textname = none) (rest : CStr) :
    oitable_demo N u today texts fs (entered textname ++ rest) = ⟨.ub, [], fs⟩ := by
  unfold oitable_demo
  rw [askName_line hn]
  simp only [hf]
  rfl

end

/-! ### Examples -/

/-- A directory with the text alone. -/
def Ex.textFiles : Files FP.ratFP := fun n => if n = "in.txt" then some .other else none

theorem Ex.doc_match : Ex.doc.NamesMatch := ⟨by decide +kernel, by decide +kernel, by decide +kernel⟩

theorem Ex.three : ("in.txt\nout.fits\nout.fits\n" : CStr) =
    entered "in.txt" ++ entered "out.fits" ++ entered "out.fits" ++ [] := by decide +kernel

theorem Ex.three' : ("in.txt\nout.fits\nout.fits" : CStr) = entered "in.txt" ++ entered "out.fits" ++ "out.fits" := by
  decide +kernel

theorem Ex.in_txt_there : Ex.textFiles "in.txt" ≠ none := by
  unfold Ex.textFiles
  rw [if_pos rfl]
  exact (nomatch ·)

theorem Ex.in_txt : Enterable "in.txt" := ⟨by decide, by decide⟩
theorem Ex.out_fits : Enterable "out.fits" := ⟨by decide, by decide⟩

-- The five tables of the text are listed, and the file is made.
example (u : Undef FP.ratFP) : ∃ hdus, Ex.doc.Holds Ex.numerals u.int hdus ∧
    oitable_demo Ex.numerals u "2016-01-01" (fun _ => Ex.docText) Ex.textFiles "in.txt\nout.fits\nout.fits\n" =
      ⟨.code 0,
       [⟨"OI_VIS", "COAST", "COAST_NICMOS", "TEST"⟩, ⟨"OI_VIS2", "COAST", "COAST_NICMOS", "TEST"⟩,
        ⟨"OI_T3", "COAST", "COAST_NICMOS", "TEST"⟩, ⟨"OI_FLUX", "COAST", "COAST_NICMOS", "TEST"⟩,
        ⟨"OI_INSPOL", "COAST", [], []⟩], Ex.textFiles.set "out.fits" (some (.fits hdus))⟩ := by
  obtain ⟨hdus, h1, h2, -⟩ := C98_partial Ex.numerals u "2016-01-01" (fun _ => Ex.docText) Ex.textFiles Ex.doc_ok
    Ex.doc_consistent Ex.doc_distinct Ex.doc_inRange Ex.in_txt Ex.out_fits (by decide) Ex.doc_text
    Ex.in_txt_there rfl []
  refine ⟨hdus, h1, ?_⟩
  rw [Ex.three, h2 Ex.doc_match]
  rfl

/-- The same text with another name for the OI_CORR table. -/
def Ex.docBad : DemoDoc := { Ex.doc with corr := { Ex.doc.corr with corrname := "OTHER" } }

theorem Ex.docBad_ok : ∀ t ∈ Ex.docBad.toks, t.OK := testTok_sound (by decide +kernel)
theorem Ex.docBad_text : Ex.docBad.IsText (Ex.join Ex.docBad) := ⟨by decide +kernel, by decide +kernel⟩
theorem Ex.docBad_consistent : Ex.docBad.Consistent := { Ex.doc_consistent with }
theorem Ex.docBad_distinct : Ex.docBad.Distinct := { Ex.doc_distinct with }
theorem Ex.docBad_inRange : Ex.docBad.InRange Ex.numerals := { Ex.doc_inRange with }

-- The file is made, but the listing ends with the first table, and the program with failure.
example (u : Undef FP.ratFP) : ∃ hdus, Ex.docBad.Holds Ex.numerals u.int hdus ∧
    oitable_demo Ex.numerals u "2016-01-01" (fun _ => Ex.join Ex.docBad) Ex.textFiles
      "in.txt\nout.fits\nout.fits\n" =
        ⟨.code 1, [⟨"OI_VIS", "COAST", "COAST_NICMOS", "TEST"⟩], Ex.textFiles.set "out.fits" (some (.fits hdus))⟩ := by
  obtain ⟨hdus, h1, -, h⟩ := C98_partial Ex.numerals u "2016-01-01" (fun _ => Ex.join Ex.docBad) Ex.textFiles Ex.docBad_ok
    Ex.docBad_consistent Ex.docBad_distinct Ex.docBad_inRange Ex.in_txt Ex.out_fits (by decide) Ex.docBad_text
    Ex.in_txt_there rfl []
  rw [Ex.three]
  refine ⟨hdus, h1, ?_⟩
  rw [h 0 _ rfl (fun hm => absurd (hm.2.2 "TEST" (by decide +kernel)) (by decide +kernel)) (fun r hr => by cases hr)]
  have e : Ex.docBad.printed.take (0 + 1) = [⟨"OI_VIS", "COAST", "COAST_NICMOS", "TEST"⟩] := by decide +kernel
  rw [e]

/-- C98 is false if the last line of the input has no newline. -/
theorem C98_counterexample (u : Undef FP.ratFP) : ∃ (d : DemoDoc) (fs : Files FP.ratFP) (texts : CStr → CStr) (stdin : CStr),
    d.NamesMatch ∧ d.IsText (texts "in.txt") ∧ stdin = "in.txt\nout.fits\nout.fits" ∧ fs "out.fits" = none ∧
    (∃ hdus, d.Holds Ex.numerals u.int hdus ∧
      oitable_demo Ex.numerals u "2016-01-01" texts fs stdin = ⟨.code 1, [], fs.set "out.fits" (some (.fits hdus))⟩) := by
  refine ⟨Ex.doc, Ex.textFiles, fun _ => Ex.docText, _, Ex.doc_match, Ex.doc_text, rfl, rfl, ?_⟩
  rw [Ex.three']
  exact C98_last_line Ex.numerals u "2016-01-01" (fun _ => Ex.docText) Ex.textFiles Ex.doc_ok
    Ex.doc_consistent Ex.doc_distinct Ex.doc_inRange Ex.in_txt Ex.out_fits (by decide) Ex.doc_text
    Ex.in_txt_there rfl (by decide) rfl

end Verif
