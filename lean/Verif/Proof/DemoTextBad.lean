import Verif.Proof.DemoText

/-! Lemmas about texts in which an option is left out that the next one is taken for. -/

namespace Verif
open Outcome Verif.Spec

variable {R : FP} {α β : Type}

/-- On a text with these items the program does not end normally. -/
def ScansBad (b : Bool) (m : ScanM R α) (ts : List Tok) : Prop :=
  ∀ (st : ScanState R) (rest : List CStr), (∀ t ∈ ts, t.OK) → Pos b st.input (ts.map Tok.word ++ rest) → ∀ x, m st ≠ .ok x

variable {b b' : Bool} {ts ts' T : List Tok}

theorem ScansBad.bind {m : ScanM R α} {f : α → ScanM R β} {x : α} {next : List CStr → Prop} (h : Scans b next m ts x)
    (hn : ∀ rest, next (ts'.map Tok.word ++ rest)) (h' : ScansBad true (f x) ts') : ScansBad b (m >>= f) (ts ++ ts') := by
  intro st rest hok hp y
  obtain ⟨st1, e1, p1⟩ := h st (ts'.map Tok.word ++ rest) (fun t ht => hok t (List.mem_append_left _ ht))
    (by rw [← List.append_assoc, ← List.map_append]; exact hp) (hn rest)
  rw [scanM_bind e1]
  exact h' st1 rest (fun t ht => hok t (List.mem_append_right _ ht)) p1 y

theorem notOk_bind {m : ScanM R α} {f : α → ScanM R β} {st : ScanState R} (h : ∀ x, m st ≠ .ok x) :
    ∀ y, (m >>= f) st ≠ .ok y := by
  intro y
  show (m st >>= fun x => f x.1 x.2) ≠ _
  cases e : m st with
  | ok x => exact absurd e (h x)
  | abort => exact fun h => by cases h
  | ub => exact fun h => by cases h

theorem ScansBad.first {m : ScanM R α} {f : α → ScanM R β} (h : ScansBad b m T) (T' : List Tok) :
    ScansBad b (m >>= f) (T ++ T') := by
  intro st rest hok hp
  refine notOk_bind (h st (T'.map Tok.word ++ rest) (fun t ht => hok t (List.mem_append_left _ ht)) ?_)
  rw [← List.append_assoc, ← List.map_append]
  exact hp

theorem ScansBad.scan (N : Numerals R) {format : CStr} {dests : List ScanDest} {f : List (ScanVal R) → ScanM R β}
    (k : Nat) (hp : plan b (formatDirs .text format) dests (T.take k) = some b')
    (h : ScansBad b' (f ((T.take k).filterMap (Tok.val N))) (T.drop k)) :
    ScansBad b (fscanf N format dests >>= f) T := by
  intro st rest hok hs
  have hok : (∀ t ∈ T.take k, t.OK) ∧ ∀ t ∈ T.drop k, t.OK := by
    rw [← List.take_append_drop k T] at hok
    exact ⟨fun t ht => hok t (List.mem_append_left _ ht), fun t ht => hok t (List.mem_append_right _ ht)⟩
  rw [← List.take_append_drop k T, List.map_append, List.append_assoc] at hs
  obtain ⟨r, e1, p1⟩ := fscanf_plan N hp hok.1 hs
  rw [scanM_bind e1]
  exact h { st with input := r } rest hok.2 p1

theorem notOk_step {m : ScanM R α} {f : α → ScanM R β} {st st' : ScanState R} {a : α} (h : m st = .ok (a, st'))
    (h' : ∀ y, f a st' ≠ .ok y) : ∀ y, (m >>= f) st ≠ .ok y := by
  intro y
  rw [scanM_bind h]
  exact h' y

theorem ScansBad.opt_string (N : Numerals R) {format : CStr} {name : CStr} {max size : Nat} {c : Char} (o : Option CStr)
    (hp : ∀ w, plan b (formatDirs .text format) [.chars size] [.kw name, .str max w] = some b')
    (ha : firstLit b (formatDirs .text format) = some c)
    (hn : o = none → ∀ rest, HeadNot c (T.map Tok.word ++ rest))
    {f : Bool × CStr → ScanM R β} (h : ScansBad b' (f (o.isSome, o.getD [])) T) :
    ScansBad b (scan_opt_string N format size >>= f) (Spec.option name (.str max) o ++ T) := by
  intro st rest hok hs
  cases o with
  | none =>
    obtain ⟨r, e1, p1⟩ := fscanf_absent N ha hs (hn rfl rest) [.chars size]
    refine notOk_step (a := (false, [])) (st' := { st with input := r }) ?_ (h { st with input := r } rest hok p1.weaken)
    unfold scan_opt_string
    rw [scanM_bind e1]
    rfl
  | some w =>
    obtain ⟨r, e1, p1⟩ := fscanf_plan N (hp w) (rest := T.map Tok.word ++ rest) (fun t ht => hok t (List.mem_append_left T ht)) hs
    refine notOk_step (a := (true, w)) (st' := { st with input := r }) ?_
      (h { st with input := r } rest (fun t ht => hok t (List.mem_append_right _ ht)) p1)
    unfold scan_opt_string
    rw [scanM_bind e1]
    rfl

/-! ### Nothing matches any more -/

/-- The first character which the format asks for, after white space. -/
def wants : List Dir → Option Char
  | .lit c :: _ => some c
  | .ws :: .lit c :: _ => some c
  | _ => none

theorem fscanf_stuck (N : Numerals R) {format : CStr} {c x : Char} (hw : wants (formatDirs .text format) = some c)
    (hc : x ≠ c) (hx : isSpace x = false) (dests : List ScanDest) {st : ScanState R} {s : CStr} (hs : st.input = x :: s) :
    fscanf N format dests st = .ok ([], st) := by
  have e : scanDirs N (formatDirs .text format) dests st.input = .ok ([], st.input) := by
    rw [hs]
    unfold wants at hw
    split at hw
    · cases hw
      simp only [‹formatDirs .text format = _›, scanDirs, if_neg hc]
    · cases hw
      have : skipSpace (x :: s) = x :: s := by
        unfold skipSpace
        rw [List.dropWhile_cons_of_neg (by rw [hx]; exact Bool.false_ne_true)]
      simp only [‹formatDirs .text format = _›, scanDirs, this, if_neg hc]
    · cases hw
  simp only [fscanf, e]

theorem opt_string_stuck (N : Numerals R) {format : CStr} {size : Nat} {st : ScanState R}
    (h : fscanf N format [.chars size] st = .ok ([], st)) : scan_opt_string N format size st = .ok ((false, []), st) := by
  unfold scan_opt_string
  rw [scanM_bind h]
  rfl

theorem opt_int_stuck (N : Numerals R) {format : CStr} {d : Int} {st : ScanState R}
    (h : fscanf N format [.int] st = .ok ([], st)) : scan_opt_int N format d st = .ok (d, st) := by
  unfold scan_opt_int
  rw [scanM_bind h]
  rfl

/-- The number of records is what it was, if it was set. -/
theorem numrec_stuck (N : Numerals R) {format : CStr} {st : ScanState R} (h : fscanf N format [.long] st = .ok ([], st)) :
    (∀ x, scanNumrec N format st ≠ .ok x) ∨ ∃ n, scanNumrec N format st = .ok (n + 1, st) := by
  have e : scanNumrec N format st = (match st.numrec with
      | none => indeterminate
      | some n => if n ≤ 0 then fun _ => .abort else pure n.toNat : ScanM R Nat) st := by
    unfold scanNumrec
    rw [scanM_bind h]
    rfl
  rw [e]
  cases st.numrec with
  | none => exact Or.inl fun x h => by cases h
  | some n =>
    by_cases hn : n ≤ 0
    · left
      intro x h
      simp only [if_pos hn] at h
      cases h
    · right
      refine ⟨n.toNat - 1, ?_⟩
      simp only [if_neg hn]
      rw [Nat.sub_add_cancel (by omega)]
      rfl

/-- From the number of records on, nothing in the OI_VIS table is found. -/
theorem vis_stuck (N : Numerals R) (u : Undef R) (n : Nat) {st : ScanState R} {s : CStr} (hs : st.input = 'o' :: s)
    (f : List (OiVisRecord R) → ScanM R β) :
    ∀ x, (scanNumrec N " numrec %ld " >>= fun k => scanLoop (scanVisRecord N u n) k 0 >>= f) st ≠ .ok x := by
  rcases numrec_stuck N (fscanf_stuck N (format := " numrec %ld ") (c := 'n') rfl (by decide) rfl [.long] hs) with h | ⟨k, h⟩
  · exact notOk_bind h
  · rw [scanM_bind h]
    refine notOk_bind ?_
    show ∀ x, (scanVisRecord N u n 0 >>= fun x => scanLoop (scanVisRecord N u n) k 1 >>= fun xs => pure (x :: xs)) st ≠ _
    refine notOk_bind fun x => ?_
    unfold scanVisRecord
    rw [scanM_bind (fscanf_stuck N (c := 't') rfl (by decide) rfl _ hs)]
    exact fun h => by cases h

/-- The text from an option on which has been taken for another. -/
theorem input_of_pos {s w : CStr} {ws : List CStr} (h : Pos true s (w :: ws)) : ∃ r, s = w ++ r := by
  obtain ⟨r, h, _⟩ := pos_cons h
  exact ⟨r, h⟩

theorem vis_bad_amptyp (N : Numerals R) (u : Undef R) (n : Nat) (d : VisDoc) (h1 : d.amptyp = none) (h2 : d.phityp = none)
    (h3 : d.amporder ≠ none) : ScansBad true (scanVis N u n) d.toks := by
  obtain ⟨w, h3⟩ := Option.ne_none_iff_exists'.mp h3
  unfold scanVis VisDoc.toks
  simp only [List.append_assoc, h1, h2, h3]
  refine ScansBad.scan N 3 rfl ?_
  refine ScansBad.scan N 4 rfl ?_
  refine ScansBad.scan N 2 rfl ?_
  intro st rest _ hp
  obtain ⟨r, hr⟩ := input_of_pos (w := "amporder") hp
  have e1 : fscanf N ("amptyp %70s" : CStr) [.chars FLEN_VALUE] st = .ok ([], { st with input := ("order" : CStr) ++ r }) := by
    have : scanDirs N (formatDirs .text ("amptyp %70s" : CStr)) [.chars FLEN_VALUE] st.input =
        .ok ([], ("order" : CStr) ++ r) := by
      rw [hr]
      rfl
    simp only [fscanf, this]
  have e1 : scan_opt_string N "amptyp %70s" FLEN_VALUE st = .ok ((false, []), { st with input := ("order" : CStr) ++ r }) := by
    unfold scan_opt_string
    rw [scanM_bind e1]
    rfl
  have hs : ({ st with input := ("order" : CStr) ++ r } : ScanState R).input = 'o' :: (("rder" : CStr) ++ r) := rfl
  refine notOk_step e1 ?_
  refine notOk_step (opt_string_stuck N (fscanf_stuck N (c := 'p') rfl (by decide) rfl _ hs)) ?_
  refine notOk_step (opt_int_stuck N (fscanf_stuck N (c := 'a') rfl (by decide) rfl _ hs)) ?_
  refine notOk_step (opt_int_stuck N (fscanf_stuck N (c := 'p') rfl (by decide) rfl _ hs)) ?_
  exact vis_stuck N u n hs _

theorem vis_bad_phityp (N : Numerals R) (u : Undef R) (n : Nat) (d : VisDoc) (h2 : d.phityp = none)
    (h3 : d.amporder = none) (h4 : d.phiorder ≠ none) : ScansBad true (scanVis N u n) d.toks := by
  obtain ⟨w, h4⟩ := Option.ne_none_iff_exists'.mp h4
  unfold scanVis VisDoc.toks
  simp only [List.append_assoc, h2, h3, h4]
  refine ScansBad.scan N 3 rfl ?_
  refine ScansBad.scan N 4 rfl ?_
  refine ScansBad.scan N 2 rfl ?_
  refine ScansBad.opt_string N (b' := false) d.amptyp (fun w => rfl) rfl (fun _ rest v hv => ?_) ?_
  · cases hv
    decide
  intro st1 rest hok p1
  obtain ⟨r, hr⟩ := input_of_pos (w := "phiorder") (pos_skip p1)
  have e2 : fscanf N (" phityp %70s" : CStr) [.chars FLEN_VALUE] st1 = .ok ([], { st1 with input := ("order" : CStr) ++ r }) := by
    have : scanDirs N (formatDirs .text (" phityp %70s" : CStr)) [.chars FLEN_VALUE] st1.input =
        .ok ([], ("order" : CStr) ++ r) := by
      show scanDirs N (formatDirs .text ("phityp %70s" : CStr)) [.chars FLEN_VALUE] (skipSpace st1.input) = _
      rw [hr]
      rfl
    simp only [fscanf, this]
  have e2 : scan_opt_string N " phityp %70s" FLEN_VALUE st1 = .ok ((false, []), { st1 with input := ("order" : CStr) ++ r }) := by
    unfold scan_opt_string
    rw [scanM_bind e2]
    rfl
  have hs : ({ st1 with input := ("order" : CStr) ++ r } : ScanState R).input = 'o' :: (("rder" : CStr) ++ r) := rfl
  refine notOk_step e2 ?_
  refine notOk_step (opt_int_stuck N (fscanf_stuck N (c := 'a') rfl (by decide) rfl _ hs)) ?_
  refine notOk_step (opt_int_stuck N (fscanf_stuck N (c := 'p') rfl (by decide) rfl _ hs)) ?_
  exact vis_stuck N u n hs _

theorem flux_bad_fov (N : Numerals R) (n : Nat) (d : FluxDoc) (h1 : d.fov = none) (h2 : d.fovtype ≠ none) :
    ScansBad true (scanFlux N n) d.toks := by
  obtain ⟨w, h2⟩ := Option.ne_none_iff_exists'.mp h2
  unfold scanFlux FluxDoc.toks
  simp only [List.append_assoc, h1, h2]
  refine ScansBad.scan N 3 rfl ?_
  refine ScansBad.opt_string N (b' := true) d.arrname (fun w => rfl) rfl (fun _ rest v hv => ?_) ?_
  · cases hv
    decide
  refine ScansBad.scan N 4 rfl ?_
  intro st rest _ hp
  obtain ⟨r, hr⟩ := input_of_pos (w := "fovtype") hp
  have e1 : fscanf N ("fov %lf " : CStr) [.dbl] st = .ok ([], { st with input := ("type" : CStr) ++ r }) := by
    have : scanDirs N (formatDirs .text ("fov %lf " : CStr)) [.dbl] st.input = .ok ([], ("type" : CStr) ++ r) := by
      rw [hr]
      rfl
    simp only [fscanf, this]
  have hs : ({ st with input := ("type" : CStr) ++ r } : ScanState R).input = 't' :: (("ype" : CStr) ++ r) := rfl
  have e1 : scan_opt_double N ("fov %lf " : CStr) (R.lit 0) st =
      .ok (R.lit 0, { st with input := ("type" : CStr) ++ r }) := by
    unfold scan_opt_double
    rw [scanM_bind e1]
    rfl
  refine notOk_step e1 ?_
  refine notOk_step (opt_string_stuck N (fscanf_stuck N (c := 'f') rfl (by decide) rfl _ hs)) ?_
  refine notOk_step (fscanf_stuck N (c := 'c') rfl (by decide) rfl _ hs) ?_
  exact fun x h => by cases h

/-- If an option is left out which the next one is taken for, the tables cannot be read. -/
theorem scanDemo_bad (N : Numerals R) (u : Undef R) (d : DemoDoc) (ho : ∀ t ∈ d.toks, t.OK) (hc : d.Consistent)
    (hd : ¬ d.Distinct) {text : CStr} (ht : d.IsText text) : ∀ x, scanDemo N u { input := text } ≠ .ok x := by
  have hb : Blankless d.toks := fun t hm => no_blank t.word (by rw [ht.1]; exact List.mem_map_of_mem hm)
  have hv : Blankless d.vis.toks := fun t ht => hb t (by simp [DemoDoc.toks, ht])
  suffices h : ScansBad true (scanDemo N u) d.toks from
    h { input := text } [] ho ⟨by rw [List.append_nil]; exact ht.1, fun _ => ht.2⟩
  unfold scanDemo DemoDoc.toks
  simp only [List.append_assoc]
  refine ScansBad.bind (scans_array N d.array hc.nelement) (fun _ => trivial) ?_
  refine ScansBad.bind (scans_targets N d.targets hc.ntarget) (fun rest w hw => ?_) ?_
  · cases hw
    decide
  refine ScansBad.bind (scans_wave N d.wave hc.nwave hc.eff_band) (fun _ => trivial) ?_
  refine ScansBad.bind (scans_corr N d.corr hc.ncorr hc.iindx hc.jindx) (fun _ => trivial) ?_
  refine ScansBad.bind (scans_inspol N _ d.inspol hc.inspol hc.jones) (fun _ => trivial) ?_
  by_cases h1 : d.vis.amptyp = none → d.vis.phityp = none → d.vis.amporder = none
  · by_cases h2 : d.vis.phityp = none → d.vis.amporder = none → d.vis.phiorder = none
    · have h3 : ¬(d.flux.fov = none → d.flux.fovtype = none) := fun h3 => hd ⟨h1, h2, h3⟩
      refine ScansBad.bind (scans_vis N u _ d.vis hc.vis hc.visData h1 h2 hv) (fun _ => trivial) ?_
      refine ScansBad.bind (scans_vis2 N _ d.vis2 hc.vis2 hc.vis2Data) (fun _ => trivial) ?_
      refine ScansBad.bind (scans_t3 N _ d.t3 hc.t3 hc.t3Data) (fun _ => trivial) ?_
      rw [← List.append_nil d.flux.toks]
      refine ScansBad.first (flux_bad_fov N _ d.flux ?_ ?_) _
      · cases e : d.flux.fov with
        | none => rfl
        | some x => exact absurd (fun h => by rw [e] at h; cases h) h3
      · exact fun h => h3 fun _ => h
    · refine ScansBad.first (vis_bad_phityp N u _ d.vis ?_ ?_ ?_) _
      · cases e : d.vis.phityp with
        | none => rfl
        | some x => exact absurd (fun h => by rw [e] at h; cases h) h2
      · cases e : d.vis.amporder with
        | none => rfl
        | some x => exact absurd (fun _ h => by rw [e] at h; cases h) h2
      · exact fun h => h2 fun _ _ => h
  · refine ScansBad.first (vis_bad_amptyp N u _ d.vis ?_ ?_ ?_) _
    · cases e : d.vis.amptyp with
      | none => rfl
      | some x => exact absurd (fun h => by rw [e] at h; cases h) h1
    · cases e : d.vis.phityp with
      | none => rfl
      | some x => exact absurd (fun _ h => by rw [e] at h; cases h) h1
    · exact fun h => h1 fun _ _ => h

end Verif
