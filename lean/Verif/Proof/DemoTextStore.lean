import Verif.Proof.DemoText
import Verif.Spec.Calls

/-! The tables described by a text can be stored, and a test whether the items of a text are as they should be. -/

namespace Verif
open Spec

variable {R : FP}

theorem complexes_length (N : Numerals R) {n : Nat} {l : List (CStr × CStr)} (h : l.length ≤ n) :
    (complexes N n l).length = n := by
  simp [complexes]
  omega

theorem demo_storable {N : Numerals R} {d : DemoDoc} (hc : d.Consistent) (hd : d.Distinct) (hr : d.InRange N) (any : Int) :
    (d.tables N any).Storable where
  targets :=
    { rows := by simpa [DemoDoc.tables, TargetsDoc.table] using hc.ntarget.1
      target_id := by
        intro x hx
        obtain ⟨r, hm, rfl⟩ := List.mem_map.mp hx
        exact hr.target r hm }
  array :=
    { wf := ⟨by simpa [DemoDoc.tables, ArrayDoc.table] using hc.nelement.1⟩
      arrayx := hr.arrayx
      arrayy := hr.arrayy
      arrayz := hr.arrayz
      sta_index := by
        intro e he
        obtain ⟨i, hi, rfl⟩ := List.mem_mapIdx.mp he
        have := hr.nelement
        show Spec.Int16 ((i : Int) + 1)
        unfold Spec.Int16
        omega }
  wave := ⟨by simpa [DemoDoc.tables, WaveDoc.table] using hc.nwave.1, by simp [DemoDoc.tables, WaveDoc.table],
    by simpa [DemoDoc.tables, WaveDoc.table] using hc.eff_band⟩
  corr := ⟨by simpa [DemoDoc.tables, CorrDoc.table] using hc.ncorr.1, by simpa [DemoDoc.tables, CorrDoc.table] using hc.iindx,
    by simpa [DemoDoc.tables, CorrDoc.table] using hc.jindx, by simp [DemoDoc.tables, CorrDoc.table]⟩
  inspol :=
    { wf :=
        { rows := by simpa [DemoDoc.tables, InspolDoc.table] using hc.inspol.1
          chans := by simpa [DemoDoc.tables, InspolDoc.table] using hc.nwave.1
          recs := by
            intro x hx
            obtain ⟨r, hm, rfl⟩ := List.mem_map.mp hx
            have h := hc.jones r hm
            exact ⟨complexes_length N (h r.jxx (by simp)).2, complexes_length N (h r.jyy (by simp)).2,
              complexes_length N (h r.jxy (by simp)).2, complexes_length N (h r.jyx (by simp)).2⟩ }
      nwave := hr.nwave
      target_id := by
        intro x hx
        obtain ⟨r, hm, rfl⟩ := List.mem_map.mp hx
        exact (hr.inspol r hm).1
      sta_index := by
        intro x hx
        obtain ⟨r, hm, rfl⟩ := List.mem_map.mp hx
        exact (hr.inspol r hm).2 }
  vis :=
    { wf :=
        { rows := by simpa [DemoDoc.tables, VisDoc.table] using hc.vis.1
          chans := by simpa [DemoDoc.tables, VisDoc.table] using hc.nwave.1
          recs := by
            intro x hx
            obtain ⟨r, hm, rfl⟩ := List.mem_map.mp hx
            have h := hc.visData r hm
            exact ⟨(List.length_map _).trans (h r.visamp (by simp)), (List.length_map _).trans (h r.visamperr (by simp)),
              (List.length_map _).trans (h r.visphi (by simp)), (List.length_map _).trans (h r.visphierr (by simp)),
              trivial, trivial, trivial, trivial, trivial, List.length_replicate⟩ }
      nwave := hr.nwave
      target_id := by
        intro x hx
        obtain ⟨r, hm, rfl⟩ := List.mem_map.mp hx
        exact (hr.vis r hm).1
      sta_index := by
        intro x hx
        obtain ⟨r, hm, rfl⟩ := List.mem_map.mp hx
        exact (hr.vis r hm).2 }
  vis2 :=
    { wf :=
        { rows := by simpa [DemoDoc.tables, Vis2Doc.table] using hc.vis2.1
          chans := by simpa [DemoDoc.tables, Vis2Doc.table] using hc.nwave.1
          recs := by
            intro x hx
            obtain ⟨r, hm, rfl⟩ := List.mem_map.mp hx
            have h := hc.vis2Data r hm
            exact ⟨(List.length_map _).trans (h r.vis2data (by simp)), (List.length_map _).trans (h r.vis2err (by simp)),
              List.length_replicate⟩ }
      nwave := hr.nwave
      target_id := by
        intro x hx
        obtain ⟨r, hm, rfl⟩ := List.mem_map.mp hx
        exact (hr.vis2 r hm).1
      sta_index := by
        intro x hx
        obtain ⟨r, hm, rfl⟩ := List.mem_map.mp hx
        exact (hr.vis2 r hm).2 }
  t3 :=
    { wf :=
        { rows := by simpa [DemoDoc.tables, T3Doc.table] using hc.t3.1
          chans := by simpa [DemoDoc.tables, T3Doc.table] using hc.nwave.1
          recs := by
            intro x hx
            obtain ⟨r, hm, rfl⟩ := List.mem_map.mp hx
            have h := hc.t3Data r hm
            exact ⟨(List.length_map _).trans (h r.t3amp (by simp)), (List.length_map _).trans (h r.t3amperr (by simp)),
              (List.length_map _).trans (h r.t3phi (by simp)), (List.length_map _).trans (h r.t3phierr (by simp)),
              List.length_replicate⟩ }
      nwave := hr.nwave
      target_id := by
        intro x hx
        obtain ⟨r, hm, rfl⟩ := List.mem_map.mp hx
        exact (hr.t3 r hm).1
      sta_index := by
        intro x hx
        obtain ⟨r, hm, rfl⟩ := List.mem_map.mp hx
        exact (hr.t3 r hm).2 }
  flux :=
    { wf :=
        { rows := by simpa [DemoDoc.tables, FluxDoc.table] using hc.flux.1
          chans := by simpa [DemoDoc.tables, FluxDoc.table] using hc.nwave.1
          recs := by
            intro x hx
            obtain ⟨r, hm, rfl⟩ := List.mem_map.mp hx
            have h := hc.fluxData r hm
            exact ⟨(List.length_map _).trans (h r.fluxdata (by simp)), (List.length_map _).trans (h r.fluxerr (by simp)),
              List.length_replicate⟩ }
      nwave := hr.nwave
      fov := by
        intro h
        show (R.keyD ((d.flux.fov.map N.dbl).getD (R.lit 0))).isSome
        cases e : d.flux.fov with
        | none =>
          refine absurd ?_ h
          show d.flux.fovtype.getD [] = []
          rw [hd.fov e]
          rfl
        | some w => exact hr.fov w e
      target_id := by
        intro x hx
        obtain ⟨r, hm, rfl⟩ := List.mem_map.mp hx
        exact (hr.flux r hm).1
      sta_index := by
        intro _ x hx
        obtain ⟨r, hm, rfl⟩ := List.mem_map.mp hx
        show Spec.Int16 ((r.sta_index.map intOf).getD (-1))
        cases e : r.sta_index with
        | none => exact (by decide : Spec.Int16 (-1))
        | some w => exact (hr.flux r hm).2 w e }

/-! ### A test of items -/

/-- The word without its sign. -/
def unsigned : CStr → CStr
  | '+' :: s => s
  | '-' :: s => s
  | s => s

theorem unsigned_eq (w : CStr) : ∃ sign, w = sign ++ unsigned w ∧ sign ∈ [[], ['+'], ['-']] := by
  unfold unsigned
  split
  · exact ⟨['+'], rfl, by simp⟩
  · exact ⟨['-'], rfl, by simp⟩
  · exact ⟨[], rfl, by simp⟩

def testInteger (w : CStr) : Bool := unsigned w ≠ [] && (unsigned w).all isDigit

theorem testInteger_sound {w : CStr} (h : testInteger w = true) : IsInteger w := by
  obtain ⟨sign, h1, h2⟩ := unsigned_eq w
  simp only [testInteger, Bool.and_eq_true, decide_eq_true_eq, List.all_eq_true] at h
  exact ⟨sign, unsigned w, h1, h2, h.1, h.2⟩

def testExponent : CStr → Bool
  | [] => true
  | c :: s => (c = 'e' || c = 'E') && testInteger s

theorem testExponent_sound {s : CStr} (h : testExponent s = true) :
    s = [] ∨ ∃ e int, s = e :: int ∧ e ∈ ['e', 'E'] ∧ IsInteger int := by
  cases s with
  | nil => exact .inl rfl
  | cons c s =>
    simp only [testExponent, Bool.and_eq_true, Bool.or_eq_true, decide_eq_true_eq] at h
    exact .inr ⟨c, s, rfl, by simpa using h.1, testInteger_sound h.2⟩

/-- What comes after the digits before the point. -/
def testRest (digits : Bool) : CStr → Bool
  | '.' :: s => (digits || s.takeWhile isDigit ≠ []) && testExponent (s.dropWhile isDigit)
  | s => digits && testExponent s

def testDecimal (w : CStr) : Bool :=
  testRest ((unsigned w).takeWhile isDigit ≠ []) ((unsigned w).dropWhile isDigit)

theorem takeWhile_all (p : Char → Bool) (s : CStr) : ∀ c ∈ s.takeWhile p, p c = true := by
  induction s with
  | nil => exact fun _ h => by cases h
  | cons a s ih =>
    intro c hc
    rw [List.takeWhile_cons] at hc
    split at hc
    · rcases List.mem_cons.mp hc with rfl | hc
      · assumption
      · exact ih c hc
    · cases hc

theorem testDecimal_sound {w : CStr} (h : testDecimal w = true) : IsDecimal w := by
  obtain ⟨sign, h1, h2⟩ := unsigned_eq w
  have h3 := (List.takeWhile_append_dropWhile (p := isDigit) (l := unsigned w)).symm
  unfold testDecimal at h
  generalize hd : (unsigned w).takeWhile isDigit = digits at h h3
  generalize (unsigned w).dropWhile isDigit = rest at h h3
  have h4 : ∀ c ∈ digits, isDigit c = true := hd ▸ takeWhile_all isDigit _
  unfold testRest at h
  split at h
  · rename_i s
    simp only [Bool.and_eq_true, Bool.or_eq_true, decide_eq_true_eq] at h
    refine ⟨sign, digits, '.' :: s.takeWhile isDigit, s.dropWhile isDigit, ?_, h2, h4,
      .inr ⟨_, rfl, takeWhile_all _ _, h.1⟩, testExponent_sound h.2⟩
    rw [List.append_assoc, List.append_assoc, List.cons_append, List.takeWhile_append_dropWhile, ← h3]
    exact h1
  · simp only [Bool.and_eq_true, decide_eq_true_eq] at h
    refine ⟨sign, digits, [], rest, ?_, h2, h4, .inl ⟨rfl, h.1⟩, testExponent_sound h.2⟩
    rw [List.append_nil, List.append_assoc, ← h3]
    exact h1

def testTok : Tok → Bool
  | .kw _ => true
  | .str max w => w.length ≤ max
  | .int w => testInteger w && (-2 ^ 31 ≤ intOf w && intOf w < 2 ^ 31)
  | .long w => testInteger w && (-2 ^ 63 ≤ intOf w && intOf w < 2 ^ 63)
  | .dbl w => testDecimal w
  | .flt w => testDecimal w
  | .imag w => testDecimal w
  | .chr _ => true

theorem testTok_sound {l : List Tok} (h : l.all testTok = true) : ∀ t ∈ l, t.OK := by
  intro t ht
  have h := List.all_eq_true.mp h t ht
  cases t with
  | kw | chr => trivial
  | str => simpa [testTok, Tok.OK] using h
  | int | long =>
    simp only [testTok, Bool.and_eq_true, decide_eq_true_eq] at h
    exact ⟨testInteger_sound h.1, h.2⟩
  | dbl | flt | imag => exact testDecimal_sound h

end Verif
