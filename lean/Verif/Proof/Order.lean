import Verif.Spec.Order
import Verif.Proof.HeldFile

/-! The reading functions look only at the current HDU, and the order of tables of different types does not matter. -/

namespace Verif
open Outcome Spec

variable {R : FP} {α β : Type}

/-- The outcome of the same code on a HDU in another file. -/
def shift (hdus : List (Hdu R)) (c : Nat) : Outcome (α × FState R) → Outcome (α × FState R)
  | .ok (a, s) => .ok (a, ⟨hdus, c, s.status⟩)
  | .abort => .abort
  | .ub => .ub

/-- The code stays on the current HDU and does the same with that HDU in another file. -/
structure Local (m : FitsM R α) : Prop where
  stays : ∀ s a s', m s = .ok (a, s') → s'.hdus = s.hdus ∧ s'.cur = s.cur
  same : ∀ s hdus c, hdus[c]? = s.hdus[s.cur]? → m ⟨hdus, c, s.status⟩ = shift hdus c (m s)

theorem Local.bind {m : FitsM R α} {f : α → FitsM R β} (hm : Local m) (hf : ∀ a, Local (f a)) : Local (m >>= f) := by
  constructor
  · intro s b s' h
    change FitsM.bind m f s = _ at h
    cases hms : m s with
    | ok x =>
      obtain ⟨a, s1⟩ := x
      obtain ⟨h1, h2⟩ := hm.stays s a s1 hms
      have h : (m >>= f) s = .ok (b, s') := h
      rw [FitsM.bind_ok hms] at h
      obtain ⟨h3, h4⟩ := (hf a).stays s1 b s' h
      exact ⟨h3.trans h1, h4.trans h2⟩
    | abort => simp [FitsM.bind, hms] at h
    | ub => simp [FitsM.bind, hms] at h
  · intro s hdus c he
    have h0 := hm.same s hdus c he
    cases hms : m s with
    | ok x =>
      obtain ⟨a, s1⟩ := x
      obtain ⟨h1, h2⟩ := hm.stays s a s1 hms
      rw [hms] at h0
      rw [FitsM.bind_ok hms, FitsM.bind_ok h0]
      exact (hf a).same s1 hdus c (by rw [h1, h2]; exact he)
    | abort =>
      rw [hms] at h0
      change FitsM.bind m f _ = shift hdus c (FitsM.bind m f s)
      simp [FitsM.bind, hms, h0, shift]
    | ub =>
      rw [hms] at h0
      change FitsM.bind m f _ = shift hdus c (FitsM.bind m f s)
      simp [FitsM.bind, hms, h0, shift]

theorem Local.pure (a : α) : Local (pure a : FitsM R α) := by
  constructor
  · intro s b s' h
    rw [← (Prod.mk.inj (Outcome.ok.inj h)).2]
    exact ⟨rfl, rfl⟩
  · intro s hdus c _; rfl

theorem Local.getStatus : Local (getStatus (R := R)) := by
  constructor
  · intro s b s' h
    rw [← (Prod.mk.inj (Outcome.ok.inj h)).2]
    exact ⟨rfl, rfl⟩
  · intro s hdus c _; rfl

theorem Local.setStatus (st : Status) : Local (setStatus (R := R) st) := by
  constructor
  · intro s b s' h
    rw [← (Prod.mk.inj (Outcome.ok.inj h)).2]
    exact ⟨rfl, rfl⟩
  · intro s hdus c _; rfl

theorem Local.guard {body : FitsM R α} (out : α) (h : Local body) : Local (guardStatus out body) := by
  constructor
  · intro s a s' hr
    by_cases hs : s.status = .ok
    · rw [guardStatus_ok hs] at hr; exact h.stays s a s' hr
    · rw [guardStatus_err hs] at hr
      rw [← (Prod.mk.inj (Outcome.ok.inj hr)).2]
      exact ⟨rfl, rfl⟩
  · intro s hdus c he
    by_cases hs : s.status = .ok
    · rw [guardStatus_ok hs, guardStatus_ok (by exact hs)]; exact h.same s hdus c he
    · rw [guardStatus_err hs, guardStatus_err (by exact hs)]; rfl

theorem Local.ite {p : Prop} [Decidable p] {m n : FitsM R α} (hm : Local m) (hn : Local n) :
    Local (if p then m else n) := by
  split <;> assumption

theorem Local.cfRead (junk : α) (f : Hdu R → Except Status α) : Local (cfRead junk f) := by
  constructor
  · intro s a s' hr
    unfold Verif.cfRead at hr
    by_cases hs : s.status = .ok
    · rw [if_pos hs] at hr
      cases hh : s.hdus[s.cur]? with
      | none => rw [hh] at hr; rw [← (Prod.mk.inj (Outcome.ok.inj hr)).2]; exact ⟨rfl, rfl⟩
      | some h =>
        rw [hh] at hr
        simp only at hr
        split at hr <;> (rw [← (Prod.mk.inj (Outcome.ok.inj hr)).2]; exact ⟨rfl, rfl⟩)
    · rw [if_neg hs] at hr; rw [← (Prod.mk.inj (Outcome.ok.inj hr)).2]; exact ⟨rfl, rfl⟩
  · intro s hdus c he
    unfold Verif.cfRead
    by_cases hs : s.status = .ok
    · rw [if_pos hs, if_pos hs]
      simp only [he]
      cases hh : s.hdus[s.cur]? with
      | none => rfl
      | some h => cases hf : f h <;> simp only [hf, shift]
    · rw [if_neg hs, if_neg hs]; rfl

theorem Local.lift (x : Outcome α) : Local (FitsM.lift (R := R) x) := by
  constructor
  · intro s a s' hr
    cases x with
    | ok b => rw [← (Prod.mk.inj (Outcome.ok.inj hr)).2]; exact ⟨rfl, rfl⟩
    | abort => cases hr
    | ub => cases hr
  · intro s hdus c _
    cases x <;> rfl

theorem Local.forRows {body : Nat → FitsM R α} (h : ∀ i, Local (body i)) (first n : Nat) :
    Local (forRows first n body) := by
  induction n generalizing first with
  | zero => exact Local.pure _
  | succ n ih =>
    rw [Verif.forRows]
    exact (h _).bind fun _ => (ih _).bind fun _ => Local.pure _

theorem Local.forRecs {body : Nat → α → FitsM R β} (h : ∀ i x, Local (body i x)) (first : Nat) (l : List α) :
    Local (forRecs first l body) := by
  induction l generalizing first with
  | nil => exact Local.pure _
  | cons x l ih =>
    rw [Verif.forRecs]
    exact (h _ _).bind fun _ => (ih _).bind fun _ => Local.pure _

theorem local_key_str (name dst : CStr) : Local (fits_read_key_str (R := R) name dst) := Local.cfRead _ _
theorem local_key_int (name : CStr) (dst : Int) : Local (fits_read_key_int (R := R) name dst) := Local.cfRead _ _
theorem local_key_dbl (name : CStr) (dst : R.Dbl) : Local (fits_read_key_dbl (R := R) name dst) := Local.cfRead _ _
theorem local_colUnit (n : Nat) (dst : CStr) : Local (readColUnit (R := R) n dst) := Local.cfRead _ _
theorem local_colnum (name : CStr) (n : Nat) : Local (fits_get_colnum (R := R) name n) := Local.cfRead _ _
theorem local_coltype (n : Nat) (j : ColType × Nat) : Local (fits_get_coltype (R := R) n j) := Local.cfRead _ _
theorem local_num_rows (j : Nat) : Local (fits_get_num_rows (R := R) j) := Local.cfRead _ _
theorem local_read_col (conv : Cell R → Option α) (c r n : Nat) (a : List α) :
    Local (fits_read_col conv c r n a) := Local.cfRead _ _

/-- Take the code apart. -/
macro "locl" : tactic => `(tactic| repeat (first
  | with_reducible apply Local.pure | with_reducible apply Local.guard | with_reducible apply Local.bind | with_reducible apply Local.ite
  | with_reducible apply Local.getStatus | with_reducible apply local_key_str | with_reducible apply local_key_int | with_reducible apply local_key_dbl
  | with_reducible apply local_colUnit | with_reducible apply local_colnum | with_reducible apply local_coltype | with_reducible apply local_num_rows
  | with_reducible apply local_read_col | with_reducible apply Local.forRows | with_reducible apply Local.forRecs
  | with_reducible apply Local.setStatus | with_reducible apply Local.lift | intro _ | split))

theorem local_keyOpt {read : FitsM R α} (h : Local read) (d m : α) : Local (readKeyOpt read d m) := by
  unfold readKeyOpt
  refine Local.guard _ (h.bind fun _ => ?_)
  locl

theorem local_opt_str (n d : CStr) : Local (read_key_opt_string (R := R) n d) := local_keyOpt (local_key_str _ _) _ _
theorem local_opt_int (n : CStr) (d : Int) : Local (read_key_opt_int (R := R) n d) := local_keyOpt (local_key_int _ _) _ _
theorem local_opt_dbl (n : CStr) (d : R.Dbl) : Local (read_key_opt_double (R := R) n d) := local_keyOpt (local_key_dbl _ _) _ _

theorem local_strCol (c : Nat) (m : Option Nat) (i : Nat) (v : CStr) : Local (readStrCol (R := R) c m i v) := by
  unfold readStrCol; locl

theorem local_findStrCol (o : Bool) (c : CStr) (m : Option Nat) (i : Nat) (v : CStr) :
    Local (findStrCol (R := R) o c m i v) := by
  unfold findStrCol
  locl
  apply local_strCol

theorem local_col_string (o : Bool) (c : CStr) (m i : Nat) (v : CStr) :
    Local (read_col_string (R := R) o c m i v) := local_findStrCol _ _ _ _ _

theorem local_col_trunc (c : CStr) (m i : Nat) (v : CStr) :
    Local (read_col_string_truncate (R := R) c m i v) := by
  unfold read_col_string_truncate
  exact (local_findStrCol _ _ _ _ _).bind fun _ => Local.pure _

theorem local_arr (conv : Cell R → Option α) (j : α) (c : CStr) (i n : Nat) : Local (readArr conv j c i n) := by
  unfold readArr; locl

theorem local_one (conv : Cell R → Option α) (j : α) (c : CStr) (i : Nat) : Local (readOne conv j c i) := by
  unfold readOne; exact (local_arr _ _ _ _ _).bind fun _ => Local.pure _

theorem local_name (u : Undef R) (k : CStr) (n : Option CStr) : Local (readName u k n) := by
  unfold readName
  cases n <;> locl

@[inherit_doc Local]
macro "locl!" : tactic => `(tactic| repeat (first
  | with_reducible apply local_opt_str | with_reducible apply local_opt_int | with_reducible apply local_opt_dbl | with_reducible apply local_col_string
  | with_reducible apply local_col_trunc | with_reducible apply local_arr | with_reducible apply local_one | with_reducible apply local_name
  | with_reducible apply Local.pure | with_reducible apply Local.guard | with_reducible apply Local.bind | with_reducible apply Local.ite
  | with_reducible apply Local.getStatus | with_reducible apply local_key_str | with_reducible apply local_key_int | with_reducible apply local_key_dbl
  | with_reducible apply local_colUnit | with_reducible apply local_colnum | with_reducible apply local_coltype | with_reducible apply local_num_rows
  | with_reducible apply local_read_col | with_reducible apply Local.forRows | with_reducible apply Local.forRecs
  | with_reducible apply Local.setStatus | with_reducible apply Local.lift | intro _ | split))

theorem local_array_chdu (u : Undef R) (old : OiArray R) (n : Option CStr) : Local (read_oi_array_chdu u old n) := by
  unfold read_oi_array_chdu readElement; locl!

theorem local_wavelength_chdu (u : Undef R) (old : OiWavelength R) (n : Option CStr) :
    Local (read_oi_wavelength_chdu u old n) := by
  unfold read_oi_wavelength_chdu; locl!

theorem local_corr_chdu (u : Undef R) (old : OiCorr R) (n : Option CStr) : Local (read_oi_corr_chdu u old n) := by
  unfold read_oi_corr_chdu; locl!

theorem local_inspol_chdu (u : Undef R) (old : OiInspol R) : Local (read_oi_inspol_chdu u old) := by
  unfold read_oi_inspol_chdu readInspolRecord readJones; locl!

theorem local_vis_complex (u : Undef R) (v : OiVis R) (c : Bool) : Local (read_oi_vis_complex u v c) := by
  unfold read_oi_vis_complex readVisComplexRow readVisComplexCorr; locl!

theorem local_vis_opt (u : Undef R) (v : OiVis R) : Local (read_oi_vis_opt u v) := by
  unfold read_oi_vis_opt readVisCorr readVisCorrRow readRefmap readRefmapRow; locl!
  all_goals apply local_vis_complex

/-- A function which looks for the next table of a given name and reads it, whatever else is in the file. -/
structure ReadsLocal (name : CStr) (old : α) (read : FitsM R α) : Prop where
  shape : ∃ body : FitsM R α, Tame body ∧ Local body ∧
    read = guardStatus old (next_named_hdu name >>= fun _ => guardStatus old body)

theorem readsLocal_array (u : Undef R) (old : OiArray R) :
    ReadsLocal "OI_ARRAY" old (read_next_oi_array u old) := ⟨_, tame_array_chdu u old none, local_array_chdu u old none, rfl⟩

theorem readsLocal_wavelength (u : Undef R) (old : OiWavelength R) :
    ReadsLocal "OI_WAVELENGTH" old (read_next_oi_wavelength u old) :=
  ⟨_, tame_wavelength_chdu u old none, local_wavelength_chdu u old none, rfl⟩

theorem readsLocal_corr (u : Undef R) (old : OiCorr R) :
    ReadsLocal "OI_CORR" old (read_next_oi_corr u old) := ⟨_, tame_corr_chdu u old none, local_corr_chdu u old none, rfl⟩

theorem readsLocal_inspol (u : Undef R) (old : OiInspol R) :
    ReadsLocal "OI_INSPOL" old (read_next_oi_inspol u old) := ⟨_, tame_inspol_chdu u old, local_inspol_chdu u old, rfl⟩

theorem readsLocal_vis (u : Undef R) (old : OiVis R) :
    ReadsLocal "OI_VIS" old (read_next_oi_vis u old) := by
  refine ⟨_, ?_, ?_, rfl⟩
  · unfold readVisRecord
    tame!
    · exact tame_keyOpt (tame_colUnit _ _) _ _
    · tame!
      exact tame_vis_opt u _
  · unfold readVisRecord
    locl!
    · exact local_keyOpt (local_colUnit _ _) _ _
    · locl!
      exact local_vis_opt u _

theorem readsLocal_vis2 (u : Undef R) (old : OiVis2 R) :
    ReadsLocal "OI_VIS2" old (read_next_oi_vis2 u old) := by
  refine ⟨_, ?_, ?_, rfl⟩
  · unfold readVis2Record readCorrname readCorrindx
    tame!
  · unfold readVis2Record readCorrname readCorrindx
    locl!

theorem readsLocal_t3 (u : Undef R) (old : OiT3 R) :
    ReadsLocal "OI_T3" old (read_next_oi_t3 u old) := by
  refine ⟨_, ?_, ?_, rfl⟩
  · unfold readT3Record readCorrname readCorrindx
    tame!
  · unfold readT3Record readCorrname readCorrindx
    locl!

theorem readsLocal_flux (u : Undef R) (old : OiFlux R) :
    ReadsLocal "OI_FLUX" old (read_next_oi_flux u old) := by
  refine ⟨_, ?_, ?_, rfl⟩
  · unfold readFluxRecord readFluxSta readCorrindx
    tame!
  · unfold readFluxRecord readFluxSta readCorrindx
    locl!

/-! ### The next table -/

theorem nextLoop_absent {name : CStr} : ∀ (l : List (Hdu R)) (i : Nat), (∀ h ∈ l, StringName h) →
    l.filter (isTable name) = [] → nextLoop name l i = (i + l.length, .END_OF_FILE) := by
  intro l
  induction l with
  | nil => intro i _ _; rfl
  | cons h l ih =>
    intro i hl he
    have hs := hl h List.mem_cons_self
    have ht : isTable name h = false := by
      cases hb : isTable name h with
      | false => rfl
      | true => rw [List.filter_cons_of_pos hb] at he; cases he
    rw [nextLoop_cons (nameOk_of_string hs), isNamed_eq_isTable hs, ht, if_neg (by simp),
      ih _ (fun h hh => hl h (List.mem_cons_of_mem _ hh)) (by rwa [List.filter_cons_of_neg (by simp [ht])] at he)]
    simp; omega

theorem nextLoop_present {name : CStr} {h0 : Hdu R} {rest : List (Hdu R)} : ∀ (l : List (Hdu R)) (i : Nat),
    (∀ h ∈ l, StringName h) → l.filter (isTable name) = h0 :: rest →
    ∃ k, l[k]? = some h0 ∧ nextLoop name l i = (i + k + 1, .ok) ∧ (l.drop (k + 1)).filter (isTable name) = rest := by
  intro l
  induction l with
  | nil => intro i _ he; cases he
  | cons h l ih =>
    intro i hl he
    have hs := hl h List.mem_cons_self
    rw [nextLoop_cons (nameOk_of_string hs), isNamed_eq_isTable hs]
    cases hb : isTable name h with
    | true =>
      rw [List.filter_cons_of_pos hb] at he
      obtain ⟨hh, he1⟩ := List.cons.inj he
      exact ⟨0, by rw [← hh]; rfl, if_pos rfl, he1⟩
    | false =>
      rw [List.filter_cons_of_neg (by simp [hb])] at he
      obtain ⟨k, h1, h2, h3⟩ := ih (i + 1) (fun h hh => hl h (List.mem_cons_of_mem _ hh)) he
      refine ⟨k + 1, h1, ?_, h3⟩
      rw [if_neg (by simp), h2]
      congr 1
      omega

/-! ### Two files -/

/-- The same outcome, in two files. -/
def Same (hdus hdus' : List (Hdu R)) : Outcome (α × FState R) → Outcome (α × FState R) → Prop
  | .ok (a, s), .ok (b, t) => a = b ∧ s.status = t.status ∧ s.hdus = hdus ∧ t.hdus = hdus'
  | .abort, .abort => True
  | .ub, .ub => True
  | _, _ => False

/-- The code does the same wherever it starts. -/
def Free (hdus hdus' : List (Hdu R)) (m : FitsM R α) : Prop :=
  ∀ c c' st, Same hdus hdus' (m ⟨hdus, c, st⟩) (m ⟨hdus', c', st⟩)

/-- The code does the same wherever it starts, unless there is an error. -/
def FreeOk (hdus hdus' : List (Hdu R)) (m : FitsM R α) : Prop :=
  ∀ c c', Same hdus hdus' (m ⟨hdus, c, .ok⟩) (m ⟨hdus', c', .ok⟩)

theorem Same.bind {hdus hdus' : List (Hdu R)} {m m' : FitsM R α} {f g : α → FitsM R β} {s t : FState R}
    (hm : Same hdus hdus' (m s) (m' t))
    (hf : ∀ a s1 t1, m s = .ok (a, s1) → m' t = .ok (a, t1) → s1.status = t1.status → s1.hdus = hdus → t1.hdus = hdus' →
      Same hdus hdus' (f a s1) (g a t1)) : Same hdus hdus' ((m >>= f) s) ((m' >>= g) t) := by
  cases hs : m s with
  | ok x =>
    obtain ⟨a, s1⟩ := x
    cases ht : m' t with
    | ok y =>
      obtain ⟨b, t1⟩ := y
      rw [hs, ht] at hm
      obtain ⟨rfl, h1, h2, h3⟩ := hm
      rw [FitsM.bind_ok hs, FitsM.bind_ok ht]
      exact hf _ _ _ hs ht h1 h2 h3
    | abort => rw [hs, ht] at hm; exact hm.elim
    | ub => rw [hs, ht] at hm; exact hm.elim
  | abort =>
    cases ht : m' t with
    | ok y => rw [hs, ht] at hm; exact hm.elim
    | abort =>
      change Same _ _ (FitsM.bind m f s) (FitsM.bind m' g t)
      simp [FitsM.bind, hs, ht, Same]
    | ub => rw [hs, ht] at hm; exact hm.elim
  | ub =>
    cases ht : m' t with
    | ok y => rw [hs, ht] at hm; exact hm.elim
    | abort => rw [hs, ht] at hm; exact hm.elim
    | ub =>
      change Same _ _ (FitsM.bind m f s) (FitsM.bind m' g t)
      simp [FitsM.bind, hs, ht, Same]

theorem Free.bind {hdus hdus' : List (Hdu R)} {m : FitsM R α} {f : α → FitsM R β} (hm : Free hdus hdus' m)
    (hf : ∀ a, Free hdus hdus' (f a)) : Free hdus hdus' (m >>= f) := by
  intro c c' st
  refine (hm c c' st).bind fun a s1 t1 _ _ h1 h2 h3 => ?_
  obtain ⟨x, y, z⟩ := s1
  obtain ⟨x', y', z'⟩ := t1
  simp only at h1 h2 h3
  subst h1; subst h2; subst h3
  exact hf a _ _ _

theorem FreeOk.bind {hdus hdus' : List (Hdu R)} {m : FitsM R α} {f : α → FitsM R β} (hm : FreeOk hdus hdus' m)
    (hf : ∀ a, Free hdus hdus' (f a)) : FreeOk hdus hdus' (m >>= f) := by
  intro c c'
  refine (hm c c').bind fun a s1 t1 _ _ h1 h2 h3 => ?_
  obtain ⟨x, y, z⟩ := s1
  obtain ⟨x', y', z'⟩ := t1
  simp only at h1 h2 h3
  subst h1; subst h2; subst h3
  exact hf a _ _ _

theorem FreeOk.bindOk {hdus hdus' : List (Hdu R)} {m : FitsM R α} {f : α → FitsM R β} (hm : FreeOk hdus hdus' m)
    (hok : ∀ c a s, m ⟨hdus, c, .ok⟩ = .ok (a, s) → s.status = .ok)
    (hf : ∀ a, FreeOk hdus hdus' (f a)) : FreeOk hdus hdus' (m >>= f) := by
  intro c c'
  refine (hm c c').bind fun a s1 t1 h0 _ h1 h2 h3 => ?_
  have h4 := hok _ _ _ h0
  obtain ⟨x, y, z⟩ := s1
  obtain ⟨x', y', z'⟩ := t1
  simp only at h1 h2 h3 h4
  subst h1; subst h2; subst h3; subst h4
  exact hf a _ _

theorem FreeOk.guard {hdus hdus' : List (Hdu R)} {m : FitsM R α} (out : α) (hm : FreeOk hdus hdus' m) :
    Free hdus hdus' (guardStatus out m) := by
  intro c c' st
  by_cases hs : st = .ok
  · subst hs
    rw [guardStatus_ok rfl, guardStatus_ok rfl]
    exact hm c c'
  · rw [guardStatus_err hs, guardStatus_err hs]
    exact ⟨rfl, rfl, rfl, rfl⟩

theorem FreeOk.pure {hdus hdus' : List (Hdu R)} (a : α) : FreeOk hdus hdus' (pure a : FitsM R α) :=
  fun _ _ => ⟨rfl, rfl, rfl, rfl⟩

theorem FreeOk.lift {hdus hdus' : List (Hdu R)} (x : Outcome α) : FreeOk hdus hdus' (FitsM.lift (R := R) x) := by
  intro c c'
  cases x with
  | ok a => exact ⟨rfl, rfl, rfl, rfl⟩
  | abort => trivial
  | ub => trivial

/-- Reading the current HDU, if it is the same. -/
theorem Local.free {hdus hdus' : List (Hdu R)} {m : FitsM R α} (hm : Local m) {i i' : Nat} (he : hdus'[i']? = hdus[i]?)
    (st : Status) : Same hdus hdus' (m ⟨hdus, i, st⟩) (m ⟨hdus', i', st⟩) := by
  have h1 := hm.same ⟨hdus, i, st⟩ hdus' i' he
  have h1 : m ⟨hdus', i', st⟩ = _ := h1
  rw [h1]
  cases hr : m ⟨hdus, i, st⟩ with
  | ok x =>
    obtain ⟨a, s⟩ := x
    exact ⟨rfl, rfl, (hm.stays _ _ _ hr).1, rfl⟩
  | abort => trivial
  | ub => trivial

/-- One call finds the same table. -/
theorem ReadsLocal.step {name : CStr} {old : α} {read : FitsM R α} (h : ReadsLocal name old read)
    {hdus : List (Hdu R)} {c : Nat} (hn : ∀ h ∈ hdus, StringName h) :
    ∃ body : FitsM R α, Tame body ∧ Local body ∧ 
      ((hdus.drop (c + 1)).filter (isTable name) = [] →
        ∃ c1, read ⟨hdus, c, .ok⟩ = .ok (old, ⟨hdus, c1, .END_OF_FILE⟩)) := by
  obtain ⟨body, h1, h2, rfl⟩ := h.shape
  refine ⟨body, h1, h2, fun he => ?_⟩
  have hl := nextLoop_absent (name := name) (hdus.drop (c + 1)) c (fun h hh => hn h (List.mem_of_mem_drop hh)) he
  have hm : next_named_hdu name ⟨hdus, c, .ok⟩ = .ok ((), ⟨hdus, c + (hdus.drop (c + 1)).length, .END_OF_FILE⟩) :=
    (guardStatus_ok rfl _ _).trans (by simp only [hl])
  refine ⟨c + (hdus.drop (c + 1)).length, ?_⟩
  rw [guardStatus_ok rfl, FitsM.bind_ok hm, guardStatus_err (by simp)]

theorem readAll_same {name : CStr} {old : α} {read : FitsM R α} (h : ReadsLocal name old read) (skip : Bool)
    {hdus hdus' : List (Hdu R)} (hn : ∀ h ∈ hdus, StringName h) (hn' : ∀ h ∈ hdus', StringName h) :
    ∀ (L : List (Hdu R)) (fuel fuel' c c' : Nat), hdus.length < c + 1 + fuel → c < hdus.length →
      hdus'.length < c' + 1 + fuel' → c' < hdus'.length →
      (hdus.drop (c + 1)).filter (isTable name) = L → (hdus'.drop (c' + 1)).filter (isTable name) = L →
      Same hdus hdus' (readAll skip read fuel ⟨hdus, c, .ok⟩) (readAll skip read fuel' ⟨hdus', c', .ok⟩) := by
  obtain ⟨body, htame, hloc, rfl⟩ := h.shape
  intro L
  induction L with
  | nil =>
    intro fuel fuel' c c' hf hc hf' hc' he he'
    obtain ⟨-, -, -, h1⟩ := h.step (c := c) hn
    obtain ⟨-, -, -, h2⟩ := h.step (c := c') hn'
    obtain ⟨c1, h1⟩ := h1 he
    obtain ⟨c2, h2⟩ := h2 he'
    obtain ⟨fuel, rfl⟩ : ∃ k, fuel = k + 1 := ⟨fuel - 1, by omega⟩
    obtain ⟨fuel', rfl⟩ : ∃ k, fuel' = k + 1 := ⟨fuel' - 1, by omega⟩
    rw [readAll, readAll, FitsM.bind_ok h1, FitsM.bind_ok h2, FitsM.bind_ok (run_getStatus _),
      FitsM.bind_ok (run_getStatus _)]
    exact ⟨rfl, rfl, rfl, rfl⟩
  | cons t L ih =>
    intro fuel fuel' c c' hf hc hf' hc' he he'
    obtain ⟨k, e1, e2, e3⟩ := nextLoop_present (hdus.drop (c + 1)) c (fun h hh => hn h (List.mem_of_mem_drop hh)) he
    obtain ⟨k', e1', e2', e3'⟩ := nextLoop_present (hdus'.drop (c' + 1)) c' (fun h hh => hn' h (List.mem_of_mem_drop hh)) he'
    rw [List.getElem?_drop] at e1 e1'
    rw [List.drop_drop] at e3 e3'
    rw [show c + 1 + (k + 1) = c + k + 1 + 1 by omega] at e3
    rw [show c' + 1 + (k' + 1) = c' + k' + 1 + 1 by omega] at e3'
    rw [show c + 1 + k = c + k + 1 by omega] at e1
    rw [show c' + 1 + k' = c' + k' + 1 by omega] at e1'
    have hlt : c + k + 1 < hdus.length := (List.getElem?_eq_some_iff.mp e1).1
    have hlt' : c' + k' + 1 < hdus'.length := (List.getElem?_eq_some_iff.mp e1').1
    obtain ⟨fuel, rfl⟩ : ∃ k, fuel = k + 1 := ⟨fuel - 1, by omega⟩
    obtain ⟨fuel', rfl⟩ : ∃ k, fuel' = k + 1 := ⟨fuel' - 1, by omega⟩
    have hm : next_named_hdu name ⟨hdus, c, .ok⟩ = .ok ((), ⟨hdus, c + k + 1, .ok⟩) :=
      (guardStatus_ok rfl _ _).trans (by simp only [e2])
    have hm' : next_named_hdu name ⟨hdus', c', .ok⟩ = .ok ((), ⟨hdus', c' + k' + 1, .ok⟩) :=
      (guardStatus_ok rfl _ _).trans (by simp only [e2'])
    have hr : guardStatus old (next_named_hdu name >>= fun _ => guardStatus old body) ⟨hdus, c, .ok⟩
        = body ⟨hdus, c + k + 1, .ok⟩ := by
      rw [guardStatus_ok rfl, FitsM.bind_ok hm, guardStatus_ok rfl]
    have hr' : guardStatus old (next_named_hdu name >>= fun _ => guardStatus old body) ⟨hdus', c', .ok⟩
        = body ⟨hdus', c' + k' + 1, .ok⟩ := by
      rw [guardStatus_ok rfl, FitsM.bind_ok hm', guardStatus_ok rfl]
    rw [readAll, readAll]
    have hfree : Same hdus hdus'
        (guardStatus old (next_named_hdu name >>= fun _ => guardStatus old body) ⟨hdus, c, .ok⟩)
        (guardStatus old (next_named_hdu name >>= fun _ => guardStatus old body) ⟨hdus', c', .ok⟩) := by
      rw [hr, hr']
      exact hloc.free (by rw [e1, e1']) _
    refine Same.bind hfree fun a s1 t1 g1 g2 g3 g4 g5 => ?_
    rw [hr] at g1
    rw [hr'] at g2
    have hcur := (hloc.stays _ _ _ g1).2
    have hcur' := (hloc.stays _ _ _ g2).2
    have heof : s1.status ≠ .END_OF_FILE := by
      rcases htame.run ⟨hdus, c + k + 1, .ok⟩ with hx | ⟨a', s', hx, -, -, hx'⟩
      · rw [hx] at g1; cases g1
      · rw [g1] at hx
        rw [(Prod.mk.inj (Outcome.ok.inj hx)).2]
        intro hy
        cases hx' hy
    obtain ⟨x, y, st⟩ := s1
    obtain ⟨x', y', st'⟩ := t1
    simp only at g3 g4 g5 hcur hcur' heof
    subst g3; subst g4; subst g5; subst hcur; subst hcur'
    rw [FitsM.bind_ok (run_getStatus _), FitsM.bind_ok (run_getStatus _)]
    show Same _ _ ((if st = .ok then _ else _ : FitsM R (List α)) _) ((if st = .ok then _ else _ : FitsM R (List α)) _)
    have hrec := ih fuel fuel' (c + k + 1) (c' + k' + 1) (by omega) hlt (by omega) hlt' e3 e3'
    by_cases hst : st = .ok
    · subst hst
      rw [if_pos rfl, if_pos rfl]
      exact hrec.bind fun l s2 t2 _ _ i1 i2 i3 => ⟨rfl, i1, i2, i3⟩
    · rw [if_neg hst, if_neg hst, if_neg heof, if_neg heof]
      cases skip with
      | false => exact ⟨rfl, rfl, rfl, rfl⟩
      | true =>
        rw [if_pos rfl, if_pos rfl]
        exact hrec

theorem readTables_same {name : CStr} {old : α} {read : FitsM R α} (h : ReadsLocal name old read) (skip : Bool)
    {hdus hdus' : List (Hdu R)} (hn : ∀ h ∈ hdus, StringName h) (hn' : ∀ h ∈ hdus', StringName h)
    (h0 : hdus ≠ []) (h0' : hdus' ≠ []) (he : hdus.tail.filter (isTable name) = hdus'.tail.filter (isTable name)) :
    FreeOk hdus hdus' (readTables skip read) := by
  intro c c'
  obtain ⟨p, l, rfl⟩ := List.exists_cons_of_ne_nil h0
  obtain ⟨p', l', rfl⟩ := List.exists_cons_of_ne_nil h0'
  rw [readTables, FitsM.bind_ok (movabs_first (p := p) rfl), FitsM.bind_ok (movabs_first (p := p') rfl)]
  have hnum : ∀ x : List (Hdu R), fits_get_num_hdus (⟨x, 0, .ok⟩ : FState R) = .ok (x.length, ⟨x, 0, .ok⟩) := fun x => rfl
  rw [FitsM.bind_ok (hnum _), FitsM.bind_ok (hnum _)]
  exact readAll_same h skip hn hn' _ _ _ 0 0 (by omega) (by simp) (by omega) (by simp) rfl he.symm

theorem header_same (old : OiHeader) {hdus hdus' : List (Hdu R)} (h0 : hdus ≠ []) (h0' : hdus' ≠ [])
    (he : hdus.head? = hdus'.head?) : Free hdus hdus' (read_oi_header old) := by
  obtain ⟨p, l, rfl⟩ := List.exists_cons_of_ne_nil h0
  obtain ⟨p', l', rfl⟩ := List.exists_cons_of_ne_nil h0'
  obtain rfl : p = p' := Option.some.inj he
  unfold read_oi_header
  refine FreeOk.guard _ ?_
  intro c c'
  rw [FitsM.bind_ok (movabs_first (p := p) rfl), FitsM.bind_ok (movabs_first (p := p) rfl)]
  refine Local.free (hdus := p :: l) (hdus' := p :: l') (i := 0) (i' := 0) ?_ rfl _
  locl!

theorem target_same (u : Undef R) (old : OiTarget R) {hdus hdus' : List (Hdu R)} (hn : ∀ h ∈ hdus, StringName h)
    (hn' : ∀ h ∈ hdus', StringName h)
    (he : hdus.find? (isTable "OI_TARGET") = hdus'.find? (isTable "OI_TARGET")) :
    Free hdus hdus' (read_oi_target u old) := by
  unfold read_oi_target
  refine FreeOk.guard _ ?_
  intro c c'
  have hm := movnamLoop_first (name := "OI_TARGET") hdus hn 0
  have hm' := movnamLoop_first (name := "OI_TARGET") hdus' hn' 0
  cases hf : hdus.findIdx? (isTable "OI_TARGET") with
  | none =>
    have hfn : hdus.find? (isTable "OI_TARGET") = none := by
      rw [List.find?_eq_none]
      rw [List.findIdx?_eq_none_iff] at hf
      intro x hx
      rw [hf x hx]; simp
    have hf' : hdus'.findIdx? (isTable "OI_TARGET") = none := by
      rw [hfn] at he
      rw [List.findIdx?_eq_none_iff]
      intro x hx
      simpa using List.find?_eq_none.mp he.symm x hx
    rw [hf] at hm
    rw [hf'] at hm'
    have hmv : fits_movnam_hdu ("OI_TARGET" : CStr) (⟨hdus, c, .ok⟩ : FState R) = .ok ((), ⟨hdus, c, .BAD_HDU_NUM⟩) :=
      (guardStatus_ok rfl _ _).trans (by simp only [hm]; rfl)
    have hmv' : fits_movnam_hdu ("OI_TARGET" : CStr) (⟨hdus', c', .ok⟩ : FState R) = .ok ((), ⟨hdus', c', .BAD_HDU_NUM⟩) :=
      (guardStatus_ok rfl _ _).trans (by simp only [hm']; rfl)
    rw [FitsM.bind_ok hmv, FitsM.bind_ok hmv']
    have hk : ∀ x k, fits_read_key_int ("OI_REVN" : CStr) old.revision (⟨x, k, .BAD_HDU_NUM⟩ : FState R)
        = .ok (old.revision, ⟨x, k, .BAD_HDU_NUM⟩) := fun x k => by
      unfold fits_read_key_int cfRead
      rw [if_neg (by simp)]
    rw [FitsM.bind_ok (hk _ _), FitsM.bind_ok (hk _ _), guardStatus_err (by simp), guardStatus_err (by simp)]
    exact ⟨rfl, rfl, rfl, rfl⟩
  | some i =>
    obtain ⟨hlt, ht, hmin⟩ := List.findIdx?_eq_some_iff_getElem.mp hf
    have hfs : hdus.find? (isTable "OI_TARGET") = some hdus[i] := by
      rw [List.find?_eq_some_iff_getElem]
      exact ⟨ht, i, hlt, rfl, fun j hj => by simpa using hmin j hj⟩
    rw [hfs] at he
    obtain ⟨ht', i', hlt', hg', hmin'⟩ := List.find?_eq_some_iff_getElem.mp he.symm
    have hf' : hdus'.findIdx? (isTable "OI_TARGET") = some i' := by
      rw [List.findIdx?_eq_some_iff_getElem]
      exact ⟨hlt', by rw [hg']; exact ht, fun j hj => by simpa using hmin' j hj⟩
    rw [hf] at hm
    rw [hf'] at hm'
    simp only [Option.map_some, Nat.zero_add] at hm hm'
    have hmv : fits_movnam_hdu ("OI_TARGET" : CStr) (⟨hdus, c, .ok⟩ : FState R) = .ok ((), ⟨hdus, i, .ok⟩) :=
      (guardStatus_ok rfl _ _).trans (by simp only [hm])
    have hmv' : fits_movnam_hdu ("OI_TARGET" : CStr) (⟨hdus', c', .ok⟩ : FState R) = .ok ((), ⟨hdus', i', .ok⟩) :=
      (guardStatus_ok rfl _ _).trans (by simp only [hm'])
    rw [FitsM.bind_ok hmv, FitsM.bind_ok hmv']
    refine Local.free ?_ (by rw [List.getElem?_eq_getElem hlt, List.getElem?_eq_getElem hlt', hg']) _
    unfold readTarget readCategories readCategory
    locl!

theorem readBody_same (u : Undef R) {hdus hdus' : List (Hdu R)} (hn : ∀ h ∈ hdus, StringName h)
    (hn' : ∀ h ∈ hdus', StringName h) (h0 : hdus ≠ []) (hs : SameTables hdus hdus') :
    Free hdus hdus' (readBody u) := by
  obtain ⟨he, htab⟩ := hs
  have h0' : hdus' ≠ [] := by
    rintro rfl
    cases hdus with
    | nil => exact h0 rfl
    | cons => cases he
  have hfind : hdus.find? (isTable "OI_TARGET") = hdus'.find? (isTable "OI_TARGET") := by
    have h1 := htab "OI_TARGET" (by decide)
    obtain ⟨p, l, rfl⟩ := List.exists_cons_of_ne_nil h0
    obtain ⟨p', l', rfl⟩ := List.exists_cons_of_ne_nil h0'
    obtain rfl : p = p' := Option.some.inj he
    rw [← List.head?_filter, ← List.head?_filter, List.filter_cons, List.filter_cons]
    have h1 : l.filter (isTable "OI_TARGET") = l'.filter (isTable "OI_TARGET") := h1
    rw [h1]
  have hend : ∀ {τ : Type} {name : CStr} {old : τ} {read : FitsM R τ}, ReadsLocal name old read → ∀ c a s,
      readTables true read ⟨hdus, c, .ok⟩ = .ok (a, s) → s.status = .ok := by
    intro τ name old read h c a s hr
    obtain ⟨body, h1, -, h2⟩ := h.shape
    rcases readTables_ends ⟨body, h1, h2⟩ true ⟨hdus, c, .ok⟩ rfl h0 with hx | ⟨l, s', hx, -, hx'⟩
    · rw [hr] at hx; cases hx
    · rw [hr] at hx
      rw [(Prod.mk.inj (Outcome.ok.inj hx)).2]
      exact hx' rfl
  unfold readBody
  refine Free.bind (header_same _ h0 h0' he) fun header => Free.bind (target_same u _ hn hn' hfind) fun targets =>
    FreeOk.guard _ ?_
  refine FreeOk.bind (readTables_same (readsLocal_array u _) _ hn hn' h0 h0' (htab _ (by decide))) fun arrays =>
    FreeOk.guard _ ?_
  refine FreeOk.bind (readTables_same (readsLocal_wavelength u _) _ hn hn' h0 h0' (htab _ (by decide))) fun waves =>
    FreeOk.guard _ ?_
  refine FreeOk.bindOk (readTables_same (readsLocal_corr u _) _ hn hn' h0 h0' (htab _ (by decide)))
    (hend (readsLocal_corr u _)) fun corrs => ?_
  refine FreeOk.bindOk (readTables_same (readsLocal_inspol u _) _ hn hn' h0 h0' (htab _ (by decide)))
    (hend (readsLocal_inspol u _)) fun inspols => ?_
  refine FreeOk.bindOk (readTables_same (readsLocal_vis u _) _ hn hn' h0 h0' (htab _ (by decide)))
    (hend (readsLocal_vis u _)) fun viss => ?_
  refine FreeOk.bindOk (readTables_same (readsLocal_vis2 u _) _ hn hn' h0 h0' (htab _ (by decide)))
    (hend (readsLocal_vis2 u _)) fun vis2s => ?_
  refine FreeOk.bindOk (readTables_same (readsLocal_t3 u _) _ hn hn' h0 h0' (htab _ (by decide)))
    (hend (readsLocal_t3 u _)) fun t3s => ?_
  refine FreeOk.bindOk (readTables_same (readsLocal_flux u _) _ hn hn' h0 h0' (htab _ (by decide)))
    (hend (readsLocal_flux u _)) fun fluxs => ?_
  refine FreeOk.bindOk (FreeOk.lift _) (fun c a s hr => ?_) fun oi => FreeOk.pure _
  cases hx : finishHeader (assemble header targets arrays waves corrs inspols viss vis2s t3s fluxs) with
  | ok y =>
    rw [hx] at hr
    rw [← (Prod.mk.inj (Outcome.ok.inj hr)).2]
  | abort => rw [hx] at hr; cases hr
  | ub => rw [hx] at hr; cases hr

theorem same_result {hdus hdus' : List (Hdu R)} {x y : Outcome (α × FState R)} (h : Same hdus hdus' x y) :
    (x >>= fun p => match p with | (a, s) => (pure (a, s.status) : Outcome (α × Status))) =
      y >>= fun p => match p with | (a, s) => pure (a, s.status) := by
  match x, y, h with
  | .ok (a, s), .ok (b, t), ⟨h1, h2, _, _⟩ =>
    subst h1
    show Outcome.ok (a, s.status) = Outcome.ok (a, t.status)
    rw [h2]
  | .abort, .abort, _ => rfl
  | .ub, .ub, _ => rfl

/-- Reading gives the same. -/
theorem read_same (u : Undef R) {hdus hdus' : List (Hdu R)} (hn : ∀ h ∈ hdus, StringName h)
    (hn' : ∀ h ∈ hdus', StringName h) (h0 : hdus ≠ []) (hs : SameTables hdus hdus') (st : Status) :
    read_oi_fits u (some hdus) st = read_oi_fits u (some hdus') st := by
  unfold read_oi_fits
  by_cases hst : st = .ok
  · rw [if_neg (by simpa using hst), if_neg (by simpa using hst)]
    have h := readBody_same u hn hn' h0 hs 0 0 .ok
    exact same_result h
  · rw [if_pos (by simpa using hst), if_pos (by simpa using hst)]

end Verif
