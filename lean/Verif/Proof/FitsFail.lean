import Verif.Proof.FitsTotal

/-! Reading a table fails when a mandatory column or keyword is missing. -/

namespace Verif
open Outcome

variable {R : FP} {α β ι : Type} {h : Hdu R}

/-- Started on the given HDU without error pending, the code aborts or ends with an error. -/
structure Fails (h : Hdu R) (m : FitsM R α) : Prop where
  run : ∀ s, At s h → m s = .abort ∨ ∃ a s', m s = .ok (a, s') ∧ s'.status ≠ .ok

theorem Fails.left {m : FitsM R α} {f : α → FitsM R β} (hm : Fails h m) (hi : ∀ a, Inert (f a)) :
    Fails h (m >>= f) := by
  constructor
  intro s hs
  rcases hm.run s hs with h1 | ⟨a, s', h1, h2⟩
  · left; change FitsM.bind _ _ s = _; simp [FitsM.bind, h1]
  · right
    obtain ⟨b, hb⟩ := (hi a).run s' h2
    exact ⟨b, s', by rw [FitsM.bind_ok h1, hb], h2⟩

theorem Fails.right {m : FitsM R α} {f : α → FitsM R β} (ht : Tame m) (hi : ∀ a, Inert (f a))
    (hf : ∀ a, Fails h (f a)) : Fails h (m >>= f) := by
  constructor
  intro s hs
  rcases ht.run s with h1 | ⟨a, s', h1, h2, h3, -⟩
  · left; change FitsM.bind _ _ s = _; simp [FitsM.bind, h1]
  · rw [FitsM.bind_ok h1]
    by_cases hst : s'.status = .ok
    · exact (hf a).run s' ⟨hst, by rw [h2, h3]; exact hs.cur⟩
    · right
      obtain ⟨b, hb⟩ := (hi a).run s' hst
      exact ⟨b, s', hb, hst⟩

theorem Fails.guard {body : FitsM R α} (out : α) (hb : Fails h body) : Fails h (guardStatus out body) := by
  constructor
  intro s hs
  rw [guardStatus_ok hs.ok]
  exact hb.run s hs

theorem Fails.alloc {n : Nat} {f : Unit → FitsM R β} (hf : n ≠ 0 → Fails h (f ())) :
    Fails h (FitsM.lift (chkmallocN n) >>= f) := by
  constructor
  intro s hs
  by_cases hn : n = 0
  · subst hn; exact .inl rfl
  · have ha : FitsM.lift (chkmallocN n) s = .ok ((), s) := by simp [FitsM.lift, chkmallocN, hn]
    rw [FitsM.bind_ok ha]
    exact (hf hn).run s hs

theorem Fails.allocRecords {n w : Nat} {f : Unit → FitsM R β} (hf : n ≠ 0 → Fails h (f ())) :
    Fails h (FitsM.lift (allocRecords n w) >>= f) := by
  constructor
  intro s hs
  by_cases hn : n = 0
  · subst hn; exact .inl rfl
  · by_cases hw : w = 0
    · subst hw
      left
      have ha : FitsM.lift (Verif.allocRecords n 0) s = .abort := by
        simp [FitsM.lift, Verif.allocRecords, chkmallocN, hn]
      change FitsM.bind _ _ s = _
      simp [FitsM.bind, ha]
    · have ha : FitsM.lift (Verif.allocRecords n w) s = .ok ((), s) := by
        simp [FitsM.lift, Verif.allocRecords, chkmallocN, hn, hw]
      rw [FitsM.bind_ok ha]
      exact (hf hn).run s hs

theorem Fails.forRows {body : Nat → FitsM R α} {n : Nat} (hn : n ≠ 0) (hb : ∀ i, Fails h (body i))
    (hi : ∀ i, Inert (body i)) (first : Nat) : Fails h (forRows first n body) := by
  obtain ⟨n, rfl⟩ : ∃ k, n = k + 1 := ⟨n - 1, by omega⟩
  rw [Verif.forRows]
  exact Fails.left (hb _) fun _ => (Inert.forRows hi _ _).bind fun _ => Inert.pure _

theorem Fails.cfRead {junk : α} {f : Hdu R → Except Status α} {st : Status} (hf : f h = .error st)
    (hst : st ≠ .ok) : Fails h (cfRead junk f) :=
  ⟨fun _ hs => .inr ⟨_, _, cfRead_error hs hf junk, hst⟩⟩

/-! ### Missing columns -/

/-- The table lacks the column. -/
def NoCol (h : Hdu R) (name : CStr) : Prop := Spec.hasColumn name h = false

theorem colnum_missing {name : CStr} (hb : h.type = .binary) (hc : NoCol h name) :
    h.colnum name = .error .COL_NOT_FOUND := by
  unfold Hdu.colnum
  rw [if_pos hb]
  have : (h.cols.findIdx? fun c => upper c.name == upper name) = none := by
    rw [List.findIdx?_eq_none_iff]
    intro c hcc
    unfold NoCol Spec.hasColumn at hc
    rw [List.any_eq_false] at hc
    simpa using hc c hcc
  rw [this]

theorem fails_colnum {name : CStr} (hb : h.type = .binary) (hc : NoCol h name) (d : Nat) :
    Fails h (fits_get_colnum name d) := Fails.cfRead (colnum_missing hb hc) (by decide)

theorem fails_arr {name : CStr} (hb : h.type = .binary) (hc : NoCol h name) (conv : Cell R → Option α)
    (j : α) (i n : Nat) : Fails h (readArr conv j name i n) := by
  unfold readArr
  exact (fails_colnum hb hc _).left fun _ => inert_read_col _ _ _ _ _

theorem fails_one {name : CStr} (hb : h.type = .binary) (hc : NoCol h name) (conv : Cell R → Option α)
    (j : α) (i : Nat) : Fails h (readOne conv j name i) := by
  unfold readOne
  exact (fails_arr hb hc _ _ _ _).left fun _ => Inert.pure _

theorem fails_findStrCol {name : CStr} (hb : h.type = .binary) (hc : NoCol h name) (m : Option Nat)
    (i : Nat) (v : CStr) : Fails h (findStrCol false name m i v) := by
  refine Fails.guard _ ⟨fun s hs => .inr ⟨(false, v), { s with status := .COL_NOT_FOUND }, ?_, by simp⟩⟩
  have : fits_get_colnum name 0 s = .ok (0, { s with status := .COL_NOT_FOUND }) :=
    cfRead_error hs (colnum_missing hb hc) 0
  rw [FitsM.bind_ok this, FitsM.bind_ok (run_getStatus _)]
  rfl

theorem fails_col_string {name : CStr} (hb : h.type = .binary) (hc : NoCol h name) (m i : Nat) (v : CStr) :
    Fails h (read_col_string false name m i v) := fails_findStrCol hb hc _ _ _

theorem fails_col_trunc {name : CStr} (hb : h.type = .binary) (hc : NoCol h name) (m i : Nat) (v : CStr) :
    Fails h (read_col_string_truncate name m i v) := by
  unfold read_col_string_truncate
  exact (fails_findStrCol hb hc _ _ _).left fun _ => Inert.pure _

/-! ### Missing keywords -/

/-- The header lacks the keyword. -/
def NoKey (h : Hdu R) (name : CStr) : Prop := Spec.hasKeyword name h = false

theorem NoKey.lookup {name : CStr} (hk : NoKey h name) : h.keys.lookup name = none := by
  simpa [NoKey, Spec.hasKeyword] using hk

theorem fails_key_str {name : CStr} (hk : NoKey h name) (d : CStr) : Fails h (fits_read_key_str name d) :=
  Fails.cfRead (st := .KEY_NO_EXIST) (by unfold Hdu.readStr; rw [hk.lookup]) (by decide)
theorem fails_key_int {name : CStr} (hk : NoKey h name) (d : Int) : Fails h (fits_read_key_int name d) :=
  Fails.cfRead (st := .KEY_NO_EXIST) (by unfold Hdu.readInt; rw [hk.lookup]) (by decide)
theorem fails_key_dbl {name : CStr} (hk : NoKey h name) (d : R.Dbl) : Fails h (fits_read_key_dbl name d) :=
  Fails.cfRead (st := .KEY_NO_EXIST) (by unfold Hdu.readDbl; rw [hk.lookup]) (by decide)
theorem fails_name {name : CStr} (hk : NoKey h name) (u : Undef R) : Fails h (readName u name none) := by
  unfold readName
  exact (fails_key_str hk _).left fun _ => Inert.pure _

/-! ### Code which fails if a column or keyword is missing -/

/-- The code ends, and fails if one of the columns or keywords is missing. -/
structure Loose (h : Hdu R) (m : FitsM R α) (cols keys : List CStr) : Prop where
  tame : Tame m
  cols : ∀ c ∈ cols, NoCol h c → Fails h m
  keys : ∀ k ∈ keys, NoKey h k → Fails h m

/-- Besides, it does nothing if an error is pending. -/
structure Strict (h : Hdu R) (m : FitsM R α) (cols keys : List CStr) : Prop extends Loose h m cols keys where
  inert : Inert m

theorem Loose.bind {m : FitsM R α} {f : α → FitsM R β} {c1 k1 c2 k2 : List CStr} (hm : Loose h m c1 k1)
    (hf : ∀ a, Strict h (f a) c2 k2) : Loose h (m >>= f) (c1 ++ c2) (k1 ++ k2) := by
  refine ⟨hm.tame.bind fun a => (hf a).tame, fun c hc hn => ?_, fun k hk hn => ?_⟩
  · rcases List.mem_append.mp hc with hc | hc
    · exact (hm.cols c hc hn).left fun a => (hf a).inert
    · exact Fails.right hm.tame (fun a => (hf a).inert) fun a => (hf a).cols c hc hn
  · rcases List.mem_append.mp hk with hk | hk
    · exact (hm.keys k hk hn).left fun a => (hf a).inert
    · exact Fails.right hm.tame (fun a => (hf a).inert) fun a => (hf a).keys k hk hn

theorem Strict.bind {m : FitsM R α} {f : α → FitsM R β} {c1 k1 c2 k2 : List CStr} (hm : Strict h m c1 k1)
    (hf : ∀ a, Strict h (f a) c2 k2) : Strict h (m >>= f) (c1 ++ c2) (k1 ++ k2) :=
  ⟨hm.toLoose.bind hf, hm.inert.bind fun a => (hf a).inert⟩

theorem Strict.bindC {m : FitsM R α} {f : α → FitsM R β} {n : CStr} {c k : List CStr} (hm : Strict h m [n] [])
    (hf : ∀ a, Strict h (f a) c k) : Strict h (m >>= f) (n :: c) k := hm.bind hf

theorem Strict.bindK {m : FitsM R α} {f : α → FitsM R β} {n : CStr} {c k : List CStr} (hm : Strict h m [] [n])
    (hf : ∀ a, Strict h (f a) c k) : Strict h (m >>= f) c (n :: k) := hm.bind hf

theorem Strict.bind0 {m : FitsM R α} {f : α → FitsM R β} {c k : List CStr} (hm : Strict h m [] [])
    (hf : ∀ a, Strict h (f a) c k) : Strict h (m >>= f) c k := hm.bind hf

theorem Loose.bindC {m : FitsM R α} {f : α → FitsM R β} {n : CStr} {c k : List CStr} (hm : Strict h m [n] [])
    (hf : ∀ a, Strict h (f a) c k) : Loose h (m >>= f) (n :: c) k := hm.toLoose.bind hf

theorem Loose.bindK {m : FitsM R α} {f : α → FitsM R β} {n : CStr} {c k : List CStr} (hm : Strict h m [] [n])
    (hf : ∀ a, Strict h (f a) c k) : Loose h (m >>= f) c (n :: k) := hm.toLoose.bind hf

theorem Loose.weak {m : FitsM R α} (ht : Tame m) : Loose h m [] [] :=
  ⟨ht, fun _ hc => absurd hc (List.not_mem_nil), fun _ hc => absurd hc (List.not_mem_nil)⟩

theorem Strict.weak {m : FitsM R α} (ht : Tame m) (hi : Inert m) : Strict h m [] [] := ⟨Loose.weak ht, hi⟩

theorem Strict.pure (a : α) : Strict h (pure a : FitsM R α) [] [] := Strict.weak (Tame.pure a) (Inert.pure a)

theorem Strict.guard {body : FitsM R α} {c k : List CStr} (out : α) (hb : Loose h body c k) :
    Strict h (guardStatus out body) c k :=
  ⟨⟨hb.tame.guard out, fun x hx hn => (hb.cols x hx hn).guard out,
    fun x hx hn => (hb.keys x hx hn).guard out⟩, Inert.guard _ _⟩

theorem Loose.alloc {n : Nat} {f : Unit → FitsM R β} {c k : List CStr} (ht : Tame (f ()))
    (hf : n ≠ 0 → Loose h (f ()) c k) : Loose h (FitsM.lift (chkmallocN n) >>= f) c k :=
  ⟨(tame_alloc n).bind fun _ => ht, fun x hx hn => Fails.alloc fun h0 => (hf h0).cols x hx hn,
    fun x hx hn => Fails.alloc fun h0 => (hf h0).keys x hx hn⟩

theorem Loose.allocRecords {n w : Nat} {f : Unit → FitsM R β} {c k : List CStr} (ht : Tame (f ()))
    (hf : n ≠ 0 → Loose h (f ()) c k) : Loose h (FitsM.lift (allocRecords n w) >>= f) c k :=
  ⟨(tame_allocRecords n w).bind fun _ => ht, fun x hx hn => Fails.allocRecords fun h0 => (hf h0).cols x hx hn,
    fun x hx hn => Fails.allocRecords fun h0 => (hf h0).keys x hx hn⟩

theorem Strict.forRows {body : Nat → FitsM R α} {n : Nat} {c k : List CStr} (hn : n ≠ 0)
    (hb : ∀ i, Strict h (body i) c k) (first : Nat) : Strict h (forRows first n body) c k :=
  ⟨⟨Tame.forRows (fun i => (hb i).tame) _ _,
    fun x hx hm => Fails.forRows hn (fun i => (hb i).cols x hx hm) (fun i => (hb i).inert) first,
    fun x hx hm => Fails.forRows hn (fun i => (hb i).keys x hx hm) (fun i => (hb i).inert) first⟩,
   Inert.forRows (fun i => (hb i).inert) _ _⟩

theorem Strict.cast {m : FitsM R α} {c k c' k' : List CStr} (hm : Strict h m c k) (h1 : c = c') (h2 : k = k') :
    Strict h m c' k' := h1 ▸ h2 ▸ hm

theorem Loose.cast {m : FitsM R α} {c k c' k' : List CStr} (hm : Loose h m c k) (h1 : c = c') (h2 : k = k') :
    Loose h m c' k' := h1 ▸ h2 ▸ hm

theorem strict_col {m : FitsM R α} {n : CStr} (ht : Tame m) (hi : Inert m) (hf : NoCol h n → Fails h m) :
    Strict h m [n] [] :=
  ⟨⟨ht, fun c hc hn => by rw [List.mem_singleton] at hc; exact hf (hc ▸ hn),
    fun _ hc => absurd hc (List.not_mem_nil)⟩, hi⟩

theorem strict_key {m : FitsM R α} {n : CStr} (ht : Tame m) (hi : Inert m) (hf : NoKey h n → Fails h m) :
    Strict h m [] [n] :=
  ⟨⟨ht, fun _ hc => absurd hc (List.not_mem_nil),
    fun c hc hn => by rw [List.mem_singleton] at hc; exact hf (hc ▸ hn)⟩, hi⟩

section
variable (hb : h.type = .binary)
include hb
theorem strict_arr (conv : Cell R → Option α) (j : α) (n : CStr) (i k : Nat) :
    Strict h (readArr conv j n i k) [n] [] :=
  strict_col (tame_arr _ _ _ _ _) (inert_arr _ _ _ _ _) fun hn => fails_arr hb hn _ _ _ _
theorem strict_one (conv : Cell R → Option α) (j : α) (n : CStr) (i : Nat) :
    Strict h (readOne conv j n i) [n] [] :=
  strict_col (tame_one _ _ _ _) (inert_one _ _ _ _) fun hn => fails_one hb hn _ _ _
theorem strict_col_string (n : CStr) (m i : Nat) (v : CStr) :
    Strict h (read_col_string false n m i v) [n] [] :=
  strict_col (tame_col_string _ _ _ _ _) (inert_col_string _ _ _ _ _) fun hn => fails_col_string hb hn _ _ _
theorem strict_col_trunc (n : CStr) (m i : Nat) (v : CStr) :
    Strict h (read_col_string_truncate n m i v) [n] [] :=
  strict_col (tame_col_trunc _ _ _ _) (inert_col_trunc _ _ _ _) fun hn => fails_col_trunc hb hn _ _ _
theorem strict_colnum (n : CStr) (d : Nat) : Strict h (fits_get_colnum n d) [n] [] :=
  strict_col (tame_colnum _ _) (inert_colnum _ _) fun hn => fails_colnum hb hn _
end
theorem strict_key_str (n d : CStr) : Strict h (fits_read_key_str n d) [] [n] :=
  strict_key (tame_key_str _ _) (inert_key_str _ _) fun hn => fails_key_str hn _
theorem strict_key_int (n : CStr) (d : Int) : Strict h (fits_read_key_int n d) [] [n] :=
  strict_key (tame_key_int _ _) (inert_key_int _ _) fun hn => fails_key_int hn _
theorem strict_key_dbl (n : CStr) (d : R.Dbl) : Strict h (fits_read_key_dbl n d) [] [n] :=
  strict_key (tame_key_dbl _ _) (inert_key_dbl _ _) fun hn => fails_key_dbl hn _
theorem strict_name (u : Undef R) (n : CStr) : Strict h (readName u n none) [] [n] :=
  strict_key (tame_name _ _ _) (inert_name _ _ _) fun hn => fails_name hn _
theorem strict_num_rows (d : Nat) : Strict h (fits_get_num_rows d) [] [] :=
  Strict.weak (tame_num_rows _) (inert_num_rows _)
theorem strict_coltype (n : Nat) (d : ColType × Nat) : Strict h (fits_get_coltype n d) [] [] :=
  Strict.weak (tame_coltype _ _) (inert_coltype _ _)
theorem strict_opt_str (n d : CStr) : Strict h (read_key_opt_string n d) [] [] :=
  Strict.weak (tame_opt_str _ _) (inert_opt_str _ _)
theorem strict_opt_dbl (n : CStr) (d : R.Dbl) : Strict h (read_key_opt_double n d) [] [] :=
  Strict.weak (tame_opt_dbl _ _) (inert_opt_dbl _ _)
theorem strict_corrname (r : Int) (o : CStr) : Strict h (readCorrname r o) [] [] :=
  Strict.weak (tame_corrname _ _) (inert_corrname _ _)
theorem strict_unitOpt (n : Nat) (o d : CStr) (x : CStr) : Strict h (readKeyOpt (readColUnit n o) d x) [] [] :=
  Strict.weak (tame_keyOpt (tame_colUnit _ _) _ _) (inert_keyOpt _ _ _)
theorem strict_corrindx (u : Undef R) (c : Bool) (n : CStr) (i : Nat) : Strict h (readCorrindx u c n i) [] [] := by
  refine Strict.weak ?_ (inert_corrindx _ _ _ _)
  unfold readCorrindx; tame!
theorem strict_vis_opt (u : Undef R) (v : OiVis R) : Strict h (read_oi_vis_opt u v) [] [] :=
  Strict.weak (tame_vis_opt u v) (Inert.guard _ _)

/-- Take the code apart. -/
macro "strict" hb:term : tactic => `(tactic| repeat (first
  | with_reducible exact Strict.pure _
  | with_reducible refine Strict.bindC (strict_arr $hb _ _ _ _ _) fun _ => ?_
  | with_reducible refine Strict.bindC (strict_one $hb _ _ _ _) fun _ => ?_
  | with_reducible refine Strict.bindC (strict_col_string $hb _ _ _ _) fun _ => ?_
  | with_reducible refine Strict.bind0 (strict_corrindx _ _ _ _) fun _ => ?_
  | split))

/-! ### Rows -/

theorem strict_element (hb : h.type = .binary) (u : Undef R) (r : Int) (i : Nat) :
    Strict h (readElement u r i) (["TEL_NAME", "STA_NAME", "STA_INDEX", "DIAMETER", "STAXYZ"] : List CStr) [] := by
  unfold readElement
  strict hb <;> refine Strict.weak ?_ ?_
  · tame!
  · inert
  · exact Tame.pure _
  · exact Inert.pure _

theorem strict_jones (hb : h.type = .binary) (u : Undef R) (n : CStr) (i w : Nat) :
    Strict h (readJones u n i w) [n] [] := by
  unfold readJones
  exact Strict.cast (Strict.bind (strict_arr hb _ _ _ _ _) fun _ => Strict.pure _) rfl rfl

theorem strict_inspolRecord (hb : h.type = .binary) (u : Undef R) (w i : Nat) :
    Strict h (readInspolRecord u w i) (["TARGET_ID", "INSNAME", "MJD_OBS", "MJD_END", "JXX", "JYY", "JXY", "JYX", "STA_INDEX"] : List CStr) [] := by
  unfold readInspolRecord
  repeat (first
    | with_reducible refine Strict.bindC (strict_jones hb _ _ _ _) fun _ => ?_
    | with_reducible exact Strict.pure _
    | with_reducible refine Strict.bindC (strict_one hb _ _ _ _) fun _ => ?_
    | with_reducible refine Strict.bindC (strict_col_string hb _ _ _ _) fun _ => ?_
    | split)

theorem strict_visRecord (hb : h.type = .binary) (u : Undef R) (w i : Nat) :
    Strict h (readVisRecord u w i) (["TARGET_ID", "TIME", "MJD", "INT_TIME", "VISAMP", "VISAMPERR", "VISPHI", "VISPHIERR", "UCOORD", "VCOORD", "STA_INDEX", "FLAG"] : List CStr) [] := by
  unfold readVisRecord
  strict hb

theorem strict_vis2Record (hb : h.type = .binary) (u : Undef R) (w : Nat) (corr : Bool) (i : Nat) :
    Strict h (readVis2Record u w corr i) (["TARGET_ID", "TIME", "MJD", "INT_TIME", "VIS2DATA", "VIS2ERR", "UCOORD", "VCOORD", "STA_INDEX", "FLAG"] : List CStr) [] := by
  unfold readVis2Record
  strict hb

theorem strict_t3Record (hb : h.type = .binary) (u : Undef R) (w : Nat) (corr : Bool) (i : Nat) :
    Strict h (readT3Record u w corr i) (["TARGET_ID", "TIME", "MJD", "INT_TIME", "T3AMP", "T3AMPERR", "T3PHI", "T3PHIERR", "U1COORD", "V1COORD", "U2COORD", "V2COORD", "STA_INDEX", "FLAG"] : List CStr) [] := by
  unfold readT3Record
  strict hb

/-! ### Tables -/

/-- A function which looks for the next table of a given name, and fails if that lacks
one of the given columns or keywords. -/
structure ReadsStrict (name : CStr) (cols keys : List CStr) (old : α) (read : FitsM R α) : Prop where
  shape : ∃ body : FitsM R α, (∀ h : Hdu R, h.type = .binary → Loose h body cols keys) ∧
    read = guardStatus old (next_named_hdu name >>= fun _ => guardStatus old body)

theorem Loose.guard {body : FitsM R α} {c k : List CStr} (out : α) (hb : Loose h body c k) :
    Loose h (guardStatus out body) c k := (Strict.guard out hb).toLoose

theorem readsStrict_array (u : Undef R) (old : OiArray R) :
    ReadsStrict "OI_ARRAY" (["TEL_NAME", "STA_NAME", "STA_INDEX", "DIAMETER", "STAXYZ"] : List CStr)
      (["OI_REVN", "ARRNAME", "FRAME", "ARRAYX", "ARRAYY", "ARRAYZ"] : List CStr) old (read_next_oi_array u old) := by
  refine ⟨_, fun h hb => ?_, rfl⟩
  unfold read_oi_array_chdu
  refine Loose.guard _ ?_
  refine Loose.bindK (strict_key_int _ _) fun _ => ?_
  refine Strict.guard _ ?_
  refine Loose.bindK (strict_name _ _) fun _ => ?_
  refine Strict.bindK (strict_key_str _ _) fun _ => ?_
  refine Strict.bindK (strict_key_dbl _ _) fun _ => ?_
  refine Strict.bindK (strict_key_dbl _ _) fun _ => ?_
  refine Strict.bindK (strict_key_dbl _ _) fun _ => ?_
  refine Strict.bind0 (strict_num_rows _) fun _ => ?_
  refine Strict.guard _ ?_
  refine Loose.alloc ?t fun hn => ?m
  case m => exact (Strict.bind (Strict.forRows hn (strict_element hb u _) _) fun _ => Strict.pure _).toLoose
  case t => exact (Tame.forRows (fun i => (strict_element hb u _ i).tame) _ _).bind fun _ => Tame.pure _

theorem readsStrict_wavelength (u : Undef R) (old : OiWavelength R) :
    ReadsStrict "OI_WAVELENGTH" (["EFF_WAVE", "EFF_BAND"] : List CStr)
      (["OI_REVN", "INSNAME"] : List CStr) old (read_next_oi_wavelength u old) := by
  refine ⟨_, fun h hb => ?_, rfl⟩
  unfold read_oi_wavelength_chdu
  refine Loose.guard _ ?_
  refine Loose.bindK (strict_key_int _ _) fun _ => ?_
  refine Strict.guard _ ?_
  refine Loose.bindK (strict_name _ _) fun _ => ?_
  refine Strict.bind0 (strict_num_rows _) fun _ => ?_
  refine Strict.guard _ ?_
  refine Loose.alloc ?t fun hn => ?m
  case m => refine Strict.toLoose ?_; strict hb
  case t => tame!

theorem readsStrict_corr (u : Undef R) (old : OiCorr R) :
    ReadsStrict "OI_CORR" (["IINDX", "JINDX", "CORR"] : List CStr)
      (["OI_REVN", "CORRNAME", "NDATA"] : List CStr) old (read_next_oi_corr u old) := by
  refine ⟨_, fun h hb => ?_, rfl⟩
  unfold read_oi_corr_chdu
  refine Loose.guard _ ?_
  refine Loose.bindK (strict_key_int _ _) fun _ => ?_
  refine Strict.guard _ ?_
  refine Loose.bindK (strict_name _ _) fun _ => ?_
  refine Strict.bindK (strict_key_int _ _) fun _ => ?_
  refine Strict.bind0 (strict_num_rows _) fun _ => ?_
  refine Strict.guard _ ?_
  refine Loose.alloc ?t fun hn => ?m
  case m => refine Strict.toLoose ?_; strict hb
  case t => tame!

theorem readsStrict_inspol (u : Undef R) (old : OiInspol R) :
    ReadsStrict "OI_INSPOL" (["JXX", "TARGET_ID", "INSNAME", "MJD_OBS", "MJD_END", "JXX", "JYY", "JXY", "JYX", "STA_INDEX"] : List CStr)
      (["OI_REVN", "DATE-OBS", "NPOL", "ARRNAME", "ORIENT", "MODEL"] : List CStr) old (read_next_oi_inspol u old) := by
  refine ⟨_, fun h hb => ?_, rfl⟩
  unfold read_oi_inspol_chdu
  refine Loose.guard _ ?_
  refine Loose.bindK (strict_key_int _ _) fun _ => ?_
  refine Strict.guard _ ?_
  refine Loose.bindK (strict_key_str _ _) fun _ => ?_
  refine Strict.bindK (strict_key_int _ _) fun _ => ?_
  refine Strict.bindK (strict_key_str _ _) fun _ => ?_
  refine Strict.bindK (strict_key_str _ _) fun _ => ?_
  refine Strict.bindK (strict_key_str _ _) fun _ => ?_
  refine Strict.bind0 (strict_num_rows _) fun _ => ?_
  refine Strict.bindC (strict_colnum hb _ _) fun _ => ?_
  refine Strict.bind0 (strict_coltype _ _) fun _ => ?_
  refine Strict.guard _ ?_
  refine Loose.allocRecords ?t fun hn => ?m
  case m => exact (Strict.bind (Strict.forRows hn (strict_inspolRecord hb u _) _) fun _ => Strict.pure _).toLoose
  case t => exact (Tame.forRows (fun i => (strict_inspolRecord hb u _ i).tame) _ _).bind fun _ => Tame.pure _

theorem readsStrict_vis (u : Undef R) (old : OiVis R) :
    ReadsStrict "OI_VIS" (["VISAMP", "TARGET_ID", "TIME", "MJD", "INT_TIME", "VISAMP", "VISAMPERR", "VISPHI", "VISPHIERR", "UCOORD", "VCOORD", "STA_INDEX", "FLAG"] : List CStr)
      (["OI_REVN", "DATE-OBS", "INSNAME"] : List CStr) old (read_next_oi_vis u old) := by
  refine ⟨_, fun h hb => ?_, rfl⟩
  refine Loose.bindK (strict_key_int _ _) fun _ => ?_
  refine Strict.guard _ ?_
  refine Loose.bindK (strict_key_str _ _) fun _ => ?_
  refine Strict.bind0 (strict_opt_str _ _) fun _ => ?_
  refine Strict.bindK (strict_key_str _ _) fun _ => ?_
  refine Strict.bind0 (strict_num_rows _) fun _ => ?_
  refine Strict.bindC (strict_colnum hb _ _) fun _ => ?_
  refine Strict.bind0 (strict_coltype _ _) fun _ => ?_
  refine Strict.guard _ ?_
  refine Loose.allocRecords ?t fun hn => ?m
  case m =>
    exact (Strict.bind (strict_unitOpt _ _ _ _) fun _ => Strict.bind (Strict.forRows hn (strict_visRecord hb u _) _)
        fun _ => strict_vis_opt u _).toLoose
  case t =>
    exact (tame_keyOpt (tame_colUnit _ _) _ _).bind fun _ =>
        (Tame.forRows (fun i => (strict_visRecord hb u _ i).tame) _ _).bind fun _ => tame_vis_opt u _

theorem readsStrict_vis2 (u : Undef R) (old : OiVis2 R) :
    ReadsStrict "OI_VIS2" (["VIS2DATA", "TARGET_ID", "TIME", "MJD", "INT_TIME", "VIS2DATA", "VIS2ERR", "UCOORD", "VCOORD", "STA_INDEX", "FLAG"] : List CStr)
      (["OI_REVN", "DATE-OBS", "INSNAME"] : List CStr) old (read_next_oi_vis2 u old) := by
  refine ⟨_, fun h hb => ?_, rfl⟩
  refine Loose.bindK (strict_key_int _ _) fun _ => ?_
  refine Strict.guard _ ?_
  refine Loose.bindK (strict_key_str _ _) fun _ => ?_
  refine Strict.bind0 (strict_opt_str _ _) fun _ => ?_
  refine Strict.bindK (strict_key_str _ _) fun _ => ?_
  refine Strict.bind0 (strict_corrname _ _) fun _ => ?_
  refine Strict.bind0 (strict_num_rows _) fun _ => ?_
  refine Strict.bindC (strict_colnum hb _ _) fun _ => ?_
  refine Strict.bind0 (strict_coltype _ _) fun _ => ?_
  refine Strict.guard _ ?_
  refine Loose.allocRecords ?t fun hn => ?m
  case m => exact (Strict.bind (Strict.forRows hn (strict_vis2Record hb u _ _) _) fun _ => Strict.pure _).toLoose
  case t => exact (Tame.forRows (fun i => (strict_vis2Record hb u _ _ i).tame) _ _).bind fun _ => Tame.pure _

theorem readsStrict_t3 (u : Undef R) (old : OiT3 R) :
    ReadsStrict "OI_T3" (["T3AMP", "TARGET_ID", "TIME", "MJD", "INT_TIME", "T3AMP", "T3AMPERR", "T3PHI", "T3PHIERR", "U1COORD", "V1COORD", "U2COORD", "V2COORD", "STA_INDEX", "FLAG"] : List CStr)
      (["OI_REVN", "DATE-OBS", "INSNAME"] : List CStr) old (read_next_oi_t3 u old) := by
  refine ⟨_, fun h hb => ?_, rfl⟩
  refine Loose.bindK (strict_key_int _ _) fun _ => ?_
  refine Strict.guard _ ?_
  refine Loose.bindK (strict_key_str _ _) fun _ => ?_
  refine Strict.bind0 (strict_opt_str _ _) fun _ => ?_
  refine Strict.bindK (strict_key_str _ _) fun _ => ?_
  refine Strict.bind0 (strict_corrname _ _) fun _ => ?_
  refine Strict.bind0 (strict_num_rows _) fun _ => ?_
  refine Strict.bindC (strict_colnum hb _ _) fun _ => ?_
  refine Strict.bind0 (strict_coltype _ _) fun _ => ?_
  refine Strict.guard _ ?_
  refine Loose.allocRecords ?t fun hn => ?m
  case m => exact (Strict.bind (Strict.forRows hn (strict_t3Record hb u _ _) _) fun _ => Strict.pure _).toLoose
  case t => exact (Tame.forRows (fun i => (strict_t3Record hb u _ _ i).tame) _ _).bind fun _ => Tame.pure _

theorem readsStrict_flux (u : Undef R) (old : OiFlux R) :
    ReadsStrict "OI_FLUX" (["FLUXDATA"] : List CStr)
      (["OI_REVN", "DATE-OBS", "INSNAME", "CALSTAT"] : List CStr) old (read_next_oi_flux u old) := by
  refine ⟨_, fun h hb => ?_, rfl⟩
  refine Loose.bindK (strict_key_int _ _) fun _ => ?_
  refine Strict.guard _ ?_
  refine Loose.bindK (strict_key_str _ _) fun _ => ?_
  refine Strict.bind0 (strict_opt_str _ _) fun _ => ?_
  refine Strict.bindK (strict_key_str _ _) fun _ => ?_
  refine Strict.bind0 (strict_opt_str _ _) fun _ => ?_
  refine Strict.bind0 (strict_opt_dbl _ _) fun _ => ?_
  refine Strict.bind0 (strict_opt_str _ _) fun _ => ?_
  refine Strict.bindK (strict_key_str _ _) fun _ => ?_
  refine Strict.bind0 (strict_num_rows _) fun _ => ?_
  refine Strict.bindC (strict_colnum hb _ _) fun _ => ?_
  refine Strict.bind0 (strict_coltype _ _) fun _ => ?_
  refine Strict.guard _ (Loose.weak ?t)
  case t =>
    unfold readFluxRecord readFluxSta readCorrindx
    tame!

theorem ReadsStrict.fails {name : CStr} {cols keys : List CStr} {old : α} {read : FitsM R α}
    (h : ReadsStrict name cols keys old read) {s s' : FState R} {hd : Hdu R} (hok : s.status = .ok)
    (hmv : next_named_hdu name s = .ok ((), s')) (hat : At s' hd) (hb : hd.type = .binary)
    (hmiss : (∃ c ∈ cols, NoCol hd c) ∨ ∃ k ∈ keys, NoKey hd k) :
    read s = .abort ∨ ∃ a s'', read s = .ok (a, s'') ∧ s''.status ≠ .ok := by
  obtain ⟨body, h1, rfl⟩ := h.shape
  rw [guardStatus_ok hok, FitsM.bind_ok hmv]
  have : Fails hd body := by
    rcases hmiss with ⟨c, hc, hn⟩ | ⟨k, hk, hn⟩
    · exact (h1 hd hb).cols c hc hn
    · exact (h1 hd hb).keys k hk hn
  exact (this.guard old).run s' hat

end Verif
