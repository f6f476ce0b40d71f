import Mathlib.Data.Nat.Find
import Mathlib.Tactic.ByContra
import Verif.Proof.FitsNamed

/-! Reading a table by its name. -/

namespace Verif
open Outcome Spec

variable {R : FP} {α : Type} {h : Hdu R}

theorem specificLoop_cons {name keyword value : CStr} (hb : h.type = .binary) (hs : StringName h)
    (hk : StringKey keyword h) (l : List (Hdu R)) (i : Nat) :
    specificLoop name keyword value (h :: l) i
      = if isTableOf name keyword value h then some i else specificLoop name keyword value l (i + 1) := by
  rw [specificLoop, if_pos hb]
  unfold isTableOf isTable Hdu.readStr
  cases he : h.keys.lookup ("EXTNAME" : CStr) with
  | none => simp
  | some v =>
    obtain ⟨e, rfl⟩ := hs v he
    cases hv : h.keys.lookup keyword with
    | none => simp
    | some w =>
      obtain ⟨x, rfl⟩ := hk w hv
      rw [hb]
      by_cases h1 : e = name <;> by_cases h2 : x = value <;> simp [h1, h2]

/-- The HDU at which the search by name stops. -/
theorem specificLoop_stop {name keyword value : CStr} (l : List (Hdu R))
    (hl : ∀ h ∈ l, StringName h ∧ StringKey keyword h) (i k : Nat) {x : Hdu R} (hx : l[k]? = some x)
    (hstop : x.type ≠ .binary ∨ isTableOf name keyword value x = true)
    (hmin : ∀ j y, j < k → l[j]? = some y → y.type = .binary ∧ isTableOf name keyword value y = false) :
    specificLoop name keyword value l i = some (i + k) := by
  induction l generalizing i k with
  | nil => simp at hx
  | cons h l ih =>
    obtain ⟨h2, h3⟩ := hl h List.mem_cons_self
    cases k with
    | zero =>
      replace hx : h = x := by simpa using hx
      subst hx
      by_cases hb : h.type = .binary
      · rw [specificLoop_cons hb h2 h3, if_pos (hstop.resolve_left (fun hn => hn hb))]; rfl
      · rw [specificLoop, if_neg hb]; rfl
    | succ k =>
      obtain ⟨h4, h5⟩ := hmin 0 h (by omega) rfl
      rw [specificLoop_cons h4 h2 h3, h5, if_neg (by simp), ih (fun h hh => hl h (List.mem_cons_of_mem _ hh)) (i + 1) k
        (by simpa using hx) (fun j y hj hy => hmin (j + 1) y (by omega) (by simpa using hy))]
      congr 1; omega

theorem specificLoop_absent {name keyword value : CStr} (l : List (Hdu R))
    (hl : ∀ h ∈ l, h.type = .binary ∧ StringName h ∧ StringKey keyword h) (i : Nat)
    (hno : ∀ h ∈ l, isTableOf name keyword value h = false) :
    specificLoop name keyword value l i = none := by
  induction l generalizing i with
  | nil => rfl
  | cons h l ih =>
    obtain ⟨h1, h2, h3⟩ := hl h List.mem_cons_self
    rw [specificLoop_cons h1 h2 h3, hno h List.mem_cons_self, if_neg (by simp)]
    exact ih (fun h hh => hl h (List.mem_cons_of_mem _ hh)) _ (fun h hh => hno h (List.mem_cons_of_mem _ hh))

theorem nextLoop_here {name : CStr} {hdus : List (Hdu R)} {i : Nat} (hi : 0 < i) (hat : hdus[i]? = some h)
    (hs : StringName h) (ht : isTable name h = true) :
    nextLoop name (hdus.drop (i - 1 + 1)) (i - 1) = (i, .ok) := by
  have hlt : i < hdus.length := by
    rcases Nat.lt_or_ge i hdus.length with h1 | h1
    · exact h1
    · rw [List.getElem?_eq_none h1] at hat; cases hat
  have : hdus.drop (i - 1 + 1) = h :: hdus.drop (i + 1) := by
    rw [show i - 1 + 1 = i by omega, List.drop_eq_getElem_cons hlt]
    congr 1
    rw [List.getElem?_eq_getElem hlt] at hat
    exact Option.some.inj hat
  rw [this, nextLoop_cons (nameOk_of_string hs), isNamed_eq_isTable hs, ht, if_pos rfl]
  congr 1; omega

theorem readName_known {s : FState R} {keyword value : CStr} (hat : At s h)
    (hk : h.keys.lookup keyword = some (.str value)) (u : Undef R) :
    readName u keyword none s = readName u keyword (some value) s := by
  unfold readName
  have : fits_read_key_str keyword u.str s = .ok (value, s) :=
    cfRead_ok hat (by unfold Hdu.readStr; rw [hk]) _
  exact FitsM.bind_ok this _

/-- The name given makes no difference if it is that of the table. -/
theorem chdu_name {s : FState R} {keyword value : CStr} (hat : At s h)
    (hk : h.keys.lookup keyword = some (.str value)) (u : Undef R) (old : α) (oldr : Int) (mk : Int → α)
    (rest : Int → CStr → FitsM R α) :
    (guardStatus old (fits_read_key_int "OI_REVN" oldr >>= fun r => guardStatus (mk r)
        (readName u keyword none >>= rest r)) s : Outcome (α × FState R))
      = guardStatus old (fits_read_key_int "OI_REVN" oldr >>= fun r => guardStatus (mk r)
        (readName u keyword (some value) >>= rest r)) s := by
  rw [guardStatus_ok hat.ok, guardStatus_ok hat.ok]
  rcases (tame_key_int (R := R) ("OI_REVN" : CStr) oldr).run s with h1 | ⟨r, s1, h1, h2, h3, -⟩
  · exact absurd h1 ((noAbort_key_int _ _).run s)
  · rw [FitsM.bind_ok h1, FitsM.bind_ok h1]
    by_cases hst : s1.status = .ok
    · rw [guardStatus_ok hst, guardStatus_ok hst]
      have hat1 : At s1 h := ⟨hst, by rw [h2, h3]; exact hat.cur⟩
      change FitsM.bind _ _ s1 = FitsM.bind _ _ s1
      simp only [FitsM.bind, readName_known hat1 hk u]
    · rw [guardStatus_err hst, guardStatus_err hst]

theorem array_chdu_name {s : FState R} {value : CStr} (hat : At s h)
    (hk : h.keys.lookup ("ARRNAME" : CStr) = some (.str value)) (u : Undef R) (old : OiArray R) :
    read_oi_array_chdu u old none s = read_oi_array_chdu u old (some value) s := by
  unfold read_oi_array_chdu
  exact chdu_name hat hk u _ _ _ _

theorem wavelength_chdu_name {s : FState R} {value : CStr} (hat : At s h)
    (hk : h.keys.lookup ("INSNAME" : CStr) = some (.str value)) (u : Undef R) (old : OiWavelength R) :
    read_oi_wavelength_chdu u old none s = read_oi_wavelength_chdu u old (some value) s := by
  unfold read_oi_wavelength_chdu
  exact chdu_name hat hk u _ _ _ _

theorem corr_chdu_name {s : FState R} {value : CStr} (hat : At s h)
    (hk : h.keys.lookup ("CORRNAME" : CStr) = some (.str value)) (u : Undef R) (old : OiCorr R) :
    read_oi_corr_chdu u old none s = read_oi_corr_chdu u old (some value) s := by
  unfold read_oi_corr_chdu
  exact chdu_name hat hk u _ _ _ _

/-- The general form of C53. -/
theorem read_by_name {name keyword value : CStr} {old : α} {chdu : Option CStr → FitsM R α}
    (hc : ∀ {h : Hdu R} {s : FState R}, At s h → h.keys.lookup keyword = some (.str value) →
      chdu none s = chdu (some value) s)
    {hdus : List (Hdu R)} (hs : ∀ h ∈ hdus, StringName h)
    (hk : ∀ h ∈ hdus, StringKey keyword h) (c : Nat) {i : Nat} (hi : FirstAt (isTableOf name keyword value) hdus i)
    (hb : ∀ j h, 0 < j → j < i → hdus[j]? = some h → h.type = .binary) :
    guardStatus old (specific_named_hdu name keyword value >>= fun _ => chdu (some value)) ⟨hdus, c, .ok⟩
      = guardStatus old (next_named_hdu name >>= fun _ => guardStatus old (chdu none)) ⟨hdus, i - 1, .ok⟩ := by
  obtain ⟨h0, h1, h2⟩ := hi
  cases hat : hdus[i]? with
  | none => rw [hat] at h1; simp at h1
  | some h =>
    rw [hat] at h1
    replace h1 : isTableOf name keyword value h = true := by simpa using h1
    have hsp : specificLoop name keyword value (hdus.drop 1) 1 = some i := by
      rw [specificLoop_stop (hdus.drop 1) (fun h hh => ⟨hs h (List.mem_of_mem_drop hh),
        hk h (List.mem_of_mem_drop hh)⟩) 1 (i - 1) (x := h) ?_ (.inr h1) ?_]
      · congr 1; omega
      · rw [List.getElem?_drop, show 1 + (i - 1) = i by omega]; exact hat
      · intro j y hj hy
        rw [List.getElem?_drop] at hy
        have h3 := h2 (1 + j) (by omega) (by omega)
        rw [hy] at h3
        exact ⟨hb (1 + j) y (by omega) (by omega) hy, by simpa using h3⟩
    unfold isTableOf at h1
    rw [Bool.and_eq_true] at h1
    have hkey : h.keys.lookup keyword = some (.str value) := by
      have h3 := h1.2
      split at h3
      · rename_i x hx
        rw [hx, eq_of_beq h3]
      · cases h3
    rw [guardStatus_ok rfl, guardStatus_ok rfl]
    have e1 : specific_named_hdu name keyword value ⟨hdus, c, .ok⟩ = .ok ((), ⟨hdus, i, .ok⟩) :=
      (guardStatus_ok rfl _ _).trans (by simp only [hsp])
    have e2 : next_named_hdu name ⟨hdus, i - 1, .ok⟩ = .ok ((), ⟨hdus, i, .ok⟩) :=
      (guardStatus_ok rfl _ _).trans (by
        have := nextLoop_here h0 hat (hs h (List.mem_of_getElem? hat)) h1.1
        simp only [this])
    rw [FitsM.bind_ok e1, FitsM.bind_ok e2, guardStatus_ok rfl]
    exact (hc (h := h) ⟨rfl, hat⟩ hkey).symm

theorem read_no_name {name keyword value : CStr} {old : α} {chdu : FitsM R α}
    (hc : ∀ s : FState R, s.status ≠ .ok → chdu s = .ok (old, s))
    {hdus : List (Hdu R)} (hb : ∀ h ∈ hdus.drop 1, h.type = .binary) (hs : ∀ h ∈ hdus, StringName h)
    (hk : ∀ h ∈ hdus, StringKey keyword h) (c : Nat)
    (hno : ∀ h ∈ hdus.drop 1, isTableOf name keyword value h = false) :
    ∃ s', guardStatus old (specific_named_hdu name keyword value >>= fun _ => chdu) ⟨hdus, c, .ok⟩
      = .ok (old, s') ∧ s'.hdus = hdus ∧ s'.status = .BAD_HDU_NUM := by
  have hsp := specificLoop_absent (name := name) (keyword := keyword) (value := value) (hdus.drop 1)
    (fun h hh => ⟨hb h hh, hs h (List.mem_of_mem_drop hh), hk h (List.mem_of_mem_drop hh)⟩) 1 hno
  refine ⟨⟨hdus, max c (hdus.length - 1), .BAD_HDU_NUM⟩, ?_, rfl, rfl⟩
  have e1 : specific_named_hdu name keyword value ⟨hdus, c, .ok⟩
      = .ok ((), ⟨hdus, max c (hdus.length - 1), .BAD_HDU_NUM⟩) :=
    (guardStatus_ok rfl _ _).trans (by simp only [hsp])
  rw [guardStatus_ok rfl, FitsM.bind_ok e1]
  exact hc _ (by simp)

/-- The search by name stops at an extension which is not a binary table. -/
theorem specific_blocked {name keyword value : CStr} {hdus : List (Hdu R)} (hs : ∀ h ∈ hdus, StringName h)
    (hk : ∀ h ∈ hdus, StringKey keyword h) (c : Nat) {k : Nat} {x : Hdu R} (h0 : 0 < k) (hx : hdus[k]? = some x)
    (hnb : x.type ≠ .binary)
    (hmin : ∀ j y, 0 < j → j < k → hdus[j]? = some y → y.type = .binary ∧ isTableOf name keyword value y = false) :
    specific_named_hdu name keyword value ⟨hdus, c, .ok⟩ = .ok ((), ⟨hdus, k, .ok⟩) := by
  have hsp : specificLoop name keyword value (hdus.drop 1) 1 = some k := by
    rw [specificLoop_stop (hdus.drop 1) (fun h hh => ⟨hs h (List.mem_of_mem_drop hh),
      hk h (List.mem_of_mem_drop hh)⟩) 1 (k - 1) (x := x) ?_ (.inl hnb) ?_]
    · congr 1; omega
    · rw [List.getElem?_drop, show 1 + (k - 1) = k by omega]; exact hx
    · intro j y hj hy
      rw [List.getElem?_drop] at hy
      exact hmin (1 + j) y (by omega) (by omega) hy
  exact (guardStatus_ok rfl _ _).trans (by simp only [hsp])

/-- Without the keyword OI_REVN nothing is read. -/
theorem chdu_no_revn {s : FState R} (hat : At s h) (hn : h.keys.lookup ("OI_REVN" : CStr) = none)
    (old : α) (oldr : Int) (mk : Int → α) (hmk : mk oldr = old) (rest : Int → FitsM R α) :
    (guardStatus old (fits_read_key_int "OI_REVN" oldr >>= fun r => guardStatus (mk r) (rest r)) s
      : Outcome (α × FState R)) = .ok (old, { s with status := .KEY_NO_EXIST }) := by
  have e : fits_read_key_int ("OI_REVN" : CStr) oldr s = .ok (oldr, { s with status := .KEY_NO_EXIST }) :=
    cfRead_error hat (by unfold Hdu.readInt; rw [hn]) _
  rw [guardStatus_ok hat.ok, FitsM.bind_ok e, guardStatus_err (by simp), hmk]

/-- The general form of the failure at such an extension. -/
theorem read_blocked {name keyword value : CStr} {old : α} {chdu : FitsM R α}
    (hc : ∀ {h : Hdu R} {s : FState R}, At s h → h.keys.lookup ("OI_REVN" : CStr) = none →
      chdu s = .ok (old, { s with status := .KEY_NO_EXIST }))
    {hdus : List (Hdu R)} (hs : ∀ h ∈ hdus, StringName h)
    (hk : ∀ h ∈ hdus, StringKey keyword h) (c : Nat) {k : Nat} {x : Hdu R} (h0 : 0 < k) (hx : hdus[k]? = some x)
    (hnb : x.type ≠ .binary) (hrev : x.keys.lookup ("OI_REVN" : CStr) = none)
    (hmin : ∀ j y, 0 < j → j < k → hdus[j]? = some y → y.type = .binary ∧ isTableOf name keyword value y = false) :
    guardStatus old (specific_named_hdu name keyword value >>= fun _ => chdu) ⟨hdus, c, .ok⟩
      = .ok (old, ⟨hdus, k, .KEY_NO_EXIST⟩) := by
  rw [guardStatus_ok rfl, FitsM.bind_ok (specific_blocked hs hk c h0 hx hnb hmin)]
  exact hc (h := x) ⟨rfl, hx⟩ hrev

/-- A table which is read by name is the first of that name, and only tables come before it. -/
theorem read_by_name_only {name keyword value : CStr} {old : α} {chdu : Option CStr → FitsM R α}
    (hn : ∀ {h : Hdu R} {s : FState R}, At s h → h.keys.lookup keyword = some (.str value) →
      chdu none s = chdu (some value) s)
    (hc : ∀ {h : Hdu R} {s : FState R}, At s h → h.keys.lookup ("OI_REVN" : CStr) = none →
      chdu (some value) s = .ok (old, { s with status := .KEY_NO_EXIST }))
    (he : ∀ s : FState R, s.status ≠ .ok → chdu (some value) s = .ok (old, s))
    {hdus : List (Hdu R)} (hs : ∀ h ∈ hdus, StringName h) (hk : ∀ h ∈ hdus, StringKey keyword h)
    (hf : ForeignPlain hdus) (c : Nat) {a : α} {s' : FState R}
    (hr : guardStatus old (specific_named_hdu name keyword value >>= fun _ => chdu (some value)) ⟨hdus, c, .ok⟩
      = .ok (a, s')) (hok : s'.status = .ok) :
    ∃ i, FirstAt (isTableOf name keyword value) hdus i ∧ TablesBefore hdus i ∧
      guardStatus old (next_named_hdu name >>= fun _ => guardStatus old (chdu none)) ⟨hdus, i - 1, .ok⟩
        = .ok (a, s') := by
  classical
  by_cases hex : ∃ k, 0 < k ∧ ∃ x, hdus[k]? = some x ∧ (x.type ≠ .binary ∨ isTableOf name keyword value x = true)
  · obtain ⟨h0, x, hx, hstop⟩ := Nat.find_spec hex
    have hmin : ∀ j y, 0 < j → j < Nat.find hex → hdus[j]? = some y →
        y.type = .binary ∧ isTableOf name keyword value y = false := by
      intro j y hj hlt hy
      have := Nat.find_min hex hlt
      by_contra hcon
      refine this ⟨hj, y, hy, ?_⟩
      by_cases hb : y.type = .binary
      · right
        by_contra hne
        exact hcon ⟨hb, by simpa using hne⟩
      · exact .inl hb
    by_cases ht : isTableOf name keyword value x = true
    · have hi : FirstAt (isTableOf name keyword value) hdus (Nat.find hex) := by
        refine ⟨h0, by rw [hx]; simpa using ht, fun j hj hlt => ?_⟩
        cases hy : hdus[j]? with
        | none => rfl
        | some y => simpa using (hmin j y hj hlt hy).2
      have htb : TablesBefore hdus (Nat.find hex) := fun j y hj hlt hy => (hmin j y hj hlt hy).1
      exact ⟨_, hi, htb, (read_by_name hn hs hk c hi htb).symm.trans hr⟩
    · have hnb : x.type ≠ .binary := hstop.resolve_right ht
      rw [read_blocked hc hs hk c h0 hx hnb (hf x (List.mem_of_getElem? hx) hnb) hmin] at hr
      obtain ⟨-, rfl⟩ := Prod.mk.inj (Outcome.ok.inj hr)
      cases hok
  · have hall : ∀ h ∈ hdus.drop 1, h.type = .binary ∧ isTableOf name keyword value h = false := by
      intro h hh
      obtain ⟨k, hlt, hke⟩ := List.getElem_of_mem hh
      have hy : hdus[1 + k]? = some h := by
        rw [← List.getElem?_drop, List.getElem?_eq_getElem hlt, hke]
      by_contra hcon
      refine hex ⟨1 + k, by omega, h, hy, ?_⟩
      by_cases hb : h.type = .binary
      · right
        by_contra hne
        exact hcon ⟨hb, by simpa using hne⟩
      · exact .inl hb
    obtain ⟨s1, h1, -, h3⟩ := read_no_name he (fun h hh => (hall h hh).1) hs hk c (fun h hh => (hall h hh).2)
    rw [h1] at hr
    obtain ⟨-, rfl⟩ := Prod.mk.inj (Outcome.ok.inj hr)
    rw [h3] at hok
    cases hok

theorem firstAt_notTable {hdus : List (Hdu R)} {k : Nat} (hk : FirstAt notTable hdus k) :
    0 < k ∧ ∃ x, hdus[k]? = some x ∧ x.type ≠ .binary ∧
      ∀ j y, 0 < j → j < k → hdus[j]? = some y → y.type = .binary := by
  obtain ⟨h0, h1, h2⟩ := hk
  cases hx : hdus[k]? with
  | none => rw [hx] at h1; simp at h1
  | some x =>
    rw [hx] at h1
    refine ⟨h0, x, rfl, by simpa [notTable] using h1, fun j y hj hlt hy => ?_⟩
    have := h2 j hj hlt
    rw [hy] at this
    simpa [notTable] using this

theorem mem_take_drop {hdus : List (Hdu R)} {j k : Nat} {y : Hdu R} (hj : 0 < j) (hlt : j < k)
    (hy : hdus[j]? = some y) : y ∈ (hdus.take k).drop 1 := by
  apply List.mem_of_getElem? (i := j - 1)
  rw [List.getElem?_drop, show 1 + (j - 1) = j by omega, List.getElem?_take_of_lt hlt, hy]

theorem tablesBefore_of {hdus : List (Hdu R)} {i : Nat} (h : ∀ h ∈ hdus.drop 1, h.type = .binary) :
    TablesBefore hdus i :=
  fun j x h0 _ hj => h x (List.mem_of_getElem? (i := j - 1) (by
    rw [List.getElem?_drop, show 1 + (j - 1) = j by omega]; exact hj))

theorem array_no_revn {s : FState R} (hat : At s h) (hn : h.keys.lookup ("OI_REVN" : CStr) = none) (u : Undef R)
    (old : OiArray R) (name : Option CStr) :
    read_oi_array_chdu u old name s = .ok (old, { s with status := .KEY_NO_EXIST }) := by
  unfold read_oi_array_chdu
  exact chdu_no_revn hat hn _ _ _ rfl _

theorem wavelength_no_revn {s : FState R} (hat : At s h) (hn : h.keys.lookup ("OI_REVN" : CStr) = none) (u : Undef R)
    (old : OiWavelength R) (name : Option CStr) :
    read_oi_wavelength_chdu u old name s = .ok (old, { s with status := .KEY_NO_EXIST }) := by
  unfold read_oi_wavelength_chdu
  exact chdu_no_revn hat hn _ _ _ rfl _

theorem corr_no_revn {s : FState R} (hat : At s h) (hn : h.keys.lookup ("OI_REVN" : CStr) = none) (u : Undef R)
    (old : OiCorr R) (name : Option CStr) :
    read_oi_corr_chdu u old name s = .ok (old, { s with status := .KEY_NO_EXIST }) := by
  unfold read_oi_corr_chdu
  exact chdu_no_revn hat hn _ _ _ rfl _

end Verif
