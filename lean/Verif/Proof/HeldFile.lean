import Verif.Proof.FitsLists
import Verif.Proof.FitsNamed
import Verif.Proof.FitsTotal
import Verif.Proof.HeldFlux
import Verif.Proof.HeldVis

/-! The tables of a dataset which has been read are those which the file holds. -/

namespace Verif
open Outcome Spec

variable {R : FP} {α β : Type} {h : Hdu R}

theorem Tells.harden {soft : Prop} {m : FitsM R α} {In : α → Prop} (ht : Tells soft h m In) : Tells True h m In := by
  obtain ⟨v, hv, h1, h2⟩ := ht
  refine ⟨v, ⟨hv.ok, fun e s hs => ?_⟩, h1, h2⟩
  rcases hv.err e s hs with h3 | ⟨a, s', h3, h4⟩
  · exact .inl h3
  · exact .inr ⟨a, s', h3, h4.1, fun _ => trivial⟩

/-- What running the code shows. -/
theorem Tells.run {m : FitsM R α} {In : α → Prop} (ht : Tells True h m In) {s s' : FState R} {a : α} (hs : At s h)
    (hr : m s = .ok (a, s')) (hst : s'.status = .ok) : In a := by
  obtain ⟨v, hv, h1, -⟩ := ht
  cases e : v with
  | none =>
    rcases hv.err e s hs with h3 | ⟨b, s'', h3, h4⟩
    · rw [hr] at h3; cases h3
    · rw [hr] at h3
      obtain ⟨-, rfl⟩ := Prod.mk.inj (Outcome.ok.inj h3)
      exact absurd hst h4.1
  | some b =>
    rw [hv.ok b e s hs] at hr
    obtain ⟨rfl, -⟩ := Prod.mk.inj (Outcome.ok.inj hr)
    exact h1 _ e

theorem Tells.finds {m : FitsM R α} {In : α → Prop} (ht : Tells True h m In) {s : FState R} (hs : At s h)
    (hex : ∃ a, In a) : ∃ a, m s = .ok (a, s) := by
  obtain ⟨v, hv, -, h2⟩ := ht
  obtain ⟨a, e⟩ := h2 hex
  exact ⟨a, hv.ok a e s hs⟩

theorem mem_positions {name : CStr} {hdus : List (Hdu R)} {p : Nat} :
    p ∈ positions name hdus ↔ 0 < p ∧ ∃ h, hdus[p]? = some h ∧ isTable name h = true := by
  unfold positions
  rw [List.mem_filter, List.mem_range]
  constructor
  · rintro ⟨-, h2⟩
    simp only [Bool.and_eq_true, decide_eq_true_eq] at h2
    refine ⟨h2.1, ?_⟩
    cases hp : hdus[p]? with
    | none => rw [hp] at h2; exact absurd h2.2 (by simp)
    | some h => rw [hp] at h2; exact ⟨h, rfl, by simpa using h2.2⟩
  · rintro ⟨h1, h, h2, h3⟩
    refine ⟨(List.getElem?_eq_some_iff.mp h2).1, ?_⟩
    simp [h1, h2, h3]

/-- Reading the table at a position. -/
theorem next_tells {name : CStr} {old : α} {body : FitsM R α} {In : Hdu R → α → Prop} {hdus : List (Hdu R)}
    (hn : ∀ h ∈ hdus, StringName h)
    (ht : ∀ (p : Nat) h, hdus[p]? = some h → isTable name h = true → Tells True h body (In h)) {p : Nat}
    (hp : p ∈ positions name hdus) :
    let read := guardStatus old (next_named_hdu name >>= fun _ => guardStatus old body)
    (∀ a, readable read hdus p = some a → ∃ h, hdus[p]? = some h ∧ In h a) ∧
    ((∃ h a, hdus[p]? = some h ∧ In h a) → (readable read hdus p).isSome = true) := by
  obtain ⟨h0, h, hat, h1⟩ := mem_positions.mp hp
  have e2 : next_named_hdu name ⟨hdus, p - 1, .ok⟩ = .ok ((), ⟨hdus, p, .ok⟩) :=
    (guardStatus_ok rfl _ _).trans (by
      have := nextLoop_here h0 hat (hn h (List.mem_of_getElem? hat)) h1
      simp only [this])
  have hs : At (⟨hdus, p, .ok⟩ : FState R) h := ⟨rfl, hat⟩
  intro read
  have e : read ⟨hdus, p - 1, .ok⟩ = body ⟨hdus, p, .ok⟩ := by
    show guardStatus old _ _ = _
    rw [guardStatus_ok rfl, FitsM.bind_ok e2, guardStatus_ok rfl]
  unfold readable
  rw [e]
  have htt := ht p h hat h1
  constructor
  · intro a ha
    split at ha
    · rename_i b s hb
      split at ha
      · rename_i hst
        cases ha
        exact ⟨h, hat, htt.run hs hb hst⟩
      · cases ha
    · cases ha
  · rintro ⟨h', a, h2, h3⟩
    rw [hat] at h2; cases h2
    obtain ⟨b, hb⟩ := htt.finds hs ⟨a, h3⟩
    rw [hb]
    simp

theorem heldAt_all {In : Hdu R → α → Prop} {hdus : List (Hdu R)} {read : FitsM R α} {ps : List Nat} {l : List α}
    (hl : ps.map (readable read hdus) = l.map some)
    (hr : ∀ p ∈ ps, ∀ a, readable read hdus p = some a → ∃ h, hdus[p]? = some h ∧ In h a) : HeldAt In hdus ps l := by
  refine ⟨by simpa using congrArg List.length hl, fun i p a hp ha => ?_⟩
  refine hr p (List.mem_of_getElem? hp) a ?_
  have := congrArg (·[i]?) hl
  simp only [List.getElem?_map, hp, ha, Option.map_some] at this
  exact Option.some.inj this

theorem held_some {In : Hdu R → α → Prop} {name : CStr} {hdus : List (Hdu R)} {read : FitsM R α} {l : List α}
    (hl : l = (positions name hdus).filterMap (readable read hdus))
    (hr : ∀ p ∈ positions name hdus, (∀ a, readable read hdus p = some a → ∃ h, hdus[p]? = some h ∧ In h a) ∧
      ((∃ h a, hdus[p]? = some h ∧ In h a) → (readable read hdus p).isSome = true)) : Held In name hdus l := by
  refine ⟨(positions name hdus).filter fun p => (readable read hdus p).isSome, List.filter_sublist, ?_, fun p hp hx => ?_⟩
  · refine heldAt_all (read := read) ?_ fun p hp => (hr p (List.mem_filter.mp hp).1).1
    rw [map_some_filterMap _ _ fun p hp => (List.mem_filter.mp hp).2, hl, List.filterMap_filter]
    congr 2
    funext p
    cases readable read hdus p <;> simp
  · exact List.mem_filter.mpr ⟨hp, (hr p hp).2 hx⟩

/-! ### The targets -/

/-- The first table of the given name. -/
theorem movnamLoop_first {name : CStr} (l : List (Hdu R)) (hn : ∀ h ∈ l, StringName h) (i : Nat) :
    movnamLoop name l i = (l.findIdx? (isTable name)).map (i + ·) := by
  induction l generalizing i with
  | nil => rfl
  | cons h l ih =>
    rw [movnamLoop, List.findIdx?_cons]
    have ih := ih (fun h hh => hn h (List.mem_cons_of_mem _ hh)) (i + 1)
    have hrec : movnamLoop name l (i + 1) = (((l.findIdx? (isTable name)).map (· + 1)).map (i + ·)) := by
      rw [ih, Option.map_map]; congr 1; funext k; show i + 1 + k = i + (k + 1); omega
    by_cases ht : h.type = .binary
    · rw [if_pos ht]
      cases hr : h.readStr "EXTNAME" with
      | ok v =>
        by_cases hv : v = name
        · simp only [if_pos hv]
          rw [if_pos (isTable_of_readStr (hn h List.mem_cons_self) ht (hv ▸ hr))]; rfl
        · simp only [if_neg hv]
          rw [hrec, if_neg]
          intro hc
          apply hv
          unfold isTable at hc
          rw [ht] at hc
          unfold Hdu.readStr at hr
          split at hc
          · rename_i s _ hs
            rw [hs] at hr
            injection hr with hr
            rw [← hr]; exact eq_of_beq hc
          · cases hc
      | error e =>
        simp only
        rw [hrec, if_neg]
        intro hc
        unfold isTable at hc
        rw [ht] at hc
        unfold Hdu.readStr at hr
        split at hc
        · rename_i s _ hs
          rw [hs] at hr
          cases hr
        · cases hc
    · rw [if_neg ht, hrec, if_neg fun hc => ht (binary_of_isTable hc)]

theorem targets_tell (u : Undef R) {s s' : FState R} {a : OiTarget R} (hn : ∀ h ∈ s.hdus, StringName h)
    (hrd : read_oi_target u u.target s = .ok (a, s')) (hst : s'.status = .ok) :
    ∃ h, s.hdus.find? (isTable "OI_TARGET") = some h ∧ TargetsIn h a := by
  have hok : s.status = .ok := by
    refine Decidable.byContradiction fun t0 => ?_
    rw [read_oi_target, guardStatus_err t0] at hrd
    rw [← (Prod.mk.inj (Outcome.ok.inj hrd)).2] at hst; exact t0 hst
  unfold read_oi_target at hrd
  rw [guardStatus_ok hok] at hrd
  have hm := movnamLoop_first (name := "OI_TARGET") s.hdus hn 0
  cases hf : s.hdus.findIdx? (isTable "OI_TARGET") with
  | none =>
    rw [hf] at hm
    have hmv : fits_movnam_hdu ("OI_TARGET" : CStr) s = .ok ((), { s with status := .BAD_HDU_NUM }) :=
      (guardStatus_ok hok _ _).trans (by simp only [hm, Option.map_none])
    rw [FitsM.bind_ok hmv] at hrd
    have hne : ({ s with status := .BAD_HDU_NUM } : FState R).status ≠ .ok := by simp
    obtain ⟨r, h1⟩ := (inert_key_int ("OI_REVN" : CStr) u.target.revision).run _ hne
    rw [FitsM.bind_ok h1, guardStatus_err hne] at hrd
    obtain ⟨-, rfl⟩ := Prod.mk.inj (Outcome.ok.inj hrd)
    exact absurd hst hne
  | some i =>
    rw [hf] at hm
    simp only [Option.map_some, Nat.zero_add] at hm
    have hmv : fits_movnam_hdu ("OI_TARGET" : CStr) s = .ok ((), { s with cur := i }) :=
      (guardStatus_ok hok _ _).trans (by simp only [hm])
    rw [FitsM.bind_ok hmv] at hrd
    obtain ⟨hlt, h1, -⟩ := List.findIdx?_eq_some_iff_getElem.mp hf
    have hat : At ({ s with cur := i } : FState R) s.hdus[i] := ⟨hok, List.getElem?_eq_getElem hlt⟩
    refine ⟨s.hdus[i], ?_, (tells_targets (binary_of_isTable h1) u u.target).run hat hrd hst⟩
    rw [List.find?_eq_some_iff_getElem]
    obtain ⟨_, _, h2⟩ := List.findIdx?_eq_some_iff_getElem.mp hf
    exact ⟨h1, i, hlt, rfl, fun j hj => by simpa using h2 j hj⟩

theorem targets_found (u : Undef R) {s : FState R} {a : OiTarget R} (hn : ∀ h ∈ s.hdus, StringName h)
    (hok : s.status = .ok) (hf : s.hdus.find? (isTable "OI_TARGET") = some h) (ha : TargetsIn h a) :
    ∃ b s', read_oi_target u u.target s = .ok (b, s') ∧ s'.status = .ok ∧ s'.hdus = s.hdus := by
  unfold read_oi_target
  rw [guardStatus_ok hok]
  obtain ⟨h1, i, hlt, hi, h2⟩ := List.find?_eq_some_iff_getElem.mp hf
  have hf' : s.hdus.findIdx? (isTable "OI_TARGET") = some i :=
    List.findIdx?_eq_some_iff_getElem.mpr ⟨hlt, by rw [hi]; exact h1, fun j hj => by simpa using h2 j hj⟩
  have hm := movnamLoop_first (name := "OI_TARGET") s.hdus hn 0
  rw [hf'] at hm
  simp only [Option.map_some, Nat.zero_add] at hm
  have hmv : fits_movnam_hdu ("OI_TARGET" : CStr) s = .ok ((), { s with cur := i }) :=
    (guardStatus_ok hok _ _).trans (by simp only [hm])
  rw [FitsM.bind_ok hmv]
  have hat : At ({ s with cur := i } : FState R) h := ⟨hok, by rw [← hi]; exact List.getElem?_eq_getElem hlt⟩
  obtain ⟨b, hb⟩ := (tells_targets (binary_of_isTable h1) u u.target).finds hat ⟨a, ha⟩
  exact ⟨b, _, hb, hok, rfl⟩

/-! ### The header -/

theorem valOpt_text {n v : CStr} {b : Bool} : valOpt (h.readStr n) [] = some (b, v) →
    OptText h n v := by
  intro e
  unfold valOpt at e
  split at e
  · cases e; left; assumption
  · cases e; right; exact ⟨by assumption, rfl⟩
  · cases e

theorem text_valOpt {n v : CStr} (ht : OptText h n v) : ∃ b, valOpt (h.readStr n) [] = some (b, v) := by
  rcases ht with ht | ⟨ht, rfl⟩
  · exact ⟨true, by rw [ht]; rfl⟩
  · exact ⟨false, by rw [ht]; rfl⟩

theorem tells_header (old : OiHeader) : Tells True h (do
    let (_, origin) ← read_key_opt_string "ORIGIN" old.origin
    let (_, date) ← read_key_opt_string "DATE" old.date
    let (_, date_obs) ← read_key_opt_string "DATE-OBS" old.date_obs
    let (_, content) ← read_key_opt_string "CONTENT" old.content
    let (_, telescop) ← read_key_opt_string "TELESCOP" old.telescop
    let (_, instrume) ← read_key_opt_string "INSTRUME" old.instrume
    let (_, observer) ← read_key_opt_string "OBSERVER" old.observer
    let (_, insmode) ← read_key_opt_string "INSMODE" old.insmode
    let (_, object) ← read_key_opt_string "OBJECT" old.object
    let (_, referenc) ← read_key_opt_string "REFERENC" old.referenc
    let (_, author) ← read_key_opt_string "AUTHOR" old.author
    let (_, prog_id) ← read_key_opt_string "PROG_ID" old.prog_id
    let (_, procsoft) ← read_key_opt_string "PROCSOFT" old.procsoft
    let (_, obstech) ← read_key_opt_string "OBSTECH" old.obstech
    return ⟨origin, date, date_obs, content, telescop, instrume, observer, insmode, object,
      referenc, author, prog_id, procsoft, obstech⟩) (HeaderIn h) := by
  apply Tells.mk
  · sem
  · intro a ha
    simp only [Option.bind_eq_some_iff, Option.some.injEq] at ha
    obtain ⟨x1, h1, x2, h2, x3, h3, x4, h4, x5, h5, x6, h6, x7, h7, x8, h8, x9, h9, x10, h10, x11, h11, x12, h12,
      x13, h13, x14, h14, rfl⟩ := ha
    exact ⟨valOpt_text h1, valOpt_text h2, valOpt_text h3, valOpt_text h4, valOpt_text h5, valOpt_text h6,
      valOpt_text h7, valOpt_text h8, valOpt_text h9, valOpt_text h10, valOpt_text h11, valOpt_text h12,
      valOpt_text h13, valOpt_text h14⟩
  · intro a ha
    obtain ⟨x1, h1⟩ := text_valOpt ha.origin
    obtain ⟨x2, h2⟩ := text_valOpt ha.date
    obtain ⟨x3, h3⟩ := text_valOpt ha.date_obs
    obtain ⟨x4, h4⟩ := text_valOpt ha.content
    obtain ⟨x5, h5⟩ := text_valOpt ha.telescop
    obtain ⟨x6, h6⟩ := text_valOpt ha.instrume
    obtain ⟨x7, h7⟩ := text_valOpt ha.observer
    obtain ⟨x8, h8⟩ := text_valOpt ha.insmode
    obtain ⟨x9, h9⟩ := text_valOpt ha.object
    obtain ⟨x10, h10⟩ := text_valOpt ha.referenc
    obtain ⟨x11, h11⟩ := text_valOpt ha.author
    obtain ⟨x12, h12⟩ := text_valOpt ha.prog_id
    obtain ⟨x13, h13⟩ := text_valOpt ha.procsoft
    obtain ⟨x14, h14⟩ := text_valOpt ha.obstech
    rw [h1, h2, h3, h4, h5, h6, h7, h8, h9, h10, h11, h12, h13, h14]
    exact ⟨_, rfl⟩

theorem movabs_first {hdus : List (Hdu R)} {c : Nat} {p : Hdu R} (hp : hdus[0]? = some p) :
    fits_movabs_hdu 1 (⟨hdus, c, .ok⟩ : FState R) = .ok (p.type, ⟨hdus, 0, .ok⟩) := by
  simp [fits_movabs_hdu, hp]

theorem header_tells {hdus : List (Hdu R)} {old a : OiHeader} {s' : FState R} (h0 : hdus ≠ [])
    (hr : read_oi_header old ⟨hdus, 0, .ok⟩ = .ok (a, s')) (hst : s'.status = .ok) :
    ∃ h, hdus[0]? = some h ∧ HeaderIn h a := by
  obtain ⟨p, l, rfl⟩ := List.exists_cons_of_ne_nil h0
  refine ⟨p, rfl, ?_⟩
  unfold read_oi_header at hr
  rw [guardStatus_ok rfl, FitsM.bind_ok (movabs_first (p := p) rfl)] at hr
  exact (tells_header old).run ⟨rfl, rfl⟩ hr hst

theorem header_found {hdus : List (Hdu R)} {old a : OiHeader} (hp : hdus[0]? = some h) (ha : HeaderIn h a) :
    ∃ b, read_oi_header old ⟨hdus, 0, .ok⟩ = .ok (b, ⟨hdus, 0, .ok⟩) := by
  unfold read_oi_header
  rw [guardStatus_ok rfl, FitsM.bind_ok (movabs_first hp)]
  exact (tells_header old).finds ⟨rfl, hp⟩ ⟨a, ha⟩

/-! ### Loops which stop at the first table which cannot be read -/

theorem readAll_complete {name : CStr} {old : α} {read : FitsM R α} (h : ReadsNext name old read) (fuel : Nat)
    {s s' : FState R} {l : List α} (hn : ∀ h ∈ s.hdus, StringName h) (hok : s.status = .ok)
    (hall : ∀ p ∈ positions name s.hdus, (readable read s.hdus p).isSome = true)
    (hr : readAll false read fuel s = .ok (l, s')) : s'.status = .ok := by
  induction fuel generalizing s l with
  | zero => cases hr
  | succ fuel ih =>
    rw [readAll] at hr
    rcases h.call hok with h1 | ⟨a, s1, h1, h2, h3⟩
    · change FitsM.bind _ _ s = _ at hr; simp [FitsM.bind, h1] at hr
    rw [FitsM.bind_ok h1, FitsM.bind_ok (run_getStatus s1)] at hr
    by_cases hst : s1.status = .ok
    · rw [if_pos hst] at hr
      change FitsM.bind _ _ s1 = _ at hr
      unfold FitsM.bind at hr
      split at hr
      · rename_i xs s2 he
        obtain ⟨-, rfl⟩ := Prod.mk.inj (Outcome.ok.inj hr)
        exact ih (by rw [h2]; exact hn) hst (by rw [h2]; exact hall) he
      all_goals cases hr
    · rw [if_neg hst] at hr
      rcases h3 with ⟨h3, -⟩ | ⟨h3, h4, h5, st, h6, h7⟩
      · rw [if_pos h3] at hr
        obtain ⟨-, rfl⟩ := Prod.mk.inj (Outcome.ok.inj hr)
        rfl
      · exfalso
        obtain ⟨hdus, c, st0⟩ := s
        cases hok
        have hm := h.moved hn h1 h3 rfl
        have hpos : s1.cur ∈ positions name hdus := by
          have := (nextLoop_filter (name := name) hdus hn (hdus.length - (c + 1)) c (by simp only at *; omega)).2 _ _ h6 h7
          have hmem : s1.cur ∈ (List.range' (c + 1) (hdus.length - (c + 1))).filter
              (fun i => (hdus[i]?).any (isTable name)) := by rw [this]; exact List.mem_cons_self
          obtain ⟨h8, h9⟩ := List.mem_filter.mp hmem
          have := List.mem_range'_1.mp h8
          exact List.mem_filter.mpr ⟨List.mem_range.mpr h5, by simp [h9]; omega⟩
        have := hall _ hpos
        unfold readable at this
        simp only [hm, if_neg hst] at this
        cases this

theorem tables_complete {name : CStr} {old : α} {read : FitsM R α} (h : ReadsNext name old read)
    (hfull : ReadsFull name old read) {s : FState R} (hok : s.status = .ok) (hne : s.hdus ≠ [])
    (hn : ∀ h ∈ s.hdus, StringName h) (hemp : NoEmptyTables s.hdus)
    (hall : ∀ p ∈ positions name s.hdus, (readable read s.hdus p).isSome = true) :
    ∃ l s', readTables false read s = .ok (l, s') ∧ s'.status = .ok ∧ s'.hdus = s.hdus := by
  rcases loop_step h hfull false hok hne with ⟨-, h2⟩ | ⟨l, s', h1, h2, -, -⟩
  · exact absurd hemp h2
  · refine ⟨l, s', h1, ?_, h2⟩
    have hpos : 0 < s.hdus.length := List.length_pos_iff.mpr hne
    have hm : fits_movabs_hdu 1 s = .ok (s.hdus[0].type, { s with cur := 0 }) := by
      simp [fits_movabs_hdu, hpos, hok]
    rw [readTables, FitsM.bind_ok hm] at h1
    rw [FitsM.bind_ok (show fits_get_num_hdus { s with cur := 0 } = .ok (s.hdus.length, { s with cur := 0 }) by
      simp [fits_get_num_hdus, hok])] at h1
    exact readAll_complete h _ (s := { s with cur := 0 }) hn hok hall h1

theorem tables_skip {name : CStr} {old : α} {read : FitsM R α} (h : ReadsNext name old read)
    (hfull : ReadsFull name old read) {s : FState R} (hok : s.status = .ok) (hne : s.hdus ≠ [])
    (hemp : NoEmptyTables s.hdus) :
    ∃ l s', readTables true read s = .ok (l, s') ∧ s'.status = .ok ∧ s'.hdus = s.hdus := by
  rcases loop_step h hfull true hok hne with ⟨-, h2⟩ | ⟨l, s', h1, h2, h3, -⟩
  · exact absurd hemp h2
  · exact ⟨l, s', h1, h3 rfl, h2⟩

/-- A file is read if it holds a header and targets, and every OI_ARRAY and OI_WAVELENGTH
table can be read. -/
theorem readBody_succeeds (u : Undef R) {hdus : List (Hdu R)} {p t : Hdu R} {hd : OiHeader} {tg : OiTarget R}
    (hn : ∀ h ∈ hdus, StringName h) (hemp : NoEmptyTables hdus) (hp : hdus[0]? = some p) (hhd : HeaderIn p hd)
    (ht : hdus.find? (isTable "OI_TARGET") = some t) (htg : TargetsIn t tg)
    (harr : ∀ p ∈ positions "OI_ARRAY" hdus, (readable (read_next_oi_array u u.array) hdus p).isSome = true)
    (hwav : ∀ p ∈ positions "OI_WAVELENGTH" hdus, (readable (read_next_oi_wavelength u u.wave) hdus p).isSome = true) :
    ∃ oi s, readBody u ⟨hdus, 0, .ok⟩ = .ok (some oi, s) ∧ s.status = .ok := by
  have hne : hdus ≠ [] := by intro e; rw [e] at hp; cases hp
  unfold readBody
  obtain ⟨header, e0⟩ := header_found (old := u.header) hp hhd
  rw [FitsM.bind_ok e0]
  obtain ⟨targets, s1, e1, t1, k1⟩ := targets_found u (s := ⟨hdus, 0, .ok⟩) hn rfl ht htg
  rw [FitsM.bind_ok e1, guardStatus_ok t1]
  obtain ⟨arrayList, s2, e2, t2, k2⟩ := tables_complete (readsNext_array u u.array) (readsFull_array u u.array) t1
    (by rw [k1]; exact hne) (by rw [k1]; exact hn) (by rw [k1]; exact hemp) (by rw [k1]; exact harr)
  rw [FitsM.bind_ok e2, guardStatus_ok t2]
  replace k2 := k2.trans k1
  obtain ⟨wavelengthList, s3, e3, t3, k3⟩ := tables_complete (readsNext_wavelength u u.wave)
    (readsFull_wavelength u u.wave) t2
    (by rw [k2]; exact hne) (by rw [k2]; exact hn) (by rw [k2]; exact hemp) (by rw [k2]; exact hwav)
  rw [FitsM.bind_ok e3, guardStatus_ok t3]
  replace k3 := k3.trans k2
  obtain ⟨corrList, s4, e4, t4, k4⟩ := tables_skip (readsNext_corr u u.corr) (readsFull_corr u u.corr) t3
    (by rw [k3]; exact hne) (by rw [k3]; exact hemp)
  rw [FitsM.bind_ok e4]
  replace k4 := k4.trans k3
  obtain ⟨inspolList, s5, e5, t5, k5⟩ := tables_skip (readsNext_inspol u u.inspol) (readsFull_inspol u u.inspol) t4
    (by rw [k4]; exact hne) (by rw [k4]; exact hemp)
  rw [FitsM.bind_ok e5]
  replace k5 := k5.trans k4
  obtain ⟨visList, s6, e6, t6, k6⟩ := tables_skip (readsNext_vis u u.vis) (readsFull_vis u u.vis) t5
    (by rw [k5]; exact hne) (by rw [k5]; exact hemp)
  rw [FitsM.bind_ok e6]
  replace k6 := k6.trans k5
  obtain ⟨vis2List, s7, e7, t7, k7⟩ := tables_skip (readsNext_vis2 u u.vis2) (readsFull_vis2 u u.vis2) t6
    (by rw [k6]; exact hne) (by rw [k6]; exact hemp)
  rw [FitsM.bind_ok e7]
  replace k7 := k7.trans k6
  obtain ⟨t3List, s8, e8, t8, k8⟩ := tables_skip (readsNext_t3 u u.t3) (readsFull_t3 u u.t3) t7
    (by rw [k7]; exact hne) (by rw [k7]; exact hemp)
  rw [FitsM.bind_ok e8]
  replace k8 := k8.trans k7
  obtain ⟨fluxList, s9, e9, t9, k9⟩ := tables_skip (readsNext_flux u u.flux) (readsFull_flux u u.flux) t8
    (by rw [k8]; exact hne) (by rw [k8]; exact hemp)
  rw [FitsM.bind_ok e9]
  obtain ⟨hd', hhd'⟩ := finishHeader_ok (assemble_counts header targets arrayList wavelengthList corrList
    inspolList visList vis2List t3List fluxList)
  rw [FitsM.bind_ok (show FitsM.lift (finishHeader _) s9 = _ by rw [hhd']; rfl)]
  exact ⟨_, s9, rfl, t9⟩

end Verif
