import Verif.Model.Merge
import Verif.Spec.Merge
import Verif.Proof.Loop
import Mathlib.Data.List.Forall2

/-! Merging of tables that other tables refer to by name: what OI_ARRAY,
OI_WAVELENGTH and OI_CORR have in common. -/

namespace Verif
open Outcome Spec

variable {R : FP} {τ : Type}

/-! ### Numbers in names -/

theorem padLeft_length (w : Nat) (c : Char) (s : CStr) : (padLeft w c s).length = max w s.length := by
  simp [padLeft]; omega

theorem fmt3_eq (k : Nat) : fmtInt0 3 (k : Int) = padLeft 3 '0' (Nat.toDigits 10 k) := by
  unfold fmtInt0
  rw [if_neg (by omega)]
  simp

theorem fmt3_number (k : Nat) : Number (fmtInt0 3 (k : Int)) := by
  rw [fmt3_eq]
  refine ⟨by rw [padLeft_length]; omega, ?_⟩
  intro c hc
  rcases List.mem_append.mp hc with h | h
  · rw [(List.mem_replicate.mp h).2]; decide
  · exact Nat.isDigit_of_mem_toDigits (by omega) (by omega) h

theorem fmt3_length {k : Nat} (h : k < 10000) : (fmtInt0 3 (k : Int)).length ≤ 4 := by
  rw [fmt3_eq, padLeft_length]
  have : (Nat.toDigits 10 k).length ≤ 4 := (Nat.length_toDigits_le_iff (by omega) (by omega)).mpr h
  omega

theorem fmt3_inj {k k' : Nat} (h : fmtInt0 3 (k : Int) = fmtInt0 3 (k' : Int)) : k = k' := by
  rw [fmt3_eq, fmt3_eq] at h
  have val : ∀ n, Nat.ofDigitChars 10 (padLeft 3 '0' (Nat.toDigits 10 n)) 0 = n := by
    intro n
    unfold padLeft
    rw [Nat.ofDigitChars_append, Nat.ofDigitChars_replicate_zero, Nat.mul_zero,
      Nat.ofDigitChars_ten_toDigits]
  rw [← val k, h, val]

theorem number_no_underscore {ds : CStr} (h : Number ds) : '_' ∉ ds := by
  intro hm
  have := h.2 _ hm
  revert this; decide

theorem suffix_unique {a b ds ds' : CStr} (h1 : '_' ∉ ds) (h2 : '_' ∉ ds')
    (h : a ++ '_' :: ds = b ++ '_' :: ds') : ds = ds' := by
  rcases List.append_eq_append_iff.mp h with ⟨c, hb, hc⟩ | ⟨c, hb, hc⟩
  · cases c with
    | nil => simpa using hc
    | cons x c =>
      simp only [List.cons_append, List.cons.injEq] at hc
      exact absurd (by rw [hc.2]; simp) h1
  · cases c with
    | nil => simpa using hc.symm
    | cons x c =>
      simp only [List.cons_append, List.cons.injEq] at hc
      exact absurd (by rw [hc.2]; simp) h2

/-- A generated name, before truncation. -/
def genName (base name : CStr) (k : Nat) : CStr :=
  if name.length < 66 then name ++ '_' :: fmtInt0 3 (k : Int) else base ++ fmtInt0 3 (k : Int)

theorem newName_eq {base name : CStr} {k : Nat} (hb : base.length ≤ 60) (hk : k < 10000) :
    strlcpy (newName base name (k : Int)) FLEN_VALUE = genName base name k := by
  have := fmt3_length hk
  unfold strlcpy newName snprintf genName FLEN_VALUE
  simp only [Nat.reduceSub]
  split
  · rw [List.take_take, List.take_of_length_le]
    simp; omega
  · rw [List.take_take, List.take_of_length_le]
    simp; omega

theorem genName_looks {base name : CStr} {k : Nat} {names : List CStr} (h : name ∈ names) :
    LooksGenerated base names (genName base name k) := by
  refine ⟨_, fmt3_number k, ?_⟩
  unfold genName
  split
  · exact Or.inr ⟨name, h, rfl⟩
  · exact Or.inl rfl

theorem genName_inj {base m m' : CStr} {k k' : Nat} (hb : '_' ∉ base)
    (h : genName base m k = genName base m' k') : k = k' := by
  have u1 := number_no_underscore (fmt3_number k)
  have u2 := number_no_underscore (fmt3_number k')
  unfold genName at h
  split at h <;> split at h
  · exact fmt3_inj (suffix_unique u1 u2 h)
  · exfalso
    have : '_' ∈ base ++ fmtInt0 3 (k' : Int) := by rw [← h]; simp
    rcases List.mem_append.mp this with h | h
    · exact hb h
    · exact u2 h
  · exfalso
    have : '_' ∈ base ++ fmtInt0 3 (k : Int) := by rw [h]; simp
    rcases List.mem_append.mp this with h | h
    · exact hb h
    · exact u1 h
  · exact fmt3_inj (List.append_cancel_left h)

/-! ### The generic loop -/

/-- The part of the output concerned with one type of table. -/
structure NS (τ : Type) where
  list : List τ
  hash : HMap τ
  num : Int

/-- What distinguishes the three types of table. -/
structure Ops (τ : Type) where
  find : τ → List τ → Outcome (Option τ)
  dup : τ → Outcome τ
  name : τ → CStr
  setName : τ → CStr → τ
  base : CStr

structure Ops.Laws (o : Ops τ) : Prop where
  name_set : ∀ d n, o.name (o.setName d n) = n
  name_dup : ∀ x d, o.dup x = .ok d → o.name d = o.name x
  find_mem : ∀ x l y, o.find x l = .ok (some y) → y ∈ l
  base_len : o.base.length ≤ 60
  base_us : '_' ∉ o.base

def gname (o : Ops τ) (st : NS τ) (d : τ) : CStr :=
  match st.hash.lookup (o.name d) with
  | some _ => strlcpy (newName o.base (o.name d) (st.num + 1)) FLEN_VALUE
  | none => o.name d

def gadd (o : Ops τ) (st : NS τ) (d : τ) : NS τ :=
  let y := o.setName d (gname o st d)
  ⟨st.list ++ [y], st.hash.insert (o.name y) y, st.num + 1⟩

def gstep (o : Ops τ) (s : NS τ × HMap CStr) (x : τ) : Outcome (NS τ × HMap CStr) := do
  match ← o.find x s.1.list with
  | some y => .ok (s.1, s.2.insert (o.name x) (o.name y))
  | none => do
    let d ← o.dup x
    return (gadd o s.1 d, s.2.insert (o.name x) (o.name (o.setName d (gname o s.1 d))))

def gnames (o : Ops τ) (tabs : OiFits R → List τ) :
    List (OiFits R) → NS τ → List (HMap CStr) → Outcome (NS τ × List (HMap CStr))
  | [], st, hashes => .ok (st, hashes)
  | inp :: inps, st, hashes => do
    let (st, hash) ← (tabs inp).foldlM (gstep o) (st, HMap.empty)
    gnames o tabs inps st (hashes ++ [hash])

/-- How a merged table is related to the input table it stands for. -/
def Joined (o : Ops τ) (x y : τ) : Prop :=
  (∃ l, o.find x l = .ok (some y)) ∨ ∃ d n, o.dup x = .ok d ∧ y = o.setName d n

theorem gstep_cases {o : Ops τ} {s s' : NS τ × HMap CStr} {x : τ} (h : gstep o s x = .ok s') :
    (∃ y, o.find x s.1.list = .ok (some y) ∧ s' = (s.1, s.2.insert (o.name x) (o.name y))) ∨
    (∃ d, o.find x s.1.list = .ok none ∧ o.dup x = .ok d ∧
      s' = (gadd o s.1 d, s.2.insert (o.name x) (o.name (o.setName d (gname o s.1 d))))) := by
  unfold gstep at h
  obtain ⟨r, hr, h⟩ := bind_eq_ok.mp h
  cases r with
  | some y => left; refine ⟨y, hr, ?_⟩; simpa [eq_comm] using h
  | none =>
    right
    obtain ⟨d, hd, h⟩ := bind_eq_ok.mp h
    refine ⟨d, hr, hd, ?_⟩
    simpa [eq_comm] using h

/-- Invariant of the output, after the tables `done`. -/
structure NInv (o : Ops τ) (done : List τ) (st : NS τ) : Prop where
  num : st.num = st.list.length
  len : st.list.length ≤ done.length
  found : ∀ n t, st.hash.lookup n = some t → t ∈ st.list ∧ o.name t = n
  has : ∀ t ∈ st.list, st.hash.lookup (o.name t) ≠ none
  src : ∀ (i : Nat) (y : τ), st.list[i]? = some y → ∃ x ∈ done, ∃ d n, o.dup x = .ok d ∧
    y = o.setName d n ∧
    (n = o.name d ∨ n = strlcpy (newName o.base (o.name d) ((i + 1 : Nat) : Int)) FLEN_VALUE)
  nodup : PlainNames o.base (done.map o.name) → (st.list.map o.name).Nodup

/-- Invariant of a hash table of new names, after the tables `done` of its dataset. -/
structure HInv (o : Ops τ) (done : List τ) (list : List τ) (h : HMap CStr) : Prop where
  sound : ∀ n v, h.lookup n = some v → ∃ x ∈ done, o.name x = n ∧
    ∃ y ∈ list, o.name y = v ∧ Joined o x y
  complete : ∀ x ∈ done, h.lookup (o.name x) ≠ none

theorem looksGenerated_mono {base n : CStr} {l l' : List CStr} (hs : ∀ x ∈ l, x ∈ l')
    (h : LooksGenerated base l n) : LooksGenerated base l' n := by
  obtain ⟨ds, hd, h | ⟨m, hm, h⟩⟩ := h
  · exact ⟨ds, hd, Or.inl h⟩
  · exact ⟨ds, hd, Or.inr ⟨m, hs m hm, h⟩⟩

theorem plainNames_prefix {base : CStr} {l l' : List CStr} (h : PlainNames base (l ++ l')) :
    PlainNames base l where
  plain := fun n hn hg => h.plain n (by simp [hn]) (looksGenerated_mono (by simp +contextual) hg)
  fits := fun n hn => h.fits n (by simp [hn])
  few := by have := h.few; simp at this; omega

theorem ninv_weaken {o : Ops τ} {done more : List τ} {st : NS τ} (h : NInv o done st) :
    NInv o (done ++ more) st where
  num := h.num
  len := by have := h.len; simp; omega
  found := h.found
  has := h.has
  src := by
    intro i y hy
    obtain ⟨x, hx, r⟩ := h.src i y hy
    exact ⟨x, by simp [hx], r⟩
  nodup := fun hp => h.nodup (plainNames_prefix (by simpa using hp))

theorem ninv_add {o : Ops τ} (hl : o.Laws) {done : List τ} {st : NS τ} {x d : τ}
    (h : NInv o done st) (hd : o.dup x = .ok d) : NInv o (done ++ [x]) (gadd o st d) := by
  have hname : o.name (o.setName d (gname o st d)) = gname o st d := hl.name_set _ _
  refine ⟨?_, ?_, ?_, ?_, ?_, ?_⟩
  · simp [gadd, h.num]
  · have := h.len; simp [gadd]; omega
  · intro n t hn
    simp only [gadd, HMap.lookup_insert] at hn
    split at hn
    · rename_i e; cases hn; simp [gadd, e]
    · obtain ⟨h1, h2⟩ := h.found n t hn
      exact ⟨by simp [gadd, h1], h2⟩
  · intro t ht
    simp only [gadd, List.mem_append, List.mem_singleton] at ht
    simp only [gadd, HMap.lookup_insert]
    split
    · simp
    · rename_i hne
      rcases ht with ht | rfl
      · exact h.has t ht
      · exact absurd rfl hne
  · intro i y hy
    simp only [gadd] at hy
    by_cases hi : i < st.list.length
    · rw [List.getElem?_append_left hi] at hy
      obtain ⟨x', hx', r⟩ := h.src i y hy
      exact ⟨x', by simp [hx'], r⟩
    · rw [List.getElem?_append_right (by omega)] at hy
      have hi0 : i = st.list.length := by
        have := (List.getElem?_eq_some_iff.mp hy).1
        simp at this; omega
      subst hi0
      simp at hy
      subst hy
      refine ⟨x, by simp, d, _, hd, rfl, ?_⟩
      unfold gname
      split
      · right; rw [h.num]; simp
      · left; rfl
  · intro hp
    simp only [gadd, List.map_append, List.map_cons, List.map_nil, hname]
    have hp' : PlainNames o.base (done.map o.name) := plainNames_prefix (by simpa using hp)
    refine List.nodup_append.mpr ⟨h.nodup hp', by simp, ?_⟩
    intro n hn n' hn' e
    simp only [List.mem_singleton] at hn'
    subst hn'
    obtain ⟨y, hy, rfl⟩ := List.mem_map.mp hn
    unfold gname at e
    split at e
    · obtain ⟨i, hi, rfl⟩ := List.mem_iff_getElem.mp hy
      obtain ⟨x', hx', d', n', hd', hy', hn'⟩ := h.src i _ (List.getElem?_eq_getElem hi)
      have hlen := h.len
      have hfew := hp.few
      simp only [List.length_map, List.length_append, List.length_cons, List.length_nil] at hfew
      rw [h.num, show ((st.list.length : Int) + 1) = ((st.list.length + 1 : Nat) : Int) by simp,
        newName_eq hl.base_len (by omega)] at e
      rw [hy', hl.name_set] at e
      rcases hn' with rfl | rfl
      · refine hp.plain (o.name d') ?_ ?_
        · rw [hl.name_dup _ _ hd']; exact List.mem_map.mpr ⟨x', by simp [hx'], rfl⟩
        · rw [e]
          refine genName_looks ?_
          rw [hl.name_dup _ _ hd]; simp
      · rw [newName_eq hl.base_len (by omega)] at e
        have := genName_inj hl.base_us e
        omega
    · rename_i hnone
      have := h.has y hy
      rw [e] at this
      exact this hnone

theorem hinv_mono {o : Ops τ} {done l l' : List τ} {h : HMap CStr} (hs : ∀ y ∈ l, y ∈ l')
    (hi : HInv o done l h) : HInv o done l' h where
  sound := by
    intro n v hv
    obtain ⟨x, hx, hn, y, hy, r⟩ := hi.sound n v hv
    exact ⟨x, hx, hn, y, hs y hy, r⟩
  complete := hi.complete

theorem hinv_insert {o : Ops τ} {done l : List τ} {h : HMap CStr} {x y : τ}
    (hi : HInv o done l h) (hy : y ∈ l) (hj : Joined o x y) :
    HInv o (done ++ [x]) l (h.insert (o.name x) (o.name y)) where
  sound := by
    intro n v hv
    rw [HMap.lookup_insert] at hv
    split at hv
    · rename_i e; cases hv
      exact ⟨x, by simp, e.symm, y, hy, rfl, hj⟩
    · obtain ⟨x', hx', r⟩ := hi.sound n v hv
      exact ⟨x', by simp [hx'], r⟩
  complete := by
    intro x' hx'
    rw [HMap.lookup_insert]
    split
    · simp
    · rename_i hne
      rcases List.mem_append.mp hx' with h | h
      · exact hi.complete x' h
      · simp only [List.mem_singleton] at h
        subst h; exact absurd rfl hne

theorem gstep_inv {o : Ops τ} (hl : o.Laws) {done cur : List τ} {s s' : NS τ × HMap CStr} {x : τ}
    (hn : NInv o done s.1) (hh : HInv o cur s.1.list s.2) (h : gstep o s x = .ok s') :
    NInv o (done ++ [x]) s'.1 ∧ HInv o (cur ++ [x]) s'.1.list s'.2 ∧
      ∀ y ∈ s.1.list, y ∈ s'.1.list := by
  rcases gstep_cases h with ⟨y, hf, rfl⟩ | ⟨d, hf, hd, rfl⟩
  · exact ⟨ninv_weaken hn, hinv_insert hh (hl.find_mem _ _ _ hf) (Or.inl ⟨_, hf⟩), fun y h => h⟩
  · have sub : ∀ y ∈ s.1.list, y ∈ (gadd o s.1 d).list := by
      intro y hy; simp [gadd, hy]
    exact ⟨ninv_add hl hn hd, hinv_insert (hinv_mono sub hh) (by simp [gadd])
      (Or.inr ⟨d, _, hd, rfl⟩), sub⟩

theorem gfold_inv {o : Ops τ} (hl : o.Laws) {xs : List τ} : ∀ {done cur : List τ}
    {s s' : NS τ × HMap CStr}, NInv o done s.1 → HInv o cur s.1.list s.2 →
    xs.foldlM (gstep o) s = .ok s' →
    NInv o (done ++ xs) s'.1 ∧ HInv o (cur ++ xs) s'.1.list s'.2 ∧
      ∀ y ∈ s.1.list, y ∈ s'.1.list := by
  induction xs with
  | nil =>
    intro done cur s s' hn hh h
    cases h
    simpa using ⟨hn, hh⟩
  | cons x xs ih =>
    intro done cur s s' hn hh h
    rw [List.foldlM_cons] at h
    obtain ⟨s1, h1, h⟩ := bind_eq_ok.mp h
    obtain ⟨a, b, c⟩ := gstep_inv hl hn hh h1
    obtain ⟨a', b', c'⟩ := ih a b h
    exact ⟨by simpa using a', by simpa using b', fun y hy => c' y (c y hy)⟩

theorem gnames_inv {o : Ops τ} (hl : o.Laws) {tabs : OiFits R → List τ} {ins : List (OiFits R)} :
    ∀ {done : List τ} {st st' : NS τ} {acc hs : List (HMap CStr)}, NInv o done st →
    gnames o tabs ins st acc = .ok (st', hs) →
    NInv o (done ++ ins.flatMap tabs) st' ∧ (∀ y ∈ st.list, y ∈ st'.list) ∧
      ∃ hs', hs = acc ++ hs' ∧ List.Forall₂ (fun inp h => HInv o (tabs inp) st'.list h) ins hs' := by
  induction ins with
  | nil =>
    intro done st st' acc hs hn h
    cases h
    exact ⟨by simpa using hn, fun _ h => h, [], by simp, .nil⟩
  | cons inp ins ih =>
    intro done st st' acc hs hn h
    unfold gnames at h
    obtain ⟨⟨s1, h1⟩, hf, h⟩ := bind_eq_ok.mp h
    obtain ⟨a, b, c⟩ := gfold_inv hl (cur := []) hn
      ⟨by intro n v hv; simp at hv, by simp⟩ hf
    obtain ⟨a', b', hs', rfl, hf'⟩ := ih a h
    refine ⟨by simpa using a', fun y hy => b' y (c y hy), h1 :: hs', by simp, .cons ?_ hf'⟩
    exact hinv_mono b' (by simpa using b)

theorem ninv_empty (o : Ops τ) : NInv o [] ⟨[], HMap.empty, 0⟩ :=
  ⟨rfl, by simp, by simp, by simp, by simp, by simp⟩

/-- The loops do not fail if their parts do not. -/
theorem gstep_ok {o : Ops τ} {s : NS τ × HMap CStr} {x : τ} (W : τ → Prop)
    (hs : ∀ y ∈ s.1.list, W y)
    (hfind : ∀ l, (∀ y ∈ l, W y) → ∃ r, o.find x l = .ok r)
    (hdup : ∃ d, o.dup x = .ok d ∧ ∀ n, W (o.setName d n)) :
    ∃ s', gstep o s x = .ok s' ∧ ∀ y ∈ s'.1.list, W y := by
  obtain ⟨r, hr⟩ := hfind _ hs
  unfold gstep
  rw [hr, bind_ok]
  cases r with
  | some y => exact ⟨_, rfl, hs⟩
  | none =>
    obtain ⟨d, hd, hw⟩ := hdup
    refine ⟨(gadd o s.1 d, s.2.insert (o.name x) (o.name (o.setName d (gname o s.1 d)))),
      by simp [hd], ?_⟩
    intro y hy
    simp only [gadd, List.mem_append, List.mem_singleton] at hy
    rcases hy with hy | rfl
    · exact hs y hy
    · exact hw _

theorem gfold_ok {o : Ops τ} (W : τ → Prop) {xs : List τ}
    (hfind : ∀ x ∈ xs, ∀ l, (∀ y ∈ l, W y) → ∃ r, o.find x l = .ok r)
    (hdup : ∀ x ∈ xs, ∃ d, o.dup x = .ok d ∧ ∀ n, W (o.setName d n)) :
    ∀ {s : NS τ × HMap CStr}, (∀ y ∈ s.1.list, W y) →
    ∃ s', xs.foldlM (gstep o) s = .ok s' ∧ ∀ y ∈ s'.1.list, W y := by
  induction xs with
  | nil => intro s hs; exact ⟨s, rfl, hs⟩
  | cons x xs ih =>
    intro s hs
    obtain ⟨s1, h1, hs1⟩ := gstep_ok W hs (hfind x (by simp)) (hdup x (by simp))
    obtain ⟨s', h', hs'⟩ := ih (fun x hx => hfind x (by simp [hx]))
      (fun x hx => hdup x (by simp [hx])) hs1
    exact ⟨s', by rw [List.foldlM_cons, h1, bind_ok, h'], hs'⟩

theorem gnames_ok {o : Ops τ} (W : τ → Prop) {tabs : OiFits R → List τ} {ins : List (OiFits R)}
    (hfind : ∀ inp ∈ ins, ∀ x ∈ tabs inp, ∀ l, (∀ y ∈ l, W y) → ∃ r, o.find x l = .ok r)
    (hdup : ∀ inp ∈ ins, ∀ x ∈ tabs inp, ∃ d, o.dup x = .ok d ∧ ∀ n, W (o.setName d n)) :
    ∀ {st : NS τ} {acc : List (HMap CStr)}, (∀ y ∈ st.list, W y) →
    ∃ r, gnames o tabs ins st acc = .ok r := by
  induction ins with
  | nil => intro st acc _; exact ⟨_, rfl⟩
  | cons inp ins ih =>
    intro st acc hs
    obtain ⟨s1, h1, hs1⟩ := gfold_ok W (hfind inp (by simp)) (hdup inp (by simp))
      (s := (st, HMap.empty)) hs
    unfold gnames
    rw [h1, bind_ok]
    exact ih (fun i hi => hfind i (by simp [hi])) (fun i hi => hdup i (by simp [hi])) hs1

/-- A loop on the whole output which only concerns one part of it is a loop on that
part. -/
theorem mergeNames_lens {o : Ops τ} {tabs : OiFits R → List τ} {ins : List (OiFits R)}
    {step : OiFits R × HMap CStr → τ → Outcome (OiFits R × HMap CStr)}
    {put : NS τ → OiFits R}
    (hstep : ∀ st h x, step (put st, h) x = (fun p => (put p.1, p.2)) <$> gstep o (st, h) x)
    (st : NS τ) (acc : List (HMap CStr)) :
    mergeNames tabs step ins (put st) acc =
      (fun p => (put p.1, p.2)) <$> gnames o tabs ins st acc := by
  have hfold : ∀ (xs : List τ) st h, xs.foldlM step (put st, h) =
      (fun p => (put p.1, p.2)) <$> xs.foldlM (gstep o) (st, h) := by
    intro xs
    induction xs with
    | nil => intro st h; rfl
    | cons x xs ih =>
      intro st h
      rw [List.foldlM_cons, List.foldlM_cons, hstep]
      cases hg : gstep o (st, h) x with
      | ok p => simp [ih]
      | abort => rfl
      | ub => rfl
  induction ins generalizing st acc with
  | nil => rfl
  | cons inp ins ih =>
    unfold mergeNames gnames
    rw [hfold]
    cases hg : (tabs inp).foldlM (gstep o) (st, HMap.empty) with
    | ok p => simp [ih]
    | abort => rfl
    | ub => rfl

end Verif
