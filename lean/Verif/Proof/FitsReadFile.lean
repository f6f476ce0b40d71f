import Verif.Proof.FitsReadData

/-! Finding HDUs, the reading loops, and reading back a whole file. -/

namespace Verif
open Outcome

variable {R : FP} {α ι : Type}

/-- The HDU is a binary table whose EXTNAME is `name`. -/
def Hdu.isNamed (name : CStr) (h : Hdu R) : Bool :=
  match h.type, h.readStr "EXTNAME" with
  | .binary, .ok e => e == name
  | _, _ => false

/-- EXTNAME can be read as a string, or is missing. -/
def Hdu.NameOk (h : Hdu R) : Prop := ∀ st, h.readStr "EXTNAME" = .error st → st = .KEY_NO_EXIST

theorem nextLoop_cons {name : CStr} {h : Hdu R} (hok : h.NameOk) (l : List (Hdu R)) (i : Nat) :
    nextLoop name (h :: l) i = if h.isNamed name then (i + 1, .ok) else nextLoop name l (i + 1) := by
  rw [nextLoop]
  unfold Hdu.isNamed
  cases ht : h.type with
  | image => simp
  | ascii => simp
  | binary =>
    rw [if_pos rfl]
    cases he : h.readStr "EXTNAME" with
    | error st =>
      obtain rfl := hok st he
      simp
    | ok e => simp

theorem nextLoop_none {name : CStr} (l : List (Hdu R)) (hok : ∀ h ∈ l, h.NameOk)
    (hn : l.filter (Hdu.isNamed name) = []) (i : Nat) :
    nextLoop name l i = (i + l.length, .END_OF_FILE) := by
  induction l generalizing i with
  | nil => rfl
  | cons h l ih =>
    rw [List.filter_cons] at hn
    by_cases hh : h.isNamed name = true
    · simp [hh] at hn
    · rw [if_neg hh] at hn
      rw [nextLoop_cons (hok h (by simp)), if_neg hh, ih (fun x hx => hok x (by simp [hx])) hn]
      simp; omega

theorem nextLoop_some {name : CStr} (l : List (Hdu R)) (hok : ∀ h ∈ l, h.NameOk) {x : Hdu R} {xs : List (Hdu R)}
    (hn : l.filter (Hdu.isNamed name) = x :: xs) (i : Nat) :
    ∃ j, nextLoop name l i = (i + j + 1, .ok) ∧ l[j]? = some x ∧
      (l.drop (j + 1)).filter (Hdu.isNamed name) = xs := by
  induction l generalizing i with
  | nil => simp at hn
  | cons h l ih =>
    rw [List.filter_cons] at hn
    by_cases hh : h.isNamed name = true
    · rw [if_pos hh] at hn
      obtain ⟨rfl, rfl⟩ := List.cons.inj hn
      exact ⟨0, by rw [nextLoop_cons (hok h (by simp)), if_pos hh], rfl, by simp⟩
    · rw [if_neg hh] at hn
      obtain ⟨j, h1, h2, h3⟩ := ih (fun x hx => hok x (by simp [hx])) hn (i + 1)
      refine ⟨j + 1, ?_, by simpa using h2, by simpa using h3⟩
      rw [nextLoop_cons (hok h (by simp)), if_neg hh, h1]
      simp; omega

/-- A reading loop over tables made from `xs`. -/
theorem readAll_pairs {name : CStr} {skip : Bool} {read : FitsM R α} {hdus : List (Hdu R)}
    (hok : ∀ h ∈ hdus, h.NameOk) (f : ι → Hdu R) (g : ι → α) (xs : List ι)
    (hread : ∀ x ∈ xs, ∀ s s', s.status = .ok → next_named_hdu name s = .ok ((), s') → At s' (f x) →
      read s = .ok (g x, s'))
    (hend : ∀ s s', s.status = .ok → next_named_hdu name s = .ok ((), s') → s'.status ≠ .ok →
      ∃ a, read s = .ok (a, s')) (fuel cur : Nat)
    (hx : (hdus.drop (cur + 1)).filter (Hdu.isNamed name) = xs.map f) (hf : xs.length < fuel)
    (hc : cur < hdus.length) :
    readAll skip read fuel ⟨hdus, cur, .ok⟩ = .ok (xs.map g, ⟨hdus, hdus.length - 1, .ok⟩) := by
  induction xs generalizing fuel cur with
  | nil =>
    obtain ⟨fuel, rfl⟩ : ∃ k, fuel = k + 1 := ⟨fuel - 1, by simp at hf; omega⟩
    have hnx : next_named_hdu name (⟨hdus, cur, .ok⟩ : FState R)
        = .ok ((), ⟨hdus, hdus.length - 1, .END_OF_FILE⟩) := by
      refine (guardStatus_ok rfl _ _).trans ?_
      simp only [nextLoop_none _ (fun h hh => hok h (List.mem_of_mem_drop hh)) hx]
      have : cur + (hdus.drop (cur + 1)).length = hdus.length - 1 := by simp; omega
      rw [this]
    obtain ⟨a, ha⟩ := hend _ _ rfl hnx (by simp)
    rw [readAll]
    rb ha
    rb (run_getStatus _)
    rfl
  | cons x xs ih =>
    obtain ⟨fuel, rfl⟩ : ∃ k, fuel = k + 1 := ⟨fuel - 1, by simp at hf; omega⟩
    obtain ⟨j, h1, h2, h3⟩ := nextLoop_some _ (fun h hh => hok h (List.mem_of_mem_drop hh)) hx cur
    have hnx : next_named_hdu name (⟨hdus, cur, .ok⟩ : FState R)
        = .ok ((), ⟨hdus, cur + j + 1, .ok⟩) := by
      refine (guardStatus_ok rfl _ _).trans ?_
      simp only [h1]
    rw [List.getElem?_drop] at h2
    have hat : At (⟨hdus, cur + j + 1, .ok⟩ : FState R) (f x) :=
      ⟨rfl, by rw [← h2]; congr 1; change cur + j + 1 = cur + 1 + j; omega⟩
    rw [readAll]
    rb (hread x (by simp) _ _ rfl hnx hat)
    rb (run_getStatus _)
    rw [if_pos rfl]
    rw [List.drop_drop] at h3
    rb (ih (fun y hy => hread y (by simp [hy])) fuel (cur + j + 1) (by rw [← h3]; congr 2; omega)
      (by simp at hf; omega) (by have := (List.getElem?_eq_some_iff.mp h2).1; omega))
    rfl

theorem readTables_pairs {name : CStr} {skip : Bool} {read : FitsM R α} {hdus : List (Hdu R)}
    (hok : ∀ h ∈ hdus, h.NameOk) (f : ι → Hdu R) (g : ι → α) (xs : List ι)
    (hread : ∀ x ∈ xs, ∀ s s', s.status = .ok → next_named_hdu name s = .ok ((), s') → At s' (f x) →
      read s = .ok (g x, s'))
    (hend : ∀ s s', s.status = .ok → next_named_hdu name s = .ok ((), s') → s'.status ≠ .ok →
      ∃ a, read s = .ok (a, s')) (cur : Nat)
    (hx : (hdus.drop 1).filter (Hdu.isNamed name) = xs.map f) (hne : hdus ≠ []) :
    readTables skip read ⟨hdus, cur, .ok⟩ = .ok (xs.map g, ⟨hdus, hdus.length - 1, .ok⟩) := by
  have hpos : 0 < hdus.length := List.length_pos_iff.mpr hne
  have hm : fits_movabs_hdu 1 (⟨hdus, cur, .ok⟩ : FState R) = .ok (hdus[0].type, ⟨hdus, 0, .ok⟩) := by
    simp [fits_movabs_hdu, hpos]
  have hl : xs.length ≤ hdus.length - 1 := by
    have := List.length_filter_le (Hdu.isNamed name) (hdus.drop 1)
    rw [hx] at this
    simpa using this
  rw [readTables]
  rb hm
  rb (show fits_get_num_hdus (⟨hdus, 0, .ok⟩ : FState R) = .ok (hdus.length, ⟨hdus, 0, .ok⟩) from rfl)
  exact readAll_pairs hok f g xs hread hend _ 0 hx (by omega) hpos

/-! ### What happens at the end of the file -/

/-- A reader which starts by looking for a table gives up if there is none. -/
theorem read_end {s s' : FState R} {name : CStr} (hok : s.status = .ok)
    (hmv : next_named_hdu name s = .ok ((), s')) (hst : s'.status ≠ .ok) (old : α) (body : FitsM R α) :
    guardStatus old (do next_named_hdu name; guardStatus old body) s = .ok (old, s') := by
  refine (guardStatus_ok hok _ _).trans ?_
  rb hmv
  exact guardStatus_err hst _ _

/-! ### Assembling the dataset -/

/-- The names a data table refers to. -/
structure Refs where
  arrname : CStr
  insname : CStr
  corrname : CStr

/-- Enter the tables referred to. -/
def hashRefs (oi : OiFits R) (r : Refs) : OiFits R := hashData oi r.arrname r.insname r.corrname

/-- The hash tables map the names in the given lists to the first table of the name. -/
structure Hashed (oi : OiFits R) (as is cs : List CStr) : Prop where
  array : ∀ n, oi.arrayHash.lookup n = if n ∈ as then find_oi_array oi n else none
  wavelength : ∀ n, oi.wavelengthHash.lookup n = if n ∈ is then find_oi_wavelength oi n else none
  corr : ∀ n, oi.corrHash.lookup n = if n ∈ cs then find_oi_corr oi n else none

/-- Two datasets which differ in nothing but their hash tables. -/
def SameLists (a b : OiFits R) : Prop :=
  { a with arrayHash := b.arrayHash, wavelengthHash := b.wavelengthHash, corrHash := b.corrHash } = b

theorem SameLists.refl (a : OiFits R) : SameLists a a := rfl

theorem SameLists.trans {a b c : OiFits R} (h1 : SameLists a b) (h2 : SameLists b c) : SameLists a c := by
  unfold SameLists at *
  cases a; cases b; cases c
  simp_all

theorem hashArray_spec (oi : OiFits R) (n : CStr) :
    SameLists oi (hashArray oi n) ∧ ∃ h, hashArray oi n = { oi with arrayHash := h } ∧
      ∀ m, h.lookup m = if m = n ∧ n ≠ [] ∧ oi.arrayHash.lookup n = none then find_oi_array oi n
        else oi.arrayHash.lookup m := by
  unfold hashArray
  by_cases hn : n = []
  · exact ⟨by simp [hn, SameLists], oi.arrayHash, by simp [hn], by simp [hn]⟩
  · rw [if_pos (by cases n <;> simp_all)]
    cases hl : oi.arrayHash.lookup n <;> cases hf : find_oi_array oi n
    · refine ⟨rfl, _, rfl, fun m => ?_⟩
      by_cases hm : m = n
      · subst hm; simp [hl, hn]
      · simp [hm]
    · refine ⟨rfl, _, rfl, fun m => ?_⟩
      rw [HMap.lookup_insert]
      by_cases hm : m = n
      · subst hm; simp [hn]
      · simp [hm]
    · exact ⟨rfl, _, rfl, fun m => by simp⟩
    · exact ⟨rfl, _, rfl, fun m => by simp⟩

theorem hashWavelength_spec (oi : OiFits R) (n : CStr) :
    SameLists oi (hashWavelength oi n) ∧ ∃ h, hashWavelength oi n = { oi with wavelengthHash := h } ∧
      ∀ m, h.lookup m = if m = n ∧ oi.wavelengthHash.lookup n = none then find_oi_wavelength oi n
        else oi.wavelengthHash.lookup m := by
  unfold hashWavelength
  cases hl : oi.wavelengthHash.lookup n <;> cases hf : find_oi_wavelength oi n
  · refine ⟨rfl, _, rfl, fun m => ?_⟩
    by_cases hm : m = n
    · subst hm; simp [hl]
    · simp [hm]
  · refine ⟨rfl, _, rfl, fun m => ?_⟩
    rw [HMap.lookup_insert]
    by_cases hm : m = n
    · subst hm; simp
    · simp [hm]
  · exact ⟨rfl, _, rfl, fun m => by simp⟩
  · exact ⟨rfl, _, rfl, fun m => by simp⟩

theorem hashCorr_spec (oi : OiFits R) (n : CStr) :
    SameLists oi (hashCorr oi n) ∧ ∃ h, hashCorr oi n = { oi with corrHash := h } ∧
      ∀ m, h.lookup m = if m = n ∧ n ≠ [] ∧ oi.corrHash.lookup n = none then find_oi_corr oi n
        else oi.corrHash.lookup m := by
  unfold hashCorr
  by_cases hn : n = []
  · exact ⟨by simp [hn, SameLists], oi.corrHash, by simp [hn], by simp [hn]⟩
  · rw [if_pos (by cases n <;> simp_all)]
    cases hl : oi.corrHash.lookup n <;> cases hf : find_oi_corr oi n
    · refine ⟨rfl, _, rfl, fun m => ?_⟩
      by_cases hm : m = n
      · subst hm; simp [hl, hn]
      · simp [hm]
    · refine ⟨rfl, _, rfl, fun m => ?_⟩
      rw [HMap.lookup_insert]
      by_cases hm : m = n
      · subst hm; simp [hn]
      · simp [hm]
    · exact ⟨rfl, _, rfl, fun m => by simp⟩
    · exact ⟨rfl, _, rfl, fun m => by simp⟩

/-- How a lookup changes when a name is entered. -/
theorem hash_step {τ : Type} {l l' find : CStr → Option τ} {as : List CStr} {n : CStr}
    (h : ∀ m, l m = if m ∈ as then find m else none) (cond : Prop) [Decidable cond]
    (h' : ∀ m, l' m = if m = n ∧ cond ∧ l n = none then find n else l m) :
    ∀ m, l' m = if m ∈ as ++ (if cond then [n] else []) then find m else none := by
  intro m
  rw [h' m]
  by_cases hm : m = n
  · subst hm
    by_cases hc : cond
    · by_cases hmem : m ∈ as
      · rw [h m]; simp [hc, hmem]
      · rw [h m]; simp [hc, hmem]
    · rw [h m]; simp [hc]
  · rw [h m]
    by_cases hc : cond <;> simp [hm, hc]

theorem hashRefs_spec {oi : OiFits R} {as is cs : List CStr} (h : Hashed oi as is cs) (r : Refs) :
    SameLists oi (hashRefs oi r) ∧ Hashed (hashRefs oi r)
      (as ++ if r.arrname ≠ [] then [r.arrname] else []) (is ++ [r.insname])
      (cs ++ if r.corrname ≠ [] then [r.corrname] else []) := by
  unfold hashRefs hashData
  obtain ⟨s1, h1, e1, l1⟩ := hashArray_spec oi r.arrname
  obtain ⟨s2, h2, e2, l2⟩ := hashWavelength_spec (hashArray oi r.arrname) r.insname
  obtain ⟨s3, h3, e3, l3⟩ := hashCorr_spec (hashWavelength (hashArray oi r.arrname) r.insname) r.corrname
  refine ⟨(s1.trans s2).trans s3, ?_, ?_, ?_⟩
  · rw [e3, e2, e1]
    exact hash_step h.array _ l1
  · rw [e3, e2]
    rw [e1] at l2 ⊢
    have := hash_step (n := r.insname) h.wavelength True (l' := h2.lookup)
      (fun m => by rw [l2 m]; simp only [true_and]; rfl)
    intro m
    refine (this m).trans ?_
    simp only [if_true]
    rfl
  · rw [e3]
    rw [e2, e1] at l3 ⊢
    exact hash_step h.corr _ l3

theorem hashAll_spec (refs : List Refs) {oi : OiFits R} {as is cs : List CStr} (h : Hashed oi as is cs) :
    SameLists oi (refs.foldl hashRefs oi) ∧ Hashed (refs.foldl hashRefs oi)
      (as ++ (refs.map (·.arrname)).filter (· ≠ [])) (is ++ refs.map (·.insname))
      (cs ++ (refs.map (·.corrname)).filter (· ≠ [])) := by
  induction refs generalizing oi as is cs with
  | nil => simpa using ⟨SameLists.refl oi, h⟩
  | cons r rs ih =>
    obtain ⟨s1, h1⟩ := hashRefs_spec h r
    obtain ⟨s2, h2⟩ := ih h1
    refine ⟨s1.trans s2, ?_⟩
    simp only [List.foldl_cons]
    have e (x : CStr) (xs ys : List CStr) : xs ++ (x :: ys).filter (· ≠ [])
        = (xs ++ if x ≠ [] then [x] else []) ++ ys.filter (· ≠ []) := by
      by_cases hr : x = [] <;> simp [hr]
    rw [List.map_cons, List.map_cons, List.map_cons, e, e]
    simpa using h2

/-- The references of all data tables. OI_FLUX tables are treated as if they did not
refer to a correlation matrix. -/
def allRefs (visList : List (OiVis R)) (vis2List : List (OiVis2 R)) (t3List : List (OiT3 R))
    (fluxList : List (OiFlux R)) : List Refs :=
  visList.map (fun t => ⟨t.arrname, t.insname, t.corrname⟩)
  ++ vis2List.map (fun t => ⟨t.arrname, t.insname, t.corrname⟩)
  ++ t3List.map (fun t => ⟨t.arrname, t.insname, t.corrname⟩)
  ++ fluxList.map (fun t => ⟨t.arrname, t.insname, []⟩)

theorem hashData_noCorr (oi : OiFits R) (a i : CStr) :
    hashWavelength (hashArray oi a) i = hashRefs oi ⟨a, i, []⟩ := by
  simp [hashRefs, hashData, hashCorr]

/-- The dataset before anything is entered in the hash tables. -/
def bare (header : OiHeader) (targets : OiTarget R) (arrayList : List (OiArray R))
    (wavelengthList : List (OiWavelength R)) (corrList : List (OiCorr R))
    (inspolList : List (OiInspol R)) (visList : List (OiVis R)) (vis2List : List (OiVis2 R))
    (t3List : List (OiT3 R)) (fluxList : List (OiFlux R)) : OiFits R :=
  { numArray := arrayList.length, numWavelength := wavelengthList.length
    numCorr := corrList.length, numInspol := inspolList.length, numVis := visList.length
    numVis2 := vis2List.length, numT3 := t3List.length, numFlux := fluxList.length
    header := header, targets := targets, arrayList := arrayList
    wavelengthList := wavelengthList, corrList := corrList, inspolList := inspolList
    visList := visList, vis2List := vis2List, t3List := t3List, fluxList := fluxList
    arrayHash := HMap.empty, wavelengthHash := HMap.empty, corrHash := HMap.empty }

theorem assemble_eq (header : OiHeader) (targets : OiTarget R) (arrayList : List (OiArray R))
    (wavelengthList : List (OiWavelength R)) (corrList : List (OiCorr R))
    (inspolList : List (OiInspol R)) (visList : List (OiVis R)) (vis2List : List (OiVis2 R))
    (t3List : List (OiT3 R)) (fluxList : List (OiFlux R)) :
    assemble header targets arrayList wavelengthList corrList inspolList visList vis2List t3List fluxList
      = (allRefs visList vis2List t3List fluxList).foldl hashRefs
        (bare header targets arrayList wavelengthList corrList inspolList visList vis2List t3List fluxList) := by
  simp only [assemble, allRefs, List.foldl_append, List.foldl_map, hashData_noCorr]
  rfl

theorem assemble_spec (header : OiHeader) (targets : OiTarget R) (arrayList : List (OiArray R))
    (wavelengthList : List (OiWavelength R)) (corrList : List (OiCorr R))
    (inspolList : List (OiInspol R)) (visList : List (OiVis R)) (vis2List : List (OiVis2 R))
    (t3List : List (OiT3 R)) (fluxList : List (OiFlux R)) :
    let oi := assemble header targets arrayList wavelengthList corrList inspolList visList vis2List t3List fluxList
    let refs := allRefs visList vis2List t3List fluxList
    SameLists (bare header targets arrayList wavelengthList corrList inspolList visList vis2List t3List fluxList) oi
    ∧ Hashed oi ((refs.map (·.arrname)).filter (· ≠ [])) (refs.map (·.insname))
        ((refs.map (·.corrname)).filter (· ≠ [])) := by
  simp only [assemble_eq]
  have h0 : Hashed (bare header targets arrayList wavelengthList corrList inspolList visList vis2List t3List fluxList)
      [] [] [] := ⟨by intro n; simp [bare], by intro n; simp [bare], by intro n; simp [bare]⟩
  simpa using hashAll_spec (allRefs visList vis2List t3List fluxList) h0

/-! ### The file written -/

theorem filter_mapIdx_all {p : Hdu R → Bool} {l : List ι} {f : Nat → ι → Hdu R}
    (h : ∀ k t, p (f k t) = true) : (l.mapIdx f).filter p = l.zipIdx.map fun x => f x.2 x.1 := by
  rw [List.mapIdx_eq_zipIdx_map, List.filter_eq_self.mpr]
  intro x hx
  obtain ⟨y, _, rfl⟩ := List.mem_map.mp hx
  exact h _ _

theorem filter_mapIdx_none {p : Hdu R → Bool} {l : List ι} {f : Nat → ι → Hdu R}
    (h : ∀ k t, p (f k t) = false) : (l.mapIdx f).filter p = [] := by
  rw [List.filter_eq_nil_iff]
  intro x hx
  rw [List.mapIdx_eq_zipIdx_map] at hx
  obtain ⟨y, _, rfl⟩ := List.mem_map.mp hx
  simp [h]

theorem map_zipIdx_fst (l : List ι) (g : ι → α) : (l.zipIdx.map fun x => g x.1) = l.map g := by
  apply List.ext_getElem <;> simp

theorem mem_of_zipIdx {l : List ι} {x : ι × Nat} (h : x ∈ l.zipIdx) : x.1 ∈ l := by
  have := List.mem_zipIdx h
  rw [this.2.2]; exact List.getElem_mem _

/-- The HDUs of a file written have readable names. -/
theorem fileOf_nameOk (today : CStr) (oi : OiFits R) : ∀ h ∈ Spec.fileOf today oi, h.NameOk := by
  intro h hh
  have hidx {τ : Type} {l : List τ} {f : Nat → τ → Hdu R} {e : CStr}
      (hf : ∀ k t, (f k t).readStr "EXTNAME" = .ok e) (hm : h ∈ l.mapIdx f) : h.NameOk := by
    rw [List.mapIdx_eq_zipIdx_map] at hm
    obtain ⟨y, _, rfl⟩ := List.mem_map.mp hm
    intro st hst
    rw [hf] at hst; cases hst
  simp only [Spec.fileOf, List.mem_cons, List.mem_append] at hh
  rcases hh with rfl | rfl | ((((((hm | hm) | hm) | hm) | hm) | hm) | hm) | hm
  · intro st hst
    have : (Spec.hduPrimary (R := R) today oi.header).readStr "EXTNAME" = .error .KEY_NO_EXIST := by
      have : (Spec.hduPrimary (R := R) today oi.header).keys.lookup ("EXTNAME" : CStr) = none := by
        rw [primary_keys]; lk_skip; rfl
      unfold Hdu.readStr; rw [this]
    rw [this] at hst; cases hst; rfl
  · intro st hst
    have : (Spec.hduTarget oi.targets).readStr "EXTNAME" = .ok ("OI_TARGET" : CStr) := rfl
    rw [this] at hst; cases hst
  · exact hidx (fun _ _ => rfl) hm
  · exact hidx (fun _ _ => rfl) hm
  · exact hidx (fun _ _ => rfl) hm
  · exact hidx (fun _ _ => rfl) hm
  · exact hidx (fun _ _ => rfl) hm
  · exact hidx (fun _ _ => rfl) hm
  · exact hidx (fun _ _ => rfl) hm
  · exact hidx (fun _ _ => rfl) hm

theorem fileOf_array (today : CStr) (oi : OiFits R) :
    ((Spec.fileOf today oi).drop 1).filter (Hdu.isNamed "OI_ARRAY")
      = oi.arrayList.zipIdx.map fun x => Spec.hduArray x.1 (x.2 + 1) := by
  have hArray : (oi.arrayList.mapIdx fun k t => Spec.hduArray t (k + 1)).filter (Hdu.isNamed "OI_ARRAY") = oi.arrayList.zipIdx.map fun x => Spec.hduArray x.1 (x.2 + 1) :=
    filter_mapIdx_all fun _ _ => rfl
  have hWavelength : (oi.wavelengthList.mapIdx fun k t => Spec.hduWavelength t (k + 1)).filter (Hdu.isNamed "OI_ARRAY") = [] :=
    filter_mapIdx_none fun _ _ => rfl
  have hCorr : (oi.corrList.mapIdx fun k t => Spec.hduCorr t (k + 1)).filter (Hdu.isNamed "OI_ARRAY") = [] :=
    filter_mapIdx_none fun _ _ => rfl
  have hInspol : (oi.inspolList.mapIdx fun k t => Spec.hduInspol t (k + 1)).filter (Hdu.isNamed "OI_ARRAY") = [] :=
    filter_mapIdx_none fun _ _ => rfl
  have hVis : (oi.visList.mapIdx fun k t => Spec.hduVis t (k + 1)).filter (Hdu.isNamed "OI_ARRAY") = [] :=
    filter_mapIdx_none fun _ _ => rfl
  have hVis2 : (oi.vis2List.mapIdx fun k t => Spec.hduVis2 t (k + 1)).filter (Hdu.isNamed "OI_ARRAY") = [] :=
    filter_mapIdx_none fun _ _ => rfl
  have hT3 : (oi.t3List.mapIdx fun k t => Spec.hduT3 t (k + 1)).filter (Hdu.isNamed "OI_ARRAY") = [] :=
    filter_mapIdx_none fun _ _ => rfl
  have hFlux : (oi.fluxList.mapIdx fun k t => Spec.hduFlux t (k + 1)).filter (Hdu.isNamed "OI_ARRAY") = [] :=
    filter_mapIdx_none fun _ _ => rfl
  have ht : (Spec.hduTarget oi.targets).isNamed "OI_ARRAY" = false := rfl
  simp only [Spec.fileOf, List.drop_succ_cons, List.drop_zero]
  rw [List.filter_cons_of_neg (by rw [ht]; exact Bool.false_ne_true)]
  simp only [List.filter_append, hArray, hWavelength, hCorr, hInspol, hVis, hVis2, hT3, hFlux,
    List.append_nil, List.nil_append]

theorem fileOf_wavelength (today : CStr) (oi : OiFits R) :
    ((Spec.fileOf today oi).drop 1).filter (Hdu.isNamed "OI_WAVELENGTH")
      = oi.wavelengthList.zipIdx.map fun x => Spec.hduWavelength x.1 (x.2 + 1) := by
  have hArray : (oi.arrayList.mapIdx fun k t => Spec.hduArray t (k + 1)).filter (Hdu.isNamed "OI_WAVELENGTH") = [] :=
    filter_mapIdx_none fun _ _ => rfl
  have hWavelength : (oi.wavelengthList.mapIdx fun k t => Spec.hduWavelength t (k + 1)).filter (Hdu.isNamed "OI_WAVELENGTH") = oi.wavelengthList.zipIdx.map fun x => Spec.hduWavelength x.1 (x.2 + 1) :=
    filter_mapIdx_all fun _ _ => rfl
  have hCorr : (oi.corrList.mapIdx fun k t => Spec.hduCorr t (k + 1)).filter (Hdu.isNamed "OI_WAVELENGTH") = [] :=
    filter_mapIdx_none fun _ _ => rfl
  have hInspol : (oi.inspolList.mapIdx fun k t => Spec.hduInspol t (k + 1)).filter (Hdu.isNamed "OI_WAVELENGTH") = [] :=
    filter_mapIdx_none fun _ _ => rfl
  have hVis : (oi.visList.mapIdx fun k t => Spec.hduVis t (k + 1)).filter (Hdu.isNamed "OI_WAVELENGTH") = [] :=
    filter_mapIdx_none fun _ _ => rfl
  have hVis2 : (oi.vis2List.mapIdx fun k t => Spec.hduVis2 t (k + 1)).filter (Hdu.isNamed "OI_WAVELENGTH") = [] :=
    filter_mapIdx_none fun _ _ => rfl
  have hT3 : (oi.t3List.mapIdx fun k t => Spec.hduT3 t (k + 1)).filter (Hdu.isNamed "OI_WAVELENGTH") = [] :=
    filter_mapIdx_none fun _ _ => rfl
  have hFlux : (oi.fluxList.mapIdx fun k t => Spec.hduFlux t (k + 1)).filter (Hdu.isNamed "OI_WAVELENGTH") = [] :=
    filter_mapIdx_none fun _ _ => rfl
  have ht : (Spec.hduTarget oi.targets).isNamed "OI_WAVELENGTH" = false := rfl
  simp only [Spec.fileOf, List.drop_succ_cons, List.drop_zero]
  rw [List.filter_cons_of_neg (by rw [ht]; exact Bool.false_ne_true)]
  simp only [List.filter_append, hArray, hWavelength, hCorr, hInspol, hVis, hVis2, hT3, hFlux,
    List.append_nil, List.nil_append]

theorem fileOf_corr (today : CStr) (oi : OiFits R) :
    ((Spec.fileOf today oi).drop 1).filter (Hdu.isNamed "OI_CORR")
      = oi.corrList.zipIdx.map fun x => Spec.hduCorr x.1 (x.2 + 1) := by
  have hArray : (oi.arrayList.mapIdx fun k t => Spec.hduArray t (k + 1)).filter (Hdu.isNamed "OI_CORR") = [] :=
    filter_mapIdx_none fun _ _ => rfl
  have hWavelength : (oi.wavelengthList.mapIdx fun k t => Spec.hduWavelength t (k + 1)).filter (Hdu.isNamed "OI_CORR") = [] :=
    filter_mapIdx_none fun _ _ => rfl
  have hCorr : (oi.corrList.mapIdx fun k t => Spec.hduCorr t (k + 1)).filter (Hdu.isNamed "OI_CORR") = oi.corrList.zipIdx.map fun x => Spec.hduCorr x.1 (x.2 + 1) :=
    filter_mapIdx_all fun _ _ => rfl
  have hInspol : (oi.inspolList.mapIdx fun k t => Spec.hduInspol t (k + 1)).filter (Hdu.isNamed "OI_CORR") = [] :=
    filter_mapIdx_none fun _ _ => rfl
  have hVis : (oi.visList.mapIdx fun k t => Spec.hduVis t (k + 1)).filter (Hdu.isNamed "OI_CORR") = [] :=
    filter_mapIdx_none fun _ _ => rfl
  have hVis2 : (oi.vis2List.mapIdx fun k t => Spec.hduVis2 t (k + 1)).filter (Hdu.isNamed "OI_CORR") = [] :=
    filter_mapIdx_none fun _ _ => rfl
  have hT3 : (oi.t3List.mapIdx fun k t => Spec.hduT3 t (k + 1)).filter (Hdu.isNamed "OI_CORR") = [] :=
    filter_mapIdx_none fun _ _ => rfl
  have hFlux : (oi.fluxList.mapIdx fun k t => Spec.hduFlux t (k + 1)).filter (Hdu.isNamed "OI_CORR") = [] :=
    filter_mapIdx_none fun _ _ => rfl
  have ht : (Spec.hduTarget oi.targets).isNamed "OI_CORR" = false := rfl
  simp only [Spec.fileOf, List.drop_succ_cons, List.drop_zero]
  rw [List.filter_cons_of_neg (by rw [ht]; exact Bool.false_ne_true)]
  simp only [List.filter_append, hArray, hWavelength, hCorr, hInspol, hVis, hVis2, hT3, hFlux,
    List.append_nil, List.nil_append]

theorem fileOf_inspol (today : CStr) (oi : OiFits R) :
    ((Spec.fileOf today oi).drop 1).filter (Hdu.isNamed "OI_INSPOL")
      = oi.inspolList.zipIdx.map fun x => Spec.hduInspol x.1 (x.2 + 1) := by
  have hArray : (oi.arrayList.mapIdx fun k t => Spec.hduArray t (k + 1)).filter (Hdu.isNamed "OI_INSPOL") = [] :=
    filter_mapIdx_none fun _ _ => rfl
  have hWavelength : (oi.wavelengthList.mapIdx fun k t => Spec.hduWavelength t (k + 1)).filter (Hdu.isNamed "OI_INSPOL") = [] :=
    filter_mapIdx_none fun _ _ => rfl
  have hCorr : (oi.corrList.mapIdx fun k t => Spec.hduCorr t (k + 1)).filter (Hdu.isNamed "OI_INSPOL") = [] :=
    filter_mapIdx_none fun _ _ => rfl
  have hInspol : (oi.inspolList.mapIdx fun k t => Spec.hduInspol t (k + 1)).filter (Hdu.isNamed "OI_INSPOL") = oi.inspolList.zipIdx.map fun x => Spec.hduInspol x.1 (x.2 + 1) :=
    filter_mapIdx_all fun _ _ => rfl
  have hVis : (oi.visList.mapIdx fun k t => Spec.hduVis t (k + 1)).filter (Hdu.isNamed "OI_INSPOL") = [] :=
    filter_mapIdx_none fun _ _ => rfl
  have hVis2 : (oi.vis2List.mapIdx fun k t => Spec.hduVis2 t (k + 1)).filter (Hdu.isNamed "OI_INSPOL") = [] :=
    filter_mapIdx_none fun _ _ => rfl
  have hT3 : (oi.t3List.mapIdx fun k t => Spec.hduT3 t (k + 1)).filter (Hdu.isNamed "OI_INSPOL") = [] :=
    filter_mapIdx_none fun _ _ => rfl
  have hFlux : (oi.fluxList.mapIdx fun k t => Spec.hduFlux t (k + 1)).filter (Hdu.isNamed "OI_INSPOL") = [] :=
    filter_mapIdx_none fun _ _ => rfl
  have ht : (Spec.hduTarget oi.targets).isNamed "OI_INSPOL" = false := rfl
  simp only [Spec.fileOf, List.drop_succ_cons, List.drop_zero]
  rw [List.filter_cons_of_neg (by rw [ht]; exact Bool.false_ne_true)]
  simp only [List.filter_append, hArray, hWavelength, hCorr, hInspol, hVis, hVis2, hT3, hFlux,
    List.append_nil, List.nil_append]

theorem fileOf_vis (today : CStr) (oi : OiFits R) :
    ((Spec.fileOf today oi).drop 1).filter (Hdu.isNamed "OI_VIS")
      = oi.visList.zipIdx.map fun x => Spec.hduVis x.1 (x.2 + 1) := by
  have hArray : (oi.arrayList.mapIdx fun k t => Spec.hduArray t (k + 1)).filter (Hdu.isNamed "OI_VIS") = [] :=
    filter_mapIdx_none fun _ _ => rfl
  have hWavelength : (oi.wavelengthList.mapIdx fun k t => Spec.hduWavelength t (k + 1)).filter (Hdu.isNamed "OI_VIS") = [] :=
    filter_mapIdx_none fun _ _ => rfl
  have hCorr : (oi.corrList.mapIdx fun k t => Spec.hduCorr t (k + 1)).filter (Hdu.isNamed "OI_VIS") = [] :=
    filter_mapIdx_none fun _ _ => rfl
  have hInspol : (oi.inspolList.mapIdx fun k t => Spec.hduInspol t (k + 1)).filter (Hdu.isNamed "OI_VIS") = [] :=
    filter_mapIdx_none fun _ _ => rfl
  have hVis : (oi.visList.mapIdx fun k t => Spec.hduVis t (k + 1)).filter (Hdu.isNamed "OI_VIS") = oi.visList.zipIdx.map fun x => Spec.hduVis x.1 (x.2 + 1) :=
    filter_mapIdx_all fun _ _ => rfl
  have hVis2 : (oi.vis2List.mapIdx fun k t => Spec.hduVis2 t (k + 1)).filter (Hdu.isNamed "OI_VIS") = [] :=
    filter_mapIdx_none fun _ _ => rfl
  have hT3 : (oi.t3List.mapIdx fun k t => Spec.hduT3 t (k + 1)).filter (Hdu.isNamed "OI_VIS") = [] :=
    filter_mapIdx_none fun _ _ => rfl
  have hFlux : (oi.fluxList.mapIdx fun k t => Spec.hduFlux t (k + 1)).filter (Hdu.isNamed "OI_VIS") = [] :=
    filter_mapIdx_none fun _ _ => rfl
  have ht : (Spec.hduTarget oi.targets).isNamed "OI_VIS" = false := rfl
  simp only [Spec.fileOf, List.drop_succ_cons, List.drop_zero]
  rw [List.filter_cons_of_neg (by rw [ht]; exact Bool.false_ne_true)]
  simp only [List.filter_append, hArray, hWavelength, hCorr, hInspol, hVis, hVis2, hT3, hFlux,
    List.append_nil, List.nil_append]

theorem fileOf_vis2 (today : CStr) (oi : OiFits R) :
    ((Spec.fileOf today oi).drop 1).filter (Hdu.isNamed "OI_VIS2")
      = oi.vis2List.zipIdx.map fun x => Spec.hduVis2 x.1 (x.2 + 1) := by
  have hArray : (oi.arrayList.mapIdx fun k t => Spec.hduArray t (k + 1)).filter (Hdu.isNamed "OI_VIS2") = [] :=
    filter_mapIdx_none fun _ _ => rfl
  have hWavelength : (oi.wavelengthList.mapIdx fun k t => Spec.hduWavelength t (k + 1)).filter (Hdu.isNamed "OI_VIS2") = [] :=
    filter_mapIdx_none fun _ _ => rfl
  have hCorr : (oi.corrList.mapIdx fun k t => Spec.hduCorr t (k + 1)).filter (Hdu.isNamed "OI_VIS2") = [] :=
    filter_mapIdx_none fun _ _ => rfl
  have hInspol : (oi.inspolList.mapIdx fun k t => Spec.hduInspol t (k + 1)).filter (Hdu.isNamed "OI_VIS2") = [] :=
    filter_mapIdx_none fun _ _ => rfl
  have hVis : (oi.visList.mapIdx fun k t => Spec.hduVis t (k + 1)).filter (Hdu.isNamed "OI_VIS2") = [] :=
    filter_mapIdx_none fun _ _ => rfl
  have hVis2 : (oi.vis2List.mapIdx fun k t => Spec.hduVis2 t (k + 1)).filter (Hdu.isNamed "OI_VIS2") = oi.vis2List.zipIdx.map fun x => Spec.hduVis2 x.1 (x.2 + 1) :=
    filter_mapIdx_all fun _ _ => rfl
  have hT3 : (oi.t3List.mapIdx fun k t => Spec.hduT3 t (k + 1)).filter (Hdu.isNamed "OI_VIS2") = [] :=
    filter_mapIdx_none fun _ _ => rfl
  have hFlux : (oi.fluxList.mapIdx fun k t => Spec.hduFlux t (k + 1)).filter (Hdu.isNamed "OI_VIS2") = [] :=
    filter_mapIdx_none fun _ _ => rfl
  have ht : (Spec.hduTarget oi.targets).isNamed "OI_VIS2" = false := rfl
  simp only [Spec.fileOf, List.drop_succ_cons, List.drop_zero]
  rw [List.filter_cons_of_neg (by rw [ht]; exact Bool.false_ne_true)]
  simp only [List.filter_append, hArray, hWavelength, hCorr, hInspol, hVis, hVis2, hT3, hFlux,
    List.append_nil, List.nil_append]

theorem fileOf_t3 (today : CStr) (oi : OiFits R) :
    ((Spec.fileOf today oi).drop 1).filter (Hdu.isNamed "OI_T3")
      = oi.t3List.zipIdx.map fun x => Spec.hduT3 x.1 (x.2 + 1) := by
  have hArray : (oi.arrayList.mapIdx fun k t => Spec.hduArray t (k + 1)).filter (Hdu.isNamed "OI_T3") = [] :=
    filter_mapIdx_none fun _ _ => rfl
  have hWavelength : (oi.wavelengthList.mapIdx fun k t => Spec.hduWavelength t (k + 1)).filter (Hdu.isNamed "OI_T3") = [] :=
    filter_mapIdx_none fun _ _ => rfl
  have hCorr : (oi.corrList.mapIdx fun k t => Spec.hduCorr t (k + 1)).filter (Hdu.isNamed "OI_T3") = [] :=
    filter_mapIdx_none fun _ _ => rfl
  have hInspol : (oi.inspolList.mapIdx fun k t => Spec.hduInspol t (k + 1)).filter (Hdu.isNamed "OI_T3") = [] :=
    filter_mapIdx_none fun _ _ => rfl
  have hVis : (oi.visList.mapIdx fun k t => Spec.hduVis t (k + 1)).filter (Hdu.isNamed "OI_T3") = [] :=
    filter_mapIdx_none fun _ _ => rfl
  have hVis2 : (oi.vis2List.mapIdx fun k t => Spec.hduVis2 t (k + 1)).filter (Hdu.isNamed "OI_T3") = [] :=
    filter_mapIdx_none fun _ _ => rfl
  have hT3 : (oi.t3List.mapIdx fun k t => Spec.hduT3 t (k + 1)).filter (Hdu.isNamed "OI_T3") = oi.t3List.zipIdx.map fun x => Spec.hduT3 x.1 (x.2 + 1) :=
    filter_mapIdx_all fun _ _ => rfl
  have hFlux : (oi.fluxList.mapIdx fun k t => Spec.hduFlux t (k + 1)).filter (Hdu.isNamed "OI_T3") = [] :=
    filter_mapIdx_none fun _ _ => rfl
  have ht : (Spec.hduTarget oi.targets).isNamed "OI_T3" = false := rfl
  simp only [Spec.fileOf, List.drop_succ_cons, List.drop_zero]
  rw [List.filter_cons_of_neg (by rw [ht]; exact Bool.false_ne_true)]
  simp only [List.filter_append, hArray, hWavelength, hCorr, hInspol, hVis, hVis2, hT3, hFlux,
    List.append_nil, List.nil_append]

theorem fileOf_flux (today : CStr) (oi : OiFits R) :
    ((Spec.fileOf today oi).drop 1).filter (Hdu.isNamed "OI_FLUX")
      = oi.fluxList.zipIdx.map fun x => Spec.hduFlux x.1 (x.2 + 1) := by
  have hArray : (oi.arrayList.mapIdx fun k t => Spec.hduArray t (k + 1)).filter (Hdu.isNamed "OI_FLUX") = [] :=
    filter_mapIdx_none fun _ _ => rfl
  have hWavelength : (oi.wavelengthList.mapIdx fun k t => Spec.hduWavelength t (k + 1)).filter (Hdu.isNamed "OI_FLUX") = [] :=
    filter_mapIdx_none fun _ _ => rfl
  have hCorr : (oi.corrList.mapIdx fun k t => Spec.hduCorr t (k + 1)).filter (Hdu.isNamed "OI_FLUX") = [] :=
    filter_mapIdx_none fun _ _ => rfl
  have hInspol : (oi.inspolList.mapIdx fun k t => Spec.hduInspol t (k + 1)).filter (Hdu.isNamed "OI_FLUX") = [] :=
    filter_mapIdx_none fun _ _ => rfl
  have hVis : (oi.visList.mapIdx fun k t => Spec.hduVis t (k + 1)).filter (Hdu.isNamed "OI_FLUX") = [] :=
    filter_mapIdx_none fun _ _ => rfl
  have hVis2 : (oi.vis2List.mapIdx fun k t => Spec.hduVis2 t (k + 1)).filter (Hdu.isNamed "OI_FLUX") = [] :=
    filter_mapIdx_none fun _ _ => rfl
  have hT3 : (oi.t3List.mapIdx fun k t => Spec.hduT3 t (k + 1)).filter (Hdu.isNamed "OI_FLUX") = [] :=
    filter_mapIdx_none fun _ _ => rfl
  have hFlux : (oi.fluxList.mapIdx fun k t => Spec.hduFlux t (k + 1)).filter (Hdu.isNamed "OI_FLUX") = oi.fluxList.zipIdx.map fun x => Spec.hduFlux x.1 (x.2 + 1) :=
    filter_mapIdx_all fun _ _ => rfl
  have ht : (Spec.hduTarget oi.targets).isNamed "OI_FLUX" = false := rfl
  simp only [Spec.fileOf, List.drop_succ_cons, List.drop_zero]
  rw [List.filter_cons_of_neg (by rw [ht]; exact Bool.false_ne_true)]
  simp only [List.filter_append, hArray, hWavelength, hCorr, hInspol, hVis, hVis2, hT3, hFlux,
    List.append_nil, List.nil_append]

/-- What reading needs of what was written. -/
structure OiFits.Readable (oi : OiFits R) : Prop where
  targets : oi.targets.targ ≠ []
  array : ∀ t ∈ oi.arrayList, t.Storable
  wavelength : ∀ t ∈ oi.wavelengthList, t.WF
  corr : ∀ t ∈ oi.corrList, t.WF
  inspol : ∀ t ∈ oi.inspolList, t.WF
  vis : ∀ t ∈ oi.visList, t.WF
  vis2 : ∀ t ∈ oi.vis2List, t.WF
  t3 : ∀ t ∈ oi.t3List, t.WF
  flux : ∀ t ∈ oi.fluxList, t.WF

theorem OiFits.Storable.readable {oi : OiFits R} (h : oi.Storable) : oi.Readable :=
  ⟨h.targets.rows, h.array, h.wavelength, h.corr, fun t ht => (h.inspol t ht).wf, fun t ht => (h.vis t ht).wf,
    fun t ht => (h.vis2 t ht).wf, fun t ht => (h.t3 t ht).wf, fun t ht => (h.flux t ht).wf⟩

theorem readTables_array (today : CStr) {oi : OiFits R} (h : oi.Readable) (u : Undef R) (cur : Nat) :
    readTables false (read_next_oi_array u u.array) ⟨Spec.fileOf today oi, cur, .ok⟩
      = .ok (oi.arrayList.map OiArray.asRead, ⟨Spec.fileOf today oi, (Spec.fileOf today oi).length - 1, .ok⟩) := by
  rw [← map_zipIdx_fst]
  refine readTables_pairs (name := "OI_ARRAY") (fileOf_nameOk today oi) _ _ _ ?_ ?_ cur (fileOf_array today oi) (by simp [Spec.fileOf])
  · intro x hx s s' hok hmv hat
    have hm : x.1 ∈ oi.arrayList := mem_of_zipIdx hx
    exact read_next_oi_array_eq hok hmv hat ((h.array _ hm).wf.1) u _
  · intro s s' hok hmv hst
    exact ⟨_, read_end hok hmv hst _ _⟩

theorem readTables_wavelength (today : CStr) {oi : OiFits R} (h : oi.Readable) (u : Undef R) (cur : Nat) :
    readTables false (read_next_oi_wavelength u u.wave) ⟨Spec.fileOf today oi, cur, .ok⟩
      = .ok (oi.wavelengthList.map OiWavelength.asRead, ⟨Spec.fileOf today oi, (Spec.fileOf today oi).length - 1, .ok⟩) := by
  rw [← map_zipIdx_fst]
  refine readTables_pairs (name := "OI_WAVELENGTH") (fileOf_nameOk today oi) _ _ _ ?_ ?_ cur (fileOf_wavelength today oi) (by simp [Spec.fileOf])
  · intro x hx s s' hok hmv hat
    have hm : x.1 ∈ oi.wavelengthList := mem_of_zipIdx hx
    exact read_next_oi_wavelength_eq hok hmv hat (h.wavelength _ hm) u _
  · intro s s' hok hmv hst
    exact ⟨_, read_end hok hmv hst _ _⟩

theorem readTables_corr (today : CStr) {oi : OiFits R} (h : oi.Readable) (u : Undef R) (cur : Nat) :
    readTables true (read_next_oi_corr u u.corr) ⟨Spec.fileOf today oi, cur, .ok⟩
      = .ok (oi.corrList.map OiCorr.asRead, ⟨Spec.fileOf today oi, (Spec.fileOf today oi).length - 1, .ok⟩) := by
  rw [← map_zipIdx_fst]
  refine readTables_pairs (name := "OI_CORR") (fileOf_nameOk today oi) _ _ _ ?_ ?_ cur (fileOf_corr today oi) (by simp [Spec.fileOf])
  · intro x hx s s' hok hmv hat
    have hm : x.1 ∈ oi.corrList := mem_of_zipIdx hx
    exact read_next_oi_corr_eq hok hmv hat (h.corr _ hm) u _
  · intro s s' hok hmv hst
    exact ⟨_, read_end hok hmv hst _ _⟩

theorem readTables_inspol (today : CStr) {oi : OiFits R} (h : oi.Readable) (u : Undef R) (cur : Nat) :
    readTables true (read_next_oi_inspol u u.inspol) ⟨Spec.fileOf today oi, cur, .ok⟩
      = .ok (oi.inspolList.map OiInspol.asRead, ⟨Spec.fileOf today oi, (Spec.fileOf today oi).length - 1, .ok⟩) := by
  rw [← map_zipIdx_fst]
  refine readTables_pairs (name := "OI_INSPOL") (fileOf_nameOk today oi) _ _ _ ?_ ?_ cur (fileOf_inspol today oi) (by simp [Spec.fileOf])
  · intro x hx s s' hok hmv hat
    have hm : x.1 ∈ oi.inspolList := mem_of_zipIdx hx
    exact read_next_oi_inspol_eq hok hmv hat (h.inspol _ hm) u _
  · intro s s' hok hmv hst
    exact ⟨_, read_end hok hmv hst _ _⟩

theorem readTables_vis (today : CStr) {oi : OiFits R} (h : oi.Readable) (u : Undef R) (cur : Nat) :
    readTables true (read_next_oi_vis u u.vis) ⟨Spec.fileOf today oi, cur, .ok⟩
      = .ok (oi.visList.map (OiVis.asRead u.int), ⟨Spec.fileOf today oi, (Spec.fileOf today oi).length - 1, .ok⟩) := by
  rw [← map_zipIdx_fst]
  refine readTables_pairs (name := "OI_VIS") (fileOf_nameOk today oi) _ _ _ ?_ ?_ cur (fileOf_vis today oi) (by simp [Spec.fileOf])
  · intro x hx s s' hok hmv hat
    have hm : x.1 ∈ oi.visList := mem_of_zipIdx hx
    exact read_next_oi_vis_eq hok hmv hat (h.vis _ hm) u _
  · intro s s' hok hmv hst
    exact ⟨_, read_end hok hmv hst _ _⟩

theorem readTables_vis2 (today : CStr) {oi : OiFits R} (h : oi.Readable) (u : Undef R) (cur : Nat) :
    readTables true (read_next_oi_vis2 u u.vis2) ⟨Spec.fileOf today oi, cur, .ok⟩
      = .ok (oi.vis2List.map (OiVis2.asRead u.int), ⟨Spec.fileOf today oi, (Spec.fileOf today oi).length - 1, .ok⟩) := by
  rw [← map_zipIdx_fst]
  refine readTables_pairs (name := "OI_VIS2") (fileOf_nameOk today oi) _ _ _ ?_ ?_ cur (fileOf_vis2 today oi) (by simp [Spec.fileOf])
  · intro x hx s s' hok hmv hat
    have hm : x.1 ∈ oi.vis2List := mem_of_zipIdx hx
    exact read_next_oi_vis2_eq hok hmv hat (h.vis2 _ hm) u _
  · intro s s' hok hmv hst
    exact ⟨_, read_end hok hmv hst _ _⟩

theorem readTables_t3 (today : CStr) {oi : OiFits R} (h : oi.Readable) (u : Undef R) (cur : Nat) :
    readTables true (read_next_oi_t3 u u.t3) ⟨Spec.fileOf today oi, cur, .ok⟩
      = .ok (oi.t3List.map (OiT3.asRead u.int), ⟨Spec.fileOf today oi, (Spec.fileOf today oi).length - 1, .ok⟩) := by
  rw [← map_zipIdx_fst]
  refine readTables_pairs (name := "OI_T3") (fileOf_nameOk today oi) _ _ _ ?_ ?_ cur (fileOf_t3 today oi) (by simp [Spec.fileOf])
  · intro x hx s s' hok hmv hat
    have hm : x.1 ∈ oi.t3List := mem_of_zipIdx hx
    exact read_next_oi_t3_eq hok hmv hat (h.t3 _ hm) u _
  · intro s s' hok hmv hst
    exact ⟨_, read_end hok hmv hst _ _⟩

theorem readTables_flux (today : CStr) {oi : OiFits R} (h : oi.Readable) (u : Undef R) (cur : Nat) :
    readTables true (read_next_oi_flux u u.flux) ⟨Spec.fileOf today oi, cur, .ok⟩
      = .ok (oi.fluxList.map (OiFlux.asRead u.int), ⟨Spec.fileOf today oi, (Spec.fileOf today oi).length - 1, .ok⟩) := by
  rw [← map_zipIdx_fst]
  refine readTables_pairs (name := "OI_FLUX") (fileOf_nameOk today oi) _ _ _ ?_ ?_ cur (fileOf_flux today oi) (by simp [Spec.fileOf])
  · intro x hx s s' hok hmv hat
    have hm : x.1 ∈ oi.fluxList := mem_of_zipIdx hx
    exact read_next_oi_flux_eq hok hmv hat (h.flux _ hm) u _
  · intro s s' hok hmv hst
    exact ⟨_, read_end hok hmv hst _ _⟩

/-- Reading the file written. -/
theorem readBody_readable (today : CStr) {oi : OiFits R} (h : oi.Readable) (u : Undef R) :
    readBody u ⟨Spec.fileOf today oi, 0, .ok⟩ = .ok (some (assemble (oi.header.asRead today)
      (oi.targets.asRead u.str) (oi.arrayList.map OiArray.asRead)
      (oi.wavelengthList.map OiWavelength.asRead) (oi.corrList.map OiCorr.asRead)
      (oi.inspolList.map OiInspol.asRead) (oi.visList.map (OiVis.asRead u.int))
      (oi.vis2List.map (OiVis2.asRead u.int)) (oi.t3List.map (OiT3.asRead u.int))
      (oi.fluxList.map (OiFlux.asRead u.int))),
      ⟨Spec.fileOf today oi, (Spec.fileOf today oi).length - 1, .ok⟩) := by
  have hm : fits_movabs_hdu 1 (⟨Spec.fileOf today oi, 0, .ok⟩ : FState R)
      = .ok (.image, ⟨Spec.fileOf today oi, 0, .ok⟩) := rfl
  have ht : fits_movnam_hdu "OI_TARGET" (⟨Spec.fileOf today oi, 0, .ok⟩ : FState R)
      = .ok ((), ⟨Spec.fileOf today oi, 1, .ok⟩) := rfl
  rw [readBody]
  rb (read_oi_header_eq rfl hm ⟨rfl, rfl⟩ u.header)
  rb (read_oi_target_eq rfl ht ⟨rfl, rfl⟩ h.targets u u.target)
  refine (guardStatus_ok rfl _ _).trans ?_
  rb (readTables_array today h u 1)
  refine (guardStatus_ok rfl _ _).trans ?_
  rb (readTables_wavelength today h u _)
  refine (guardStatus_ok rfl _ _).trans ?_
  rb (readTables_corr today h u _)
  rb (readTables_inspol today h u _)
  rb (readTables_vis today h u _)
  rb (readTables_vis2 today h u _)
  rb (readTables_t3 today h u _)
  rb (readTables_flux today h u _)
  generalize ha : assemble (oi.header.asRead today)
      (oi.targets.asRead u.str) (oi.arrayList.map OiArray.asRead)
      (oi.wavelengthList.map OiWavelength.asRead) (oi.corrList.map OiCorr.asRead)
      (oi.inspolList.map OiInspol.asRead) (oi.visList.map (OiVis.asRead u.int))
      (oi.vis2List.map (OiVis2.asRead u.int)) (oi.t3List.map (OiT3.asRead u.int))
      (oi.fluxList.map (OiFlux.asRead u.int)) = x
  have hx : x.header = oi.header.asRead today := by
    rw [← ha]
    have := (assemble_spec (oi.header.asRead today)
      (oi.targets.asRead u.str) (oi.arrayList.map OiArray.asRead)
      (oi.wavelengthList.map OiWavelength.asRead) (oi.corrList.map OiCorr.asRead)
      (oi.inspolList.map OiInspol.asRead) (oi.visList.map (OiVis.asRead u.int))
      (oi.vis2List.map (OiVis2.asRead u.int)) (oi.t3List.map (OiT3.asRead u.int))
      (oi.fluxList.map (OiFlux.asRead u.int))).1
    rw [← this]; rfl
  have h2 : is_oi_fits_two x = true := by
    unfold is_oi_fits_two; rw [hx]; rfl
  have hf : finishHeader x = .ok x := by
    rw [finishHeader, h2]; rfl
  rb (show FitsM.lift (finishHeader x) _ = _ by rw [hf]; rfl)
  rfl

theorem readBody_fileOf (today : CStr) {oi : OiFits R} (h : oi.Storable) (u : Undef R) :
    readBody u ⟨Spec.fileOf today oi, 0, .ok⟩ = .ok (some (assemble (oi.header.asRead today)
      (oi.targets.asRead u.str) (oi.arrayList.map OiArray.asRead)
      (oi.wavelengthList.map OiWavelength.asRead) (oi.corrList.map OiCorr.asRead)
      (oi.inspolList.map OiInspol.asRead) (oi.visList.map (OiVis.asRead u.int))
      (oi.vis2List.map (OiVis2.asRead u.int)) (oi.t3List.map (OiT3.asRead u.int))
      (oi.fluxList.map (OiFlux.asRead u.int))),
      ⟨Spec.fileOf today oi, (Spec.fileOf today oi).length - 1, .ok⟩) :=
  readBody_readable today h.readable u

end Verif
