import Verif.Spec.Calls
import Verif.Proof.Order
import Verif.Proof.FitsWriteFile

/-! The file made by calls of the functions for single tables. -/

namespace Verif
open Outcome Spec

variable {R : FP}

/-! ### Writing -/

theorem cfHdu_first (f : Hdu R → Hdu R × Status × Unit) (h : Hdu R) (rest : List (Hdu R)) :
    cfHdu () f (⟨h :: rest, 0, .ok⟩ : FState R) = .ok ((f h).2.2, ⟨(f h).1 :: rest, 0, (f h).2.1⟩) := by
  simp [cfHdu]

theorem write_key_first (name v : CStr) (h : Hdu R) (rest : List (Hdu R)) :
    fits_write_key name (.str v) (⟨h :: rest, 0, .ok⟩ : FState R)
      = .ok ((), ⟨{ h with keys := h.keys ++ [(name, .str (keyStr v))] } :: rest, 0, .ok⟩) := by
  rw [fits_write_key, cfHdu_first]; rfl

theorem writeOptKey_first (name v : CStr) (h : Hdu R) (rest : List (Hdu R)) :
    writeOptKey name v (⟨h :: rest, 0, .ok⟩ : FState R)
      = .ok ((), ⟨{ h with keys := h.keys ++ optKey name v } :: rest, 0, .ok⟩) := by
  cases v with
  | nil => simp [writeOptKey, optKey]
  | cons c cs =>
    unfold writeOptKey
    rw [if_pos (by simp), write_key_first]
    simp [optKey]

/-- The header written into a file which has tables already. -/
theorem write_oi_header_late (today : CStr) (header : OiHeader) (rest : List (Hdu R)) (cur : Nat) :
    write_oi_header today header (⟨⟨.image, [], [], 0⟩ :: rest, cur, .ok⟩ : FState R)
      = .ok ((), ⟨hduPrimary today header :: rest, 0, .ok⟩) := by
  rw [write_oi_header, guardStatus_ok rfl]
  rw [FitsM.bind_ok (show fits_get_num_hdus (⟨⟨.image, [], [], 0⟩ :: rest, cur, .ok⟩ : FState R)
    = .ok (rest.length + 1, ⟨⟨.image, [], [], 0⟩ :: rest, cur, .ok⟩) from rfl)]
  rw [FitsM.bind_ok (show primaryHdu (rest.length + 1) (⟨⟨.image, [], [], 0⟩ :: rest, cur, .ok⟩ : FState R)
    = .ok ((), ⟨⟨.image, [], [], 0⟩ :: rest, 0, .ok⟩) from by
      unfold primaryHdu
      rw [if_neg (by omega)]
      rfl)]
  rw [fits_write_date]
  rw [FitsM.bind_ok (write_key_first _ _ _ _), FitsM.bind_ok (write_key_first _ _ _ _),
    FitsM.bind_ok (write_key_first _ _ _ _), FitsM.bind_ok (write_key_first _ _ _ _),
    FitsM.bind_ok (write_key_first _ _ _ _), FitsM.bind_ok (write_key_first _ _ _ _),
    FitsM.bind_ok (write_key_first _ _ _ _), FitsM.bind_ok (write_key_first _ _ _ _),
    FitsM.bind_ok (write_key_first _ _ _ _),
    FitsM.bind_ok (writeOptKey_first _ _ _ _), FitsM.bind_ok (writeOptKey_first _ _ _ _),
    FitsM.bind_ok (writeOptKey_first _ _ _ _), FitsM.bind_ok (writeOptKey_first _ _ _ _), writeOptKey_first]
  have hk : keyStr ("OIFITS2" : CStr) = "OIFITS2" := rfl
  simp only [hduPrimary, hk, List.cons_append, List.nil_append, List.append_assoc]

/-- A call which writes a table puts it at the end of the file. -/
theorem WriteCall.run_table (today : CStr) {c : WriteCall R} (hc : c.Storable) {x : Hdu R} (hx : c.hdu? = some x) (s : FState R)
    (hs : s.status = .ok) : c.run today s = .ok ((), endState (primed s.hdus) x) := by
  cases c with
  | header t => cases hx
  | target t => cases hx; exact write_oi_target_eq t hc s hs
  | array t v => cases hx; exact write_oi_array_eq t hc v s hs
  | wavelength t v => cases hx; exact write_oi_wavelength_eq t hc v s hs
  | corr t v => cases hx; exact write_oi_corr_eq t hc v s hs
  | inspol t v => cases hx; exact write_oi_inspol_eq t hc v s hs
  | vis t v => cases hx; exact write_oi_vis_eq t hc v s hs
  | vis2 t v => cases hx; exact write_oi_vis2_eq t hc v s hs
  | t3 t v => cases hx; exact write_oi_t3_eq t hc v s hs
  | flux t v => cases hx; exact write_oi_flux_eq t hc v s hs

/-- Calls without a header, in a file which has a primary HDU. -/
theorem runWrites_tables (today : CStr) (calls : List (WriteCall R)) (hc : ∀ c ∈ calls, c.Storable)
    (hh : calls.filterMap WriteCall.header? = []) (p : Hdu R) (rest : List (Hdu R)) (cur : Nat) :
    ∃ cur', runWrites today calls ⟨p :: rest, cur, .ok⟩ = .ok ((), ⟨p :: (rest ++ calls.filterMap WriteCall.hdu?), cur', .ok⟩) := by
  induction calls generalizing rest cur with
  | nil => exact ⟨cur, by simp [runWrites]⟩
  | cons c cs ih =>
    have hx : ∃ x, c.hdu? = some x := by
      cases c with
      | header t => simp [WriteCall.header?] at hh
      | _ => exact ⟨_, rfl⟩
    obtain ⟨x, hx⟩ := hx
    have hh' : cs.filterMap WriteCall.header? = [] := by
      rw [List.filterMap_eq_nil_iff] at hh ⊢
      exact fun c hc => hh c (List.mem_cons_of_mem _ hc)
    obtain ⟨cur', he⟩ := ih (fun c h => hc c (List.mem_cons_of_mem _ h)) hh' (rest ++ [x]) (rest.length + 1)
    refine ⟨cur', ?_⟩
    rw [runWrites, FitsM.bind_ok (WriteCall.run_table today (hc c List.mem_cons_self) hx _ rfl)]
    rw [List.filterMap_cons_some hx]
    rw [List.append_assoc] at he
    exact he

/-- Calls with one header, in a file which has an empty primary HDU. -/
theorem runWrites_late (today : CStr) (calls : List (WriteCall R)) (hc : ∀ c ∈ calls, c.Storable) {header : OiHeader}
    (hh : calls.filterMap WriteCall.header? = [header]) (rest : List (Hdu R)) (cur : Nat) :
    ∃ cur', runWrites today calls ⟨⟨.image, [], [], 0⟩ :: rest, cur, .ok⟩
      = .ok ((), ⟨hduPrimary today header :: (rest ++ calls.filterMap WriteCall.hdu?), cur', .ok⟩) := by
  induction calls generalizing rest cur with
  | nil => cases hh
  | cons c cs ih =>
    have hcs : ∀ c ∈ cs, c.Storable := fun c h => hc c (List.mem_cons_of_mem _ h)
    cases hx : c.hdu? with
    | none =>
      cases c with
      | header t =>
        have hh : t :: cs.filterMap WriteCall.header? = [header] := hh
        obtain ⟨rfl, hh'⟩ := List.cons.inj hh
        obtain ⟨cur', he⟩ := runWrites_tables today cs hcs hh' (hduPrimary today t) rest 0
        refine ⟨cur', ?_⟩
        rw [runWrites, WriteCall.run, FitsM.bind_ok (write_oi_header_late today t rest cur), List.filterMap_cons_none hx]
        exact he
      | _ => cases hx
    | some x =>
      have hh' : cs.filterMap WriteCall.header? = [header] := by
        cases c with
        | header t => cases hx
        | _ => exact hh
      obtain ⟨cur', he⟩ := ih hcs hh' (rest ++ [x]) (rest.length + 1)
      refine ⟨cur', ?_⟩
      rw [runWrites, FitsM.bind_ok (WriteCall.run_table today (hc c List.mem_cons_self) hx _ rfl)]
      rw [List.filterMap_cons_some hx]
      rw [List.append_assoc] at he
      exact he

/-- The file made by calls among which there is one header. -/
theorem runWrites_eq (today : CStr) (calls : List (WriteCall R)) (hc : ∀ c ∈ calls, c.Storable) {header : OiHeader}
    (hh : calls.filterMap WriteCall.header? = [header]) :
    ∃ cur', runWrites today calls ⟨[], 0, .ok⟩ = .ok ((), ⟨fileOfCalls today header calls, cur', .ok⟩) := by
  cases calls with
  | nil => cases hh
  | cons c cs =>
    have hcs : ∀ c ∈ cs, c.Storable := fun c h => hc c (List.mem_cons_of_mem _ h)
    cases hx : c.hdu? with
    | none =>
      cases c with
      | header t =>
        have hh : t :: cs.filterMap WriteCall.header? = [header] := hh
        obtain ⟨rfl, hh'⟩ := List.cons.inj hh
        obtain ⟨cur', he⟩ := runWrites_tables today cs hcs hh' (hduPrimary today t) [] 0
        refine ⟨cur', ?_⟩
        rw [runWrites, WriteCall.run, FitsM.bind_ok (write_oi_header_eq today t 0), fileOfCalls, List.filterMap_cons_none hx]
        exact he
      | _ => cases hx
    | some x =>
      have hh' : cs.filterMap WriteCall.header? = [header] := by
        cases c with
        | header t => cases hx
        | _ => exact hh
      obtain ⟨cur', he⟩ := runWrites_late today cs hcs hh' [x] 1
      refine ⟨cur', ?_⟩
      rw [runWrites, FitsM.bind_ok (WriteCall.run_table today (hc c List.mem_cons_self) hx _ rfl), fileOfCalls,
        List.filterMap_cons_some hx]
      exact he

theorem makeFile_eq (today : CStr) (calls : List (WriteCall R)) (hc : ∀ c ∈ calls, c.Storable) {header : OiHeader}
    (hh : calls.filterMap WriteCall.header? = [header]) :
    makeFile today false calls = .ok (some (fileOfCalls today header calls), .ok) := by
  obtain ⟨cur, he⟩ := runWrites_eq today calls hc hh
  unfold makeFile
  rw [if_neg Bool.false_ne_true, he]
  rfl

/-! ### Reading -/

theorem hduPrimary_name (today : CStr) (t : OiHeader) : StringName (hduPrimary (R := R) today t) := by
  intro v hv
  have : (hduPrimary (R := R) today t).keys.lookup ("EXTNAME" : CStr) = none := by
    rw [primary_keys]; lk_skip; rfl
  rw [this] at hv
  cases hv

theorem WriteCall.hdu_name {c : WriteCall R} {x : Hdu R} (h : c.hdu? = some x) : StringName x := by
  intro v hv
  cases c with
  | header t => cases h
  | target t => cases h; cases hv; exact ⟨_, rfl⟩
  | array t k => cases h; cases hv; exact ⟨_, rfl⟩
  | wavelength t k => cases h; cases hv; exact ⟨_, rfl⟩
  | corr t k => cases h; cases hv; exact ⟨_, rfl⟩
  | inspol t k => cases h; cases hv; exact ⟨_, rfl⟩
  | vis t k => cases h; cases hv; exact ⟨_, rfl⟩
  | vis2 t k => cases h; cases hv; exact ⟨_, rfl⟩
  | t3 t k => cases h; cases hv; exact ⟨_, rfl⟩
  | flux t k => cases h; cases hv; exact ⟨_, rfl⟩

theorem fileOfCalls_names (today : CStr) (header : OiHeader) (calls : List (WriteCall R)) :
    ∀ h ∈ fileOfCalls today header calls, StringName h := by
  intro h hh
  rcases List.mem_cons.mp hh with rfl | hh
  · exact hduPrimary_name today header
  · obtain ⟨c, -, hc⟩ := List.mem_filterMap.mp hh
    exact WriteCall.hdu_name hc

/-- The tables of one type in the file are those of the calls for this type. -/
theorem tables_of_calls {ι : Type} {name : CStr} {pick : WriteCall R → Option ι} {f : ι → Hdu R}
    (h : ∀ c x, WriteCall.hdu? c = some x → (if x.isNamed name then some x else none) = (pick c).map f)
    (hh : ∀ t, pick (.header t) = none) (calls : List (WriteCall R)) :
    (calls.filterMap WriteCall.hdu?).filter (Hdu.isNamed name) = (calls.filterMap pick).map f := by
  induction calls with
  | nil => rfl
  | cons c cs ih =>
    cases hx : c.hdu? with
    | none =>
      rw [List.filterMap_cons_none hx, ih]
      cases c with
      | header t => rw [List.filterMap_cons_none (hh t)]
      | _ => cases hx
    | some x =>
      have := h c x hx
      rw [List.filterMap_cons_some hx]
      by_cases hn : x.isNamed name = true
      · rw [if_pos hn] at this
        cases hp : pick c with
        | none => rw [hp] at this; cases this
        | some y =>
          rw [hp] at this
          rw [List.filter_cons_of_pos hn, List.filterMap_cons_some hp, List.map_cons, ih, Option.some.inj this]
      · rw [if_neg hn] at this
        cases hp : pick c with
        | none => rw [List.filter_cons_of_neg hn, List.filterMap_cons_none hp, ih]
        | some y => rw [hp] at this; cases this

theorem fileOfCalls_of {ι : Type} {name : CStr} {pick : WriteCall R → Option ι} {f : ι → Hdu R} (today : CStr)
    (header : OiHeader) (calls : List (WriteCall R))
    (h : ∀ c x, WriteCall.hdu? c = some x → (if x.isNamed name then some x else none) = (pick c).map f)
    (hh : ∀ t, pick (.header t) = none) :
    ((fileOfCalls today header calls).drop 1).filter (Hdu.isNamed name) = (calls.filterMap pick).map f :=
  tables_of_calls h hh calls

theorem mem_calls {ι : Type} {pick : WriteCall R → Option ι} {calls : List (WriteCall R)} {P : ι → Prop}
    (hc : ∀ c ∈ calls, c.Storable) (hp : ∀ c x, c.Storable → pick c = some x → P x) :
    ∀ x ∈ calls.filterMap pick, P x := by
  intro x hx
  obtain ⟨c, h1, h2⟩ := List.mem_filterMap.mp hx
  exact hp c x (hc c h1) h2

theorem calls_array (today : CStr) (header : OiHeader) {calls : List (WriteCall R)} (hc : ∀ c ∈ calls, c.Storable) (u : Undef R)
    (cur : Nat) : readTables false (read_next_oi_array u u.array) ⟨fileOfCalls today header calls, cur, .ok⟩
      = .ok ((calls.filterMap WriteCall.array?).map fun x => (OiArray.asRead x.1),
        ⟨fileOfCalls today header calls, (fileOfCalls today header calls).length - 1, .ok⟩) := by
  refine readTables_pairs (name := "OI_ARRAY") (fun h hh => nameOk_of_string (fileOfCalls_names today header calls h hh))
    (fun x => hduArray x.1 x.2) _ _ ?_ ?_ cur (fileOfCalls_of today header calls ?_ fun _ => rfl) (by simp [fileOfCalls])
  · intro x hx s s' hok hmv hat
    have hx := mem_calls (P := fun x => (WriteCall.array x.1 x.2).Storable) hc
      (by intro c x h1 h2; cases c <;> cases h2; exact h1) x hx
    exact read_next_oi_array_eq hok hmv hat (OiArray.Storable.wf hx).1 u _
  · intro s s' hok hmv hst
    exact ⟨_, read_end hok hmv hst _ _⟩
  · intro c x h
    cases c <;> cases h <;> rfl

theorem calls_wavelength (today : CStr) (header : OiHeader) {calls : List (WriteCall R)} (hc : ∀ c ∈ calls, c.Storable) (u : Undef R)
    (cur : Nat) : readTables false (read_next_oi_wavelength u u.wave) ⟨fileOfCalls today header calls, cur, .ok⟩
      = .ok ((calls.filterMap WriteCall.wavelength?).map fun x => (OiWavelength.asRead x.1),
        ⟨fileOfCalls today header calls, (fileOfCalls today header calls).length - 1, .ok⟩) := by
  refine readTables_pairs (name := "OI_WAVELENGTH") (fun h hh => nameOk_of_string (fileOfCalls_names today header calls h hh))
    (fun x => hduWavelength x.1 x.2) _ _ ?_ ?_ cur (fileOfCalls_of today header calls ?_ fun _ => rfl) (by simp [fileOfCalls])
  · intro x hx s s' hok hmv hat
    have hx := mem_calls (P := fun x => (WriteCall.wavelength x.1 x.2).Storable) hc
      (by intro c x h1 h2; cases c <;> cases h2; exact h1) x hx
    exact read_next_oi_wavelength_eq hok hmv hat (hx) u _
  · intro s s' hok hmv hst
    exact ⟨_, read_end hok hmv hst _ _⟩
  · intro c x h
    cases c <;> cases h <;> rfl

theorem calls_corr (today : CStr) (header : OiHeader) {calls : List (WriteCall R)} (hc : ∀ c ∈ calls, c.Storable) (u : Undef R)
    (cur : Nat) : readTables true (read_next_oi_corr u u.corr) ⟨fileOfCalls today header calls, cur, .ok⟩
      = .ok ((calls.filterMap WriteCall.corr?).map fun x => (OiCorr.asRead x.1),
        ⟨fileOfCalls today header calls, (fileOfCalls today header calls).length - 1, .ok⟩) := by
  refine readTables_pairs (name := "OI_CORR") (fun h hh => nameOk_of_string (fileOfCalls_names today header calls h hh))
    (fun x => hduCorr x.1 x.2) _ _ ?_ ?_ cur (fileOfCalls_of today header calls ?_ fun _ => rfl) (by simp [fileOfCalls])
  · intro x hx s s' hok hmv hat
    have hx := mem_calls (P := fun x => (WriteCall.corr x.1 x.2).Storable) hc
      (by intro c x h1 h2; cases c <;> cases h2; exact h1) x hx
    exact read_next_oi_corr_eq hok hmv hat (hx) u _
  · intro s s' hok hmv hst
    exact ⟨_, read_end hok hmv hst _ _⟩
  · intro c x h
    cases c <;> cases h <;> rfl

theorem calls_inspol (today : CStr) (header : OiHeader) {calls : List (WriteCall R)} (hc : ∀ c ∈ calls, c.Storable) (u : Undef R)
    (cur : Nat) : readTables true (read_next_oi_inspol u u.inspol) ⟨fileOfCalls today header calls, cur, .ok⟩
      = .ok ((calls.filterMap WriteCall.inspol?).map fun x => (OiInspol.asRead x.1),
        ⟨fileOfCalls today header calls, (fileOfCalls today header calls).length - 1, .ok⟩) := by
  refine readTables_pairs (name := "OI_INSPOL") (fun h hh => nameOk_of_string (fileOfCalls_names today header calls h hh))
    (fun x => hduInspol x.1 x.2) _ _ ?_ ?_ cur (fileOfCalls_of today header calls ?_ fun _ => rfl) (by simp [fileOfCalls])
  · intro x hx s s' hok hmv hat
    have hx := mem_calls (P := fun x => (WriteCall.inspol x.1 x.2).Storable) hc
      (by intro c x h1 h2; cases c <;> cases h2; exact h1) x hx
    exact read_next_oi_inspol_eq hok hmv hat (hx.wf) u _
  · intro s s' hok hmv hst
    exact ⟨_, read_end hok hmv hst _ _⟩
  · intro c x h
    cases c <;> cases h <;> rfl

theorem calls_vis (today : CStr) (header : OiHeader) {calls : List (WriteCall R)} (hc : ∀ c ∈ calls, c.Storable) (u : Undef R)
    (cur : Nat) : readTables true (read_next_oi_vis u u.vis) ⟨fileOfCalls today header calls, cur, .ok⟩
      = .ok ((calls.filterMap WriteCall.vis?).map fun x => (OiVis.asRead u.int x.1),
        ⟨fileOfCalls today header calls, (fileOfCalls today header calls).length - 1, .ok⟩) := by
  refine readTables_pairs (name := "OI_VIS") (fun h hh => nameOk_of_string (fileOfCalls_names today header calls h hh))
    (fun x => hduVis x.1 x.2) _ _ ?_ ?_ cur (fileOfCalls_of today header calls ?_ fun _ => rfl) (by simp [fileOfCalls])
  · intro x hx s s' hok hmv hat
    have hx := mem_calls (P := fun x => (WriteCall.vis x.1 x.2).Storable) hc
      (by intro c x h1 h2; cases c <;> cases h2; exact h1) x hx
    exact read_next_oi_vis_eq hok hmv hat (hx.wf) u _
  · intro s s' hok hmv hst
    exact ⟨_, read_end hok hmv hst _ _⟩
  · intro c x h
    cases c <;> cases h <;> rfl

theorem calls_vis2 (today : CStr) (header : OiHeader) {calls : List (WriteCall R)} (hc : ∀ c ∈ calls, c.Storable) (u : Undef R)
    (cur : Nat) : readTables true (read_next_oi_vis2 u u.vis2) ⟨fileOfCalls today header calls, cur, .ok⟩
      = .ok ((calls.filterMap WriteCall.vis2?).map fun x => (OiVis2.asRead u.int x.1),
        ⟨fileOfCalls today header calls, (fileOfCalls today header calls).length - 1, .ok⟩) := by
  refine readTables_pairs (name := "OI_VIS2") (fun h hh => nameOk_of_string (fileOfCalls_names today header calls h hh))
    (fun x => hduVis2 x.1 x.2) _ _ ?_ ?_ cur (fileOfCalls_of today header calls ?_ fun _ => rfl) (by simp [fileOfCalls])
  · intro x hx s s' hok hmv hat
    have hx := mem_calls (P := fun x => (WriteCall.vis2 x.1 x.2).Storable) hc
      (by intro c x h1 h2; cases c <;> cases h2; exact h1) x hx
    exact read_next_oi_vis2_eq hok hmv hat (hx.wf) u _
  · intro s s' hok hmv hst
    exact ⟨_, read_end hok hmv hst _ _⟩
  · intro c x h
    cases c <;> cases h <;> rfl

theorem calls_t3 (today : CStr) (header : OiHeader) {calls : List (WriteCall R)} (hc : ∀ c ∈ calls, c.Storable) (u : Undef R)
    (cur : Nat) : readTables true (read_next_oi_t3 u u.t3) ⟨fileOfCalls today header calls, cur, .ok⟩
      = .ok ((calls.filterMap WriteCall.t3?).map fun x => (OiT3.asRead u.int x.1),
        ⟨fileOfCalls today header calls, (fileOfCalls today header calls).length - 1, .ok⟩) := by
  refine readTables_pairs (name := "OI_T3") (fun h hh => nameOk_of_string (fileOfCalls_names today header calls h hh))
    (fun x => hduT3 x.1 x.2) _ _ ?_ ?_ cur (fileOfCalls_of today header calls ?_ fun _ => rfl) (by simp [fileOfCalls])
  · intro x hx s s' hok hmv hat
    have hx := mem_calls (P := fun x => (WriteCall.t3 x.1 x.2).Storable) hc
      (by intro c x h1 h2; cases c <;> cases h2; exact h1) x hx
    exact read_next_oi_t3_eq hok hmv hat (hx.wf) u _
  · intro s s' hok hmv hst
    exact ⟨_, read_end hok hmv hst _ _⟩
  · intro c x h
    cases c <;> cases h <;> rfl

theorem calls_flux (today : CStr) (header : OiHeader) {calls : List (WriteCall R)} (hc : ∀ c ∈ calls, c.Storable) (u : Undef R)
    (cur : Nat) : readTables true (read_next_oi_flux u u.flux) ⟨fileOfCalls today header calls, cur, .ok⟩
      = .ok ((calls.filterMap WriteCall.flux?).map fun x => (OiFlux.asRead u.int x.1),
        ⟨fileOfCalls today header calls, (fileOfCalls today header calls).length - 1, .ok⟩) := by
  refine readTables_pairs (name := "OI_FLUX") (fun h hh => nameOk_of_string (fileOfCalls_names today header calls h hh))
    (fun x => hduFlux x.1 x.2) _ _ ?_ ?_ cur (fileOfCalls_of today header calls ?_ fun _ => rfl) (by simp [fileOfCalls])
  · intro x hx s s' hok hmv hat
    have hx := mem_calls (P := fun x => (WriteCall.flux x.1 x.2).Storable) hc
      (by intro c x h1 h2; cases c <;> cases h2; exact h1) x hx
    exact read_next_oi_flux_eq hok hmv hat (hx.wf) u _
  · intro s s' hok hmv hst
    exact ⟨_, read_end hok hmv hst _ _⟩
  · intro c x h
    cases c <;> cases h <;> rfl

theorem calls_target (today : CStr) (header : OiHeader) {calls : List (WriteCall R)} {t : OiTarget R}
    (ht : (calls.filterMap WriteCall.target?).head? = some t) (hr : t.targ ≠ []) (u : Undef R) (old : OiTarget R) (cur : Nat) :
    ∃ cur', read_oi_target u old ⟨fileOfCalls today header calls, cur, .ok⟩
      = .ok (t.asRead u.str, ⟨fileOfCalls today header calls, cur', .ok⟩) := by
  have hn := fileOfCalls_names today header calls
  have hm := movnamLoop_first (name := "OI_TARGET") _ hn 0
  have hf : (fileOfCalls today header calls).find? (isTable "OI_TARGET") = some (hduTarget t) := by
    have h1 : isTable "OI_TARGET" (hduPrimary (R := R) today header) = false := rfl
    rw [fileOfCalls, List.find?_cons_of_neg (by rw [h1]; exact Bool.false_ne_true), ← List.head?_filter]
    have h2 := tables_of_calls (name := "OI_TARGET") (pick := WriteCall.target?) (f := hduTarget)
      (by intro c x h; cases c <;> cases h <;> rfl) (fun _ => rfl) calls
    have h3 : (calls.filterMap WriteCall.hdu?).filter (isTable "OI_TARGET")
        = (calls.filterMap WriteCall.hdu?).filter (Hdu.isNamed "OI_TARGET") := by
      refine List.filter_congr fun x hx => ?_
      obtain ⟨c, -, hc⟩ := List.mem_filterMap.mp hx
      exact (isNamed_eq_isTable (WriteCall.hdu_name hc)).symm
    rw [h3, h2, List.head?_map, ht]
    rfl
  obtain ⟨hp, i, hlt, hg, hmin⟩ := List.find?_eq_some_iff_getElem.mp hf
  have hfi : (fileOfCalls today header calls).findIdx? (isTable "OI_TARGET") = some i := by
    rw [List.findIdx?_eq_some_iff_getElem]
    exact ⟨hlt, by rw [hg]; exact hp, fun j hj => by simpa using hmin j hj⟩
  rw [hfi] at hm
  refine ⟨i, read_oi_target_eq rfl ?_ ⟨rfl, ?_⟩ hr u old⟩
  · exact (guardStatus_ok rfl _ _).trans (by simp only [hm]; simp)
  · show (fileOfCalls today header calls)[i]? = _
    rw [List.getElem?_eq_getElem hlt, hg]

/-- Reading the file made by the calls. -/
theorem readBody_calls (today : CStr) {header : OiHeader} {calls : List (WriteCall R)} (hc : ∀ c ∈ calls, c.Storable)
    {t : OiTarget R} (ht : (calls.filterMap WriteCall.target?).head? = some t) (u : Undef R) :
    readBody u ⟨fileOfCalls today header calls, 0, .ok⟩ = .ok (some (assemble (header.asRead today)
      (t.asRead u.str)
      ((calls.filterMap WriteCall.array?).map fun x => OiArray.asRead x.1)
      ((calls.filterMap WriteCall.wavelength?).map fun x => OiWavelength.asRead x.1)
      ((calls.filterMap WriteCall.corr?).map fun x => OiCorr.asRead x.1)
      ((calls.filterMap WriteCall.inspol?).map fun x => OiInspol.asRead x.1)
      ((calls.filterMap WriteCall.vis?).map fun x => OiVis.asRead u.int x.1)
      ((calls.filterMap WriteCall.vis2?).map fun x => OiVis2.asRead u.int x.1)
      ((calls.filterMap WriteCall.t3?).map fun x => OiT3.asRead u.int x.1)
      ((calls.filterMap WriteCall.flux?).map fun x => OiFlux.asRead u.int x.1)),
      ⟨fileOfCalls today header calls, (fileOfCalls today header calls).length - 1, .ok⟩) := by
  have hr : t.targ ≠ [] := by
    have hm : t ∈ calls.filterMap WriteCall.target? := List.mem_of_mem_head? (Option.mem_def.mpr ht)
    obtain ⟨c, h1, h2⟩ := List.mem_filterMap.mp hm
    have := hc c h1
    cases c <;> cases h2
    exact OiTarget.Storable.rows this
  have hm : fits_movabs_hdu 1 (⟨fileOfCalls today header calls, 0, .ok⟩ : FState R)
      = .ok (.image, ⟨fileOfCalls today header calls, 0, .ok⟩) := rfl
  obtain ⟨cur, htar⟩ := calls_target today header ht hr u u.target 0
  rw [readBody]
  rb (read_oi_header_eq rfl hm ⟨rfl, rfl⟩ u.header)
  rb htar
  refine (guardStatus_ok rfl _ _).trans ?_
  rb (calls_array today header hc u _)
  refine (guardStatus_ok rfl _ _).trans ?_
  rb (calls_wavelength today header hc u _)
  refine (guardStatus_ok rfl _ _).trans ?_
  rb (calls_corr today header hc u _)
  rb (calls_inspol today header hc u _)
  rb (calls_vis today header hc u _)
  rb (calls_vis2 today header hc u _)
  rb (calls_t3 today header hc u _)
  rb (calls_flux today header hc u _)
  generalize ha : assemble (header.asRead today) (t.asRead u.str)
      ((calls.filterMap WriteCall.array?).map fun x => OiArray.asRead x.1)
      ((calls.filterMap WriteCall.wavelength?).map fun x => OiWavelength.asRead x.1)
      ((calls.filterMap WriteCall.corr?).map fun x => OiCorr.asRead x.1)
      ((calls.filterMap WriteCall.inspol?).map fun x => OiInspol.asRead x.1)
      ((calls.filterMap WriteCall.vis?).map fun x => OiVis.asRead u.int x.1)
      ((calls.filterMap WriteCall.vis2?).map fun x => OiVis2.asRead u.int x.1)
      ((calls.filterMap WriteCall.t3?).map fun x => OiT3.asRead u.int x.1)
      ((calls.filterMap WriteCall.flux?).map fun x => OiFlux.asRead u.int x.1) = x
  have hx : x.header = header.asRead today := by
    rw [← ha]
    have := (assemble_spec (header.asRead today) (t.asRead u.str)
      ((calls.filterMap WriteCall.array?).map fun x => OiArray.asRead x.1)
      ((calls.filterMap WriteCall.wavelength?).map fun x => OiWavelength.asRead x.1)
      ((calls.filterMap WriteCall.corr?).map fun x => OiCorr.asRead x.1)
      ((calls.filterMap WriteCall.inspol?).map fun x => OiInspol.asRead x.1)
      ((calls.filterMap WriteCall.vis?).map fun x => OiVis.asRead u.int x.1)
      ((calls.filterMap WriteCall.vis2?).map fun x => OiVis2.asRead u.int x.1)
      ((calls.filterMap WriteCall.t3?).map fun x => OiT3.asRead u.int x.1)
      ((calls.filterMap WriteCall.flux?).map fun x => OiFlux.asRead u.int x.1)).1
    rw [← this]; rfl
  have h2 : is_oi_fits_two x = true := by
    unfold is_oi_fits_two; rw [hx]; rfl
  have hf : finishHeader x = .ok x := by
    rw [finishHeader, h2]; rfl
  rb (show FitsM.lift (finishHeader x) _ = _ by rw [hf]; rfl)
  rfl

theorem readBody_no_target (today : CStr) (header : OiHeader) {calls : List (WriteCall R)}
    (ht : calls.filterMap WriteCall.target? = []) (u : Undef R) :
    ∃ s, readBody u ⟨fileOfCalls today header calls, 0, .ok⟩ = .ok (none, s) ∧ s.status = .BAD_HDU_NUM := by
  have hn := fileOfCalls_names today header calls
  have hm := movnamLoop_first (name := "OI_TARGET") _ hn 0
  have hf : (fileOfCalls today header calls).findIdx? (isTable "OI_TARGET") = none := by
    rw [List.findIdx?_eq_none_iff]
    intro x hx
    rcases List.mem_cons.mp hx with rfl | hx
    · rfl
    · obtain ⟨c, h1, h2⟩ := List.mem_filterMap.mp hx
      have := List.filterMap_eq_nil_iff.mp ht c h1
      cases c <;> cases h2 <;> first | rfl | cases this
  rw [hf] at hm
  have hmv : fits_movnam_hdu ("OI_TARGET" : CStr) (⟨fileOfCalls today header calls, 0, .ok⟩ : FState R)
      = .ok ((), ⟨fileOfCalls today header calls, 0, .BAD_HDU_NUM⟩) :=
    (guardStatus_ok rfl _ _).trans (by simp only [hm]; rfl)
  have hk : fits_read_key_int ("OI_REVN" : CStr) u.target.revision
      (⟨fileOfCalls today header calls, 0, .BAD_HDU_NUM⟩ : FState R)
      = .ok (u.target.revision, ⟨fileOfCalls today header calls, 0, .BAD_HDU_NUM⟩) := by
    unfold fits_read_key_int cfRead
    rw [if_neg (by simp)]
  have hr : ∃ a, read_oi_target u u.target ⟨fileOfCalls today header calls, 0, .ok⟩
      = .ok (a, ⟨fileOfCalls today header calls, 0, .BAD_HDU_NUM⟩) := by
    rw [read_oi_target, guardStatus_ok rfl, FitsM.bind_ok hmv, FitsM.bind_ok hk, guardStatus_err (by simp)]
    exact ⟨_, rfl⟩
  obtain ⟨a, hr⟩ := hr
  have hm1 : fits_movabs_hdu 1 (⟨fileOfCalls today header calls, 0, .ok⟩ : FState R)
      = .ok (.image, ⟨fileOfCalls today header calls, 0, .ok⟩) := rfl
  refine ⟨⟨fileOfCalls today header calls, 0, .BAD_HDU_NUM⟩, ?_, rfl⟩
  rw [readBody]
  rb (read_oi_header_eq rfl hm1 ⟨rfl, rfl⟩ u.header)
  rb hr
  exact guardStatus_err (by simp) _ _

end Verif
