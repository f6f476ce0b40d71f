import Verif.Proof.FitsTotal

/-! Tables which have been read are well-formed. -/

namespace Verif
open Outcome

variable {R : FP} {α β : Type} {P : α → Prop} {Q : β → Prop}

/-- Whatever the code returns has the property. -/
structure Always (m : FitsM R α) (P : α → Prop) : Prop where
  run : ∀ s a s', m s = .ok (a, s') → P a

/-- What the code returns has the property, unless it ends with an error. -/
structure Finally (m : FitsM R α) (P : α → Prop) : Prop where
  run : ∀ s a s', m s = .ok (a, s') → s'.status = .ok → P a

theorem FitsM.bind_inv {m : FitsM R α} {f : α → FitsM R β} {s s' : FState R} {b : β}
    (h : (m >>= f) s = .ok (b, s')) : ∃ a s1, m s = .ok (a, s1) ∧ f a s1 = .ok (b, s') := by
  rw [FitsM.run_bind] at h
  split at h
  · rename_i a s1 h1
    exact ⟨a, s1, h1, h⟩
  · cases h
  · cases h

theorem Always.any (m : FitsM R α) : Always m fun _ => True := ⟨fun _ _ _ _ => trivial⟩

theorem Always.pure {a : α} (h : P a) : Always (pure a : FitsM R α) P :=
  ⟨fun s b s' hb => by obtain ⟨rfl, -⟩ := Prod.mk.inj (Outcome.ok.inj hb); exact h⟩

theorem Always.bind {m : FitsM R α} {f : α → FitsM R β} (hm : Always m P) (hf : ∀ a, P a → Always (f a) Q) :
    Always (m >>= f) Q :=
  ⟨fun s b s' h => by
    obtain ⟨a, s1, h1, h2⟩ := FitsM.bind_inv h
    exact (hf a (hm.run s a s1 h1)).run s1 b s' h2⟩

theorem Always.mono {m : FitsM R α} {P' : α → Prop} (hm : Always m P) (h : ∀ a, P a → P' a) : Always m P' :=
  ⟨fun s a s' hs => h a (hm.run s a s' hs)⟩

theorem Always.ite {c : Prop} [Decidable c] {m n : FitsM R α} (h1 : c → Always m P) (h2 : ¬ c → Always n P) :
    Always (if c then m else n) P := by
  split
  · exact h1 (by assumption)
  · exact h2 (by assumption)

theorem Always.alloc (n : Nat) : Always (FitsM.lift (chkmallocN n) : FitsM R Unit) fun _ => n ≠ 0 :=
  ⟨fun s a s' h => by
    intro h0
    subst h0
    simp [FitsM.lift, chkmallocN] at h⟩

theorem Always.allocRecords (n w : Nat) :
    Always (FitsM.lift (allocRecords n w) : FitsM R Unit) fun _ => n ≠ 0 ∧ w ≠ 0 :=
  ⟨fun s a s' h => by
    by_cases h0 : n = 0
    · subst h0; simp [FitsM.lift, Verif.allocRecords, chkmallocN] at h
    · by_cases h1 : w = 0
      · subst h1; simp [FitsM.lift, Verif.allocRecords, chkmallocN, h0] at h
      · exact ⟨h0, h1⟩⟩

theorem Always.forRows {body : Nat → FitsM R α} (hb : ∀ i, Always (body i) P) (first n : Nat) :
    Always (forRows first n body) fun l => l.length = n ∧ ∀ x ∈ l, P x := by
  induction n generalizing first with
  | zero => exact Always.pure ⟨rfl, by simp⟩
  | succ n ih =>
    rw [Verif.forRows]
    refine (hb first).bind fun x hx => (ih (first + 1)).bind fun xs hxs => Always.pure ⟨by simp [hxs.1], ?_⟩
    intro y hy
    rcases List.mem_cons.mp hy with rfl | hy
    · exact hx
    · exact hxs.2 y hy

theorem Always.forRecs {body : Nat → α → FitsM R β} {l : List α} (hl : ∀ x ∈ l, P x)
    (hb : ∀ i x, P x → Always (body i x) Q) (first : Nat) :
    Always (forRecs first l body) fun l' => l'.length = l.length ∧ ∀ x ∈ l', Q x := by
  induction l generalizing first with
  | nil => exact Always.pure ⟨rfl, by simp⟩
  | cons x l ih =>
    rw [Verif.forRecs]
    refine (hb first x (hl x (by simp))).bind fun y hy =>
      (ih (fun z hz => hl z (by simp [hz])) (first + 1)).bind fun ys hys => Always.pure ⟨by simp [hys.1], ?_⟩
    intro z hz
    rcases List.mem_cons.mp hz with rfl | hz
    · exact hy
    · exact hys.2 z hz

theorem mapM_length {f : α → Option β} {l : List α} {l' : List β} (h : l.mapM f = some l') :
    l'.length = l.length := by
  induction l generalizing l' with
  | nil => simp at h; simp [h]
  | cons x l ih =>
    simp only [List.mapM_cons] at h
    cases hx : f x with
    | none => simp [hx] at h
    | some y =>
      cases hl : l.mapM f with
      | none => simp [hx, hl] at h
      | some ys =>
        simp [hx, hl] at h
        rw [← h]
        simp [ih hl]

theorem Always.read_col (conv : Cell R → Option α) (colnum row n : Nat) (array : List α)
    (h : array.length = n) : Always (fits_read_col conv colnum row n array) fun l => l.length = n := by
  refine ⟨fun s a s' hs => ?_⟩
  unfold fits_read_col cfRead at hs
  split at hs
  · split at hs
    · split at hs
      · rename_i hd _ x hx
        obtain ⟨rfl, -⟩ := Prod.mk.inj (Outcome.ok.inj hs)
        change Hdu.readCol _ _ _ _ _ = _ at hx
        unfold Hdu.readCol at hx
        split at hx
        · cases hx
        · split at hx
          · cases hx
          · split at hx
            · cases hx
            · split at hx
              · rename_i xs hxs
                injection hx with hx
                subst hx
                rw [mapM_length hxs]
                split <;> simp [Col.get, Col.getParts]
              · cases hx
      · obtain ⟨rfl, -⟩ := Prod.mk.inj (Outcome.ok.inj hs)
        exact h
    · obtain ⟨rfl, -⟩ := Prod.mk.inj (Outcome.ok.inj hs)
      exact h
  · obtain ⟨rfl, -⟩ := Prod.mk.inj (Outcome.ok.inj hs)
    exact h

theorem Always.arr (conv : Cell R → Option α) (j : α) (name : CStr) (i n : Nat) :
    Always (readArr conv j name i n) fun l => l.length = n := by
  unfold readArr
  exact (Always.any _).bind fun _ _ => Always.read_col _ _ _ _ _ (by simp)

theorem Always.jones (u : Undef R) (name : CStr) (i n : Nat) :
    Always (readJones u name i n) fun l => l.length = n := by
  unfold readJones
  exact (Always.arr _ _ _ _ _).bind fun _ h => Always.pure (by simpa using h)

/-! ### Rows -/

/-- Take a row apart: keep what is known of arrays. -/
macro "rows" : tactic => `(tactic| repeat (first
  | with_reducible refine (Always.jones _ _ _ _).bind fun _ _ => ?_
  | with_reducible refine (Always.arr _ _ _ _ _).bind fun _ _ => ?_
  | with_reducible refine (Always.any _).bind fun _ _ => ?_
  | with_reducible refine Always.pure ?_
  | split))

theorem always_inspolRecord (u : Undef R) (w i : Nat) : Always (readInspolRecord u w i) (·.WF w) := by
  unfold readInspolRecord
  rows
  constructor <;> assumption

theorem always_visRecord (u : Undef R) (w i : Nat) : Always (readVisRecord u w i) (·.WF w false false) := by
  unfold readVisRecord
  rows
  constructor <;> first | assumption | exact trivial

theorem always_vis2Record (u : Undef R) (w : Nat) (c : Bool) (i : Nat) : Always (readVis2Record u w c i) (·.WF w) := by
  unfold readVis2Record
  rows
  constructor <;> assumption

theorem always_t3Record (u : Undef R) (w : Nat) (c : Bool) (i : Nat) : Always (readT3Record u w c i) (·.WF w) := by
  unfold readT3Record
  rows
  constructor <;> assumption

theorem always_fluxRecord (u : Undef R) (w : Nat) (c : Bool) (i : Nat) : Always (readFluxRecord u w c i) (·.WF w) := by
  unfold readFluxRecord
  rows
  constructor <;> assumption

/-! ### Tables -/

theorem Always.finally {m : FitsM R α} (h : Always m P) : Finally m P := ⟨fun s a s' hs _ => h.run s a s' hs⟩

theorem Finally.bind {m : FitsM R α} {f : α → FitsM R β} (hm : Always m P) (hf : ∀ a, P a → Finally (f a) Q) :
    Finally (m >>= f) Q :=
  ⟨fun s b s' h hst => by
    obtain ⟨a, s1, h1, h2⟩ := FitsM.bind_inv h
    exact (hf a (hm.run s a s1 h1)).run s1 b s' h2 hst⟩

theorem Finally.skip {m : FitsM R α} {f : α → FitsM R β} (hf : ∀ a, Finally (f a) Q) : Finally (m >>= f) Q :=
  Finally.bind (Always.any m) fun a _ => hf a

theorem Finally.guard {body : FitsM R α} (out : α) (hb : Finally body P) : Finally (guardStatus out body) P :=
  ⟨fun s a s' h hst => by
    by_cases hs : s.status = .ok
    · rw [guardStatus_ok hs] at h; exact hb.run s a s' h hst
    · rw [guardStatus_err hs] at h
      obtain ⟨-, rfl⟩ := Prod.mk.inj (Outcome.ok.inj h)
      exact absurd hst hs⟩

/-- Go past what does not matter. -/
macro "skips" : tactic => `(tactic| repeat (first
  | with_reducible refine Finally.bind (Always.alloc _) fun _ _ => ?_
  | with_reducible refine Finally.bind (Always.allocRecords _ _) fun _ _ => ?_
  | with_reducible refine Finally.guard _ ?_
  | with_reducible refine Finally.bind (Always.arr _ _ _ _ _) fun _ _ => ?_
  | with_reducible refine Finally.bind (Always.forRows (always_inspolRecord _ _) _ _) fun _ _ => ?_
  | with_reducible refine Finally.bind (Always.forRows (always_visRecord _ _) _ _) fun _ _ => ?_
  | with_reducible refine Finally.bind (Always.forRows (always_vis2Record _ _ _) _ _) fun _ _ => ?_
  | with_reducible refine Finally.bind (Always.forRows (always_t3Record _ _ _) _ _) fun _ _ => ?_
  | with_reducible refine Finally.bind (Always.forRows (always_fluxRecord _ _ _) _ _) fun _ _ => ?_
  | with_reducible refine Finally.bind (Always.forRows (fun _ => Always.any _) _ _) fun _ _ => ?_
  | with_reducible refine Finally.skip fun _ => ?_
  | split
  | with_reducible refine (Always.pure ?_).finally))

theorem ne_nil_of_length {l : List α} {n : Nat} (h : l.length = n) (hn : n ≠ 0) : l ≠ [] := by
  rintro rfl; exact hn h.symm

theorem finally_array_chdu (u : Undef R) (old : OiArray R) (n : Option CStr) :
    Finally (read_oi_array_chdu u old n) OiArray.WF := by
  unfold read_oi_array_chdu
  skips
  rename_i h0 _ h1
  exact ⟨ne_nil_of_length h1.1 h0⟩

theorem finally_wavelength_chdu (u : Undef R) (old : OiWavelength R) (n : Option CStr) :
    Finally (read_oi_wavelength_chdu u old n) OiWavelength.WF := by
  unfold read_oi_wavelength_chdu
  skips
  constructor <;> assumption

theorem finally_corr_chdu (u : Undef R) (old : OiCorr R) (n : Option CStr) :
    Finally (read_oi_corr_chdu u old n) OiCorr.WF := by
  unfold read_oi_corr_chdu
  skips
  constructor <;> assumption

theorem finally_inspol_chdu (u : Undef R) (old : OiInspol R) :
    Finally (read_oi_inspol_chdu u old) OiInspol.WF := by
  unfold read_oi_inspol_chdu
  skips
  rename_i h0 _ h1
  exact ⟨ne_nil_of_length h1.1 h0.1, h0.2, h1.2⟩

theorem finally_next_array (u : Undef R) (old : OiArray R) : Finally (read_next_oi_array u old) OiArray.WF :=
  Finally.guard _ (Finally.skip fun _ => Finally.guard _ (finally_array_chdu _ _ _))

theorem finally_next_wavelength (u : Undef R) (old : OiWavelength R) :
    Finally (read_next_oi_wavelength u old) OiWavelength.WF :=
  Finally.guard _ (Finally.skip fun _ => Finally.guard _ (finally_wavelength_chdu _ _ _))

theorem finally_next_corr (u : Undef R) (old : OiCorr R) : Finally (read_next_oi_corr u old) OiCorr.WF :=
  Finally.guard _ (Finally.skip fun _ => Finally.guard _ (finally_corr_chdu _ _ _))

theorem finally_next_inspol (u : Undef R) (old : OiInspol R) : Finally (read_next_oi_inspol u old) OiInspol.WF :=
  Finally.guard _ (Finally.skip fun _ => Finally.guard _ (finally_inspol_chdu _ _))

theorem finally_next_vis2 (u : Undef R) (old : OiVis2 R) : Finally (read_next_oi_vis2 u old) OiVis2.WF := by
  unfold read_next_oi_vis2
  skips
  rename_i h0 _ h1
  exact ⟨ne_nil_of_length h1.1 h0.1, h0.2, h1.2⟩

theorem finally_next_t3 (u : Undef R) (old : OiT3 R) : Finally (read_next_oi_t3 u old) OiT3.WF := by
  unfold read_next_oi_t3
  skips
  rename_i h0 _ h1
  exact ⟨ne_nil_of_length h1.1 h0.1, h0.2, h1.2⟩

theorem finally_next_flux (u : Undef R) (old : OiFlux R) : Finally (read_next_oi_flux u old) OiFlux.WF := by
  unfold read_next_oi_flux
  skips
  rename_i h0 _ _ h1
  exact ⟨ne_nil_of_length h1.1 h0.1, h0.2, h1.2⟩

/-! ### The optional columns of OI_VIS -/

theorem always_visCorr (u : Undef R) (c : Bool) {l : List (OiVisRecord R)} {w : Nat} {b1 b2 : Bool}
    (hl : ∀ r ∈ l, r.WF w b1 b2) :
    Always (readVisCorr u c l) fun l' => l'.length = l.length ∧ ∀ r ∈ l', r.WF w b1 b2 := by
  unfold readVisCorr
  refine Always.ite (fun _ => ?_) (fun _ => Always.pure ⟨rfl, hl⟩)
  refine Always.forRecs hl (fun i r hr => ?_) 1
  unfold readVisCorrRow
  rows
  exact ⟨hr.1, hr.2, hr.3, hr.4, hr.5, hr.6, hr.7, hr.8, hr.9, hr.10⟩

theorem always_refmap (u : Undef R) {vis : OiVis R} (h0 : vis.record ≠ []) (hw : vis.nwave ≠ 0)
    (hl : ∀ r ∈ vis.record, r.WF vis.nwave false false) :
    Always (readRefmap u vis) fun v => v.record ≠ [] ∧ v.nwave ≠ 0 ∧
      ∀ r ∈ v.record, r.WF v.nwave v.usevisrefmap false := by
  unfold readRefmap
  refine (Always.any _).bind fun _ _ => (Always.any _).bind fun _ _ => Always.ite (fun _ => ?_) (fun _ => ?_)
  · refine (Always.any _).bind fun _ _ => Always.pure ⟨by simpa using h0, hw, ?_⟩
    intro r hr
    obtain ⟨r', hr', rfl⟩ := List.mem_map.mp hr
    have hr := hl r' hr'
    exact ⟨hr.1, hr.2, hr.3, hr.4, trivial, hr.6, hr.7, hr.8, hr.9, hr.10⟩
  · refine (Always.forRecs (Q := fun r => r.WF vis.nwave true false) hl (fun i r hr => ?_) 1).bind
      fun l hl' => Always.pure ⟨?_, hw, hl'.2⟩
    · unfold readRefmapRow
      refine (Always.any _).bind fun _ _ => (Always.read_col _ _ _ _ _ (by simp)).bind fun m hm => Always.pure ?_
      exact ⟨hr.1, hr.2, hr.3, hr.4, hm, hr.6, hr.7, hr.8, hr.9, hr.10⟩
    · exact ne_nil_of_length hl'.1 (by simpa using h0)

theorem finally_complex (u : Undef R) (c : Bool) {vis : OiVis R} (h0 : vis.record ≠ []) (hw : vis.nwave ≠ 0)
    (hl : ∀ r ∈ vis.record, r.WF vis.nwave vis.usevisrefmap false) :
    Finally (read_oi_vis_complex u vis c) OiVis.WF := by
  unfold read_oi_vis_complex
  refine Finally.guard _ (Always.finally ?_)
  refine (Always.any _).bind fun _ _ => (Always.any _).bind fun _ _ => Always.ite (fun _ => ?_) (fun _ => ?_)
  · refine (Always.any _).bind fun _ _ => Always.pure ⟨by simpa using h0, hw, ?_⟩
    intro r hr
    obtain ⟨r', hr', rfl⟩ := List.mem_map.mp hr
    have hr := hl r' hr'
    exact ⟨hr.1, hr.2, hr.3, hr.4, hr.5, trivial, trivial, trivial, trivial, hr.10⟩
  · refine (Always.any _).bind fun _ _ =>
      (Always.forRecs (Q := fun r => r.WF vis.nwave vis.usevisrefmap true) hl (fun i r hr => ?_) 1).bind
      fun l hl' => Always.pure ⟨?_, hw, hl'.2⟩
    · unfold readVisComplexRow
      refine (Always.any _).bind fun _ _ => (Always.arr _ _ _ _ _).bind fun a1 h1 =>
        (Always.arr _ _ _ _ _).bind fun a2 h2 => (Always.arr _ _ _ _ _).bind fun a3 h3 =>
        (Always.arr _ _ _ _ _).bind fun a4 h4 => ?_
      unfold readVisComplexCorr
      refine Always.ite (fun _ => ?_) (fun _ => Always.pure
        ⟨hr.1, hr.2, hr.3, hr.4, hr.5, h1, h2, h3, h4, hr.10⟩)
      rows
      exact ⟨hr.1, hr.2, hr.3, hr.4, hr.5, h1, h2, h3, h4, hr.10⟩
    · exact ne_nil_of_length hl'.1 (by simpa using h0)

theorem finally_vis_opt (u : Undef R) {vis : OiVis R} (h0 : vis.record ≠ []) (hw : vis.nwave ≠ 0)
    (hl : ∀ r ∈ vis.record, r.WF vis.nwave false false) : Finally (read_oi_vis_opt u vis) OiVis.WF := by
  unfold read_oi_vis_opt
  refine Finally.guard _ ?_
  split
  · exact (Always.pure ⟨h0, hw, hl⟩).finally
  · refine Finally.skip fun _ => ?_
    refine Finally.skip fun _ => Finally.skip fun _ => Finally.skip fun _ => Finally.skip fun _ => ?_
    refine Finally.bind (always_visCorr u _ hl) fun l hl' => ?_
    refine Finally.bind (always_refmap u (ne_nil_of_length hl'.1 (by simpa using h0)) hw hl'.2) fun v hv => ?_
    exact finally_complex u _ hv.1 hv.2.1 hv.2.2

theorem finally_next_vis (u : Undef R) (old : OiVis R) : Finally (read_next_oi_vis u old) OiVis.WF := by
  unfold read_next_oi_vis
  skips
  rename_i h0 _ _ h1
  exact finally_vis_opt u (ne_nil_of_length h1.1 h0.1) h0.2 h1.2

/-! ### Datasets -/

theorem collects_wf {skip : Bool} {read : FitsM R α} (hr : Finally read P) {s : FState R} {l : List α}
    (h : Spec.Collects skip read s l) : ∀ t ∈ l, P t := by
  induction h with
  | done => simp
  | next h hst _ ih =>
    intro t ht
    rcases List.mem_cons.mp ht with rfl | ht
    · exact hr.run _ _ _ h hst
    · exact ih t ht
  | skip _ _ _ _ _ ih => exact ih

end Verif
