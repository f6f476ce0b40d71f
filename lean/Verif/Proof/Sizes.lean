import Verif.Model.Sizes
import Verif.Spec.Sizes
import Verif.Proof.Order
import Verif.Proof.FitsTotal
import Verif.Proof.Fault
import Verif.Proof.Demo

/-! # Sizes of reference maps: lemmas -/

set_option Elab.async false

namespace Verif
open Outcome

variable {R : FP} {α β : Type} {bits : Nat}

theorem machine_eq {x : Int} (h : Holds bits x) : machine bits x = .ok x := if_pos h
theorem machine_over {x : Int} (h : ¬ Holds bits x) : machine bits x = .ub := if_neg h

theorem holds_le {x y : Int} (h : Holds bits y) (h0 : 0 ≤ x) (hx : x ≤ y) : Holds bits x := by
  have : (0 : Int) ≤ 2 ^ (bits - 1) := Int.pow_nonneg (by decide)
  exact ⟨by omega, by have := h.2; omega⟩

theorem outcome_bind_congr {m : Outcome α} {f g : α → Outcome β} (h : ∀ a, m = .ok a → f a = g a) :
    (m >>= f) = (m >>= g) := by
  cases m with
  | ok a => exact h a rfl
  | abort => rfl
  | ub => rfl

/-! ### Two pieces of code which do the same in some files -/

/-- The code is the same in all files which satisfy a condition. -/
def EqOn (I : List (Hdu R) → Prop) (P Q : FitsM R α) : Prop := ∀ s, I s.hdus → P s = Q s

/-- The code does not change the file. -/
def KeepsHdus (m : FitsM R α) : Prop := ∀ s a s', m s = .ok (a, s') → s'.hdus = s.hdus

variable {I : List (Hdu R) → Prop}

theorem EqOn.refl (P : FitsM R α) : EqOn I P P := fun _ _ => rfl

theorem EqOn.bind {m m' : FitsM R α} {f f' : α → FitsM R β} (hk : KeepsHdus m) (hm : EqOn I m' m)
    (hf : ∀ a, EqOn I (f' a) (f a)) : EqOn I (m' >>= f') (m >>= f) := by
  intro s hs
  cases h : m s with
  | ok x =>
    rw [FitsM.bind_ok h, FitsM.bind_ok ((hm s hs).trans h)]
    exact hf _ _ (by rw [hk _ _ _ h]; exact hs)
  | abort => rw [bind_abort h, bind_abort ((hm s hs).trans h)]
  | ub => rw [bind_ub h, bind_ub ((hm s hs).trans h)]

theorem EqOn.guard {P Q : FitsM R α} (h : EqOn I P Q) (out : α) : EqOn I (guardStatus out P) (guardStatus out Q) := by
  intro s hs
  unfold guardStatus
  split
  · exact h s hs
  · rfl

theorem keeps_local {m : FitsM R α} (h : Local m) : KeepsHdus m := fun s a s' e => (h.stays s a s' e).1
theorem keeps_tame {m : FitsM R α} (h : Tame m) : KeepsHdus m := fun s a s' e => by
  rcases h.run s with h1 | ⟨b, s1, h1, h2, -⟩
  · rw [h1] at e; cases e
  · rw [h1] at e
    obtain ⟨-, rfl⟩ := Prod.mk.inj (Outcome.ok.inj e)
    exact h2

theorem keeps_named (name : CStr) : KeepsHdus (next_named_hdu (R := R) name) := by
  intro s a s' e
  by_cases hok : s.status = .ok
  · have e : _ = _ := (guardStatus_ok hok () _).symm.trans e
    rw [← (Prod.mk.inj (Outcome.ok.inj e)).2]
  · have e : _ = _ := (guardStatus_err hok () _).symm.trans e
    rw [← (Prod.mk.inj (Outcome.ok.inj e)).2]

/-! ### Two pieces of code which differ by undefined behaviour only -/

/-- The first does what the second does, unless its behaviour is undefined. -/
def OrUb (P Q : FitsM R α) : Prop := ∀ s, P s = Q s ∨ P s = .ub

theorem OrUb.refl (P : FitsM R α) : OrUb P P := fun _ => .inl rfl

theorem OrUb.bind {m m' : FitsM R α} {f f' : α → FitsM R β} (hm : OrUb m' m) (hf : ∀ a, OrUb (f' a) (f a)) :
    OrUb (m' >>= f') (m >>= f) := by
  intro s
  rcases hm s with h1 | h1
  · cases h : m s with
    | ok x =>
      rw [FitsM.bind_ok h, FitsM.bind_ok (h1.trans h)]
      exact hf _ _
    | abort => rw [bind_abort h, bind_abort (h1.trans h)]; exact .inl rfl
    | ub => rw [bind_ub h, bind_ub (h1.trans h)]; exact .inl rfl
  · exact .inr (bind_ub h1)

theorem OrUb.guard {P Q : FitsM R α} (h : OrUb P Q) (out : α) : OrUb (guardStatus out P) (guardStatus out Q) := by
  intro s
  unfold guardStatus
  split
  · exact h s
  · exact .inl rfl

theorem OrUb.ite {c : Prop} [Decidable c] {P Q P' Q' : FitsM R α} (h : OrUb P Q) (h' : OrUb P' Q') :
    OrUb (if c then P else P') (if c then Q else Q') := by
  split
  · exact h
  · exact h'

/-- The behaviour of the first is undefined if the second comes to such an end. -/
def Over (P Q : FitsM R α) (φ : α → FState R → Prop) : Prop :=
  ∀ s a s', Q s = .ok (a, s') → φ a s' → P s = .ub

variable {φ : β → FState R → Prop} {ψ : α → FState R → Prop}

theorem Over.after {m m' : FitsM R α} {f f' : α → FitsM R β} (hm : OrUb m' m) (hf : ∀ a, Over (f' a) (f a) φ) :
    Over (m' >>= f') (m >>= f) φ := by
  intro s b s' h hφ
  obtain ⟨a, s1, h1, h2⟩ := bind_ok_split h
  rcases hm s with h3 | h3
  · rw [FitsM.bind_ok (h3.trans h1)]
    exact hf a s1 b s' h2 hφ
  · exact bind_ub h3

theorem Over.before {m m' : FitsM R α} {f f' : α → FitsM R β} (hm : Over m' m ψ)
    (hf : ∀ a s b s', f a s = .ok (b, s') → φ b s' → ψ a s) : Over (m' >>= f') (m >>= f) φ := by
  intro s b s' h hφ
  obtain ⟨a, s1, h1, h2⟩ := bind_ok_split h
  exact bind_ub (hm s a s1 h1 (hf a s1 b s' h2 hφ))

theorem Over.guard {P Q : FitsM R β} (h : Over P Q φ) (out : β) (ho : ∀ s : FState R, s.status ≠ .ok → ¬ φ out s) :
    Over (guardStatus out P) (guardStatus out Q) φ := by
  intro s b s' e hφ
  by_cases hok : s.status = .ok
  · rw [guardStatus_ok hok] at e ⊢
    exact h s b s' e hφ
  · rw [guardStatus_err hok] at e
    obtain ⟨rfl, rfl⟩ := Prod.mk.inj (Outcome.ok.inj e)
    exact absurd hφ (ho _ hok)

/-! ### One table -/

theorem forRecs_len {f : Nat → α → FitsM R β} {l : List α} (first : Nat) {s s' : FState R} {l' : List β}
    (h : forRecs first l f s = .ok (l', s')) : l'.length = l.length := by
  induction l generalizing first s l' s' with
  | nil => obtain ⟨rfl, rfl⟩ := Prod.mk.inj (Outcome.ok.inj h); rfl
  | cons x xs ih =>
    rw [forRecs] at h
    obtain ⟨y, s1, -, h⟩ := bind_ok_split h
    obtain ⟨ys, s2, h1, h⟩ := bind_ok_split h
    obtain ⟨rfl, rfl⟩ := Prod.mk.inj (Outcome.ok.inj h)
    simp [ih _ h1]

theorem OrUb.forRecs {f g : Nat → α → FitsM R β} (h : ∀ i x, OrUb (f i x) (g i x)) (l : List α) (first : Nat) :
    OrUb (forRecs first l f) (forRecs first l g) := by
  induction l generalizing first with
  | nil => exact .refl _
  | cons x xs ih => exact (h _ _).bind fun _ => (ih _).bind fun _ => .refl _

theorem orUb_lift {x : Outcome α} {m : FitsM R β} (hx : x = .ub ∨ ∃ a, x = .ok a) :
    OrUb (FitsM.lift x >>= fun _ => m) m := by
  intro s
  rcases hx with rfl | ⟨a, rfl⟩
  · exact .inr rfl
  · exact .inl rfl

theorem machine_cases (bits : Nat) (x : Int) : machine bits x = .ub ∨ ∃ a, machine bits x = .ok a := by
  unfold machine
  split
  · exact .inr ⟨_, rfl⟩
  · exact .inl rfl

theorem orUb_refmapRow (u : Undef R) (n c i : Nat) (r : OiVisRecord R) :
    OrUb (readRefmapRowM bits u n c i r) (readRefmapRow u n c i r) := orUb_lift (machine_cases _ _)

theorem orUb_refmap (u : Undef R) (v : OiVis R) : OrUb (readRefmapM bits u v) (readRefmap u v) := by
  unfold readRefmapM readRefmap
  exact (OrUb.refl _).bind fun _ => (OrUb.refl _).bind fun _ => .ite (.refl _)
    ((OrUb.forRecs (fun _ _ => orUb_refmapRow _ _ _ _ _) _ _).bind fun _ => .refl _)

theorem orUb_vis_opt (u : Undef R) (v : OiVis R) : OrUb (read_oi_vis_optM bits u v) (read_oi_vis_opt u v) := by
  unfold read_oi_vis_optM read_oi_vis_opt
  refine OrUb.guard (.ite (.refl _) ?_) _
  refine (OrUb.refl _).bind fun _ => (OrUb.refl _).bind fun _ => (OrUb.refl _).bind fun _ => (OrUb.refl _).bind fun _ =>
    (OrUb.refl _).bind fun _ => (OrUb.refl _).bind fun _ => ?_
  exact (orUb_refmap _ _).bind fun _ => .refl _

theorem orUb_next (u : Undef R) (old : OiVis R) : OrUb (read_next_oi_visM bits u old) (read_next_oi_vis u old) := by
  unfold read_next_oi_visM read_next_oi_vis
  refine OrUb.guard ((OrUb.refl _).bind fun _ => OrUb.guard ?_ _) _
  refine (OrUb.refl _).bind fun _ => OrUb.guard ?_ _
  refine (OrUb.refl _).bind fun _ => (OrUb.refl _).bind fun _ => (OrUb.refl _).bind fun _ => (OrUb.refl _).bind fun _ =>
    (OrUb.refl _).bind fun _ => (OrUb.refl _).bind fun _ => OrUb.guard ?_ _
  exact (OrUb.refl _).bind fun _ => (OrUb.refl _).bind fun _ => (OrUb.refl _).bind fun _ => orUb_vis_opt _ _

/-- The end of reading a table whose reference map is too large. -/
def LargeRead (bits : Nat) (v : OiVis R) : Prop := TooLarge bits v ∧ v.record ≠ []

theorem complex_kept {u : Undef R} {v v' : OiVis R} {c : Bool} {s s' : FState R}
    (h : read_oi_vis_complex u v c s = .ok (v', s')) :
    v'.nwave = v.nwave ∧ v'.usevisrefmap = v.usevisrefmap ∧ v'.record.length = v.record.length := by
  unfold read_oi_vis_complex at h
  by_cases hok : s.status = .ok
  case neg =>
    rw [guardStatus_err hok] at h
    obtain ⟨rfl, rfl⟩ := Prod.mk.inj (Outcome.ok.inj h)
    exact ⟨rfl, rfl, rfl⟩
  rw [guardStatus_ok hok] at h
  obtain ⟨n, s1, -, h⟩ := bind_ok_split h
  obtain ⟨st, s2, -, h⟩ := bind_ok_split h
  split at h
  · obtain ⟨-, s3, -, h⟩ := bind_ok_split h
    obtain ⟨rfl, rfl⟩ := Prod.mk.inj (Outcome.ok.inj h)
    exact ⟨rfl, rfl, by simp⟩
  · obtain ⟨x, s3, -, h⟩ := bind_ok_split h
    obtain ⟨l, s4, h1, h⟩ := bind_ok_split h
    obtain ⟨rfl, rfl⟩ := Prod.mk.inj (Outcome.ok.inj h)
    exact ⟨rfl, rfl, forRecs_len _ h1⟩

theorem over_refmap (u : Undef R) (v : OiVis R) :
    Over (readRefmapM bits u v) (readRefmap u v) (fun v' _ => LargeRead bits v') := by
  unfold readRefmapM readRefmap
  refine Over.after (.refl _) fun c => Over.after (.refl _) fun st => ?_
  split
  · intro s a s' h hl
    obtain ⟨-, s3, -, h⟩ := bind_ok_split h
    obtain ⟨rfl, rfl⟩ := Prod.mk.inj (Outcome.ok.inj h)
    exact absurd hl.1.1 Bool.false_ne_true
  · intro s a s' h hl
    obtain ⟨l, s4, h1, h⟩ := bind_ok_split h
    obtain ⟨rfl, rfl⟩ := Prod.mk.inj (Outcome.ok.inj h)
    have hne : l ≠ [] := hl.2
    have hlen := forRecs_len _ h1
    cases hr : v.record with
    | nil => rw [hr] at hlen; exact absurd (List.length_eq_zero_iff.mp hlen) hne
    | cons r rs =>
      apply bind_ub
      rw [forRecs]
      apply bind_ub
      unfold readRefmapRowM
      apply bind_ub
      rw [machine_over hl.1.2]
      rfl

theorem over_vis_opt (u : Undef R) (v : OiVis R) (hv : v.usevisrefmap = false) :
    Over (read_oi_vis_optM bits u v) (read_oi_vis_opt u v) (fun v' _ => LargeRead bits v') := by
  unfold read_oi_vis_optM read_oi_vis_opt
  refine Over.guard ?_ _ fun s _ h => by rw [h.1.1] at hv; cases hv
  split
  · intro s a s' h hl
    obtain ⟨rfl, rfl⟩ := Prod.mk.inj (Outcome.ok.inj h)
    exact absurd hl.1.1 Bool.false_ne_true
  · refine Over.after (.refl _) fun _ => Over.after (.refl _) fun _ => Over.after (.refl _) fun _ =>
      Over.after (.refl _) fun _ => Over.after (.refl _) fun _ => Over.after (.refl _) fun _ => ?_
    refine Over.before (over_refmap _ _) fun a s b s' h hl => ?_
    obtain ⟨h1, h2, h3⟩ := complex_kept h
    refine ⟨⟨h2 ▸ hl.1.1, by rw [← h1]; exact hl.1.2⟩, fun e => hl.2 (List.length_eq_zero_iff.mp ?_)⟩
    rw [h3, e]; rfl

theorem over_next (u : Undef R) (old : OiVis R) :
    Over (read_next_oi_visM bits u old) (read_next_oi_vis u old) (fun v' s' => s'.status = .ok ∧ LargeRead bits v') := by
  unfold read_next_oi_visM read_next_oi_vis
  refine Over.guard (Over.after (.refl _) fun _ => Over.guard ?_ _ fun s h h' => h h'.1) _ fun s h h' => h h'.1
  refine Over.after (.refl _) fun _ => Over.guard ?_ _ fun s h h' => h h'.1
  refine Over.after (.refl _) fun _ => Over.after (.refl _) fun _ => Over.after (.refl _) fun _ => Over.after (.refl _) fun _ =>
    Over.after (.refl _) fun _ => Over.after (.refl _) fun _ => Over.guard ?_ _ fun s h h' => h h'.1
  refine Over.after (.refl _) fun _ => Over.after (.refl _) fun _ => Over.after (.refl _) fun _ => ?_
  intro s a s' h hl
  exact over_vis_opt u _ rfl s a s' h hl.2

/-! ### All tables of a file -/

theorem OrUb.readAll {P Q : FitsM R α} (h : OrUb P Q) (skip : Bool) (fuel : Nat) :
    OrUb (readAll skip P fuel) (readAll skip Q fuel) := by
  induction fuel with
  | zero => exact .refl _
  | succ n ih =>
    unfold Verif.readAll
    exact h.bind fun _ => (OrUb.refl _).bind fun _ => .ite (ih.bind fun _ => .refl _)
      (.ite (.refl _) (.ite ((OrUb.refl _).bind fun _ => ih) (.refl _)))

theorem over_readAll {P Q : FitsM R α} {χ : α → Prop} (h : OrUb P Q) (ho : Over P Q (fun a s => s.status = .ok ∧ χ a))
    (fuel : Nat) : Over (readAll true P fuel) (readAll true Q fuel) (fun l _ => ∃ t ∈ l, χ t) := by
  induction fuel with
  | zero => intro s a s' e; cases e
  | succ n ih =>
    intro s l s' e ⟨t, ht, hχ⟩
    rw [readAll] at e ⊢
    obtain ⟨x, s1, e1, e⟩ := bind_ok_split e
    obtain ⟨st, s2, e2, e⟩ := bind_ok_split e
    obtain ⟨rfl, rfl⟩ := Prod.mk.inj (Outcome.ok.inj e2)
    rcases h s with h1 | h1
    · by_cases hst : s1.status = .ok
      · rw [if_pos hst] at e
        obtain ⟨xs, s3, e3, e⟩ := bind_ok_split e
        obtain ⟨rfl, rfl⟩ := Prod.mk.inj (Outcome.ok.inj e)
        rcases List.mem_cons.mp ht with rfl | ht
        · exact bind_ub (ho s _ s1 e1 ⟨hst, hχ⟩)
        · rw [FitsM.bind_ok (h1.trans e1), FitsM.bind_ok (run_getStatus s1), if_pos hst]
          exact bind_ub (ih s1 xs s3 e3 ⟨t, ht, hχ⟩)
      · rw [if_neg hst] at e
        rw [FitsM.bind_ok (h1.trans e1), FitsM.bind_ok (run_getStatus s1), if_neg hst]
        by_cases heof : s1.status = .END_OF_FILE
        · rw [if_pos heof] at e
          obtain ⟨-, s3, -, e⟩ := bind_ok_split e
          obtain ⟨rfl, rfl⟩ := Prod.mk.inj (Outcome.ok.inj e)
          cases ht
        · rw [if_neg heof, if_pos rfl] at e ⊢
          obtain ⟨y, s3, e3, e⟩ := bind_ok_split e
          rw [FitsM.bind_ok e3]
          exact ih s3 l s' e ⟨t, ht, hχ⟩
    · exact bind_ub h1

theorem over_tables {P Q : FitsM R α} {χ : α → Prop} (h : OrUb P Q) (ho : Over P Q (fun a s => s.status = .ok ∧ χ a)) :
    Over (readTables true P) (readTables true Q) (fun l _ => ∃ t ∈ l, χ t) := by
  unfold readTables
  exact Over.after (.refl _) fun _ => Over.after (.refl _) fun n => over_readAll h ho _

theorem OrUb.tables {P Q : FitsM R α} (h : OrUb P Q) (skip : Bool) : OrUb (readTables skip P) (readTables skip Q) := by
  unfold readTables
  exact (OrUb.refl _).bind fun _ => (OrUb.refl _).bind fun _ => h.readAll _ _

/-! ### Small tables -/

theorem refmap_small (u : Undef R) {v : OiVis R} (h : Holds bits (v.nwave * v.nwave)) :
    readRefmapM bits u v = readRefmap u v := by
  have : readRefmapRowM bits u v.nwave = readRefmapRow u v.nwave := by
    funext c i r
    unfold readRefmapRowM readRefmapRow
    rw [machine_eq h]
    rfl
  unfold readRefmapM readRefmap
  rw [this]

theorem vis_opt_small (u : Undef R) {v : OiVis R} (h : Holds bits (v.nwave * v.nwave)) :
    read_oi_vis_optM bits u v = read_oi_vis_opt u v := by
  unfold read_oi_vis_optM read_oi_vis_opt
  have (c a p : CStr) (x y : Int) (r : List (OiVisRecord R)) := refmap_small (bits := bits) u (v := { v with
        corrname := c, amptyp := a, phityp := p, amporder := x, phiorder := y, record := r }) h
  simp only [this]

/-- The number of channels is that of the column, if no error is pending. -/
theorem eqOn_visamp {f g : Nat → ColType × Nat → FitsM R β}
    (h : ∀ c t (n : Nat), Holds bits (n * n) → EqOn (FewChannels bits) (f c (t, n)) (g c (t, n)))
    (h0 : ∀ c x s, s.status ≠ .ok → f c x s = g c x s) :
    EqOn (FewChannels bits)
      (fits_get_colnum (R := R) "VISAMP" 0 >>= fun c => fits_get_coltype (R := R) c (.A, 0) >>= f c)
      (fits_get_colnum (R := R) "VISAMP" 0 >>= fun c => fits_get_coltype (R := R) c (.A, 0) >>= g c) := by
  intro s hs
  cases hc : fits_get_colnum (R := R) "VISAMP" 0 s with
  | abort => rw [bind_abort hc, bind_abort hc]
  | ub => rw [bind_ub hc, bind_ub hc]
  | ok c =>
  obtain ⟨c, s0⟩ := c
  rw [FitsM.bind_ok hc, FitsM.bind_ok hc]
  cases hx : fits_get_coltype (R := R) c (.A, 0) s0 with
  | abort => rw [bind_abort hx, bind_abort hx]
  | ub => rw [bind_ub hx, bind_ub hx]
  | ok y =>
    obtain ⟨y, s1⟩ := y
    rw [FitsM.bind_ok hx, FitsM.bind_ok hx]
    by_cases hok : s1.status = .ok
    · unfold fits_get_coltype cfRead at hx
      split at hx
      · rename_i hok0
        split at hx
        · rename_i hd hhd
          dsimp only at hx
          cases hcol : hd.cols[c - 1]? with
          | none =>
            rw [hcol] at hx
            obtain ⟨rfl, rfl⟩ := Prod.mk.inj (Outcome.ok.inj hx)
            cases hok
          | some col =>
            rw [hcol] at hx
            obtain ⟨rfl, rfl⟩ := Prod.mk.inj (Outcome.ok.inj hx)
            have hh := (local_colnum (R := R) "VISAMP" 0).stays _ _ _ hc
            rw [hh.1, hh.2] at hhd
            have hname : upper col.name = ("VISAMP" : CStr) := by
              unfold fits_get_colnum cfRead at hc
              split at hc
              · rw [hhd] at hc
                dsimp only at hc
                cases hk : hd.colnum ("VISAMP" : CStr) with
                | error st =>
                  rw [hk] at hc
                  obtain ⟨rfl, rfl⟩ := Prod.mk.inj (Outcome.ok.inj hc)
                  have hst : st = .ok := hok0
                  subst hst
                  unfold Hdu.colnum at hk
                  split at hk
                  · split at hk <;> cases hk
                  · cases hk
                | ok k =>
                  rw [hk] at hc
                  obtain ⟨rfl, rfl⟩ := Prod.mk.inj (Outcome.ok.inj hc)
                  unfold Hdu.colnum at hk
                  split at hk
                  · split at hk
                    · rename_i i hi
                      cases hk
                      rw [List.findIdx?_eq_some_iff_getElem] at hi
                      obtain ⟨hlt, hi, -⟩ := hi
                      rw [Nat.add_sub_cancel, List.getElem?_eq_getElem hlt] at hcol
                      cases hcol
                      exact (eq_of_beq hi).trans (by decide)
                    · cases hk
                  · cases hk
              · obtain ⟨rfl, rfl⟩ := Prod.mk.inj (Outcome.ok.inj hc)
                contradiction
            refine h _ _ _ (hs _ (List.mem_of_getElem? hhd) _ (List.mem_of_getElem? hcol) hname) _ ?_
            rw [hh.1]
            exact hs
        · obtain ⟨rfl, rfl⟩ := Prod.mk.inj (Outcome.ok.inj hx)
          cases hok
      · obtain ⟨rfl, rfl⟩ := Prod.mk.inj (Outcome.ok.inj hx)
        contradiction
    · exact h0 _ _ _ hok

theorem eqOn_next (u : Undef R) (old : OiVis R) :
    EqOn (FewChannels bits) (read_next_oi_visM bits u old) (read_next_oi_vis u old) := by
  unfold read_next_oi_visM read_next_oi_vis
  refine EqOn.guard (EqOn.bind (keeps_named _) (.refl _) fun _ => EqOn.guard ?_ _) _
  refine EqOn.bind (keeps_local (local_key_int _ _)) (.refl _) fun _ => EqOn.guard ?_ _
  refine EqOn.bind (keeps_local (local_key_str _ _)) (.refl _) fun _ => ?_
  refine EqOn.bind (keeps_local (local_opt_str _ _)) (.refl _) fun _ => ?_
  refine EqOn.bind (keeps_local (local_key_str _ _)) (.refl _) fun _ => ?_
  refine EqOn.bind (keeps_local (local_num_rows _)) (.refl _) fun _ => ?_
  refine eqOn_visamp (fun c t n hn => ?_) (fun c x s hs => (guardStatus_err hs _ _).trans (guardStatus_err hs _ _).symm)
  intro s _
  have (a : OiVis R) (ha : a.nwave = n) : read_oi_vis_optM bits u a = read_oi_vis_opt u a :=
    vis_opt_small u (by rw [ha]; exact hn)
  simp only [this]

theorem keeps_next (u : Undef R) (old : OiVis R) : KeepsHdus (read_next_oi_vis u old) := by
  intro s a s' e
  by_cases hok : s.status = .ok
  · rcases (readsNext_vis u old).call hok with h | ⟨b, s1, h, h1, -⟩
    · rw [h] at e; cases e
    · rw [h] at e
      obtain ⟨-, rfl⟩ := Prod.mk.inj (Outcome.ok.inj e)
      exact h1
  · have e : _ = _ := (guardStatus_err hok old _).symm.trans e
    rw [← (Prod.mk.inj (Outcome.ok.inj e)).2]

theorem keeps_of {m : FitsM R α} {f : FState R → α × FState R} (h : ∀ s, m s = .ok (f s) ∧ (f s).2.hdus = s.hdus) :
    KeepsHdus m := by
  intro s a s' e
  rw [(h s).1] at e
  have := Outcome.ok.inj e
  rw [← (h s).2, this]

theorem keeps_setStatus (st : Status) : KeepsHdus (setStatus (R := R) st) := keeps_of fun _ => ⟨rfl, rfl⟩
theorem keeps_getStatus : KeepsHdus (getStatus (R := R)) := keeps_of fun _ => ⟨rfl, rfl⟩

theorem keeps_bind {m : FitsM R α} {f : α → FitsM R β} (h : KeepsHdus m) (hf : ∀ a, KeepsHdus (f a)) :
    KeepsHdus (m >>= f) := by
  intro s b s' e
  obtain ⟨a, s1, e1, e2⟩ := bind_ok_split e
  exact (hf _ _ _ _ e2).trans (h _ _ _ e1)

theorem keeps_pure (a : α) : KeepsHdus (pure a : FitsM R α) := keeps_of (f := fun s => (a, s)) fun _ => ⟨rfl, rfl⟩

theorem keeps_readAll {m : FitsM R α} (h : KeepsHdus m) (skip : Bool) (fuel : Nat) : KeepsHdus (readAll skip m fuel) := by
  induction fuel with
  | zero => intro s a s' e; cases e
  | succ n ih =>
    unfold readAll
    refine keeps_bind h fun _ => keeps_bind keeps_getStatus fun _ => ?_
    split
    · exact keeps_bind ih fun _ => keeps_pure _
    · split
      · exact keeps_bind (keeps_setStatus _) fun _ => keeps_pure _
      · split
        · exact keeps_bind (keeps_setStatus _) fun _ => ih
        · exact keeps_pure _

theorem EqOn.readAll {P Q : FitsM R α} (h : EqOn I P Q) (hk : KeepsHdus Q) (skip : Bool) (fuel : Nat) :
    EqOn I (readAll skip P fuel) (readAll skip Q fuel) := by
  induction fuel with
  | zero => exact .refl _
  | succ n ih =>
    unfold Verif.readAll
    refine EqOn.bind hk h fun _ => EqOn.bind keeps_getStatus (.refl _) fun st => ?_
    intro s hs
    split
    · exact EqOn.bind (keeps_readAll hk _ _) ih (fun _ => .refl _) s hs
    · split
      · rfl
      · split
        · exact EqOn.bind (keeps_setStatus _) (.refl _) (fun _ => ih) s hs
        · rfl

theorem keeps_movabs (n : Nat) : KeepsHdus (fits_movabs_hdu (R := R) n) := by
  intro s a s' e
  unfold fits_movabs_hdu at e
  repeat' split at e
  all_goals rw [← (Prod.mk.inj (Outcome.ok.inj e)).2]

theorem keeps_num_hdus : KeepsHdus (fits_get_num_hdus (R := R)) := by
  intro s a s' e
  unfold fits_get_num_hdus at e
  split at e
  all_goals rw [← (Prod.mk.inj (Outcome.ok.inj e)).2]

theorem EqOn.tables {P Q : FitsM R α} (h : EqOn I P Q) (hk : KeepsHdus Q) (skip : Bool) :
    EqOn I (readTables skip P) (readTables skip Q) := by
  unfold readTables
  exact EqOn.bind (keeps_movabs _) (.refl _) fun _ => EqOn.bind keeps_num_hdus (.refl _) fun _ => h.readAll hk _ _

theorem keeps_tables {m : FitsM R α} (h : KeepsHdus m) (skip : Bool) : KeepsHdus (readTables skip m) :=
  keeps_bind (keeps_movabs _) fun _ => keeps_bind keeps_num_hdus fun _ => keeps_readAll h _ _

theorem keeps_readsNext {name : CStr} {old : α} {read : FitsM R α} (h : ReadsNext name old read) : KeepsHdus read := by
  intro s a s' e
  by_cases hok : s.status = .ok
  · rcases h.call hok with h | ⟨b, s1, h, h1, -⟩
    · rw [h] at e; cases e
    · rw [h] at e
      obtain ⟨-, rfl⟩ := Prod.mk.inj (Outcome.ok.inj e)
      exact h1
  · obtain ⟨body, hb, rfl⟩ := h.shape
    rw [guardStatus_err hok] at e
    rw [← (Prod.mk.inj (Outcome.ok.inj e)).2]

theorem keeps_header (old : OiHeader) : KeepsHdus (read_oi_header (R := R) old) := by
  intro s a s' e
  obtain ⟨b, s1, h, h1⟩ := header_ends old s
  rw [h] at e
  rw [← (Prod.mk.inj (Outcome.ok.inj e)).2]
  exact h1

theorem keeps_target (u : Undef R) (old : OiTarget R) : KeepsHdus (read_oi_target u old) := by
  intro s a s' e
  rcases (target_ends u old s).1 with h | ⟨b, s1, h, h1⟩
  · rw [h] at e; cases e
  · rw [h] at e
    rw [← (Prod.mk.inj (Outcome.ok.inj e)).2]
    exact h1

theorem eqOn_body (u : Undef R) : EqOn (FewChannels bits) (readBodySized bits u) (readBody u) := by
  unfold readBodySized readBody
  refine EqOn.bind (keeps_header _) (.refl _) fun _ => EqOn.bind (keeps_target _ _) (.refl _) fun _ => EqOn.guard ?_ _
  refine EqOn.bind (keeps_tables (keeps_readsNext (readsNext_array _ _)) _) (.refl _) fun _ => EqOn.guard ?_ _
  refine EqOn.bind (keeps_tables (keeps_readsNext (readsNext_wavelength _ _)) _) (.refl _) fun _ => EqOn.guard ?_ _
  refine EqOn.bind (keeps_tables (keeps_readsNext (readsNext_corr _ _)) _) (.refl _) fun _ => ?_
  refine EqOn.bind (keeps_tables (keeps_readsNext (readsNext_inspol _ _)) _) (.refl _) fun _ => ?_
  exact EqOn.bind (keeps_tables (keeps_next _ _) _) ((eqOn_next u u.vis).tables (keeps_next _ _) _) fun _ => .refl _

theorem orUb_body (u : Undef R) : OrUb (readBodySized bits u) (readBody u) := by
  unfold readBodySized readBody
  refine OrUb.bind (.refl _) fun _ => OrUb.bind (.refl _) fun _ => OrUb.guard ?_ _
  refine OrUb.bind (.refl _) fun _ => OrUb.guard (OrUb.bind (.refl _) fun _ => OrUb.guard ?_ _) _
  refine OrUb.bind (.refl _) fun _ => OrUb.bind (.refl _) fun _ => ?_
  exact OrUb.bind ((orUb_next u u.vis).tables _) fun _ => .refl _

theorem finishHeader_vis {oi oi' : OiFits R} (h : finishHeader oi = .ok oi') : oi'.visList = oi.visList := by
  unfold finishHeader at h
  split at h
  · unfold set_oi_header at h
    rw [Outcome.bind_eq_ok] at h
    obtain ⟨t, -, h⟩ := h
    rw [Outcome.bind_eq_ok] at h
    obtain ⟨i, -, h⟩ := h
    rw [← Outcome.ok.inj h]
  · rw [← Outcome.ok.inj h]

theorem over_body (u : Undef R) : Over (readBodySized bits u) (readBody u)
    (fun r _ => ∃ oi, r = some oi ∧ ∃ t ∈ oi.visList, LargeRead bits t) := by
  unfold readBodySized readBody
  have hn (s : FState R) : ¬ ∃ oi : OiFits R, (none : Option (OiFits R)) = some oi ∧ ∃ t ∈ oi.visList, LargeRead bits t := by
    rintro ⟨oi, h, -⟩; cases h
  refine Over.after (.refl _) fun header => Over.after (.refl _) fun targets => Over.guard ?_ _ fun s _ => hn s
  refine Over.after (.refl _) fun arrs => Over.guard ?_ _ fun s _ => hn s
  refine Over.after (.refl _) fun waves => Over.guard ?_ _ fun s _ => hn s
  refine Over.after (.refl _) fun corrs => Over.after (.refl _) fun pols => ?_
  refine Over.before (over_tables (orUb_next u u.vis) (over_next u u.vis)) fun l s b s' h hl => ?_
  obtain ⟨oi, rfl, hl⟩ := hl
  obtain ⟨v2, s1, -, h⟩ := bind_ok_split h
  obtain ⟨t3, s2, -, h⟩ := bind_ok_split h
  obtain ⟨fl, s3, -, h⟩ := bind_ok_split h
  obtain ⟨o, s4, h1, h⟩ := bind_ok_split h
  have ho : o = oi := by
    have := (Prod.mk.inj (Outcome.ok.inj h)).1
    exact Option.some.inj this
  subst ho
  have h2 : finishHeader (assemble header targets arrs waves corrs pols l v2 t3 fl) = .ok o := by
    cases hf : finishHeader (assemble header targets arrs waves corrs pols l v2 t3 fl) with
    | ok x =>
      rw [hf] at h1
      rw [(Prod.mk.inj (Outcome.ok.inj h1)).1]
    | abort => rw [hf] at h1; cases h1
    | ub => rw [hf] at h1; cases h1
  have h3 := finishHeader_vis h2
  have h4 : (assemble header targets arrs waves corrs pols l v2 t3 fl).visList = l := by
    have := (assemble_spec header targets arrs waves corrs pols l v2 t3 fl).1
    rw [← this]; rfl
  rw [h3, h4] at hl
  exact hl

/-! ### Copying -/

theorem memdupRefmap_eq {t : OiVis R} (h : ¬ TooLarge bits t) (r : OiVisRecord R) :
    memdupRefmapM bits t r = memdupIf t.usevisrefmap r.visrefmap r.visrefmap (t.nwave * t.nwave) := by
  unfold memdupRefmapM memdupIf
  split
  · rename_i hu
    have hh : Holds bits (t.nwave * t.nwave) := Classical.byContradiction fun hc => h ⟨hu, hc⟩
    rw [machine_eq hh]
    rfl
  · rfl

theorem dup_small {t : OiVis R} (h : ¬ TooLarge bits t) : dup_oi_visM bits t = dup_oi_vis t := by
  unfold dup_oi_visM dup_oi_vis
  simp only [memdupRefmap_eq h]

theorem mapM_ub {f : α → Outcome β} {x : α} {xs : List α} (h : f x = .ub) : (x :: xs).mapM f = .ub := by
  rw [List.mapM_cons, h]
  rfl

theorem dup_large {t t' : OiVis R} (h : TooLarge bits t) (hd : dup_oi_vis t = .ok t') : dup_oi_visM bits t = .ub := by
  unfold dup_oi_vis at hd
  unfold dup_oi_visM
  rw [Outcome.bind_eq_ok] at hd
  obtain ⟨l, h1, hd⟩ := hd
  rw [h1, Outcome.bind_ok]
  rw [Outcome.bind_eq_ok] at hd
  obtain ⟨l', h2, -⟩ := hd
  cases l with
  | nil =>
    unfold memdup at h1
    split at h1
    · cases h1
    · rename_i h0
      split at h1
      · cases h1
      · rw [List.take_length] at h1
        rw [Outcome.ok.inj h1] at h0
        exact absurd rfl h0
  | cons r rs =>
    rw [List.mapM_cons, Outcome.bind_eq_ok] at h2
    obtain ⟨r', h3, -⟩ := h2
    rw [mapM_ub]
    · rfl
    · rw [Outcome.bind_eq_ok] at h3
      obtain ⟨a, e, h3⟩ := h3
      rw [e, Outcome.bind_ok]
      rw [Outcome.bind_eq_ok] at h3
      obtain ⟨a, e, h3⟩ := h3
      rw [e, Outcome.bind_ok]
      rw [Outcome.bind_eq_ok] at h3
      obtain ⟨a, e, h3⟩ := h3
      rw [e, Outcome.bind_ok]
      rw [Outcome.bind_eq_ok] at h3
      obtain ⟨a, e, h3⟩ := h3
      rw [e, Outcome.bind_ok]
      rw [Outcome.bind_eq_ok] at h3
      obtain ⟨a, e, h3⟩ := h3
      rw [e, Outcome.bind_ok]
      unfold memdupRefmapM
      rw [if_pos h.1, machine_over h.2]
      rfl

/-! ### Writing -/

theorem write_small {t : OiVis R} (h : ¬ TooLarge bits t) (v : Int) : write_oi_visM bits t v = write_oi_vis t v := by
  have : writeVisRefmapM bits t = writeVisRefmap t := by
    unfold writeVisRefmapM writeVisRefmap
    split
    · rename_i hu
      have hh : Holds bits (t.nwave * t.nwave) := Classical.byContradiction fun hc => h ⟨hu, hc⟩
      rw [machine_eq hh]
      rfl
    · rfl
  unfold write_oi_visM write_oi_vis write_oi_vis_optM write_oi_vis_opt
  rw [this]

theorem write_large {t : OiVis R} (h : TooLarge bits t) {v : Int} {s s' : FState R} (hs : s.status = .ok)
    (hw : write_oi_vis t v s = .ok ((), s')) : write_oi_visM bits t v s = .ub := by
  unfold write_oi_vis write_oi_vis_opt at hw
  unfold write_oi_visM write_oi_vis_optM
  rw [guardStatus_ok hs] at hw ⊢
  refine Over.after (φ := fun _ _ => True) (.refl _) (fun _ => Over.after (.refl _) fun _ => Over.after (.refl _) fun _ =>
    Over.after (.refl _) fun _ => Over.after (.refl _) fun _ => Over.after (.refl _) fun _ => Over.after (.refl _) fun _ =>
    Over.after (.refl _) fun _ => Over.after (.refl _) fun _ => Over.after (.refl _) fun _ => Over.after (.refl _) fun _ =>
    Over.before (ψ := fun _ _ => True) ?_ fun _ _ _ _ _ _ => trivial) s () s' hw trivial
  intro s1 a s2 _ _
  unfold writeVisRefmapM
  rw [if_pos h.1, machine_over h.2]
  rfl

/-! ### Filtering -/

theorem foldlM_congr_mem {σ : Type} {f g : σ → α → Outcome σ} {l : List α} (h : ∀ x ∈ l, ∀ s, f s x = g s x) (s : σ) :
    l.foldlM f s = l.foldlM g s := by
  induction l generalizing s with
  | nil => rfl
  | cons x xs ih =>
    rw [List.foldlM_cons, List.foldlM_cons, h x List.mem_cons_self]
    exact outcome_bind_congr fun a _ => ih (fun y hy => h y (List.mem_cons_of_mem _ hy)) a

theorem useLoop_congr {σ : Type} {n : Nat} {u : List Bool} {f g : Nat → σ → Outcome σ}
    (h : ∀ j, j < n → ∀ s, f j s = g j s) (s : σ) : useLoop n u f s = useLoop n u g s := by
  unfold useLoop loopN
  refine foldlM_congr_mem (fun j hj s => ?_) s
  simp only [h j (List.mem_range.mp hj)]

theorem refmapRow_small {useWave : List Bool} {nIn nOut : Nat} (hi : Holds bits (nIn * nIn)) (ho : Holds bits (nOut * nOut))
    (r : OiVisRecord R) {j : Nat} (hj : j < nIn) (k : Nat) (buf : List Bool) :
    visRefmapRowM bits useWave nIn nOut r j k buf = visRefmapRow useWave nIn nOut r j k buf := by
  unfold visRefmapRowM visRefmapRow
  congr 1
  refine useLoop_congr (fun l hl s => ?_) _
  have h1 : j * nIn + nIn ≤ nIn * nIn := by
    have := Nat.mul_le_mul_right nIn (Nat.succ_le_of_lt hj)
    rwa [Nat.succ_mul] at this
  have e1 : machine bits ((j : Int) * nIn) = .ok ((j * nIn : Nat) : Int) := by
    rw [← Int.natCast_mul]
    refine machine_eq (holds_le hi (Int.natCast_nonneg _) ?_)
    rw [← Int.natCast_mul]
    exact Int.ofNat_le.mpr (by omega)
  have e2 : machine bits ((l : Int) + ((j * nIn : Nat) : Int)) = .ok ((l + j * nIn : Nat) : Int) := by
    rw [← Int.natCast_add]
    refine machine_eq (holds_le hi (Int.natCast_nonneg _) ?_)
    rw [← Int.natCast_mul]
    exact Int.ofNat_le.mpr (by omega)
  rw [e1, Outcome.bind_ok, e2, Outcome.bind_ok, Int.toNat_natCast]
  refine outcome_bind_congr fun x _ => ?_
  by_cases hc : s.1 + k * nOut < nOut * nOut
  · have e3 : machine bits ((k : Int) * nOut) = .ok ((k * nOut : Nat) : Int) := by
      rw [← Int.natCast_mul]
      refine machine_eq (holds_le ho (Int.natCast_nonneg _) ?_)
      rw [← Int.natCast_mul]
      exact Int.ofNat_le.mpr (by omega)
    have e4 : machine bits ((s.1 : Int) + ((k * nOut : Nat) : Int)) = .ok ((s.1 + k * nOut : Nat) : Int) := by
      rw [← Int.natCast_add]
      refine machine_eq (holds_le ho (Int.natCast_nonneg _) ?_)
      rw [← Int.natCast_mul]
      exact Int.ofNat_le.mpr (by omega)
    rw [e3, Outcome.bind_ok, e4, Outcome.bind_ok, Int.toNat_natCast]
  · rw [if_neg (fun h => hc h.1)]
    by_cases h3 : Holds bits ((k : Int) * nOut)
    · rw [machine_eq h3, Outcome.bind_ok]
      by_cases h4 : Holds bits ((s.1 : Int) + (k : Int) * nOut)
      · rw [machine_eq h4, Outcome.bind_ok, if_neg]
        rintro ⟨h5, -⟩
        rw [← Int.natCast_mul, ← Int.natCast_add, Int.toNat_natCast] at h5
        exact hc h5
      · rw [machine_over h4]; rfl
    · rw [machine_over h3]; rfl

theorem filter_record_small {f : FilterSpec R} {w : Option (OiWavelength R)} {useWave : List Bool} {nIn nOut : Nat}
    {m c : Bool} (hm : m = true → Holds bits (nIn * nIn) ∧ Holds bits (nOut * nOut)) (r : OiVisRecord R) :
    filter_oi_vis_recordM bits f w useWave nIn nOut m c r = filter_oi_vis_record f w useWave nIn nOut m c r := by
  unfold filter_oi_vis_recordM filter_oi_vis_record
  refine outcome_bind_congr fun _ _ => ?_
  have h1 : newRefmapSize bits m nOut = .ok (if m = true then (nOut : Int) * nOut else 0) := by
    unfold newRefmapSize
    split
    · rename_i h; exact machine_eq (hm h).2
    · rfl
  rw [h1, Outcome.bind_ok]
  congr 1
  refine useLoop_congr (fun j hj s => ?_) _
  have h2 : visRefmapIfM bits m useWave nIn nOut r j s.k s.visrefmap = visRefmapIf m useWave nIn nOut r j s.k s.visrefmap := by
    unfold visRefmapIfM visRefmapIf
    split
    · rename_i h; exact refmapRow_small (hm h).1 (hm h).2 r hj _ _
    · rfl
  unfold filterVisChanM filterVisChan
  rw [h2]

theorem countUse_le {n m : Nat} {u : List Bool} (h : countUse n u = .ok m) : m ≤ n := by
  unfold countUse useLoop loopN at h
  have key (l : List Nat) (k k' : Nat) (h : l.foldlM (fun s i => do
      let b ← index u i
      if b then pure (s + 1) else pure s) k = Outcome.ok k') : k' ≤ k + l.length := by
    induction l generalizing k with
    | nil => have := Outcome.ok.inj h; simp; omega
    | cons x xs ih =>
      rw [List.foldlM_cons, Outcome.bind_eq_ok] at h
      obtain ⟨k1, h1, h2⟩ := h
      rw [Outcome.bind_eq_ok] at h1
      obtain ⟨b, -, h1⟩ := h1
      have := ih k1 h2
      have hk : k1 ≤ k + 1 := by
        split at h1
        · have := Outcome.ok.inj h1; omega
        · have := Outcome.ok.inj h1; omega
      simp only [List.length_cons]
      omega
  have := key _ _ _ h
  simpa using this

theorem filter_small {t : OiVis R} (h : ¬ TooLarge bits t) (f : FilterSpec R) (w : Option (OiWavelength R))
    (useWave : List Bool) : filter_oi_visM bits t f w useWave = filter_oi_vis t f w useWave := by
  unfold filter_oi_visM filter_oi_vis
  refine outcome_bind_congr fun n hn => outcome_bind_congr fun _ _ => ?_
  have hle := countUse_le hn
  have : filter_oi_vis_recordM bits f w useWave t.nwave n t.usevisrefmap t.usecomplex =
      filter_oi_vis_record f w useWave t.nwave n t.usevisrefmap t.usecomplex := by
    funext r
    refine filter_record_small (fun hu => ?_) r
    have hh : Holds bits (t.nwave * t.nwave) := Classical.byContradiction fun hc => h ⟨hu, hc⟩
    refine ⟨hh, holds_le hh (by rw [← Int.natCast_mul]; exact Int.natCast_nonneg _) ?_⟩
    rw [← Int.natCast_mul, ← Int.natCast_mul]
    exact Int.ofNat_le.mpr (Nat.mul_le_mul hle hle)
  rw [this]

end Verif
