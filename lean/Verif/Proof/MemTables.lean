import Verif.Proof.MemBasic

/-! Allocating, copying and freeing tables. -/

namespace Verif.Mem

/-! ### Tables whose pointers are in order -/

def Array.Ok (t : Array) : Prop := t.elem ≠ none
def Target.Ok (t : Target) : Prop := 0 < t.ntarget → t.targ ≠ none
def Wave.Ok (t : Wave) : Prop := t.eff_wave ≠ none ∧ t.eff_band ≠ none
def Corr.Ok (t : Corr) : Prop := t.iindx ≠ none ∧ t.jindx ≠ none ∧ t.corr ≠ none
def InspolRec.Ok (r : InspolRec) : Prop :=
  r.jxx ≠ none ∧ r.jyy ≠ none ∧ r.jxy ≠ none ∧ r.jyx ≠ none
def Inspol.Ok (t : Inspol) : Prop :=
  t.record ≠ none ∧ t.recs.length = t.numrec ∧ ∀ r ∈ t.recs, r.Ok
def VisRec.Ok (refmap complex : Bool) (r : VisRec) : Prop :=
  r.visamp ≠ none ∧ r.visamperr ≠ none ∧ r.visphi ≠ none ∧ r.visphierr ≠ none ∧ r.flag ≠ none ∧
  (refmap = true → r.visrefmap ≠ none) ∧
  (complex = true → r.rvis ≠ none ∧ r.rviserr ≠ none ∧ r.ivis ≠ none ∧ r.iviserr ≠ none)
def Vis.Ok (t : Vis) : Prop :=
  t.record ≠ none ∧ t.recs.length = t.numrec ∧ ∀ r ∈ t.recs, r.Ok t.usevisrefmap t.usecomplex
def Vis2Rec.Ok (r : Vis2Rec) : Prop := r.vis2data ≠ none ∧ r.vis2err ≠ none ∧ r.flag ≠ none
def Vis2.Ok (t : Vis2) : Prop :=
  t.record ≠ none ∧ t.recs.length = t.numrec ∧ ∀ r ∈ t.recs, r.Ok
def T3Rec.Ok (r : T3Rec) : Prop :=
  r.t3amp ≠ none ∧ r.t3amperr ≠ none ∧ r.t3phi ≠ none ∧ r.t3phierr ≠ none ∧ r.flag ≠ none
def T3.Ok (t : T3) : Prop :=
  t.record ≠ none ∧ t.recs.length = t.numrec ∧ ∀ r ∈ t.recs, r.Ok
def FluxRec.Ok (r : FluxRec) : Prop := r.fluxdata ≠ none ∧ r.fluxerr ≠ none ∧ r.flag ≠ none
def Flux.Ok (t : Flux) : Prop :=
  t.record ≠ none ∧ t.recs.length = t.numrec ∧ ∀ r ∈ t.recs, r.Ok

variable {M : Multiset Nat}

/-! ### Allocation -/

theorem alloc_array (t : Array) (n : Nat) :
    Triple (Own M) (alloc_oi_array t n)
      (fun t' h => Own (t'.inner + M) h ∧ t'.Ok ∧ t'.self = t.self ∧ t'.arrname = t.arrname) := by
  unfold alloc_oi_array
  apply malloc_bind; intro p hp _
  exact Triple.pure fun h hh => ⟨hh, hp, rfl, rfl⟩

theorem alloc_target (t : Target) (n : Nat) :
    Triple (Own M) (alloc_oi_target t n)
      (fun t' h => Own (t'.inner + M) h ∧ t'.targ ≠ none ∧ t'.ntarget = n) := by
  unfold alloc_oi_target
  apply malloc_bind; intro p hp _
  exact Triple.pure fun h hh => ⟨hh, hp, rfl⟩

theorem alloc_wave (t : Wave) (n : Nat) :
    Triple (Own M) (alloc_oi_wavelength t n)
      (fun t' h => Own (t'.inner + M) h ∧ t'.Ok ∧ t'.self = t.self ∧ t'.insname = t.insname) := by
  unfold alloc_oi_wavelength
  apply malloc_bind; intro p hp _
  apply malloc_bind; intro q hq _
  refine Triple.pure fun h hh => ⟨?_, ⟨hp, hq⟩, rfl, rfl⟩
  have e : blk p + blk q + M = blk q + (blk p + M) := by abel
  exact e ▸ hh

theorem alloc_corr (t : Corr) (n : Nat) :
    Triple (Own M) (alloc_oi_corr t n)
      (fun t' h => Own (t'.inner + M) h ∧ t'.Ok ∧ t'.self = t.self ∧
        t'.corrname = t.corrname) := by
  unfold alloc_oi_corr
  apply malloc_bind; intro p hp _
  apply malloc_bind; intro q hq _
  apply malloc_bind; intro r hr _
  refine Triple.pure fun h hh => ⟨?_, ⟨hp, hq, hr⟩, rfl, rfl⟩
  have e : blk p + (blk q + blk r) + M = blk r + (blk q + (blk p + M)) := by abel
  exact e ▸ hh

theorem alloc_inspol (t : Inspol) (n w : Nat) :
    Triple (Own M) (alloc_oi_inspol t n w)
      (fun t' h => Own (t'.inner + M) h ∧ t'.Ok ∧ t'.self = t.self ∧ t'.arrname = t.arrname) := by
  unfold alloc_oi_inspol
  apply malloc_bind; intro p hp _
  refine Triple.bind (memMap_rule (g := InspolRec.blocks) (S := InspolRec.Ok) (D := 0) _ _
    (Multiset.zero_le _) ?_) ?_
  · intro _ _ M _
    apply malloc_bind; intro p1 h1 _
    apply malloc_bind; intro p2 h2 _
    apply malloc_bind; intro p3 h3 _
    apply malloc_bind; intro p4 h4 _
    refine Triple.pure fun h hh => ⟨?_, h1, h2, h3, h4⟩
    have e : InspolRec.blocks ⟨p1, p2, p3, p4⟩ + M =
      blk p4 + (blk p3 + (blk p2 + (blk p1 + M))) := by simp only [InspolRec.blocks]; abel
    exact e ▸ hh
  · intro recs
    refine Triple.and fun ⟨hr, hl⟩ => Triple.pure fun h hh =>
      ⟨?_, ⟨hp, by simpa using hl, hr⟩, rfl, rfl⟩
    have e : Inspol.inner { t with record := p, numrec := n, nwave := w, recs := recs } + M =
      allOf InspolRec.blocks recs + (blk p + M) := by simp only [Inspol.inner]; abel
    exact e ▸ hh

theorem alloc_vis (t : Vis) (n w : Nat) :
    Triple (Own M) (alloc_oi_vis t n w)
      (fun t' h => Own (t'.inner + M) h ∧ t'.Ok ∧ t'.self = t.self ∧ t'.usevisrefmap = false ∧
        t'.usecomplex = false ∧ t'.arrname = t.arrname ∧ t'.insname = t.insname ∧
        t'.corrname = t.corrname) := by
  unfold alloc_oi_vis
  apply malloc_bind; intro p hp _
  refine Triple.bind (memMap_rule (g := VisRec.blocks false false) (S := VisRec.Ok false false)
    (D := 0) _ _ (Multiset.zero_le _) ?_) ?_
  · intro _ _ M _
    apply malloc_bind; intro p1 h1 _
    apply malloc_bind; intro p2 h2 _
    apply malloc_bind; intro p3 h3 _
    apply malloc_bind; intro p4 h4 _
    apply malloc_bind; intro p5 h5 _
    refine Triple.pure fun h hh => ⟨?_, h1, h2, h3, h4, h5, by simp, by simp⟩
    have e : VisRec.blocks false false ⟨p1, p2, p3, p4, p5, none, none, none, none, none⟩ + M =
      blk p5 + (blk p4 + (blk p3 + (blk p2 + (blk p1 + M)))) := by
        simp only [VisRec.blocks]; simp; abel
    exact e ▸ hh
  · intro recs
    refine Triple.and fun ⟨hr, hl⟩ => Triple.pure fun h hh =>
      ⟨?_, ⟨hp, by simpa using hl, hr⟩, rfl, rfl, rfl, rfl, rfl, rfl⟩
    have e : Vis.inner { t with record := p, numrec := n, nwave := w, recs := recs, usevisrefmap := false, usecomplex := false } + M =
      allOf (VisRec.blocks false false) recs + (blk p + M) := by simp only [Vis.inner]; abel
    exact e ▸ hh

theorem alloc_vis2 (t : Vis2) (n w : Nat) :
    Triple (Own M) (alloc_oi_vis2 t n w)
      (fun t' h => Own (t'.inner + M) h ∧ t'.Ok ∧ t'.self = t.self ∧ t'.arrname = t.arrname ∧
        t'.insname = t.insname ∧ t'.corrname = t.corrname) := by
  unfold alloc_oi_vis2
  apply malloc_bind; intro p hp _
  refine Triple.bind (memMap_rule (g := Vis2Rec.blocks) (S := Vis2Rec.Ok) (D := 0) _ _
    (Multiset.zero_le _) ?_) ?_
  · intro _ _ M _
    apply malloc_bind; intro p1 h1 _
    apply malloc_bind; intro p2 h2 _
    apply malloc_bind; intro p3 h3 _
    refine Triple.pure fun h hh => ⟨?_, h1, h2, h3⟩
    have e : Vis2Rec.blocks ⟨p1, p2, p3⟩ + M =
      blk p3 + (blk p2 + (blk p1 + M)) := by simp only [Vis2Rec.blocks]; abel
    exact e ▸ hh
  · intro recs
    refine Triple.and fun ⟨hr, hl⟩ => Triple.pure fun h hh =>
      ⟨?_, ⟨hp, by simpa using hl, hr⟩, rfl, rfl, rfl, rfl⟩
    have e : Vis2.inner { t with record := p, numrec := n, nwave := w, recs := recs } + M =
      allOf Vis2Rec.blocks recs + (blk p + M) := by simp only [Vis2.inner]; abel
    exact e ▸ hh

theorem alloc_t3 (t : T3) (n w : Nat) :
    Triple (Own M) (alloc_oi_t3 t n w)
      (fun t' h => Own (t'.inner + M) h ∧ t'.Ok ∧ t'.self = t.self ∧ t'.arrname = t.arrname ∧
        t'.insname = t.insname ∧ t'.corrname = t.corrname) := by
  unfold alloc_oi_t3
  apply malloc_bind; intro p hp _
  refine Triple.bind (memMap_rule (g := T3Rec.blocks) (S := T3Rec.Ok) (D := 0) _ _
    (Multiset.zero_le _) ?_) ?_
  · intro _ _ M _
    apply malloc_bind; intro p1 h1 _
    apply malloc_bind; intro p2 h2 _
    apply malloc_bind; intro p3 h3 _
    apply malloc_bind; intro p4 h4 _
    apply malloc_bind; intro p5 h5 _
    refine Triple.pure fun h hh => ⟨?_, h1, h2, h3, h4, h5⟩
    have e : T3Rec.blocks ⟨p1, p2, p3, p4, p5⟩ + M =
      blk p5 + (blk p4 + (blk p3 + (blk p2 + (blk p1 + M)))) := by
        simp only [T3Rec.blocks]; abel
    exact e ▸ hh
  · intro recs
    refine Triple.and fun ⟨hr, hl⟩ => Triple.pure fun h hh =>
      ⟨?_, ⟨hp, by simpa using hl, hr⟩, rfl, rfl, rfl, rfl⟩
    have e : T3.inner { t with record := p, numrec := n, nwave := w, recs := recs } + M =
      allOf T3Rec.blocks recs + (blk p + M) := by simp only [T3.inner]; abel
    exact e ▸ hh

theorem alloc_flux (t : Flux) (n w : Nat) :
    Triple (Own M) (alloc_oi_flux t n w)
      (fun t' h => Own (t'.inner + M) h ∧ t'.Ok ∧ t'.self = t.self ∧ t'.arrname = t.arrname ∧
        t'.insname = t.insname ∧ t'.corrname = t.corrname) := by
  unfold alloc_oi_flux
  apply malloc_bind; intro p hp _
  refine Triple.bind (memMap_rule (g := FluxRec.blocks) (S := FluxRec.Ok) (D := 0) _ _
    (Multiset.zero_le _) ?_) ?_
  · intro _ _ M _
    apply malloc_bind; intro p1 h1 _
    apply malloc_bind; intro p2 h2 _
    apply malloc_bind; intro p3 h3 _
    refine Triple.pure fun h hh => ⟨?_, h1, h2, h3⟩
    have e : FluxRec.blocks ⟨p1, p2, p3⟩ + M =
      blk p3 + (blk p2 + (blk p1 + M)) := by simp only [FluxRec.blocks]; abel
    exact e ▸ hh
  · intro recs
    refine Triple.and fun ⟨hr, hl⟩ => Triple.pure fun h hh =>
      ⟨?_, ⟨hp, by simpa using hl, hr⟩, rfl, rfl, rfl, rfl⟩
    have e : Flux.inner { t with record := p, numrec := n, nwave := w, recs := recs } + M =
      allOf FluxRec.blocks recs + (blk p + M) := by simp only [Flux.inner]; abel
    exact e ▸ hh

/-! ### Freeing -/

theorem free_array (t : Array) : Triple (Own (t.inner + M)) (free_oi_array t) (fun _ => Own M) :=
  free_rule

theorem free_target (t : Target) :
    Triple (Own (t.inner + M)) (free_oi_target t) (fun _ => Own M) := free_rule

theorem free_wave (t : Wave) :
    Triple (Own (t.inner + M)) (free_oi_wavelength t) (fun _ => Own M) := by
  unfold free_oi_wavelength Wave.inner
  refine Triple.of_eq (M := blk t.eff_wave + (blk t.eff_band + M)) ?_ (by abel)
  exact free_bind free_rule

theorem free_corr (t : Corr) : Triple (Own (t.inner + M)) (free_oi_corr t) (fun _ => Own M) := by
  unfold free_oi_corr Corr.inner
  refine Triple.of_eq (M := blk t.iindx + (blk t.jindx + (blk t.corr + M))) ?_ (by abel)
  exact free_bind (free_bind free_rule)

theorem free_inspol (t : Inspol) (ht : t.Ok) :
    Triple (Own (t.inner + M)) (free_oi_inspol t) (fun _ => Own M) := by
  unfold free_oi_inspol Inspol.inner
  refine Triple.of_eq (M := blk t.record + (allOf InspolRec.blocks t.recs + M)) ?_ (by abel)
  refine Triple.bind (recFor_free ht.1 ht.2.1 ?_) (fun _ => free_rule)
  intro r _ M _
  refine Triple.of_eq (M := blk r.jxx + (blk r.jyy + (blk r.jxy + (blk r.jyx + M)))) ?_
    (by simp only [InspolRec.blocks]; abel)
  exact free_bind (free_bind (free_bind free_rule))

theorem free_vis (t : Vis) (ht : t.Ok) :
    Triple (Own (t.inner + M)) (free_oi_vis t) (fun _ => Own M) := by
  unfold free_oi_vis Vis.inner
  refine Triple.of_eq (M := blk t.record +
    (allOf (VisRec.blocks t.usevisrefmap t.usecomplex) t.recs + M)) ?_ (by abel)
  refine Triple.bind (recFor_free ht.1 ht.2.1 ?_) (fun _ => free_rule)
  intro r _ M _
  refine Triple.of_eq (M := blk r.visamp + (blk r.visamperr + (blk r.visphi + (blk r.visphierr +
    (blk r.flag + ((if t.usevisrefmap then blk r.visrefmap else 0) +
     ((if t.usecomplex then blk r.rvis + (blk r.rviserr + (blk r.ivis + blk r.iviserr)) else 0)
      + M))))))) ?_
    (by simp only [VisRec.blocks]; abel)
  apply free_bind; apply free_bind; apply free_bind; apply free_bind; apply free_bind
  cases t.usevisrefmap <;> cases t.usecomplex <;>
    simp only [if_true, Bool.false_eq_true, if_false, zero_add]
  · exact Triple.pure fun _ h => h
  · refine Triple.of_eq (M := blk r.rvis + (blk r.rviserr + (blk r.ivis + (blk r.iviserr + M)))) ?_
      (by abel)
    exact free_bind (free_bind (free_bind free_rule))
  · apply free_bind
    exact Triple.pure fun _ h => h
  · apply free_bind
    refine Triple.of_eq (M := blk r.rvis + (blk r.rviserr + (blk r.ivis + (blk r.iviserr + M)))) ?_
      (by abel)
    exact free_bind (free_bind (free_bind free_rule))

theorem free_vis2 (t : Vis2) (ht : t.Ok) :
    Triple (Own (t.inner + M)) (free_oi_vis2 t) (fun _ => Own M) := by
  unfold free_oi_vis2 Vis2.inner
  refine Triple.of_eq (M := blk t.record + (allOf Vis2Rec.blocks t.recs + M)) ?_ (by abel)
  refine Triple.bind (recFor_free ht.1 ht.2.1 ?_) (fun _ => free_rule)
  intro r _ M _
  refine Triple.of_eq (M := blk r.vis2data + (blk r.vis2err + (blk r.flag + M))) ?_
    (by simp only [Vis2Rec.blocks]; abel)
  exact free_bind (free_bind free_rule)

theorem free_t3 (t : T3) (ht : t.Ok) :
    Triple (Own (t.inner + M)) (free_oi_t3 t) (fun _ => Own M) := by
  unfold free_oi_t3 T3.inner
  refine Triple.of_eq (M := blk t.record + (allOf T3Rec.blocks t.recs + M)) ?_ (by abel)
  refine Triple.bind (recFor_free ht.1 ht.2.1 ?_) (fun _ => free_rule)
  intro r _ M _
  refine Triple.of_eq (M := blk r.t3amp + (blk r.t3amperr + (blk r.t3phi + (blk r.t3phierr +
    (blk r.flag + M))))) ?_ (by simp only [T3Rec.blocks]; abel)
  exact free_bind (free_bind (free_bind (free_bind free_rule)))

theorem free_flux (t : Flux) (ht : t.Ok) :
    Triple (Own (t.inner + M)) (free_oi_flux t) (fun _ => Own M) := by
  unfold free_oi_flux Flux.inner
  refine Triple.of_eq (M := blk t.record + (allOf FluxRec.blocks t.recs + M)) ?_ (by abel)
  refine Triple.bind (recFor_free ht.1 ht.2.1 ?_) (fun _ => free_rule)
  intro r _ M _
  refine Triple.of_eq (M := blk r.fluxdata + (blk r.fluxerr + (blk r.flag + M))) ?_
    (by simp only [FluxRec.blocks]; abel)
  exact free_bind (free_bind free_rule)

/-! ### Copying -/

theorem dup_array (t : Array) (hs : t.self ≠ none) (ht : t.Ok) (hD : t.blocks ≤ M) :
    Triple (Own M) (dup_oi_array t)
      (fun t' h => Own (t'.blocks + M) h ∧ t'.Ok ∧ t'.self ≠ none ∧ t'.arrname = t.arrname) := by
  unfold dup_oi_array
  have h1 : Held t.self M := held_of_le hs (le_trans (Multiset.le_add_right _ _) hD)
  have h2 : Held t.elem M := held_of_le ht (le_trans (Multiset.le_add_left _ _) hD)
  apply memdup_bind h1; intro p hp _
  apply memdup_bind (held_add.mpr (.inr h2)); intro q hq _
  refine Triple.pure fun h hh => ⟨?_, hq, hp, rfl⟩
  have e : blk p + blk q + M = blk q + (blk p + M) := by abel
  exact e ▸ hh

theorem dup_wave (t : Wave) (hs : t.self ≠ none) (ht : t.Ok) (hD : t.blocks ≤ M) :
    Triple (Own M) (dup_oi_wavelength t)
      (fun t' h => Own (t'.blocks + M) h ∧ t'.Ok ∧ t'.self ≠ none ∧ t'.insname = t.insname) := by
  unfold dup_oi_wavelength
  have h0 : Held t.self t.blocks := held_add.mpr (.inl (held_blk hs))
  have h1 : Held t.eff_wave t.blocks :=
    held_add.mpr (.inr (held_add.mpr (.inl (held_blk ht.1))))
  have h2 : Held t.eff_band t.blocks :=
    held_add.mpr (.inr (held_add.mpr (.inr (held_blk ht.2))))
  apply memdup_bind (h0.mono hD); intro p hp _
  apply memdup_bind (held_add.mpr (.inr (h1.mono hD))); intro q hq _
  apply memdup_bind (held_add.mpr (.inr (held_add.mpr (.inr (h2.mono hD))))); intro r hr _
  refine Triple.pure fun h hh => ⟨?_, ⟨hq, hr⟩, hp, rfl⟩
  have e : blk p + (blk q + blk r) + M = blk r + (blk q + (blk p + M)) := by abel
  exact e ▸ hh

theorem dup_corr (t : Corr) (hs : t.self ≠ none) (ht : t.Ok) (hD : t.blocks ≤ M) :
    Triple (Own M) (dup_oi_corr t)
      (fun t' h => Own (t'.blocks + M) h ∧ t'.Ok ∧ t'.self ≠ none ∧
        t'.corrname = t.corrname) := by
  unfold dup_oi_corr
  have h0 : Held t.self M := Held.mono (held_add.mpr (.inl (held_blk hs))) hD
  have h1 : Held t.iindx M :=
    Held.mono (held_add.mpr (.inr (held_add.mpr (.inl (held_blk ht.1))))) hD
  have h2 : Held t.jindx M := Held.mono
    (held_add.mpr (.inr (held_add.mpr (.inr (held_add.mpr (.inl (held_blk ht.2.1))))))) hD
  have h3 : Held t.corr M := Held.mono
    (held_add.mpr (.inr (held_add.mpr (.inr (held_add.mpr (.inr (held_blk ht.2.2))))))) hD
  apply memdup_bind h0; intro p hp _
  apply memdup_bind (by simp [held_add, h1]); intro q hq _
  apply memdup_bind (by simp [held_add, h2]); intro r hr _
  apply memdup_bind (by simp [held_add, h3]); intro s hs _
  refine Triple.pure fun h hh => ⟨?_, ⟨hq, hr, hs⟩, hp, rfl⟩
  have e : blk p + (blk q + (blk r + blk s)) + M = blk s + (blk r + (blk q + (blk p + M))) := by
    abel
  exact e ▸ hh

theorem held_self {s : Ptr} {B : Multiset Nat} (h : s ≠ none) (hD : blk s + B ≤ M) : Held s M :=
  Held.mono (held_add.mpr (.inl (held_blk h))) hD

theorem held_record {s r : Ptr} {B : Multiset Nat} (h : r ≠ none) (hD : blk s + (blk r + B) ≤ M) :
    Held r M :=
  Held.mono (held_add.mpr (.inr (held_add.mpr (.inl (held_blk h))))) hD

theorem le_rec {ρ : Type} {s r : Ptr} {f : ρ → Multiset Nat} {l : List ρ} {x : ρ} (h : x ∈ l)
    (hD : blk s + (blk r + allOf f l) ≤ M) : f x ≤ M :=
  le_trans (le_allOf h) (le_trans (Multiset.le_add_left _ _)
    (le_trans (Multiset.le_add_left _ _) hD))

theorem dup_inspol (t : Inspol) (hs : t.self ≠ none) (ht : t.Ok) (hD : t.blocks ≤ M) :
    Triple (Own M) (dup_oi_inspol t)
      (fun t' h => Own (t'.blocks + M) h ∧ t'.Ok ∧ t'.self ≠ none) := by
  unfold dup_oi_inspol
  apply memdup_bind (held_self hs hD); intro p hp _
  apply memdup_bind (held_add.mpr (.inr (held_record ht.1 hD))); intro q hq _
  refine Triple.bind (memMap_rule (g := InspolRec.blocks) (S := InspolRec.Ok) (D := t.blocks) _ _
    (le_trans hD (le_trans (Multiset.le_add_left _ _) (Multiset.le_add_left _ _))) ?_) ?_
  · intro i hi M hD
    have hi' : i < t.recs.length := by rw [ht.2.1]; exact List.mem_range.mp hi
    apply recAt_bind (held_record ht.1 hD) hi'
    have hm : t.recs[i] ∈ t.recs := List.getElem_mem hi'
    generalize t.recs[i] = r at hm
    obtain ⟨h1, h2, h3, h4⟩ := ht.2.2 r hm
    have hle : r.blocks ≤ M := le_rec hm hD
    have e1 : Held r.jxx M := Held.mono (by simp [InspolRec.blocks, held_add, held_blk h1]) hle
    have e2 : Held r.jyy M := Held.mono (by simp [InspolRec.blocks, held_add, held_blk h2]) hle
    have e3 : Held r.jxy M := Held.mono (by simp [InspolRec.blocks, held_add, held_blk h3]) hle
    have e4 : Held r.jyx M := Held.mono (by simp [InspolRec.blocks, held_add, held_blk h4]) hle
    apply memdup_bind e1; intro p1 h1 _
    apply memdup_bind (by simp [held_add, e2]); intro p2 h2 _
    apply memdup_bind (by simp [held_add, e3]); intro p3 h3 _
    apply memdup_bind (by simp [held_add, e4]); intro p4 h4 _
    refine Triple.pure fun h hh => ⟨?_, h1, h2, h3, h4⟩
    have e : InspolRec.blocks ⟨p1, p2, p3, p4⟩ + M =
      blk p4 + (blk p3 + (blk p2 + (blk p1 + M))) := by simp only [InspolRec.blocks]; abel
    exact e ▸ hh
  · intro recs
    refine Triple.and fun ⟨hr, hl⟩ => Triple.pure fun h hh =>
      ⟨?_, ⟨hq, by simpa using hl, hr⟩, hp⟩
    have e : Inspol.blocks { t with self := p, record := q, recs := recs } + M =
      allOf InspolRec.blocks recs + (blk q + (blk p + M)) := by
        simp only [Inspol.blocks, Inspol.inner]; abel
    exact e ▸ hh

/-- Blocks of the optional columns of a record, by the flags of a table. -/
def optBlocks (refmap complex : Bool) (r : VisRec) : Multiset Nat :=
  (if refmap then blk r.visrefmap else 0) +
    (if complex then blk r.rvis + (blk r.rviserr + (blk r.ivis + blk r.iviserr)) else 0)

theorem dup_vis_opt {β : Type} (t : Vis) (r : VisRec) (hr : r.Ok t.usevisrefmap t.usecomplex)
    (hD : r.blocks t.usevisrefmap t.usecomplex ≤ M) {f : VisRec → Mem β} {Q : β → Heap → Prop}
    (H : ∀ r2 : VisRec, (t.usevisrefmap = true → r2.visrefmap ≠ none) →
      (t.usecomplex = true → r2.rvis ≠ none ∧ r2.rviserr ≠ none ∧ r2.ivis ≠ none ∧
        r2.iviserr ≠ none) →
      Triple (Own (optBlocks t.usevisrefmap t.usecomplex r2 + M)) (f r2) Q) :
    Triple (Own M) (dupVisRefmap t r >>= fun r1 => dupVisComplex t r1 >>= f) Q := by
  obtain ⟨_, _, _, _, _, h6, h7⟩ := hr
  have key : ∀ (r1 : VisRec) (M' : Multiset Nat),
      (t.usevisrefmap = true → r1.visrefmap ≠ none) → r1.rvis = r.rvis → r1.rviserr = r.rviserr →
      r1.ivis = r.ivis → M ≤ M' →
      M' = (if t.usevisrefmap then blk r1.visrefmap else 0) + M →
      Triple (Own M') (dupVisComplex t r1 >>= f) Q := by
    intro r1 M' hn e1 e2 e3 hM e
    subst e
    unfold dupVisComplex
    cases hc : t.usecomplex with
    | false =>
      simp only [Bool.false_eq_true, if_false, pure_bind]
      have := H r1 hn (by simp [hc])
      refine Triple.of_eq this ?_
      simp only [optBlocks, hc, Bool.false_eq_true, if_false, add_zero]
    | true =>
      simp only [if_true, bind_assoc, pure_bind]
      rw [hc] at hD h7
      obtain ⟨k1, k2, k3, k4⟩ := h7 rfl
      have hD' : r.blocks t.usevisrefmap true ≤
          (if t.usevisrefmap then blk r1.visrefmap else 0) + M := le_trans hD hM
      have g1 : Held r.rvis ((if t.usevisrefmap then blk r1.visrefmap else 0) + M) :=
        Held.mono (by simp [VisRec.blocks, held_add, held_blk k1]) hD'
      have g2 : Held r.rviserr ((if t.usevisrefmap then blk r1.visrefmap else 0) + M) :=
        Held.mono (by simp [VisRec.blocks, held_add, held_blk k2]) hD'
      have g3 : Held r.ivis ((if t.usevisrefmap then blk r1.visrefmap else 0) + M) :=
        Held.mono (by simp [VisRec.blocks, held_add, held_blk k3]) hD'
      apply memdup_bind (e1 ▸ g1); intro p1 h1 _
      apply memdup_bind (held_add.mpr (.inr (e2 ▸ g2))); intro p2 h2 _
      apply memdup_bind (held_add.mpr (.inr (held_add.mpr (.inr (e3 ▸ g3))))); intro p3 h3 _
      apply memdup_bind
        (held_add.mpr (.inr (held_add.mpr (.inr (held_add.mpr (.inr (e2 ▸ g2))))))); intro p4 h4 _
      have := H { r1 with rvis := p1, rviserr := p2, ivis := p3, iviserr := p4 } hn
        (fun _ => ⟨h1, h2, h3, h4⟩)
      refine Triple.of_eq this ?_
      simp only [optBlocks, hc, if_true]
      abel
  unfold dupVisRefmap
  cases hm : t.usevisrefmap with
  | false =>
    simp only [Bool.false_eq_true, if_false, pure_bind]
    exact key r M (by simp [hm]) rfl rfl rfl (le_refl _) (by simp [hm])
  | true =>
    simp only [if_true, bind_assoc, pure_bind]
    rw [hm] at h6
    have g : Held r.visrefmap M :=
      Held.mono (by simp [VisRec.blocks, hm, held_add, held_blk (h6 rfl)]) hD
    apply memdup_bind g; intro p hp _
    exact key { r with visrefmap := p } (blk p + M) (fun _ => hp) rfl rfl rfl
      (Multiset.le_add_left _ _) (by simp [hm])

theorem dup_vis (t : Vis) (hs : t.self ≠ none) (ht : t.Ok) (hD : t.blocks ≤ M) :
    Triple (Own M) (dup_oi_vis t)
      (fun t' h => Own (t'.blocks + M) h ∧ t'.Ok ∧ t'.self ≠ none) := by
  unfold dup_oi_vis
  apply memdup_bind (held_self hs hD); intro p hp _
  apply memdup_bind (held_add.mpr (.inr (held_record ht.1 hD))); intro q hq _
  refine Triple.bind (memMap_rule (g := VisRec.blocks t.usevisrefmap t.usecomplex)
    (S := VisRec.Ok t.usevisrefmap t.usecomplex) (D := t.blocks) _ _
    (le_trans hD (le_trans (Multiset.le_add_left _ _) (Multiset.le_add_left _ _))) ?_) ?_
  · intro i hi M hD
    have hi' : i < t.recs.length := by rw [ht.2.1]; exact List.mem_range.mp hi
    apply recAt_bind (held_record ht.1 hD) hi'
    have hm : t.recs[i] ∈ t.recs := List.getElem_mem hi'
    generalize t.recs[i] = r at hm
    have hok := ht.2.2 r hm
    obtain ⟨h1, h2, h3, h4, h5, _, _⟩ := id hok
    have hle : r.blocks t.usevisrefmap t.usecomplex ≤ M := le_rec hm hD
    have e1 : Held r.visamp M := Held.mono (by simp [VisRec.blocks, held_add, held_blk h1]) hle
    have e2 : Held r.visamperr M := Held.mono (by simp [VisRec.blocks, held_add, held_blk h2]) hle
    have e3 : Held r.visphi M := Held.mono (by simp [VisRec.blocks, held_add, held_blk h3]) hle
    have e4 : Held r.visphierr M := Held.mono (by simp [VisRec.blocks, held_add, held_blk h4]) hle
    have e5 : Held r.flag M := Held.mono (by simp [VisRec.blocks, held_add, held_blk h5]) hle
    apply memdup_bind e1; intro p1 h1 _
    apply memdup_bind (by simp [held_add, e2]); intro p2 h2 _
    apply memdup_bind (by simp [held_add, e3]); intro p3 h3 _
    apply memdup_bind (by simp [held_add, e4]); intro p4 h4 _
    apply memdup_bind (by simp [held_add, e5]); intro p5 h5 _
    refine dup_vis_opt t r hok (le_trans hle ?_) ?_
    · refine le_trans (Multiset.le_add_left _ (blk p1)) ?_
      refine le_trans (Multiset.le_add_left _ (blk p2)) ?_
      refine le_trans (Multiset.le_add_left _ (blk p3)) ?_
      refine le_trans (Multiset.le_add_left _ (blk p4)) ?_
      exact Multiset.le_add_left _ (blk p5)
    · intro r2 k1 k2
      refine Triple.pure fun h hh => ⟨?_, h1, h2, h3, h4, h5, k1, k2⟩
      have e : VisRec.blocks t.usevisrefmap t.usecomplex
          { r2 with visamp := p1, visamperr := p2, visphi := p3, visphierr := p4, flag := p5 } + M =
        optBlocks t.usevisrefmap t.usecomplex r2 +
          (blk p5 + (blk p4 + (blk p3 + (blk p2 + (blk p1 + M))))) := by
        simp only [VisRec.blocks, optBlocks]; abel
      exact e ▸ hh
  · intro recs
    refine Triple.and fun ⟨hr, hl⟩ => Triple.pure fun h hh =>
      ⟨?_, ⟨hq, by simpa using hl, hr⟩, hp⟩
    have e : Vis.blocks { t with self := p, record := q, recs := recs } + M =
      allOf (VisRec.blocks t.usevisrefmap t.usecomplex) recs + (blk q + (blk p + M)) := by
        simp only [Vis.blocks, Vis.inner]; abel
    exact e ▸ hh

theorem dup_vis2 (t : Vis2) (hs : t.self ≠ none) (ht : t.Ok) (hD : t.blocks ≤ M) :
    Triple (Own M) (dup_oi_vis2 t)
      (fun t' h => Own (t'.blocks + M) h ∧ t'.Ok ∧ t'.self ≠ none) := by
  unfold dup_oi_vis2
  apply memdup_bind (held_self hs hD); intro p hp _
  apply memdup_bind (held_add.mpr (.inr (held_record ht.1 hD))); intro q hq _
  refine Triple.bind (memMap_rule (g := Vis2Rec.blocks) (S := Vis2Rec.Ok) (D := t.blocks) _ _
    (le_trans hD (le_trans (Multiset.le_add_left _ _) (Multiset.le_add_left _ _))) ?_) ?_
  · intro i hi M hD
    have hi' : i < t.recs.length := by rw [ht.2.1]; exact List.mem_range.mp hi
    apply recAt_bind (held_record ht.1 hD) hi'
    have hm : t.recs[i] ∈ t.recs := List.getElem_mem hi'
    generalize t.recs[i] = r at hm
    obtain ⟨h1, h2, h3⟩ := ht.2.2 r hm
    have hle : r.blocks ≤ M := le_rec hm hD
    have e1 : Held r.vis2data M := Held.mono (by simp [Vis2Rec.blocks, held_add, held_blk h1]) hle
    have e2 : Held r.vis2err M := Held.mono (by simp [Vis2Rec.blocks, held_add, held_blk h2]) hle
    have e3 : Held r.flag M := Held.mono (by simp [Vis2Rec.blocks, held_add, held_blk h3]) hle
    apply memdup_bind e1; intro p1 h1 _
    apply memdup_bind (by simp [held_add, e2]); intro p2 h2 _
    apply memdup_bind (by simp [held_add, e3]); intro p3 h3 _
    refine Triple.pure fun h hh => ⟨?_, h1, h2, h3⟩
    have e : Vis2Rec.blocks ⟨p1, p2, p3⟩ + M =
      blk p3 + (blk p2 + (blk p1 + M)) := by simp only [Vis2Rec.blocks]; abel
    exact e ▸ hh
  · intro recs
    refine Triple.and fun ⟨hr, hl⟩ => Triple.pure fun h hh =>
      ⟨?_, ⟨hq, by simpa using hl, hr⟩, hp⟩
    have e : Vis2.blocks { t with self := p, record := q, recs := recs } + M =
      allOf Vis2Rec.blocks recs + (blk q + (blk p + M)) := by
        simp only [Vis2.blocks, Vis2.inner]; abel
    exact e ▸ hh

theorem dup_t3 (t : T3) (hs : t.self ≠ none) (ht : t.Ok) (hD : t.blocks ≤ M) :
    Triple (Own M) (dup_oi_t3 t)
      (fun t' h => Own (t'.blocks + M) h ∧ t'.Ok ∧ t'.self ≠ none) := by
  unfold dup_oi_t3
  apply memdup_bind (held_self hs hD); intro p hp _
  apply memdup_bind (held_add.mpr (.inr (held_record ht.1 hD))); intro q hq _
  refine Triple.bind (memMap_rule (g := T3Rec.blocks) (S := T3Rec.Ok) (D := t.blocks) _ _
    (le_trans hD (le_trans (Multiset.le_add_left _ _) (Multiset.le_add_left _ _))) ?_) ?_
  · intro i hi M hD
    have hi' : i < t.recs.length := by rw [ht.2.1]; exact List.mem_range.mp hi
    apply recAt_bind (held_record ht.1 hD) hi'
    have hm : t.recs[i] ∈ t.recs := List.getElem_mem hi'
    generalize t.recs[i] = r at hm
    obtain ⟨h1, h2, h3, h4, h5⟩ := ht.2.2 r hm
    have hle : r.blocks ≤ M := le_rec hm hD
    have e1 : Held r.t3amp M := Held.mono (by simp [T3Rec.blocks, held_add, held_blk h1]) hle
    have e2 : Held r.t3amperr M := Held.mono (by simp [T3Rec.blocks, held_add, held_blk h2]) hle
    have e3 : Held r.t3phi M := Held.mono (by simp [T3Rec.blocks, held_add, held_blk h3]) hle
    have e4 : Held r.t3phierr M := Held.mono (by simp [T3Rec.blocks, held_add, held_blk h4]) hle
    have e5 : Held r.flag M := Held.mono (by simp [T3Rec.blocks, held_add, held_blk h5]) hle
    apply memdup_bind e1; intro p1 h1 _
    apply memdup_bind (by simp [held_add, e2]); intro p2 h2 _
    apply memdup_bind (by simp [held_add, e3]); intro p3 h3 _
    apply memdup_bind (by simp [held_add, e4]); intro p4 h4 _
    apply memdup_bind (by simp [held_add, e5]); intro p5 h5 _
    refine Triple.pure fun h hh => ⟨?_, h1, h2, h3, h4, h5⟩
    have e : T3Rec.blocks ⟨p1, p2, p3, p4, p5⟩ + M =
      blk p5 + (blk p4 + (blk p3 + (blk p2 + (blk p1 + M)))) := by
        simp only [T3Rec.blocks]; abel
    exact e ▸ hh
  · intro recs
    refine Triple.and fun ⟨hr, hl⟩ => Triple.pure fun h hh =>
      ⟨?_, ⟨hq, by simpa using hl, hr⟩, hp⟩
    have e : T3.blocks { t with self := p, record := q, recs := recs } + M =
      allOf T3Rec.blocks recs + (blk q + (blk p + M)) := by
        simp only [T3.blocks, T3.inner]; abel
    exact e ▸ hh

theorem dup_flux (t : Flux) (hs : t.self ≠ none) (ht : t.Ok) (hD : t.blocks ≤ M) :
    Triple (Own M) (dup_oi_flux t)
      (fun t' h => Own (t'.blocks + M) h ∧ t'.Ok ∧ t'.self ≠ none) := by
  unfold dup_oi_flux
  apply memdup_bind (held_self hs hD); intro p hp _
  apply memdup_bind (held_add.mpr (.inr (held_record ht.1 hD))); intro q hq _
  refine Triple.bind (memMap_rule (g := FluxRec.blocks) (S := FluxRec.Ok) (D := t.blocks) _ _
    (le_trans hD (le_trans (Multiset.le_add_left _ _) (Multiset.le_add_left _ _))) ?_) ?_
  · intro i hi M hD
    have hi' : i < t.recs.length := by rw [ht.2.1]; exact List.mem_range.mp hi
    apply recAt_bind (held_record ht.1 hD) hi'
    have hm : t.recs[i] ∈ t.recs := List.getElem_mem hi'
    generalize t.recs[i] = r at hm
    obtain ⟨h1, h2, h3⟩ := ht.2.2 r hm
    have hle : r.blocks ≤ M := le_rec hm hD
    have e1 : Held r.fluxdata M := Held.mono (by simp [FluxRec.blocks, held_add, held_blk h1]) hle
    have e2 : Held r.fluxerr M := Held.mono (by simp [FluxRec.blocks, held_add, held_blk h2]) hle
    have e3 : Held r.flag M := Held.mono (by simp [FluxRec.blocks, held_add, held_blk h3]) hle
    apply memdup_bind e1; intro p1 h1 _
    apply memdup_bind (by simp [held_add, e2]); intro p2 h2 _
    apply memdup_bind (by simp [held_add, e3]); intro p3 h3 _
    refine Triple.pure fun h hh => ⟨?_, h1, h2, h3⟩
    have e : FluxRec.blocks ⟨p1, p2, p3⟩ + M =
      blk p3 + (blk p2 + (blk p1 + M)) := by simp only [FluxRec.blocks]; abel
    exact e ▸ hh
  · intro recs
    refine Triple.and fun ⟨hr, hl⟩ => Triple.pure fun h hh =>
      ⟨?_, ⟨hq, by simpa using hl, hr⟩, hp⟩
    have e : Flux.blocks { t with self := p, record := q, recs := recs } + M =
      allOf FluxRec.blocks recs + (blk q + (blk p + M)) := by
        simp only [Flux.blocks, Flux.inner]; abel
    exact e ▸ hh

end Verif.Mem
