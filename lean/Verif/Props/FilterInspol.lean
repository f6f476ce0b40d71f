import Verif.Proof.FilterInspol
import Verif.Props.Filter

/-! C36: exactly which OI_INSPOL tables can be filtered. -/

set_option Elab.async false

namespace Verif
open Outcome Spec Classical
variable {R : FP} {f : FilterSpec R} {oi : OiFits R}

/-- C36, exactly. Filtering writes outside of an array if and only if some OI_INSPOL table accepted by its ARRNAME
has a record to be kept with more channels in range than the first record to be kept. -/
theorem C36_overflow_iff (hf : Filterable f oi) (hal : ∀ t ∈ oi.inspolList, InspolAligned f oi t) :
    apply_oi_filter oi f = .ub ↔
      ∃ t ∈ oi.inspolList, Glob f.arrname t.arrname ∧ ∃ r0, (inspolRecs f oi t).head? = some r0 ∧
        ∃ r ∈ inspolRecs f oi t, (instChans f oi r0.insname).length < (instChans f oi r.insname).length := by
  have hfit (t : OiInspol R) : (∃ r0, (inspolRecs f oi t).head? = some r0 ∧ ∃ r ∈ inspolRecs f oi t,
      (instChans f oi r0.insname).length < (instChans f oi r.insname).length) ↔ ¬ InspolFits f oi t := by
    unfold InspolFits
    push Not
    rfl
  simp only [hfit]
  constructor
  · intro h
    by_contra hno
    push Not at hno
    obtain ⟨out, h1, -⟩ := apply_oi_filter_fits hf hal hno
    rw [h1] at h
    cases h
  · exact apply_oi_filter_unfit hf hal

/-- C36. Otherwise filtering gives the tables of the specification. The record of a table is filled completely if and
only if it has as many channels in range as the first record; of the values which the library leaves as they are in
memory the model has none. -/
theorem C36_filled_iff (hf : Filterable f oi) (hal : ∀ t ∈ oi.inspolList, InspolAligned f oi t)
    (hfit : ∀ t ∈ oi.inspolList, Glob f.arrname t.arrname → InspolFits f oi t) :
    ∃ out, apply_oi_filter oi f = .ok out ∧
      (out.inspolList = (oi.inspolList.filter fun t => decide
        (InspolRemains f oi t ∧ ∃ d ∈ dataNames out, d.1 = t.arrname ∧ d.1 ≠ [])).map (inspolOut f oi)) ∧
      ∀ t ∈ oi.inspolList, ∀ r0, (inspolRecs f oi t).head? = some r0 → ∀ r ∈ inspolRecs f oi t,
        (inspolRecOut f oi r).jxx.length = (instChans f oi r.insname).length ∧
        (inspolOut f oi t).nwave = (instChans f oi r0.insname).length ∧
        ((inspolRecOut f oi r).jxx.length = (inspolOut f oi t).nwave ↔
          (instChans f oi r.insname).length = (instChans f oi r0.insname).length) := by
  obtain ⟨out, h, -, hi⟩ := apply_oi_filter_fits hf hal hfit
  refine ⟨out, h, ?_, ?_⟩
  · rw [hi]
    congr 1
    apply List.filter_congr
    intro t _
    simp only [decide_eq_decide, arrReferenced_iff]
    constructor
    · rintro ⟨h1, h2, d, h3, h4⟩
      exact ⟨h1, d, h3, h4, h4 ▸ h2⟩
    · rintro ⟨h1, d, h3, h4, h5⟩
      exact ⟨h1, h4 ▸ h5, d, h3, h4⟩
  · intro t ht r0 h0 r hr
    have hlen : (inspolRecOut f oi r).jxx.length = (instChans f oi r.insname).length := by
      unfold inspolRecOut
      dsimp only
      rw [pick_length]
      intro j hj
      obtain ⟨hr1, -⟩ := mem_inspolRecs.mp hr
      rw [((hf.wf.inspol t ht).recs r hr1).jxx]
      unfold instChans at hj
      cases hw : instTable oi r.insname with
      | none => rw [hw] at hj; cases hj
      | some w =>
        rw [hw] at hj
        dsimp only at hj
        split at hj
        · rw [← hal t ht r hr w hw]
          exact (mem_keptChans.mp hj).1
        · cases hj
    have hnw : (inspolOut f oi t).nwave = (instChans f oi r0.insname).length := by
      unfold inspolOut
      dsimp only
      cases hrec : inspolRecs f oi t with
      | nil => rw [hrec] at h0; cases h0
      | cons x l => rw [hrec] at h0; cases h0; rfl
    exact ⟨hlen, hnw, by rw [hlen, hnw]⟩

/-! ### Examples -/

/-- `Ex.twoInstruments` with the records in the given order. -/
def Ex.inspolLike (l : List (OiInspolRecord FP.ratFP)) : OiFits FP.ratFP :=
  { Ex.twoInstruments with inspolList := [{ Ex.inspol with record := l }] }

theorem Ex.inspolLike_ok (f : FilterSpec FP.ratFP) {l : List (OiInspolRecord FP.ratFP)} (h0 : l ≠ [])
    (hl : ∀ r ∈ l, r.WF 2) :
    Filterable f (Ex.inspolLike l) ∧ ∀ t ∈ (Ex.inspolLike l).inspolList, InspolAligned f (Ex.inspolLike l) t := by
  have hw2 : ∀ w ∈ (Ex.inspolLike l).wavelengthList, w.WF ∧ w.nwave = 2 := by
    intro w hw
    rcases List.mem_cons.mp hw with rfl | hw
    · exact ⟨Ex.oi_wf.wavelength _ (by simp [Ex.oi]), rfl⟩
    · rw [List.mem_singleton.mp hw]
      exact ⟨⟨by decide, by decide, by decide⟩, rfl⟩
  have hi : ∀ n w, n = ("INS1" : CStr) → instTable (Ex.inspolLike l) n = some w → w = Ex.wave := by
    rintro n w rfl h
    exact (Option.some.inj h).symm
  have hlk : oi_fits_lookup_wavelength (Ex.inspolLike l) "INS1" = some Ex.wave := by
    have : oi_fits_lookup_wavelength Ex.twoInstruments "INS1" = some Ex.wave := by decide +kernel
    exact this
  refine ⟨⟨?_, .inr (by show Ex.oi.targets.targ ≠ []; decide), ?_, ?_, ?_, ?_, ?_, ?_⟩, ?_⟩
  · exact { Ex.oi_wf with
      counts := ⟨rfl, rfl, rfl, rfl, rfl, rfl, rfl, rfl⟩
      wavelength := fun w hw => (hw2 w hw).1
      inspol := by
        intro t ht
        rw [List.mem_singleton.mp ht]
        exact ⟨h0, (by decide : Ex.inspol.nwave ≠ 0), hl⟩ }
  · show (Ex.twoInstruments.wavelengthList.map OiWavelength.insname).Nodup
    decide
  · show ∀ w ∈ Ex.twoInstruments.wavelengthList, w.insname.length < FLEN_VALUE
    decide +kernel
  · intro t ht w h
    have e : t.insname = "INS1" ∧ t.nwave = 2 :=
      (by decide +kernel : ∀ t ∈ Ex.oi.visList, t.insname = "INS1" ∧ t.nwave = 2) t ht
    rw [hi _ w e.1 h, e.1, e.2]
    exact ⟨hlk, rfl⟩
  · intro t ht w h
    have e : t.insname = "INS1" ∧ t.nwave = 2 :=
      (by decide +kernel : ∀ t ∈ Ex.oi.vis2List, t.insname = "INS1" ∧ t.nwave = 2) t ht
    rw [hi _ w e.1 h, e.1, e.2]
    exact ⟨hlk, rfl⟩
  · intro t ht w h
    have e : t.insname = "INS1" ∧ t.nwave = 2 :=
      (by decide +kernel : ∀ t ∈ Ex.oi.t3List, t.insname = "INS1" ∧ t.nwave = 2) t ht
    rw [hi _ w e.1 h, e.1, e.2]
    exact ⟨hlk, rfl⟩
  · intro t ht w h
    have e : t.insname = "INS1" ∧ t.nwave = 2 :=
      (by decide +kernel : ∀ t ∈ Ex.oi.fluxList, t.insname = "INS1" ∧ t.nwave = 2) t ht
    rw [hi _ w e.1 h, e.2]
    rfl
  · intro t ht r _ w hw
    rw [(hw2 w (instTable_mem hw).1).2, List.mem_singleton.mp ht]
    rfl

/-- The record of the first and of the second instrument. -/
def Ex.inspolRec1 : OiInspolRecord FP.ratFP := Ex.inspol.record.head (by decide)
@[inherit_doc Ex.inspolRec1]
def Ex.inspolRec2 : OiInspolRecord FP.ratFP := { Ex.inspolRec1 with insname := "INS2" }

theorem Ex.inspolRecs_wf : ∀ r ∈ [Ex.inspolRec1, Ex.inspolRec2], r.WF 2 := by
  intro r hr
  rcases List.mem_cons.mp hr with rfl | hr
  · exact ⟨by decide, by decide, by decide, by decide⟩
  · rw [List.mem_singleton.mp hr]
    exact ⟨by decide, by decide, by decide, by decide⟩

-- The hypotheses of `C36_overflow_iff` are met, and both cases arise.
example : (Filterable Ex.someFilter (Ex.inspolLike [Ex.inspolRec1, Ex.inspolRec2]) ∧
      ∀ t ∈ (Ex.inspolLike [Ex.inspolRec1, Ex.inspolRec2]).inspolList,
        InspolAligned Ex.someFilter (Ex.inspolLike [Ex.inspolRec1, Ex.inspolRec2]) t) ∧
    apply_oi_filter (Ex.inspolLike [Ex.inspolRec1, Ex.inspolRec2]) Ex.someFilter = .ub :=
  ⟨Ex.inspolLike_ok _ (by simp) Ex.inspolRecs_wf, by decide +kernel⟩

/-- C36: with the records in the other order nothing is written out of bounds, but the second record has only one
value of two; the library leaves the other as it is in memory. -/
theorem C36_unfilled : (Filterable Ex.someFilter (Ex.inspolLike [Ex.inspolRec2, Ex.inspolRec1]) ∧
      ∀ t ∈ (Ex.inspolLike [Ex.inspolRec2, Ex.inspolRec1]).inspolList,
        InspolAligned Ex.someFilter (Ex.inspolLike [Ex.inspolRec2, Ex.inspolRec1]) t) ∧
    (fun o => o.inspolList.map fun t => (t.nwave, t.record.map (·.jxx.length))) <$>
      apply_oi_filter (Ex.inspolLike [Ex.inspolRec2, Ex.inspolRec1]) Ex.someFilter = .ok [(2, [2, 1])] :=
  ⟨Ex.inspolLike_ok _ (by simp) (fun r hr => Ex.inspolRecs_wf r (by simp at hr ⊢; tauto)), by decide +kernel⟩

-- The hypotheses of `C36_filled_iff` are met.
example : ∀ t ∈ (Ex.inspolLike [Ex.inspolRec2, Ex.inspolRec1]).inspolList, Glob Ex.someFilter.arrname t.arrname →
    InspolFits Ex.someFilter (Ex.inspolLike [Ex.inspolRec2, Ex.inspolRec1]) t := by
  obtain ⟨⟨hf, hal⟩, h⟩ := C36_unfilled
  by_contra hno
  push Not at hno
  rw [apply_oi_filter_unfit hf hal hno] at h
  cases h

end Verif
