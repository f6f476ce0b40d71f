import Verif.Proof.FitsAgain

/-! C65: a second round trip. -/

namespace Verif
open Outcome Spec
variable {R : FP}

/-- C65 for datasets which are `Settled` and have no OI_INSPOL tables. The dataset read from the file is written to
an identical file, whatever the date; so it is as good as the original one. -/
theorem C65_partial (today : CStr) {oi : OiFits R} (h : oi.Storable) (hs : oi.Settled)
    (hi : oi.inspolList = []) :
    ∃ hdus, write_oi_fits today false oi .ok = .ok (some hdus, .ok) ∧
    ∀ u, ∃ oi', read_oi_fits u (some hdus) .ok = .ok (some oi', .ok) ∧
      ∀ today', write_oi_fits today' false oi' .ok = write_oi_fits today' false oi .ok := by
  obtain ⟨hdus, h1, h2⟩ := C50_partial today h
  refine ⟨hdus, h1, fun u => ?_⟩
  obtain ⟨oi', h3, e1, e2, e3, e4, e5, e6, e7, e8, e9, e10, -⟩ := h2 u
  refine ⟨oi', h3, fun today' => ?_⟩
  have h0 : hdus ≠ [] := by
    rw [write_oi_fits_eq _ _ h] at h1
    cases h1
    exact List.cons_ne_nil _ _
  rw [write_oi_fits_eq _ _ (storable_again h hs (C64_wf h0 h3) e2 e3 e6 e7 e8 e9 e10), write_oi_fits_eq _ _ h,
    fileOf_again hs hi e1 e2 e3 e4 e5 e6 e7 e8 e9 e10]

theorem Ex.oic_settled : Ex.oic.Settled :=
  ⟨by decide +kernel, by decide +kernel, by decide +kernel, by decide +kernel, by decide +kernel,
    by decide +kernel⟩

example (u : Undef FP.ratFP) : ∃ hdus, write_oi_fits "2016-01-01" false Ex.oic .ok = .ok (some hdus, .ok) ∧
    ∃ oi', read_oi_fits u (some hdus) .ok = .ok (some oi', .ok) ∧
      write_oi_fits "2016-01-01" false oi' .ok = .ok (some hdus, .ok) := by
  obtain ⟨hdus, h1, h2⟩ := C65_partial "2016-01-01" Ex.oic_storable Ex.oic_settled rfl
  obtain ⟨oi', h3, h4⟩ := h2 u
  exact ⟨hdus, h1, oi', h3, (h4 _).trans h1⟩

theorem Ex.oi_settled : Ex.oi.Settled :=
  ⟨by decide +kernel, by decide +kernel, by decide +kernel, by decide +kernel, by decide +kernel,
    by decide +kernel⟩

/-- C65 is false of datasets with OI_INSPOL tables: their Jones matrices differ between the
two files. -/
theorem C65_inspol_counterexample : ∃ oi : OiFits FP.ratFP, oi.Storable ∧ ∀ today, ∃ hdus,
    write_oi_fits today false oi .ok = .ok (some hdus, .ok) ∧ ∀ u, ∃ oi',
      read_oi_fits u (some hdus) .ok = .ok (some oi', .ok) ∧
      ∀ today' st, write_oi_fits today' false oi' .ok ≠ .ok (some hdus, st) := by
  refine ⟨Ex.oi, Ex.oi_storable, fun today => ?_⟩
  obtain ⟨hdus, h1, h2⟩ := C50_partial today Ex.oi_storable
  refine ⟨hdus, h1, fun u => ?_⟩
  obtain ⟨oi', h3, e1, e2, e3, e4, e5, e6, e7, e8, e9, e10, -⟩ := h2 u
  refine ⟨oi', h3, fun today' st h4 => ?_⟩
  rw [write_oi_fits_eq _ _ Ex.oi_storable] at h1
  cases h1
  rw [write_oi_fits_eq _ _ (storable_again Ex.oi_storable Ex.oi_settled (C64_wf (List.cons_ne_nil _ _) h3)
    e2 e3 e6 e7 e8 e9 e10)] at h4
  have h5 := congrArg (fun l => ((l[5]?).bind fun h => h.cols[4]?).map fun c => c.data 0 1)
    (Option.some.inj (Prod.mk.inj (Outcome.ok.inj h4)).1)
  unfold fileOf at h5
  rw [e1, e2, e3, e4, e5, e6, e7, e8, e9, e10] at h5
  have h6 : (Cell.cpx (Ex.inspol.asRead.record[0].jxx[1]) : Cell FP.ratFP)
      = .cpx (Ex.inspol.record[0].jxx[1]) := Option.some.inj h5
  exact absurd (Cell.cpx.inj h6) (by decide +kernel)

/-- A dataset with an OI_VIS2 table whose correlation matrix has a blank name. -/
def Ex.blank : OiFits FP.ratFP :=
  { Ex.oic with vis2List := [{ Ex.vis2 with corrname := " " }], numVis2 := 1 }

theorem Ex.blank_storable : Ex.blank.Storable :=
  { Ex.oic_storable with
    vis2 := by
      intro t ht
      cases List.mem_singleton.mp ht
      exact { Ex.vis2_storable with wf := { Ex.vis2_storable.wf with } } }

/-- C65 is false of datasets with blank names: the first file has a CORRNAME keyword and
a CORRINDX_VIS2DATA column, the second one does not. -/
theorem C65_blank_counterexample : Ex.blank.inspolList = [] ∧ ∀ today, ∃ hdus,
    write_oi_fits today false Ex.blank .ok = .ok (some hdus, .ok) ∧ ∀ u, ∃ oi',
      read_oi_fits u (some hdus) .ok = .ok (some oi', .ok) ∧
      (∃ h ∈ hdus, isTable "OI_VIS2" h = true ∧ hasKeyword "CORRNAME" h = true) ∧
      ∀ t ∈ oi'.vis2List, t.corrname = [] := by
  refine ⟨rfl, fun today => ?_⟩
  obtain ⟨hdus, h1, h2⟩ := C50_partial today Ex.blank_storable
  refine ⟨hdus, h1, fun u => ?_⟩
  obtain ⟨oi', h3, -, -, -, -, -, -, -, e, -⟩ := h2 u
  rw [write_oi_fits_eq _ _ Ex.blank_storable] at h1
  cases h1
  refine ⟨oi', h3, ⟨hduVis2 { Ex.vis2 with corrname := " " } 1, ?_, by decide +kernel, by decide +kernel⟩, ?_⟩
  · simp only [fileOf, List.mem_cons, List.mem_append]
    exact .inr (.inr (.inl (.inl (.inr (by exact List.mem_cons_self)))))
  · rw [e]
    intro t ht
    cases List.mem_singleton.mp ht
    rfl

end Verif
