import Verif.Proof.SavedConform

/-! What filtered datasets and datasets read from files have, as the theorems about conformity require. -/

namespace Verif
open Outcome Spec Classical

variable {R : FP} {f : FilterSpec R} {oi out : OiFits R} {u : Undef R} {fs : Files R} {name : CStr}

theorem find_oi_array_some {n : CStr} {a : OiArray R} (h : find_oi_array oi n = some a) :
    a ∈ oi.arrayList ∧ a.arrname = n :=
  ⟨List.mem_of_find?_eq_some h, by simpa using List.find?_some h⟩

theorem find_oi_corr_some {n : CStr} {a : OiCorr R} (h : find_oi_corr oi n = some a) :
    a ∈ oi.corrList ∧ a.corrname = n :=
  ⟨List.mem_of_find?_eq_some h, by simpa using List.find?_some h⟩

/-- Look-ups in a dataset which has been read give a table with the name. -/
theorem names_of_holds (h : Holds u fs name oi) (ha : (oi.arrayList.map (·.arrname)).Nodup) : NamesDistinct oi := by
  obtain ⟨hdus, -, hr⟩ := h
  have h0 : hdus ≠ [] := by
    rintro rfl
    obtain ⟨st, e⟩ := read_empty u
    rw [e] at hr
    cases hr
  have hh := (read_gathered h0 hr).2.hashed
  refine ⟨ha, fun n a h1 => ?_, fun n c h1 => ?_⟩
  · unfold oi_fits_lookup_array at h1
    rw [hh.array n] at h1
    split at h1
    · exact find_oi_array_some h1
    · cases h1
  · unfold oi_fits_lookup_corr at h1
    rw [hh.corr n] at h1
    split at h1
    · exact find_oi_corr_some h1
    · cases h1

theorem names_out (ho : Filtered f oi out) (hd : NamesDistinct oi) : NamesDistinct out where
  arrays := by
    rw [ho.array]
    exact List.Pairwise.sublist (List.Sublist.map _ List.filter_sublist) hd.arrays
  arrayLookup := fun n a h => by
    rw [ho.arrayLookup] at h
    exact lastNamed_mem h
  corrLookup := fun n a h => by
    rw [ho.corrLookup] at h
    exact lastNamed_mem h

theorem texts_out (ho : Filtered f oi out) (hi : InspolFiltered f oi out) (ht : TextsFit oi) : TextsFit out where
  header := by rw [ho.header]; exact ht.header
  targets := by
    rw [ho.targets, targetsOut]
    split
    · exact ht.targets
    · cases hfind : oi.targets.targ.reverse.find? fun x => x.target_id == f.target_id with
      | none => intro x hx; cases hx
      | some y =>
        intro x hx
        rw [List.mem_singleton.mp hx]
        exact ht.targets y (List.mem_reverse.mp (List.mem_of_find?_eq_some hfind))
  array := fun t h => ht.array t (mem_arrayOut ho h)
  corr := fun t h => ht.corr t (mem_corrOut ho h)
  inspol := fun t h => by
    obtain ⟨t, h1, -, -, rfl⟩ := inspol_mem hi h
    exact ht.inspol t h1
  vis := fun t h => by
    obtain ⟨t, h1, w, -, -, rfl⟩ := vis_from ho h
    exact ht.vis t h1
  vis2 := fun t h => by
    obtain ⟨t, h1, w, -, -, rfl⟩ := vis2_from ho h
    exact ht.vis2 t h1
  t3 := fun t h => by
    obtain ⟨t, h1, w, -, -, rfl⟩ := t3_from ho h
    exact ht.t3 t h1
  flux := fun t h => by
    obtain ⟨t, h1, w, -, -, rfl⟩ := flux_from ho h
    exact ht.flux t h1

end Verif
