import Verif.Props.ConformMerge
import Verif.Proof.ConformUpgrade

/-! C81: oifits-upgrade makes files of version 2 which oifits-check passes. -/

set_option Elab.async false

namespace Verif
open Outcome Spec
variable {R : FP}

/-- C81. If oifits-upgrade is applied to a conforming file of version 1 which has what version 2 needs, then oifits-check
passes the output file, which says that it is of version 2. -/
theorem C81_partial {u u' : Undef R} {fs : Files R} {today prog prog' infile outfile origin observer insmode : CStr}
    {more : List CStr} {oi : OiFits R} (h : Holds u fs infile oi) (ho : PlainName outfile) (hx : fs outfile = none)
    (hv : ¬ V2 oi) (hs : oi.Storable) (hc : Conforms oi) (hu : Upgradable oi) (ht : TextsFit oi)
    (hk : ∀ s ∈ [origin, observer, insmode], CardText s ∧ s ≠ []) (hz : ZeroTime R)
    (htoday : CardText today ∧ today ≠ []) :
    let r := (oifits_upgrade u today (prog :: infile :: outfile :: origin :: observer :: insmode :: more)).run fs
    r.exit = .code 0 ∧ ∃ oi', Holds u' r.files outfile oi' ∧ V2 oi' ∧
      SavedAs today u' { oi with header := { oi.header with origin := origin, observer := observer, insmode := insmode } } oi' ∧
      (oifits_check u' [prog', outfile]).run r.files =
        ⟨.code 0, summary oi' ++ ("All checks passed\n" : CStr), r.files⟩ := by
  obtain ⟨h1, h2⟩ := C73_upgrade (prog := prog) (today := today) (origin := origin) (observer := observer)
    (insmode := insmode) (more := more) h ho.plain hv hu.arrays hs hx
  obtain ⟨oi', h4, h5⟩ := h2 u'
  have hd := names_of_holds h hu.unique
  have hsh := shared_of_holds h hc
  have e : withKeywords oi origin observer insmode =
      { oi with header := { oi.header with origin := origin, observer := observer, insmode := insmode } } := by
    simp only [List.mem_cons, List.not_mem_nil, or_false, forall_eq_or_imp, forall_eq] at hk
    unfold withKeywords
    rw [take70 hk.1.1, take70 hk.2.1.1, take70 hk.2.2.1]
  refine ⟨h1, oi', h4, by unfold V2; rw [h5.header]; rfl, e ▸ h5, (C74_passes h4 ho.short).mpr ?_⟩
  exact saved_conforms_of hz htoday h4 h5 (upgraded_meets h hv hu hk) (upgraded_conforms _ _ _ hv hc)
    ⟨hd.arrays, hd.arrayLookup, hd.corrLookup⟩ (upgraded_texts ht hk) ⟨hsh.flux, hsh.inspol⟩

/-! ### Examples -/

/-- A conforming file of version 1. -/
def Ex.v1 : List (Hdu FP.ratFP) := Ex.first.filter fun h => ¬ isTable "OI_FLUX" h ∧ ¬ isTable "OI_CORR" h

/-- The same without ARRNAME in OI_VIS2 tables. -/
def Ex.bare : List (Hdu FP.ratFP) :=
  Ex.v1.map fun h => if isTable "OI_VIS2" h then { h with keys := h.keys.filter fun k => k.1 != ("ARRNAME" : CStr) } else h

/-- Files with these. -/
def Ex.files3 : Files FP.ratFP := fun n =>
  if n = ("v1" : CStr) then some (.fits Ex.v1)
  else if n = ("bare" : CStr) then some (.fits Ex.bare)
  else none

/-- What is read from a file. -/
def Ex.readOf (hdus : List (Hdu FP.ratFP)) : OiFits FP.ratFP :=
  match read_oi_fits Ex.undef (some hdus) .ok with
  | .ok (some oi, .ok) => oi
  | _ => Ex.oic

theorem Ex.readOf_spec {hdus : List (Hdu FP.ratFP)} (h : Ex.isRead (read_oi_fits Ex.undef (some hdus) .ok) = true) :
    read_oi_fits Ex.undef (some hdus) .ok = .ok (some (Ex.readOf hdus), .ok) := by
  unfold Ex.readOf
  match read_oi_fits Ex.undef (some hdus) .ok, h with
  | .ok (some oi, .ok), _ => rfl

/-- Whether an upgrade of the dataset, if it is in a file, is known to succeed. -/
def Ex.upgradable (oi : OiFits FP.ratFP) : Bool :=
  oi.header.content ≠ ("OIFITS2" : CStr) ∧ (breachLists oi).all List.isEmpty = true ∧ oi.arrayList.length ≠ 0 ∧
  (∀ t ∈ oi.visList, t.arrname ≠ [] ∧ t.amptyp ∈ amptyps ∧ t.phityp ∈ phityps) ∧
  (∀ t ∈ oi.vis2List, t.arrname ≠ []) ∧ (∀ t ∈ oi.t3List, t.arrname ≠ []) ∧
  (∀ t ∈ oi.arrayList, t.arrname ≠ []) ∧ (∀ t ∈ oi.wavelengthList, t.insname ≠ []) ∧
  (∀ x ∈ oi.targets.targ, x.target ≠ []) ∧ (oi.arrayList.map (·.arrname)).Nodup

/-- Whether the texts can be stored. -/
def Ex.textsFit (oi : OiFits FP.ratFP) : Bool :=
  (∀ s ∈ [oi.header.origin, oi.header.date_obs, oi.header.telescop, oi.header.instrume,
    oi.header.observer, oi.header.insmode, oi.header.object], CardText s) ∧
  (∀ x ∈ oi.targets.targ, ColText 32 x.target) ∧ (∀ t ∈ oi.arrayList, CardText t.arrname) ∧
  (∀ t ∈ oi.corrList, CardText t.corrname) ∧ (∀ t ∈ oi.inspolList, CardText t.arrname) ∧
  (∀ t ∈ oi.visList, CardText t.arrname ∧ CardText t.corrname) ∧
  (∀ t ∈ oi.vis2List, CardText t.arrname ∧ CardText t.corrname) ∧
  (∀ t ∈ oi.t3List, CardText t.arrname ∧ CardText t.corrname) ∧
  (∀ t ∈ oi.fluxList, CardText t.arrname ∧ CardText t.corrname)

/-- Whether the numbers can be stored. -/
def Ex.numbersFit (oi : OiFits FP.ratFP) : Bool :=
  oi.targets.targ.length ≠ 0 ∧ (∀ x ∈ oi.targets.targ, Spec.Int16 x.target_id) ∧
  (∀ t ∈ oi.arrayList, (FP.ratFP.keyD t.arrayx).isSome ∧ (FP.ratFP.keyD t.arrayy).isSome ∧
    (FP.ratFP.keyD t.arrayz).isSome ∧ ∀ e ∈ t.elem, Spec.Int16 e.sta_index) ∧
  oi.inspolList.length = 0 ∧
  (∀ t ∈ oi.visList, t.nwave < 10000 ∧ (∀ r ∈ t.record, Spec.Int16 r.target_id) ∧
    ∀ r ∈ t.record, Spec.Int16 r.sta_index.1 ∧ Spec.Int16 r.sta_index.2) ∧
  (∀ t ∈ oi.vis2List, t.nwave < 10000 ∧ (∀ r ∈ t.record, Spec.Int16 r.target_id) ∧
    ∀ r ∈ t.record, Spec.Int16 r.sta_index.1 ∧ Spec.Int16 r.sta_index.2) ∧
  (∀ t ∈ oi.t3List, t.nwave < 10000 ∧ (∀ r ∈ t.record, Spec.Int16 r.target_id) ∧
    ∀ r ∈ t.record, Spec.Int16 r.sta_index.1 ∧ Spec.Int16 r.sta_index.2.1 ∧ Spec.Int16 r.sta_index.2.2) ∧
  oi.fluxList.length = 0

theorem Ex.storable_of {oi : OiFits FP.ratFP} (hw : oi.WF) (h : Ex.numbersFit oi = true) : oi.Storable := by
  obtain ⟨h3, h4, h5, h6, h7, h8, h9, h10⟩ := of_decide_eq_true h
  refine ⟨⟨fun h => h3 (congrArg List.length h), h4⟩, fun t ht => ?_, hw.wavelength, hw.corr, fun t ht => ?_, fun t ht => ?_,
    fun t ht => ?_, fun t ht => ?_, fun t ht => ?_⟩
  · obtain ⟨a, b, c, d⟩ := h5 t ht; exact ⟨hw.array t ht, a, b, c, d⟩
  · rw [List.eq_nil_of_length_eq_zero h6] at ht; cases ht
  · obtain ⟨a, b, c⟩ := h7 t ht; exact ⟨hw.vis t ht, a, b, c⟩
  · obtain ⟨a, b, c⟩ := h8 t ht; exact ⟨hw.vis2 t ht, a, b, c⟩
  · obtain ⟨a, b, c⟩ := h9 t ht; exact ⟨hw.t3 t ht, a, b, c⟩
  · rw [List.eq_nil_of_length_eq_zero h10] at ht; cases ht

theorem Ex.upgradable_spec {oi : OiFits FP.ratFP} (hw : oi.WF) (h : Ex.upgradable oi = true) :
    ¬ V2 oi ∧ Conforms oi ∧ Upgradable oi := by
  obtain ⟨a1, a2, a3, a4, a5, a6, a7, a8, a9, a10⟩ := of_decide_eq_true h
  exact ⟨a1, Ex.conforms_of hw a2, ⟨fun h => a3 (congrArg List.length h), a4, a5, a6, ⟨a7, a8, a9⟩, a10⟩⟩

theorem Ex.textsFit_spec {oi : OiFits FP.ratFP} (h : Ex.textsFit oi = true) : TextsFit oi := by
  obtain ⟨b1, b2, b3, b4, b5, b6, b7, b8, b9⟩ := of_decide_eq_true h
  exact ⟨b1, b2, b3, b4, b5, b6, b7, b8, b9⟩

theorem Ex.v1_facts : Ex.isRead (read_oi_fits Ex.undef (some Ex.v1) .ok) = true ∧ Ex.upgradable (Ex.readOf Ex.v1) = true ∧
    Ex.textsFit (Ex.readOf Ex.v1) = true ∧ Ex.numbersFit (Ex.readOf Ex.v1) = true ∧
    (Ex.readOf Ex.v1).visList.length = 1 ∧ (Ex.readOf Ex.v1).vis2List.length = 2 ∧ (Ex.readOf Ex.v1).t3List.length = 1 := by
  decide +kernel

theorem Ex.holds_v1 : Holds Ex.undef Ex.files3 "v1" (Ex.readOf Ex.v1) := ⟨_, rfl, Ex.readOf_spec Ex.v1_facts.1⟩

-- The hypotheses of `C81_partial` are met.
example : ∃ oi, Holds Ex.undef Ex.files3 "v1" oi ∧ PlainName ("out" : CStr) ∧ Ex.files3 "out" = none ∧ ¬ V2 oi ∧ oi.Storable ∧
    Conforms oi ∧ Upgradable oi ∧ TextsFit oi ∧
    (∀ s ∈ [("ESO" : CStr), "A. Person", "LOW"], CardText s ∧ s ≠ []) ∧ oi.visList.length = 1 ∧ oi.vis2List.length = 2 := by
  have hw := Ex.holds_v1.wf
  obtain ⟨a, b, c⟩ := Ex.upgradable_spec hw Ex.v1_facts.2.1
  exact ⟨_, Ex.holds_v1, ⟨by decide, by decide⟩, by decide +kernel, a, Ex.storable_of hw Ex.v1_facts.2.2.2.1, b, c,
    Ex.textsFit_spec Ex.v1_facts.2.2.1, by decide +kernel, Ex.v1_facts.2.2.2.2.1, Ex.v1_facts.2.2.2.2.2.1⟩

/-! ### Counterexample -/

theorem Ex.bare_facts : Ex.isRead (read_oi_fits Ex.undef (some Ex.bare) .ok) = true ∧
    Ex.numbersFit (Ex.readOf Ex.bare) = true ∧ (breachLists (Ex.readOf Ex.bare)).all List.isEmpty = true ∧
    (Ex.readOf Ex.bare).header.content ≠ ("OIFITS2" : CStr) ∧ (Ex.readOf Ex.bare).arrayList.length ≠ 0 ∧
    (Ex.readOf Ex.bare).vis2List.map (·.arrname) = [[], []] := by
  decide +kernel

theorem Ex.holds_bare : Holds Ex.undef Ex.files3 "bare" (Ex.readOf Ex.bare) := ⟨_, rfl, Ex.readOf_spec Ex.bare_facts.1⟩

theorem Ex.upgrade_bare {oi : OiFits FP.ratFP} {args : List CStr} {fs : Files FP.ratFP} {name : CStr}
    (h : Holds Ex.undef fs name oi) (hx : fs "out" = none)
    (ha : args = [("oifits-upgrade" : CStr), name, "out", "ESO", "A. Person", "LOW"]) (hs : oi.Storable) (f3 : ¬ V2 oi)
    (f4 : oi.arrayList.length ≠ 0) (f5 : oi.vis2List.map (·.arrname) = [[], []]) :
    let r := (oifits_upgrade Ex.undef "2016-01-02" args).run fs
    r.exit = .code 0 ∧ ∃ oi', Holds Ex.undef r.files "out" oi' ∧ ¬ Conforms oi' := by
  obtain ⟨h1, h2⟩ := C73_upgrade (prog := "oifits-upgrade") (today := "2016-01-02") (origin := "ESO") (observer := "A. Person")
    (insmode := "LOW") (more := []) (outfile := "out") h (by decide) f3 (fun h => f4 (congrArg List.length h)) hs hx
  obtain ⟨oi', h3, h4⟩ := h2 Ex.undef
  rw [ha]
  refine ⟨h1, oi', h3, fun hc => ?_⟩
  obtain ⟨t, ht, he⟩ := List.mem_map.mp (by rw [f5]; exact List.mem_cons_self .. :
    ([] : CStr) ∈ oi.vis2List.map (·.arrname))
  refine hc.arrVis2 (by unfold V2; rw [h4.header]; rfl) _ (mem_asRead h4.vis2 ht) ?_
  show keyStr t.arrname = []
  rw [he]; rfl

/-- Version 1 does not require ARRNAME in data tables. If it is missing, oifits-upgrade nevertheless reports success, and
oifits-check, which passes the input, reports breaches of the output. -/
theorem C81_counterexample : ∃ oi, Holds Ex.undef Ex.files3 "bare" oi ∧ ¬ V2 oi ∧ oi.Storable ∧ Conforms oi ∧
    let r := (oifits_upgrade Ex.undef "2016-01-02" ["oifits-upgrade", "bare", "out", "ESO", "A. Person", "LOW"]).run Ex.files3
    r.exit = .code 0 ∧ ∃ oi', Holds Ex.undef r.files "out" oi' ∧ ¬ Conforms oi' := by
  have hw := Ex.holds_bare.wf
  have hs := Ex.storable_of hw Ex.bare_facts.2.1
  exact ⟨_, Ex.holds_bare, Ex.bare_facts.2.2.2.1, hs, Ex.conforms_of hw Ex.bare_facts.2.2.1,
    Ex.upgrade_bare Ex.holds_bare (by decide +kernel) rfl hs Ex.bare_facts.2.2.2.1 Ex.bare_facts.2.2.2.2.1
      Ex.bare_facts.2.2.2.2.2⟩

end Verif
