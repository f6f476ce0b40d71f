import Verif.Proof.Iter
import Verif.Props.File
import Verif.Spec.Example

/-! Properties C24-C27: iteration over data (oiiter.c). -/

namespace Verif
open Outcome Spec

variable {R : FP} {τ ρ : Type}

/-! ### C24: an iterator visits exactly the accepted data -/

/-- C24. Any number `n` of calls on a new complex visibility iterator yield the
data satisfying the filter (the default one if NULL is given), in order, and FALSE
once there are no more. -/
theorem C24_vis_iter (oi : OiFits R) (f : Option (FilterSpec R)) (n : Nat)
    (hwf : ∀ t ∈ oi.visList, t.WF)
    (hw : WavesFound oi (filterOr f) OiVis.nwave OiVis.arrname OiVis.insname OiVis.corrname
      oi.visList) :
    ∃ it, calls visKind n (iter_init visKind oi f) =
      .ok (it, yields (select (VisSelected (filterOr f) oi) (visData oi)) n) := by
  cases he : (filterOr f).accept_vis with
  | false =>
    have hs : select (VisSelected (filterOr f) oi) (visData oi) = [] := by
      classical
      simp only [select, List.filter_eq_nil_iff, decide_eq_true_eq]
      intro d _ h; rw [h.enabled] at he; cases he
    rw [hs]
    exact ⟨_, calls_disabled n (it := iter_init visKind oi f) he⟩
  | true =>
    refine calls_init (K := visKind) (fun t ht => ⟨(hwf t ht).rows, (hwf t ht).chans⟩) he ?_ n
    intro d hd
    obtain ⟨h1, h2, h3⟩ := mem_dataOf hd
    obtain ⟨b, hb, hS⟩ := acceptAt_iff (K := visKind) (oi := oi) (d := d)
      (S := ∃ w, effWave oi d.table.insname d.iwave = some w ∧ InF (filterOr f).wave_range w ∧
        SnrAmpOk (filterOr f) d.record.visamp d.record.visamperr d.iwave ∧
        SnrPhiOk (filterOr f) d.record.visphierr d.iwave ∧
        InD (filterOr f).uvrad_range (R.div (baseline d.record.ucoord d.record.vcoord) (R.toD w)) ∧
        FlagOk (filterOr f) d.record.flag d.iwave)
      (acceptRecord_vis_iff (filterOr f) d.record) (by
        intro hN
        obtain ⟨w, hl, hlen⟩ := hw d.table h1 hN
        obtain ⟨b, hb, hS⟩ := acceptChannel_vis (f := filterOr f) ((hwf _ h1).recs _ h2) h3 hlen
        refine ⟨b, by simpa [visKind, hl] using hb, hS.trans ?_⟩
        have : d.iwave < w.eff_wave.length := Nat.lt_of_lt_of_le h3 hlen
        simp [effWave, hl, this])
    refine ⟨b, hb, hS.trans ⟨?_, ?_⟩⟩
    · rintro ⟨hN, ⟨q1, q2, q3⟩, w, s1, s2, s3, s4, s5, s6⟩
      exact ⟨he, hN, q1, q2, q3, ⟨w, s1, s2, s5⟩, s3, s4, s6⟩
    · rintro ⟨-, hN, q1, q2, q3, ⟨w, s1, s2, s5⟩, s3, s4, s6⟩
      exact ⟨hN, ⟨q1, q2, q3⟩, w, s1, s2, s3, s4, s5, s6⟩

/-- C24. The same for squared visibilities. -/
theorem C24_vis2_iter (oi : OiFits R) (f : Option (FilterSpec R)) (n : Nat)
    (hwf : ∀ t ∈ oi.vis2List, t.WF)
    (hw : WavesFound oi (filterOr f) OiVis2.nwave OiVis2.arrname OiVis2.insname OiVis2.corrname
      oi.vis2List) :
    ∃ it, calls vis2Kind n (iter_init vis2Kind oi f) =
      .ok (it, yields (select (Vis2Selected (filterOr f) oi) (vis2Data oi)) n) := by
  cases he : (filterOr f).accept_vis2 with
  | false =>
    have hs : select (Vis2Selected (filterOr f) oi) (vis2Data oi) = [] := by
      classical
      simp only [select, List.filter_eq_nil_iff, decide_eq_true_eq]
      intro d _ h; rw [h.enabled] at he; cases he
    rw [hs]
    exact ⟨_, calls_disabled n (it := iter_init vis2Kind oi f) he⟩
  | true =>
    refine calls_init (K := vis2Kind) (fun t ht => ⟨(hwf t ht).rows, (hwf t ht).chans⟩) he ?_ n
    intro d hd
    obtain ⟨h1, h2, h3⟩ := mem_dataOf hd
    obtain ⟨b, hb, hS⟩ := acceptAt_iff (K := vis2Kind) (oi := oi) (d := d)
      (S := ∃ w, effWave oi d.table.insname d.iwave = some w ∧ InF (filterOr f).wave_range w ∧
        SnrAmpOk (filterOr f) d.record.vis2data d.record.vis2err d.iwave ∧
        InD (filterOr f).uvrad_range (R.div (baseline d.record.ucoord d.record.vcoord) (R.toD w)) ∧
        FlagOk (filterOr f) d.record.flag d.iwave)
      (acceptRecord_vis2_iff (filterOr f) d.record) (by
        intro hN
        obtain ⟨w, hl, hlen⟩ := hw d.table h1 hN
        obtain ⟨b, hb, hS⟩ := acceptChannel_vis2 (f := filterOr f) ((hwf _ h1).recs _ h2) h3 hlen
        refine ⟨b, by simpa [vis2Kind, hl] using hb, hS.trans ?_⟩
        have : d.iwave < w.eff_wave.length := Nat.lt_of_lt_of_le h3 hlen
        simp [effWave, hl, this])
    refine ⟨b, hb, hS.trans ⟨?_, ?_⟩⟩
    · rintro ⟨hN, ⟨q1, q2, q3⟩, w, s1, s2, s3, s5, s6⟩
      exact ⟨he, hN, q1, q2, q3, ⟨w, s1, s2, s5⟩, s3, s6⟩
    · rintro ⟨-, hN, q1, q2, q3, ⟨w, s1, s2, s5⟩, s3, s6⟩
      exact ⟨hN, ⟨q1, q2, q3⟩, w, s1, s2, s3, s5, s6⟩

/-- C24. The same for triple products. -/
theorem C24_t3_iter (oi : OiFits R) (f : Option (FilterSpec R)) (n : Nat)
    (hwf : ∀ t ∈ oi.t3List, t.WF)
    (hw : WavesFound oi (filterOr f) OiT3.nwave OiT3.arrname OiT3.insname OiT3.corrname
      oi.t3List) :
    ∃ it, calls t3Kind n (iter_init t3Kind oi f) =
      .ok (it, yields (select (T3Selected (filterOr f) oi) (t3Data oi)) n) := by
  cases he : t3Kind.enabled (filterOr f) with
  | false =>
    have hs : select (T3Selected (filterOr f) oi) (t3Data oi) = [] := by
      classical
      simp only [select, List.filter_eq_nil_iff, decide_eq_true_eq]
      intro d _ h
      rcases h.enabled with h | h <;> simp [t3Kind, h] at he
    rw [hs]
    exact ⟨_, calls_disabled n (it := iter_init t3Kind oi f) he⟩
  | true =>
    have he' : (filterOr f).accept_t3amp = true ∨ (filterOr f).accept_t3phi = true := by
      cases h1 : (filterOr f).accept_t3amp <;> cases h2 : (filterOr f).accept_t3phi <;>
        simp_all [t3Kind]
    refine calls_init (K := t3Kind) (fun t ht => ⟨(hwf t ht).rows, (hwf t ht).chans⟩) he ?_ n
    intro d hd
    obtain ⟨h1, h2, h3⟩ := mem_dataOf hd
    obtain ⟨b, hb, hS⟩ := acceptAt_iff (K := t3Kind) (oi := oi) (d := d)
      (S := ∃ w, effWave oi d.table.insname d.iwave = some w ∧ InF (filterOr f).wave_range w ∧
        ((filterOr f).accept_t3amp = true →
          SnrAmpOk (filterOr f) d.record.t3amp d.record.t3amperr d.iwave) ∧
        ((filterOr f).accept_t3phi = true → SnrPhiOk (filterOr f) d.record.t3phierr d.iwave) ∧
        (InD (filterOr f).uvrad_range
            (R.div (baseline d.record.u1coord d.record.v1coord) (R.toD w)) ∧
          InD (filterOr f).uvrad_range
            (R.div (baseline d.record.u2coord d.record.v2coord) (R.toD w)) ∧
          InD (filterOr f).uvrad_range (R.div (baseline (R.add d.record.u1coord d.record.u2coord)
            (R.add d.record.v1coord d.record.v2coord)) (R.toD w))) ∧
        FlagOk (filterOr f) d.record.flag d.iwave)
      (acceptRecord_t3_iff (filterOr f) d.record) (by
        intro hN
        obtain ⟨w, hl, hlen⟩ := hw d.table h1 hN
        obtain ⟨b, hb, hS⟩ := acceptChannel_t3 (f := filterOr f) ((hwf _ h1).recs _ h2) h3 hlen
        refine ⟨b, by simpa [t3Kind, hl] using hb, hS.trans ?_⟩
        have : d.iwave < w.eff_wave.length := Nat.lt_of_lt_of_le h3 hlen
        simp [effWave, hl, this])
    refine ⟨b, hb, hS.trans ⟨?_, ?_⟩⟩
    · rintro ⟨hN, ⟨q1, q2, q3, q4, q5⟩, w, s1, s2, s3, s4, s5, s6⟩
      exact ⟨he', hN, q1, q2, q3, q4, q5, ⟨w, s1, s2, s5⟩, s3, s4, s6⟩
    · rintro ⟨-, hN, q1, q2, q3, q4, q5, ⟨w, s1, s2, s5⟩, s3, s4, s6⟩
      exact ⟨hN, ⟨q1, q2, q3, q4, q5⟩, w, s1, s2, s3, s4, s5, s6⟩

-- The hypotheses are met by the example dataset with any filter, and there are
-- both accepted and rejected data.
example (f : FilterSpec FP.ratFP) : WavesFound Ex.oi f OiVis2.nwave OiVis2.arrname OiVis2.insname
    OiVis2.corrname Ex.oi.vis2List := by
  intro t ht _
  simp only [Ex.oi, List.mem_cons, List.not_mem_nil, or_false, or_self] at ht
  subst ht
  exact ⟨Ex.wave, by decide +kernel, by decide⟩
example : ∀ t ∈ Ex.oi.vis2List, t.WF := Ex.oi_wf.vis2
example : (fun x => x.2.map (·.map fun d => (d.extver, d.irec, d.iwave))) <$>
    calls vis2Kind 9 (iter_init vis2Kind Ex.oi
      (some { init_oi_filter _ with accept_flagged := false, target_id := 1 })) =
    .ok [some (1, 0, 0), some (1, 0, 1), some (1, 2, 1), some (2, 0, 0), some (2, 0, 1),
      some (2, 2, 1), none, none, none] := by decide +kernel

/-! ### C25: exhaustion and memory safety -/

/-- C25. A call on an iterator (of any of the three kinds, in any state) that has
returned FALSE returns FALSE again, and leaves it as it is. -/
theorem C25_exhausted (K : IterKind R τ ρ) (it it' : Iter R τ)
    (h : iter_next K it = .ok (it', none)) : iter_next K it' = .ok (it', none) := by
  unfold iter_next at h ⊢
  split at h
  · rename_i he
    simp only [pure_eq, Outcome.ok.injEq, Prod.mk.injEq, and_true] at h
    subst h
    simp [he]
  · rename_i he
    obtain ⟨⟨it1, b⟩, h1, h2⟩ := bind_eq_ok.1 h
    unfold iterReturn at h2
    cases b with
    | true =>
      simp only [if_true] at h2
      obtain ⟨d, _, h3⟩ := bind_eq_ok.1 h2
      simp at h3
    | false =>
      simp only [Bool.false_eq_true, if_false, pure_eq, Outcome.ok.injEq, Prod.mk.injEq,
        and_true] at h2
      subst h2
      obtain ⟨h3, h4⟩ := iterLoop_false h1
      rw [h4, if_neg he, iterLoop_none h3]
      rfl

/-- C25. No sequence of calls on a new iterator ends in undefined behaviour or an
abort, if the tables are as allocated and the instruments are found. -/
theorem C25_safe (oi : OiFits R) (f : Option (FilterSpec R)) (n : Nat) (hwf : oi.WF)
    (h1 : WavesFound oi (filterOr f) OiVis.nwave OiVis.arrname OiVis.insname OiVis.corrname
      oi.visList)
    (h2 : WavesFound oi (filterOr f) OiVis2.nwave OiVis2.arrname OiVis2.insname OiVis2.corrname
      oi.vis2List)
    (h3 : WavesFound oi (filterOr f) OiT3.nwave OiT3.arrname OiT3.insname OiT3.corrname
      oi.t3List) :
    (∃ x, calls visKind n (iter_init visKind oi f) = .ok x) ∧
    (∃ x, calls vis2Kind n (iter_init vis2Kind oi f) = .ok x) ∧
    (∃ x, calls t3Kind n (iter_init t3Kind oi f) = .ok x) := by
  obtain ⟨_, a⟩ := C24_vis_iter oi f n hwf.vis h1
  obtain ⟨_, b⟩ := C24_vis2_iter oi f n hwf.vis2 h2
  obtain ⟨_, c⟩ := C24_t3_iter oi f n hwf.t3 h3
  exact ⟨⟨_, a⟩, ⟨_, b⟩, ⟨_, c⟩⟩

/-- C25. The hypotheses are needed: iteration reads out of bounds if there is a
table without records, and dereferences NULL if there is no wavelength table for
an accepted data table. -/
theorem C25_unsafe_without_hypotheses :
    calls vis2Kind 1 (iter_init vis2Kind
      { Ex.oi with vis2List := [{ Ex.vis2 with record := [] }] } none) = .ub ∧
    calls vis2Kind 1 (iter_init vis2Kind
      { Ex.oi with wavelengthHash := HMap.empty } none) = .ub := by decide +kernel

example : WavesFound Ex.oi (filterOr none) OiVis.nwave OiVis.arrname OiVis.insname
    OiVis.corrname Ex.oi.visList := by
  intro t ht _
  simp only [Ex.oi, List.mem_cons, List.not_mem_nil, or_false] at ht
  subst ht
  exact ⟨Ex.wave, by decide +kernel, by decide⟩
example : WavesFound Ex.oi (filterOr none) OiT3.nwave OiT3.arrname OiT3.insname
    OiT3.corrname Ex.oi.t3List := by
  intro t ht _
  simp only [Ex.oi, List.mem_cons, List.not_mem_nil, or_false] at ht
  subst ht
  exact ⟨Ex.wave, by decide +kernel, by decide⟩
example : (fun x => x.2.map (·.isSome)) <$> calls t3Kind 4 (iter_init t3Kind Ex.oi none) =
    .ok [true, true, false, false] := by decide +kernel

/-! ### C26: uv coordinates -/

/-- C26. After a call that returned the datum `d`, `oi_vis_iter_get_uv` gives the
effective wavelength of its channel in the instrument its table refers to, and
UCOORD and VCOORD divided by it. -/
theorem C26_vis_get_uv (oi : OiFits R) (f : Option (FilterSpec R)) (n : Nat) (it : Iter R (OiVis R))
    (rs : List (Option (Datum (OiVis R) (OiVisRecord R)))) (d : Datum (OiVis R) (OiVisRecord R))
    (h : calls visKind n (iter_init visKind oi f) = .ok (it, rs))
    (hd : rs.getLast? = some (some d)) :
    ∃ w, effWave oi d.table.insname d.iwave = some w ∧
      oi_vis_iter_get_uv it = .ok (R.toD w, R.div d.record.ucoord (R.toD w),
        R.div d.record.vcoord (R.toD w)) := by
  obtain ⟨⟨h1, h2, -, h4, h5, h6⟩, hp, hacc⟩ := calls_last n (pw_init visKind oi f) h hd
  have hacc : oi_vis_iter_accept_channel it.filter
    (oi_fits_lookup_wavelength it.pData d.table.insname) d.record d.iwave = .ok true := hacc
  rw [hp] at h2 hacc
  obtain ⟨w, hw, hacc⟩ := bind_eq_ok.1 hacc
  obtain ⟨x, hx, -⟩ := bind_eq_ok.1 hacc
  have hw := deref_eq_ok.1 hw
  have hx := deref_eq_ok.1 hx
  refine ⟨x, by simp [effWave, hw, hx], ?_⟩
  have h2 : it.pWave = some w := by rw [h2]; exact hw
  have h5 : d.table.record[d.irec]? = some d.record := h5
  have : ¬ ((d.iwave : Int) < 0) := by omega
  unfold oi_vis_iter_get_uv
  simp [h1, h4, h5, h6, h2, index, hx, chanIndex, this]

/-- C26. The same for squared visibilities. -/
theorem C26_vis2_get_uv (oi : OiFits R) (f : Option (FilterSpec R)) (n : Nat)
    (it : Iter R (OiVis2 R)) (rs : List (Option (Datum (OiVis2 R) (OiVis2Record R))))
    (d : Datum (OiVis2 R) (OiVis2Record R))
    (h : calls vis2Kind n (iter_init vis2Kind oi f) = .ok (it, rs))
    (hd : rs.getLast? = some (some d)) :
    ∃ w, effWave oi d.table.insname d.iwave = some w ∧
      oi_vis2_iter_get_uv it = .ok (R.toD w, R.div d.record.ucoord (R.toD w),
        R.div d.record.vcoord (R.toD w)) := by
  obtain ⟨⟨h1, h2, -, h4, h5, h6⟩, hp, hacc⟩ := calls_last n (pw_init vis2Kind oi f) h hd
  have hacc : oi_vis2_iter_accept_channel it.filter
    (oi_fits_lookup_wavelength it.pData d.table.insname) d.record d.iwave = .ok true := hacc
  rw [hp] at h2 hacc
  obtain ⟨w, hw, hacc⟩ := bind_eq_ok.1 hacc
  obtain ⟨x, hx, -⟩ := bind_eq_ok.1 hacc
  have hw := deref_eq_ok.1 hw
  have hx := deref_eq_ok.1 hx
  refine ⟨x, by simp [effWave, hw, hx], ?_⟩
  have h2 : it.pWave = some w := by rw [h2]; exact hw
  have h5 : d.table.record[d.irec]? = some d.record := h5
  have : ¬ ((d.iwave : Int) < 0) := by omega
  unfold oi_vis2_iter_get_uv
  simp [h1, h4, h5, h6, h2, index, hx, chanIndex, this]

/-- C26. The same for triple products, with the coordinates of both baselines. -/
theorem C26_t3_get_uv (oi : OiFits R) (f : Option (FilterSpec R)) (n : Nat) (it : Iter R (OiT3 R))
    (rs : List (Option (Datum (OiT3 R) (OiT3Record R)))) (d : Datum (OiT3 R) (OiT3Record R))
    (h : calls t3Kind n (iter_init t3Kind oi f) = .ok (it, rs))
    (hd : rs.getLast? = some (some d)) :
    ∃ w, effWave oi d.table.insname d.iwave = some w ∧
      oi_t3_iter_get_uv it = .ok (R.toD w, R.div d.record.u1coord (R.toD w),
        R.div d.record.v1coord (R.toD w), R.div d.record.u2coord (R.toD w),
        R.div d.record.v2coord (R.toD w)) := by
  obtain ⟨⟨h1, h2, -, h4, h5, h6⟩, hp, hacc⟩ := calls_last n (pw_init t3Kind oi f) h hd
  have hacc : oi_t3_iter_accept_channel it.filter
    (oi_fits_lookup_wavelength it.pData d.table.insname) d.record d.iwave = .ok true := hacc
  rw [hp] at h2 hacc
  obtain ⟨w, hw, hacc⟩ := bind_eq_ok.1 hacc
  obtain ⟨x, hx, -⟩ := bind_eq_ok.1 hacc
  have hw := deref_eq_ok.1 hw
  have hx := deref_eq_ok.1 hx
  refine ⟨x, by simp [effWave, hw, hx], ?_⟩
  have h2 : it.pWave = some w := by rw [h2]; exact hw
  have h5 : d.table.record[d.irec]? = some d.record := h5
  have : ¬ ((d.iwave : Int) < 0) := by omega
  unfold oi_t3_iter_get_uv
  simp [h1, h4, h5, h6, h2, index, hx, chanIndex, this]

-- the second datum of the example: 30 m and 40 m in units of 2 microns
example : (do
    let (it, _) ← calls vis2Kind 2 (iter_init vis2Kind Ex.oi none)
    oi_vis2_iter_get_uv it) =
    .ok (Ex.num (mkRat 2 1000000), Ex.num 15000000, Ex.num 20000000) := by decide +kernel
-- before the first call there is no current datum
example : oi_vis2_iter_get_uv (iter_init vis2Kind Ex.oi none) = .ub := by decide +kernel

/-! ### C27: agreement with count_oi_fits_data -/

/-- C27. If the filter rejects flagged data and nothing else, the number of data an
iterator yields is the count of `count_oi_fits_data`. -/
theorem C27_iter_count (oi : OiFits R) (f : FilterSpec R) (n : Nat) (hwf : oi.WF)
    (hf : f.accept_flagged = false)
    (h1 : WavesFound oi f OiVis.nwave OiVis.arrname OiVis.insname OiVis.corrname oi.visList)
    (h2 : WavesFound oi f OiVis2.nwave OiVis2.arrname OiVis2.insname OiVis2.corrname oi.vis2List)
    (h3 : WavesFound oi f OiT3.nwave OiT3.arrname OiT3.insname OiT3.corrname oi.t3List)
    (a1 : ∀ d ∈ visData oi, VisSelected { f with accept_flagged := true } oi d)
    (a2 : ∀ d ∈ vis2Data oi, Vis2Selected { f with accept_flagged := true } oi d)
    (a3 : ∀ d ∈ t3Data oi, T3Selected { f with accept_flagged := true } oi d) :
    ∃ nvis nvis2 nt3, count_oi_fits_data oi = .ok (nvis, nvis2, nt3) ∧
      (∃ it rs, calls visKind n (iter_init visKind oi (some f)) = .ok (it, rs) ∧
        rs.countP Option.isSome = min n nvis) ∧
      (∃ it rs, calls vis2Kind n (iter_init vis2Kind oi (some f)) = .ok (it, rs) ∧
        rs.countP Option.isSome = min n nvis2) ∧
      (∃ it rs, calls t3Kind n (iter_init t3Kind oi (some f)) = .ok (it, rs) ∧
        rs.countP Option.isSome = min n nt3) := by
  refine ⟨_, _, _, C18_count_oi_fits_data oi (fun t ht r hr => ((hwf.vis t ht).recs r hr).flag)
    (fun t ht r hr => ((hwf.vis2 t ht).recs r hr).flag)
    (fun t ht r hr => ((hwf.t3 t ht).recs r hr).flag), ?_, ?_, ?_⟩
  · obtain ⟨it, h⟩ := C24_vis_iter oi (some f) n hwf.vis h1
    refine ⟨it, _, h, ?_⟩
    rw [yields_countP]
    congr 1
    refine select_flag_length (flag := OiVisRecord.flag)
      (fun t ht r hr => ((hwf.vis t ht).recs r hr).flag) ?_
    intro d hd
    have := a1 d hd
    refine ⟨fun h => ?_, fun h => ⟨this.enabled, this.names, this.target, this.mjd, this.bas,
      this.wave, this.snrAmp, this.snrPhi, .inr h⟩⟩
    rcases h.flag with h | h
    · simp [filterOr, hf] at h
    · exact h
  · obtain ⟨it, h⟩ := C24_vis2_iter oi (some f) n hwf.vis2 h2
    refine ⟨it, _, h, ?_⟩
    rw [yields_countP]
    congr 1
    refine select_flag_length (flag := OiVis2Record.flag)
      (fun t ht r hr => ((hwf.vis2 t ht).recs r hr).flag) ?_
    intro d hd
    have := a2 d hd
    refine ⟨fun h => ?_, fun h => ⟨this.enabled, this.names, this.target, this.mjd, this.bas,
      this.wave, this.snr, .inr h⟩⟩
    rcases h.flag with h | h
    · simp [filterOr, hf] at h
    · exact h
  · obtain ⟨it, h⟩ := C24_t3_iter oi (some f) n hwf.t3 h3
    refine ⟨it, _, h, ?_⟩
    rw [yields_countP]
    congr 1
    refine select_flag_length (flag := OiT3Record.flag)
      (fun t ht r hr => ((hwf.t3 t ht).recs r hr).flag) ?_
    intro d hd
    have := a3 d hd
    refine ⟨fun h => ?_, fun h => ⟨this.enabled, this.names, this.target, this.mjd, this.basAB,
      this.basBC, this.basAC, this.wave, this.snrAmp, this.snrPhi, .inr h⟩⟩
    rcases h.flag with h | h
    · simp [filterOr, hf] at h
    · exact h

-- On the example dataset the default ranges exclude nothing (an iterator accepting
-- flagged data yields all 12 data), and 6 are unflagged.
example : (fun x => x.2.countP Option.isSome) <$>
    calls vis2Kind 20 (iter_init vis2Kind Ex.oi none) = .ok 12 := by decide +kernel
example : (fun x => x.2.countP Option.isSome) <$> calls vis2Kind 20 (iter_init vis2Kind Ex.oi
    (some { init_oi_filter _ with accept_flagged := false })) = .ok 6 := by decide +kernel
example : count_oi_fits_data Ex.oi = .ok (3, 6, 1) := by decide +kernel

end Verif
