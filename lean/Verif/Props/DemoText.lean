import Verif.Props.Calls
import Verif.Proof.DemoTextStore
import Verif.Proof.DemoTextBad

/-! C91: the tables which `oitable-demo write` takes from a text. -/

set_option Elab.async false

namespace Verif
open Spec

variable {R : FP}

/-- The tables which are taken from a text are those which the text describes. -/
theorem C91_partial (N : Numerals R) (u : Undef R) {d : DemoDoc} (ho : ∀ t ∈ d.toks, t.OK) (hc : d.Consistent)
    (hd : d.Distinct) {text : CStr} (ht : d.IsText text) :
    ∃ st, scanDemo N u { input := text } = .ok (d.tables N u.int, st) :=
  scanDemo_eq N u d ho hc hd ht

/-- The last condition is the exact one: if an option is left out which the next one is taken for, the program does not
come to the end of the text. -/
theorem C91_exact (N : Numerals R) (u : Undef R) {d : DemoDoc} (ho : ∀ t ∈ d.toks, t.OK) (hc : d.Consistent)
    {text : CStr} (ht : d.IsText text) : (∃ x, scanDemo N u { input := text } = .ok x) ↔ d.Distinct := by
  constructor
  · rintro ⟨x, hx⟩
    by_contra hd
    exact scanDemo_bad N u d ho hc hd ht x hx
  · intro hd
    obtain ⟨st, h⟩ := C91_partial N u ho hc hd ht
    exact ⟨_, h⟩

/-- The file made from the text holds what the text describes, one table of each type. -/
theorem C91_file_partial (N : Numerals R) (u : Undef R) (today : CStr) {d : DemoDoc} (ho : ∀ t ∈ d.toks, t.OK)
    (hc : d.Consistent) (hd : d.Distinct) (hr : d.InRange N) {text : CStr} (ht : d.IsText text) :
    ∃ hdus, demo_write_text N u today false (some text) = .ok (some hdus, .ok) ∧
    ∀ u', ∃ oi, read_oi_fits u' (some hdus) .ok = .ok (some oi, .ok) ∧
      oi.targets = (d.targets.table N).asRead u'.str ∧ oi.arrayList = [(d.array.table N).asRead] ∧
      oi.wavelengthList = [(d.wave.table N).asRead] ∧ oi.corrList = [(d.corr.table N).asRead] ∧
      oi.inspolList = [(d.inspol.table N d.wave.eff_wave.length).asRead] ∧
      oi.visList = [(d.vis.table N u.int d.wave.eff_wave.length).asRead u'.int] ∧
      oi.vis2List = [(d.vis2.table N d.wave.eff_wave.length).asRead u'.int] ∧
      oi.t3List = [(d.t3.table N d.wave.eff_wave.length).asRead u'.int] ∧
      oi.fluxList = [(d.flux.table N d.wave.eff_wave.length).asRead u'.int] ∧
      oi.header.date_obs = keyStr d.vis.date_obs := by
  obtain ⟨st, h⟩ := C91_partial N u ho hc hd ht
  obtain ⟨hdus, h1, h2⟩ := C86_demo_partial today u.str u.str (demo_storable hc hd hr u.int)
  refine ⟨hdus, ?_, fun u' => ?_⟩
  · unfold demo_write_text
    simp only [h, Outcome.bind_ok]
    exact h1
  · obtain ⟨oi, f1, f2, f3, f4, f5, f6, f7, f8, f9, f10, -, f11, -⟩ := h2 u'
    exact ⟨oi, f1, f2, f3, f4, f5, f6, f7, f8, f9, f10, f11⟩

/-- A file which is there already is not overwritten, whatever the text is. -/
theorem C91_no_overwrite (N : Numerals R) (u : Undef R) (today : CStr) (text : CStr)
    {hdus : Option (List (Hdu R))} {st : Status} (h : demo_write_text N u today true (some text) = .ok (hdus, st)) :
    hdus = none ∧ st ≠ .ok := by
  unfold demo_write_text at h
  cases e : scanDemo N u { input := text } with
  | ok x =>
    simp only [e, Outcome.bind_ok] at h
    unfold demo_write at h
    cases e2 : demoHeader u.str u.str x.1 with
    | ok header =>
      rw [e2] at h
      have h : makeFile today true (demoCalls header x.1) = .ok (hdus, st) := h
      obtain ⟨st', h1, h2⟩ := C86_no_overwrite today (demoCalls header x.1)
      rw [h2] at h
      cases h
      exact ⟨rfl, h1⟩
    | abort => rw [e2] at h; cases h
    | ub => rw [e2] at h; cases h
  | abort => simp only [e] at h; cases h
  | ub => simp only [e] at h; cases h

/-! ### An example -/

/-- Numerals without exponent, for rational numbers. -/
def Ex.ratOf (w : CStr) : Option Rat :=
  let whole := w.takeWhile (· ≠ '.')
  let part := (w.dropWhile (· ≠ '.')).drop 1
  some (mkRat (intOf (whole ++ part)) (10 ^ part.length))

def Ex.numerals : Numerals FP.ratFP := ⟨Ex.ratOf, Ex.ratOf⟩

/-- Two stations and two channels; the numbers of two elements of the Jones matrix are for both channels. -/
def Ex.doc : DemoDoc where
  array :=
    { arrname := "COAST", frame := "GEOCENTRIC", arrayx := "3920635.0", arrayy := "2889.0", arrayz := "5013987.0"
      nelement := "2"
      elem :=
        [{ tel_name := "TEL2", sta_name := "C", x := "0.000", y := "0.000", z := "0.000", diameter := "0.400"
           fov := "0.5", fovtype := "RADIUS" },
         { tel_name := "TEL4", sta_name := "W4", x := "4.474", y := "-9.605", z := "+3.481", diameter := ".4"
           fov := "0.5", fovtype := "FWHM" }] }
  targets :=
    { ntarget := "2"
      targ :=
        [{ target_id := "1", target := "alp_aur", raep0 := "79.172", decep0 := "45.998", equinox := "2000.0"
           ra_err := "0.0001", dec_err := "0.0001", sysvel := "30200", veltyp := "HELIOCEN", veldef := "OPTICAL"
           pmra := "0.00002098", pmdec := "-0.00011861", pmra_err := "0.00000022", pmdec_err := "0.00000014"
           parallax := "0.00002147", para_err := "0.00000025", spectyp := "G5III+G8III", category := "SCI".toList },
         { target_id := "2", target := "bet_aur", raep0 := "89.88", decep0 := "44.947", equinox := "2000.0"
           ra_err := "0.0001", dec_err := "0.0001", sysvel := "0", veltyp := "UNKNOWN", veldef := "OPTICAL"
           pmra := "0", pmdec := "0", pmra_err := "0", pmdec_err := "0", parallax := "0", para_err := "0"
           spectyp := "A1IV", category := none }] }
  wave := { insname := "COAST_NICMOS", nwave := "2", eff_wave := ["0.000001667", "0.0000020"], eff_band := ["0.25", "0.26"] }
  corr := { corrname := "TEST", ndata := "8", ncorr := "2", iindx := ["1", "1"], jindx := ["2", "8"], corr := ["0.123", "-0.345"] }
  inspol :=
    { date_obs := "2000-01-01", npol := "1", arrname := "COAST", orient := "NORTH", model := "nominal", numrec := "1"
      record :=
        [{ target_id := "1", insname := "COAST_NICMOS", mjd_obs := "51544.0", mjd_end := "51545.0"
           jxx := [("1.0", "0.1"), ("0.9", "-0.2")], jyy := [("0.98", "+0.0")], jxy := [("0.1", "0.0"), ("0.2", "0.3")]
           jyx := [("0.15", "0.01")], sta_index := "1" }] }
  vis :=
    { date_obs := "2000-02-14", arrname := "COAST", insname := "COAST_NICMOS", corrname := "TEST"
      amptyp := "absolute".toList, phityp := none, amporder := none, phiorder := none, numrec := "1"
      record :=
        [{ target_id := "1", time := "82810.0", mjd := "51588.0", int_time := "100.0", visamp := ["0.658", "0.7"]
           visamperr := ["0.001", "0.002"], corrindx_visamp := "1", visphi := ["-22.65", "3"], visphierr := ["0.1", "1"]
           corrindx_visphi := "3", ucoord := "8.87", vcoord := "1.15", sta1 := "1", sta2 := "2" }] }
  vis2 :=
    { date_obs := "2000-02-14", arrname := "COAST", insname := "COAST_NICMOS", corrname := "TEST", numrec := "1"
      record :=
        [{ target_id := "1", time := "82810.0", mjd := "51588.0", int_time := "100.0", vis2data := ["0.658", "0.7"]
           vis2err := ["0.001", "0.002"], corrindx_vis2data := "5", ucoord := "8.87", vcoord := "1.15", sta1 := "1"
           sta2 := "2" }] }
  t3 :=
    { date_obs := "2000-02-14", arrname := "COAST", insname := "COAST_NICMOS", corrname := "TEST", numrec := "1"
      record :=
        [{ target_id := "1", time := "82810.0", mjd := "51588.0", int_time := "100.0", t3amp := ["0.658", "0.7"]
           t3amperr := ["0.001", "0.002"], corrindx_t3amp := "7", t3phi := ["10", "20"], t3phierr := ["1", "2"]
           corrindx_t3phi := "8", u1coord := "1", v1coord := "2", u2coord := "3", v2coord := "-4", sta1 := "1"
           sta2 := "2", sta3 := "1" }] }
  flux :=
    { date_obs := "2000-02-14", arrname := "COAST".toList, insname := "COAST_NICMOS", corrname := "TEST"
      fov := "0.5".toList, fovtype := "RADIUS".toList, calstat := 'C', numrec := "1"
      record :=
        [{ target_id := "1", mjd := "51588.0", int_time := "100.0", fluxdata := ["1.5", "1.6"], fluxerr := ["0.1", "0.2"]
           corrindx_fluxdata := "9", sta_index := "2".toList }] }

/-- The lines of the text: some are empty, and there are some more spaces here and there. -/
def Ex.docLines : List String :=
  ["OI_ARRAY", "", "arrname COAST", "frame   GEOCENTRIC", "arrayx 3920635.0", "arrayy 2889.0", "arrayz 5013987.0",
   "nelement 2", "", "tel_name TEL2", "sta_name C", "staxyz 0.000 0.000 0.000", "diameter 0.400", "fov 0.5",
   "fovtype RADIUS", "", "tel_name TEL4", "sta_name W4", "staxyz 4.474 -9.605 +3.481", "diameter .4", "fov 0.5",
   "fovtype FWHM", "", "", "OI_TARGET", "", "ntarget 2", "", "target_id 1", "target alp_aur", "raep0 79.172",
   "decep0 45.998", "equinox 2000.0", "ra_err 0.0001", "dec_err 0.0001", "sysvel 30200", "veltyp HELIOCEN",
   "veldef OPTICAL", "pmra 0.00002098", "pmdec -0.00011861", "pmra_err 0.00000022", "pmdec_err 0.00000014",
   "parallax 0.00002147", "para_err 0.00000025", "spectyp G5III+G8III", "category SCI", "", "target_id 2",
   "target bet_aur", "raep0 89.88", "decep0 44.947", "equinox 2000.0", "ra_err 0.0001", "dec_err 0.0001",
   "sysvel 0", "veltyp UNKNOWN", "veldef OPTICAL", "pmra 0", "pmdec 0", "pmra_err 0", "pmdec_err 0", "parallax 0",
   "para_err 0", "spectyp A1IV", "", "", "OI_WAVELENGTH", "", "insname COAST_NICMOS", "nwave 2",
   "eff_wave 0.000001667 0.0000020", "eff_band 0.25 0.26", "", "", "OI_CORR", "", "corrname TEST", "ndata 8",
   "ncorr 2", "iindx     1     1", "jindx     2     8", "corr  0.123 -0.345", "", "", "OI_INSPOL", "",
   "date-obs 2000-01-01", "npol 1", "arrname COAST", "orient NORTH", "model nominal", "numrec 1", "",
   "target_id 1", "insname COAST_NICMOS", "mjd_obs 51544.0", "mjd_end 51545.0", "jxx 1.0 0.1i 0.9 -0.2i",
   "jyy 0.98 +0.0i", "jxy 0.1 0.0i 0.2 0.3i", "jyx 0.15 0.01i", "sta_index 1", "", "", "OI_VIS", "",
   "date-obs 2000-02-14", "arrname COAST", "insname COAST_NICMOS", "corrname TEST", "amptyp absolute", "numrec 1",
   "", "target_id 1", "time 82810.0", "mjd 51588.0", "int_time 100.0", "visamp 0.658 0.7",
   "visamperr 0.001 0.002", "corrindx_visamp 1", "visphi -22.65 3", "visphierr 0.1 1", "corrindx_visphi 3",
   "ucoord 8.87", "vcoord 1.15", "sta_index 1 2", "", "", "OI_VIS2", "", "date-obs 2000-02-14", "arrname COAST",
   "insname COAST_NICMOS", "corrname TEST", "numrec 1", "", "target_id 1", "time 82810.0", "mjd 51588.0",
   "int_time 100.0", "vis2data 0.658 0.7", "vis2err 0.001 0.002", "corrindx_vis2data 5", "ucoord 8.87",
   "vcoord 1.15", "sta_index 1 2", "", "", "OI_T3", "", "date-obs 2000-02-14", "arrname COAST",
   "insname COAST_NICMOS", "corrname TEST", "numrec 1", "", "target_id 1", "time 82810.0", "mjd 51588.0",
   "int_time 100.0", "t3amp 0.658 0.7", "t3amperr 0.001 0.002", "corrindx_t3amp 7", "t3phi 10 20", "t3phierr 1 2",
   "corrindx_t3phi 8", "u1coord 1", "v1coord 2", "u2coord 3", "v2coord -4", "sta_index 1 2 1", "", "", "OI_FLUX",
   "", "date-obs 2000-02-14", "arrname COAST", "insname COAST_NICMOS", "corrname TEST", "fov 0.5",
   "fovtype RADIUS", "calstat C", "numrec 1", "", "target_id 1", "mjd 51588.0", "int_time 100.0",
   "fluxdata 1.5 1.6", "fluxerr 0.1 0.2", "corrindx_fluxdata 9", "sta_index 2"]

def Ex.docText : CStr := Ex.docLines.flatMap fun l => l.toList ++ ['\n']

theorem Ex.doc_ok : ∀ t ∈ Ex.doc.toks, t.OK := testTok_sound (by decide +kernel)

theorem Ex.doc_text : Ex.doc.IsText Ex.docText := ⟨by decide +kernel, by decide +kernel⟩

theorem Ex.doc_distinct : Ex.doc.Distinct := ⟨by decide, by decide, by decide⟩

theorem Ex.doc_consistent : Ex.doc.Consistent where
  nelement := ⟨by simp [Ex.doc], by decide +kernel⟩
  ntarget := ⟨by simp [Ex.doc], by decide +kernel⟩
  nwave := ⟨by simp [Ex.doc], by decide +kernel⟩
  eff_band := rfl
  ncorr := ⟨by simp [Ex.doc], by decide +kernel⟩
  iindx := rfl
  jindx := rfl
  inspol := ⟨by simp [Ex.doc], by decide +kernel⟩
  jones := by decide +kernel
  vis := ⟨by simp [Ex.doc], by decide +kernel⟩
  visData := by decide +kernel
  vis2 := ⟨by simp [Ex.doc], by decide +kernel⟩
  vis2Data := by decide +kernel
  t3 := ⟨by simp [Ex.doc], by decide +kernel⟩
  t3Data := by decide +kernel
  flux := ⟨by simp [Ex.doc], by decide +kernel⟩
  fluxData := by decide +kernel

theorem Ex.doc_inRange : Ex.doc.InRange Ex.numerals where
  arrayx := by decide +kernel
  arrayy := by decide +kernel
  arrayz := by decide +kernel
  nelement := by decide
  nwave := by decide
  target := by decide +kernel
  inspol := by decide +kernel
  vis := by decide +kernel
  vis2 := by decide +kernel
  t3 := by decide +kernel
  flux := by decide +kernel
  fov := by decide +kernel

-- The text is read as it should be, and the stations and numbers are those in the text.
example (u : Undef FP.ratFP) : ∃ st, scanDemo Ex.numerals u { input := Ex.docText } = .ok (Ex.doc.tables Ex.numerals u.int, st) :=
  C91_partial Ex.numerals u Ex.doc_ok Ex.doc_consistent Ex.doc_distinct Ex.doc_text

example : (Ex.doc.tables Ex.numerals 0).array.elem.map (fun e => (e.sta_name, e.sta_index, (e.diameter : Option Rat))) =
    [(['C'], 1, some (2 / 5)), (['W', '4'], 2, some (2 / 5))] := by decide +kernel

example : (Ex.doc.tables Ex.numerals 0).inspol.record.map (fun r => (r.jyy : List (Option Rat × Option Rat))) =
    [[(some (49 / 50), some 0), (some (49 / 50), some 0)]] := by
  decide +kernel

-- And it can be stored.
example (u : Undef FP.ratFP) : ∃ hdus,
    demo_write_text Ex.numerals u "2016-01-01" false (some Ex.docText) = .ok (some hdus, .ok) := by
  obtain ⟨hdus, h, -⟩ := C91_file_partial Ex.numerals u "2016-01-01" Ex.doc_ok Ex.doc_consistent Ex.doc_distinct
    Ex.doc_inRange Ex.doc_text
  exact ⟨hdus, h⟩

/-! ### What the program cannot read -/

/-- The text with the words of the description. -/
def Ex.join (d : DemoDoc) : CStr := (d.toks.map Tok.word).intersperse [' '] |>.flatten

/-- C91 is false if amporder comes after neither amptyp nor phityp. -/
theorem C91_amporder_counterexample : ∃ (d : DemoDoc) (text : CStr), (∀ t ∈ d.toks, t.OK) ∧ d.Consistent ∧ d.IsText text ∧
    d.vis.amporder = some ['1'] ∧ d.vis.phiorder = none ∧ d.flux.fov.isSome ∧
    ∀ (N : Numerals FP.ratFP) u x, scanDemo N u { input := text } ≠ .ok x := by
  have ho : ∀ t ∈ ({ Ex.doc with vis := { Ex.doc.vis with amptyp := none, amporder := some ['1'] } } : DemoDoc).toks, t.OK :=
    testTok_sound (by decide +kernel)
  have hc : ({ Ex.doc with vis := { Ex.doc.vis with amptyp := none, amporder := some ['1'] } } : DemoDoc).Consistent :=
    { Ex.doc_consistent with }
  have ht : ({ Ex.doc with vis := { Ex.doc.vis with amptyp := none, amporder := some ['1'] } } : DemoDoc).IsText
      (Ex.join { Ex.doc with vis := { Ex.doc.vis with amptyp := none, amporder := some ['1'] } }) :=
    ⟨by decide +kernel, by decide +kernel⟩
  refine ⟨_, _, ho, hc, ht, rfl, rfl, rfl, fun N u x hx => ?_⟩
  have := ((C91_exact N u ho hc ht).mp ⟨x, hx⟩).amptyp rfl rfl
  cases this

/-- C91 is false if phiorder comes after neither phityp nor amporder. -/
theorem C91_phiorder_counterexample : ∃ (d : DemoDoc) (text : CStr), (∀ t ∈ d.toks, t.OK) ∧ d.Consistent ∧ d.IsText text ∧
    d.vis.amptyp.isSome ∧ d.vis.phiorder = some ['1'] ∧ d.flux.fov.isSome ∧
    ∀ (N : Numerals FP.ratFP) u x, scanDemo N u { input := text } ≠ .ok x := by
  have ho : ∀ t ∈ ({ Ex.doc with vis := { Ex.doc.vis with phiorder := some ['1'] } } : DemoDoc).toks, t.OK :=
    testTok_sound (by decide +kernel)
  have hc : ({ Ex.doc with vis := { Ex.doc.vis with phiorder := some ['1'] } } : DemoDoc).Consistent :=
    { Ex.doc_consistent with }
  have ht : ({ Ex.doc with vis := { Ex.doc.vis with phiorder := some ['1'] } } : DemoDoc).IsText
      (Ex.join { Ex.doc with vis := { Ex.doc.vis with phiorder := some ['1'] } }) :=
    ⟨by decide +kernel, by decide +kernel⟩
  refine ⟨_, _, ho, hc, ht, rfl, rfl, rfl, fun N u x hx => ?_⟩
  have := ((C91_exact N u ho hc ht).mp ⟨x, hx⟩).phityp rfl rfl
  cases this

/-- C91 is false of OI_FLUX with fovtype but without fov. -/
theorem C91_fovtype_counterexample : ∃ (d : DemoDoc) (text : CStr), (∀ t ∈ d.toks, t.OK) ∧ d.Consistent ∧ d.IsText text ∧
    d.vis = Ex.doc.vis ∧ d.flux.fovtype = Ex.doc.flux.fovtype ∧
    ∀ (N : Numerals FP.ratFP) u x, scanDemo N u { input := text } ≠ .ok x := by
  have ho : ∀ t ∈ ({ Ex.doc with flux := { Ex.doc.flux with fov := none } } : DemoDoc).toks, t.OK :=
    testTok_sound (by decide +kernel)
  have hc : ({ Ex.doc with flux := { Ex.doc.flux with fov := none } } : DemoDoc).Consistent :=
    { Ex.doc_consistent with }
  have ht : ({ Ex.doc with flux := { Ex.doc.flux with fov := none } } : DemoDoc).IsText
      (Ex.join { Ex.doc with flux := { Ex.doc.flux with fov := none } }) :=
    ⟨by decide +kernel, by decide +kernel⟩
  refine ⟨_, _, ho, hc, ht, rfl, rfl, fun N u x hx => ?_⟩
  have := ((C91_exact N u ho hc ht).mp ⟨x, hx⟩).fov rfl
  cases this

def isUb : Outcome α → Bool
  | .ub => true
  | _ => false

theorem ub_bind {m : ScanM R α} {st : ScanState R} (h : isUb (m st) = true) (f : α → ScanM R β) : (m >>= f) st = .ub := by
  show (m st).bind _ = _
  cases e : m st with
  | ub => rfl
  | ok | abort => rw [e] at h; cases h

/-- A station whose fovtype has seven letters overruns the array for six. -/
theorem C91_overrun : ∃ text : CStr, ∀ u : Undef FP.ratFP, scanDemo Ex.numerals u { input := text } = .ub := by
  refine ⟨"OI_ARRAY arrname A frame F arrayx 0 arrayy 0 arrayz 0 nelement 1 tel_name T sta_name S staxyz 0 0 0 diameter 1 fov 1 fovtype RADIUS1",
    fun u => ?_⟩
  have h : isUb (scanArray Ex.numerals { input := "OI_ARRAY arrname A frame F arrayx 0 arrayy 0 arrayz 0 nelement 1 tel_name T sta_name S staxyz 0 0 0 diameter 1 fov 1 fovtype RADIUS1" }) = true := by
    decide +kernel
  unfold scanDemo
  exact ub_bind h _

/-- A text file which is not there is read from all the same. -/
theorem C91_no_text (N : Numerals R) (u : Undef R) (today : CStr) (exists_ : Bool) :
    demo_write_text N u today exists_ none = .ub := rfl

end Verif
