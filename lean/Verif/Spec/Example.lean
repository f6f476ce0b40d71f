import Verif.Spec.WF
import Verif.Spec.Basic
import Mathlib.Tactic.Linarith
import Mathlib.Algebra.Order.Field.Rat

/-! A concrete dataset over rational "floating point" numbers, used to show that
the hypotheses of theorems can be met. -/

namespace Verif.Ex
open FP Spec

/-- Rational arithmetic satisfies the facts assumed of IEEE arithmetic. -/
def ratLawful : Lawful ratFP where
  val := id
  rnd := id
  lt_iff := by
    intro x y a b hx hy
    simp only [id] at hx hy
    subst hx; subst hy
    simp [ratFP]
  sub_val := by
    intro x y a b hx hy _ _ _ _
    simp only [id] at hx hy
    subst hx; subst hy
    simp [ratFP]
  rnd_mono := fun _ _ h => h
  rnd_neg := fun _ => rfl
  abs_val := by
    intro x a hx
    simp only [id] at hx
    subst hx
    simp [ratFP]
  lit_int := by
    intro n _ _
    simp [ratFP]

/-- a number -/
def num (q : Rat) : ratFP.Dbl := some q
/-- a `float` number -/
def numF (q : Rat) : ratFP.Flt := some q

def header : OiHeader where
  origin := "ESO"
  date := "2016-01-01"
  date_obs := "2014-11-13"
  content := "OIFITS2"
  telescop := "VLTI"
  instrume := "INS1"
  observer := "A. Person"
  insmode := "LOW"
  object := "Star A"
  referenc := ""
  author := ""
  prog_id := ""
  procsoft := ""
  obstech := ""

def targ (id : Int) (name : CStr) : Target ratFP where
  target_id := id
  target := name
  raep0 := num 10
  decep0 := num 20
  equinox := numF 2000
  ra_err := num 0
  dec_err := num 0
  sysvel := num 0
  veltyp := "LSR"
  veldef := "OPTICAL"
  pmra := num 0
  pmdec := num 0
  pmra_err := num 0
  pmdec_err := num 0
  parallax := numF 0
  para_err := numF 0
  spectyp := "K0"
  category := "SCI"

def targets : OiTarget ratFP where
  revision := 2
  targ := [targ 1 "Star A", targ 2 "Star B"]
  usecategory := true

def elem (i : Int) (x : Rat) : Element ratFP where
  tel_name := "UT"
  sta_name := "U"
  sta_index := i
  diameter := numF 8
  staxyz := (num x, num 0, num 0)
  fov := num 1
  fovtype := "FWHM"

def array : OiArray ratFP where
  revision := 2
  arrname := "VLTI"
  frame := "GEOCENTRIC"
  arrayx := num 1
  arrayy := num 2
  arrayz := num 3
  elem := [elem 1 0, elem 2 50, elem 3 100]

def wave : OiWavelength ratFP where
  revision := 2
  insname := "INS1"
  nwave := 2
  eff_wave := [numF (mkRat 1 1000000), numF (mkRat 2 1000000)]
  eff_band := [numF (mkRat 1 10000000), numF (mkRat 1 10000000)]

def corr : OiCorr ratFP where
  revision := 1
  corrname := "CORR1"
  ndata := 2
  ncorr := 1
  iindx := [1]
  jindx := [2]
  corr := [num (mkRat 1 2)]

def inspol : OiInspol ratFP where
  revision := 1
  date_obs := "2014-11-13"
  npol := 1
  arrname := "VLTI"
  orient := "LABORATORY"
  model := "None"
  nwave := 2
  record := [⟨1, "INS1", num 56974, num 56975, [(numF 1, numF 0), (numF 2, numF 0)],
    [(numF 1, numF 0), (numF 2, numF 0)], [(numF 0, numF 0), (numF 0, numF 0)],
    [(numF 0, numF 0), (numF 0, numF 0)], 1⟩]

def visRec (id : Int) (flag : List Bool) : OiVisRecord ratFP where
  target_id := id
  time := num 0
  mjd := num 56974
  int_time := num 10
  visamp := [num (mkRat 1 2), num (mkRat 1 3)]
  visamperr := [num (mkRat 1 10), num (mkRat 1 20)]
  corrindx_visamp := 1
  visphi := [num 10, num 20]
  visphierr := [num 1, num 2]
  corrindx_visphi := 3
  visrefmap := some [false, true, true, false]
  rvis := some [num 1, num 2]
  rviserr := some [num (mkRat 1 10), num (mkRat 2 10)]
  corrindx_rvis := 5
  ivis := some [num 3, num 4]
  iviserr := some [num (mkRat 3 10), num (mkRat 4 10)]
  corrindx_ivis := 7
  ucoord := num 30
  vcoord := num 40
  sta_index := (1, 2)
  flag := flag

def vis : OiVis ratFP where
  revision := 2
  date_obs := "2014-11-13"
  arrname := "VLTI"
  insname := "INS1"
  corrname := "CORR1"
  amptyp := "differential"
  phityp := "differential"
  amporder := 1
  phiorder := 1
  usevisrefmap := true
  usecomplex := true
  complexunit := "Jy"
  ampunit := ""
  nwave := 2
  record := [visRec 1 [false, true], visRec 2 [false, false]]

def vis2Rec (id : Int) (mjd : Rat) (flag : List Bool) : OiVis2Record ratFP where
  target_id := id
  time := num 0
  mjd := num mjd
  int_time := num 10
  vis2data := [num (mkRat 1 2), num (mkRat 1 3)]
  vis2err := [num (mkRat 1 10), num (mkRat 1 20)]
  corrindx_vis2data := 1
  ucoord := num 30
  vcoord := num 40
  sta_index := (1, 2)
  flag := flag

def vis2 : OiVis2 ratFP where
  revision := 2
  date_obs := "2014-11-13"
  arrname := "VLTI"
  insname := "INS1"
  corrname := ""
  nwave := 2
  record := [vis2Rec 1 56974 [false, false], vis2Rec 2 56975 [true, true],
    vis2Rec 1 56976 [true, false]]

def t3Rec (id : Int) (flag : List Bool) : OiT3Record ratFP where
  target_id := id
  time := num 0
  mjd := num 56974
  int_time := num 10
  t3amp := [num (mkRat 1 2), num (mkRat 1 3)]
  t3amperr := [num (mkRat 1 10), num (mkRat 1 20)]
  corrindx_t3amp := 1
  t3phi := [num 10, num 20]
  t3phierr := [num 1, num 2]
  corrindx_t3phi := 3
  u1coord := num 30
  v1coord := num 40
  u2coord := num 30
  v2coord := num 40
  sta_index := (1, 2, 3)
  flag := flag

def t3 : OiT3 ratFP where
  revision := 2
  date_obs := "2014-11-13"
  arrname := "VLTI"
  insname := "INS1"
  corrname := ""
  nwave := 2
  record := [t3Rec 1 [false, true]]

def flux : OiFlux ratFP where
  revision := 1
  date_obs := "2014-11-13"
  arrname := "VLTI"
  insname := "INS1"
  corrname := ""
  fov := num 1
  fovtype := "FWHM"
  calstat := 'U'
  fluxunit := "Jy"
  nwave := 2
  record := [⟨1, num 56974, num 10, [num 5, num 6], [num 1, num 1], -1, 1, [false, false]⟩]

/-- A dataset with one table of each type (two OI_VIS2). -/
def oi : OiFits ratFP where
  numArray := 1
  numWavelength := 1
  numCorr := 1
  numInspol := 1
  numVis := 1
  numVis2 := 2
  numT3 := 1
  numFlux := 1
  header := header
  targets := targets
  arrayList := [array]
  wavelengthList := [wave]
  corrList := [corr]
  inspolList := [inspol]
  visList := [vis]
  vis2List := [vis2, vis2]
  t3List := [t3]
  fluxList := [flux]
  arrayHash := HMap.empty.insert "VLTI" array
  wavelengthHash := HMap.empty.insert "INS1" wave
  corrHash := HMap.empty.insert "CORR1" corr

theorem vis_wf : vis.WF where
  rows := by decide
  chans := by decide
  recs := by
    intro r hr
    simp only [vis, List.mem_cons, List.not_mem_nil, or_false] at hr
    rcases hr with rfl | rfl <;> exact ⟨rfl, rfl, rfl, rfl, rfl, rfl, rfl, rfl, rfl, rfl⟩

theorem vis2_wf : vis2.WF where
  rows := by decide
  chans := by decide
  recs := by
    intro r hr
    simp only [vis2, List.mem_cons, List.not_mem_nil, or_false] at hr
    rcases hr with rfl | rfl | rfl <;> exact ⟨rfl, rfl, rfl⟩

theorem t3_wf : t3.WF where
  rows := by decide
  chans := by decide
  recs := by
    intro r hr
    simp only [t3, List.mem_cons, List.not_mem_nil, or_false] at hr
    subst hr; exact ⟨rfl, rfl, rfl, rfl, rfl⟩

theorem flux_wf : flux.WF where
  rows := by decide
  chans := by decide
  recs := by
    intro r hr
    simp only [flux, List.mem_cons, List.not_mem_nil, or_false] at hr
    subst hr; exact ⟨rfl, rfl, rfl⟩

theorem inspol_wf : inspol.WF where
  rows := by decide
  chans := by decide
  recs := by
    intro r hr
    simp only [inspol, List.mem_cons, List.not_mem_nil, or_false] at hr
    subst hr; exact ⟨rfl, rfl, rfl, rfl⟩

theorem wave_wf : wave.WF := ⟨by decide, rfl, rfl⟩
theorem corr_wf : corr.WF := ⟨by decide, rfl, rfl, rfl⟩
theorem array_wf : array.WF := ⟨by decide⟩

theorem oi_counts : oi.CountsAgree := ⟨rfl, rfl, rfl, rfl, rfl, rfl, rfl, rfl⟩

theorem oi_wf : oi.WF where
  counts := oi_counts
  array := by
    intro t ht; simp only [oi, List.mem_cons, List.not_mem_nil, or_false] at ht
    subst ht; exact array_wf
  wavelength := by
    intro t ht; simp only [oi, List.mem_cons, List.not_mem_nil, or_false] at ht
    subst ht; exact wave_wf
  corr := by
    intro t ht; simp only [oi, List.mem_cons, List.not_mem_nil, or_false] at ht
    subst ht; exact corr_wf
  inspol := by
    intro t ht; simp only [oi, List.mem_cons, List.not_mem_nil, or_false] at ht
    subst ht; exact inspol_wf
  vis := by
    intro t ht; simp only [oi, List.mem_cons, List.not_mem_nil, or_false] at ht
    subst ht; exact vis_wf
  vis2 := by
    intro t ht; simp only [oi, List.mem_cons, List.not_mem_nil, or_false, or_self] at ht
    subst ht; exact vis2_wf
  t3 := by
    intro t ht; simp only [oi, List.mem_cons, List.not_mem_nil, or_false] at ht
    subst ht; exact t3_wf
  flux := by
    intro t ht; simp only [oi, List.mem_cons, List.not_mem_nil, or_false] at ht
    subst ht; exact flux_wf

end Verif.Ex
