import Verif.Spec.Unset
import Verif.Proof.HeldFile
import Verif.Props.Held

/-! A file determines what is read from it, except for the members which are not set. -/

namespace Verif.Spec
open Outcome

variable {R : FP} {α β : Type} {h : Hdu R}

/-! ### Keywords and columns -/

theorem TextKey.det {n v w : CStr} (a : TextKey h n v) (b : TextKey h n w) : v = w :=
  Except.ok.inj (a.symm.trans b)

theorem IntKey.det {n : CStr} {v w : Int} (a : IntKey h n v) (b : IntKey h n w) : v = w :=
  Except.ok.inj (a.symm.trans b)

theorem RealKey.det {n : CStr} {v w : R.Dbl} (a : RealKey h n v) (b : RealKey h n w) : v = w :=
  Except.ok.inj (a.symm.trans b)

theorem NameKey.det {n v w : CStr} (a : NameKey h n v) (b : NameKey h n w) : v = w := by
  obtain ⟨x, h1, rfl⟩ := a
  obtain ⟨y, h2, rfl⟩ := b
  rw [TextKey.det h1 h2]

theorem OptText.det {n v w : CStr} (a : OptText h n v) (b : OptText h n w) : v = w := by
  unfold OptText TextKey at *
  rcases a with a | ⟨a, rfl⟩ <;> rcases b with b | ⟨b, rfl⟩
  · exact Except.ok.inj (a.symm.trans b)
  · rw [a] at b; cases b
  · rw [a] at b; cases b
  · rfl

theorem OptInt.det {n : CStr} {v w : Int} (a : OptInt h n v) (b : OptInt h n w) : v = w := by
  unfold OptInt IntKey at *
  rcases a with a | ⟨a, rfl⟩ <;> rcases b with b | ⟨b, rfl⟩
  · exact Except.ok.inj (a.symm.trans b)
  · rw [a] at b; cases b
  · rw [a] at b; cases b
  · rfl

theorem OptReal.det {n : CStr} {v w : R.Dbl} (a : OptReal h n v) (b : OptReal h n w) : v = w := by
  unfold OptReal RealKey at *
  rcases a with a | ⟨a, rfl⟩ <;> rcases b with b | ⟨b, rfl⟩
  · exact Except.ok.inj (a.symm.trans b)
  · rw [a] at b; cases b
  · rw [a] at b; cases b
  · rfl

theorem Cells.det {conv : Cell R → Option α} {name : CStr} {i n : Nat} {xs ys : List α}
    (a : Cells conv h name i n xs) (b : Cells conv h name i n ys) : xs = ys := by
  obtain ⟨k, h1, h2⟩ := a
  obtain ⟨k', h3, h4⟩ := b
  obtain rfl : k = k' := Except.ok.inj (h1.symm.trans h3)
  exact Except.ok.inj (h2.symm.trans h4)

theorem Cells.det1 {conv : Cell R → Option α} {name : CStr} {i n : Nat} {x y : α}
    (a : Cells conv h name i n [x]) (b : Cells conv h name i n [y]) : x = y :=
  List.singleton_inj.mp (a.det b)

theorem Text.det {name : CStr} {w : Option Nat} {i : Nat} {v v' : CStr} (a : Text h name w i v)
    (b : Text h name w i v') : v = v' := by
  obtain ⟨k, _, h1, -, -, -, h2⟩ := a
  obtain ⟨k', _, h3, -, -, -, h4⟩ := b
  obtain rfl : k = k' := Except.ok.inj (h1.symm.trans h3)
  exact List.singleton_inj.mp (Except.ok.inj (h2.symm.trans h4))

theorem Repeat.det {name : CStr} {n m : Nat} (a : Repeat h name n) (b : Repeat h name m) : n = m := by
  obtain ⟨k, c, h1, h2, rfl⟩ := a
  obtain ⟨k', c', h3, h4, rfl⟩ := b
  obtain rfl : k = k' := Except.ok.inj (h1.symm.trans h3)
  rw [Option.some.inj (h2.symm.trans h4)]

theorem ColUnit.det {name v w : CStr} (a : ColUnit h name v) (b : ColUnit h name w) : v = w := by
  obtain ⟨k, c, h1, h2, h3⟩ := a
  obtain ⟨k', c', h1', h2', h3'⟩ := b
  obtain rfl : k = k' := Except.ok.inj (h1.symm.trans h1')
  obtain rfl := Option.some.inj (h2.symm.trans h2')
  exact Option.some.inj (h3.symm.trans h3')

theorem OptColUnit.det {name v w : CStr} (a : OptColUnit h name v) (b : OptColUnit h name w) : v = w := by
  unfold OptColUnit ColUnit at *
  rcases a with ⟨k, c, h1, h2, h3⟩ | ⟨k, c, h1, h2, h3, rfl⟩ <;>
    rcases b with ⟨k', c', h1', h2', h3'⟩ | ⟨k', c', h1', h2', h3', rfl⟩ <;>
    obtain rfl : k = k' := Except.ok.inj (h1.symm.trans h1') <;>
    obtain rfl := Option.some.inj (h2.symm.trans h2')
  · exact Option.some.inj (h3.symm.trans h3')
  · rw [h3] at h3'; cases h3'
  · rw [h3] at h3'; cases h3'
  · rfl

theorem Rows.det {l l' : List α} {row row' : Nat → α → Prop} (a : Rows h l row) (b : Rows h l' row') {f g : α → β}
    (hrow : ∀ i r r', row i r → row' i r' → f r = g r') : l.map f = l'.map g := by
  apply List.ext_getElem (by simp [a.each, b.each])
  intro i h1 h2
  simp only [List.length_map] at h1 h2
  simp only [List.getElem_map]
  exact hrow (i + 1) _ _ (a.row i _ (List.getElem?_eq_getElem h1)) (b.row i _ (List.getElem?_eq_getElem h2))

theorem Rows.det' {l l' : List α} {row row' : Nat → α → Prop} (a : Rows h l row) (b : Rows h l' row')
    (hrow : ∀ i r r', row i r → row' i r' → r = r') : l = l' := by
  simpa using Rows.det (f := id) (g := id) a b hrow

/-! ### Tables -/

theorem pair2 {a b c d : α} (e : [a, b] = [c, d]) : (a, b) = (c, d) := by
  simp only [List.cons.injEq, and_true] at e; exact Prod.ext e.1 e.2

theorem pair3 {p q : α × α × α} (e : [p.1, p.2.1, p.2.2] = [q.1, q.2.1, q.2.2]) : p = q := by
  simp only [List.cons.injEq, and_true] at e; exact Prod.ext e.1 (Prod.ext e.2.1 e.2.2)

theorem ElementIn.det {rev : Int} {i : Nat} {a b : Element R} (ha : ElementIn h rev i a) (hb : ElementIn h rev i b) :
    a = b := by
  have h1 : a.fov = b.fov := by
    by_cases hr : 2 ≤ rev
    · exact (ha.fov hr).det1 (hb.fov hr)
    · rw [ha.fov1 (by omega), hb.fov1 (by omega)]
  have h2 : a.fovtype = b.fovtype := by
    by_cases hr : 2 ≤ rev
    · exact (ha.fovtype hr).det (hb.fovtype hr)
    · rw [ha.fovtype1 (by omega), hb.fovtype1 (by omega)]
  have h3 := ha.tel_name.det hb.tel_name
  have h4 := ha.sta_name.det hb.sta_name
  have h5 := ha.sta_index.det1 hb.sta_index
  have h6 := ha.diameter.det1 hb.diameter
  have h7 := pair3 (ha.staxyz.det hb.staxyz)
  cases a; cases b
  simp only at h1 h2 h3 h4 h5 h6 h7
  subst h1 h2 h3 h4 h5 h6 h7
  rfl

theorem ArrayIn.det {a b : OiArray R} (ha : ArrayIn h a) (hb : ArrayIn h b) : a = b := by
  have h1 := IntKey.det ha.revision hb.revision
  have h2 := NameKey.det ha.arrname hb.arrname
  have h3 := TextKey.det ha.frame hb.frame
  have h4 := RealKey.det ha.arrayx hb.arrayx
  have h5 := RealKey.det ha.arrayy hb.arrayy
  have h6 := RealKey.det ha.arrayz hb.arrayz
  have h7 := ha.elem.det' (h1 ▸ hb.elem) (fun _ _ _ => ElementIn.det)
  cases a; cases b
  simp only at h1 h2 h3 h4 h5 h6 h7
  subst h1 h2 h3 h4 h5 h6 h7
  rfl

theorem WavelengthIn.det {a b : OiWavelength R} (ha : WavelengthIn h a) (hb : WavelengthIn h b) : a = b := by
  have h1 := IntKey.det ha.revision hb.revision
  have h2 := NameKey.det ha.insname hb.insname
  have h3 := ha.nwave.trans hb.nwave.symm
  have h4 := ha.eff_wave.det hb.eff_wave
  have h5 := ha.eff_band.det hb.eff_band
  cases a; cases b
  simp only at h1 h2 h3 h4 h5
  subst h1 h2 h3 h4 h5
  rfl

theorem CorrIn.det {a b : OiCorr R} (ha : CorrIn h a) (hb : CorrIn h b) : a = b := by
  have h1 := IntKey.det ha.revision hb.revision
  have h2 := NameKey.det ha.corrname hb.corrname
  have h3 := IntKey.det ha.ndata hb.ndata
  have h4 := ha.ncorr.trans hb.ncorr.symm
  have h5 := ha.iindx.det hb.iindx
  have h6 := ha.jindx.det hb.jindx
  have h7 := ha.corr.det hb.corr
  cases a; cases b
  simp only at h1 h2 h3 h4 h5 h6 h7
  subst h1 h2 h3 h4 h5 h6 h7
  rfl

theorem jones_det {name : CStr} {i n : Nat} {x y : List (R.Flt × R.Flt)}
    (a : ∃ xs, Dbls h name i n xs ∧ x = xs.map R.pun) (b : ∃ xs, Dbls h name i n xs ∧ y = xs.map R.pun) : x = y := by
  obtain ⟨xs, h1, rfl⟩ := a
  obtain ⟨ys, h2, rfl⟩ := b
  rw [h1.det h2]

theorem InspolRecordIn.det {n i : Nat} {a b : OiInspolRecord R} (ha : InspolRecordIn h n i a)
    (hb : InspolRecordIn h n i b) : a = b := by
  have h1 := ha.target_id.det1 hb.target_id
  have h2 := ha.insname.det hb.insname
  have h3 := ha.mjd_obs.det1 hb.mjd_obs
  have h4 := ha.mjd_end.det1 hb.mjd_end
  have h5 := jones_det ha.jxx hb.jxx
  have h6 := jones_det ha.jyy hb.jyy
  have h7 := jones_det ha.jxy hb.jxy
  have h8 := jones_det ha.jyx hb.jyx
  have h9 := ha.sta_index.det1 hb.sta_index
  cases a; cases b
  simp only at h1 h2 h3 h4 h5 h6 h7 h8 h9
  subst h1 h2 h3 h4 h5 h6 h7 h8 h9
  rfl

theorem InspolIn.det {a b : OiInspol R} (ha : InspolIn h a) (hb : InspolIn h b) : a = b := by
  have h1 := IntKey.det ha.revision hb.revision
  have h2 := TextKey.det ha.date_obs hb.date_obs
  have h3 := IntKey.det ha.npol hb.npol
  have h4 := TextKey.det ha.arrname hb.arrname
  have h5 := TextKey.det ha.orient hb.orient
  have h6 := TextKey.det ha.model hb.model
  have h7 := ha.nwave.det hb.nwave
  have h8 := ha.record.det' (h7 ▸ hb.record) (fun _ _ _ => InspolRecordIn.det)
  cases a; cases b
  simp only at h1 h2 h3 h4 h5 h6 h7 h8
  subst h1 h2 h3 h4 h5 h6 h7 h8
  rfl

theorem cut_det {name : CStr} {i n : Nat} {x y : CStr} (a : ∃ v, Text h name none i v ∧ x = v.take n)
    (b : ∃ v, Text h name none i v ∧ y = v.take n) : x = y := by
  obtain ⟨v, h1, rfl⟩ := a
  obtain ⟨w, h2, rfl⟩ := b
  rw [h1.det h2]

theorem TargetIn.det {u : Bool} {i : Nat} {a b : Target R} (ha : TargetIn h u i a) (hb : TargetIn h u i b) :
    { a with category := if u then a.category else [] } = { b with category := if u then b.category else [] } := by
  have h0 : (if u then a.category else []) = (if u then b.category else []) := by
    cases u with
    | true => exact (ha.category rfl).det (hb.category rfl)
    | false => rfl
  have h1 := ha.target_id.det1 hb.target_id
  have h2 := cut_det ha.target hb.target
  have h3 := ha.raep0.det1 hb.raep0
  have h4 := ha.decep0.det1 hb.decep0
  have h5 := ha.equinox.det1 hb.equinox
  have h6 := ha.ra_err.det1 hb.ra_err
  have h7 := ha.dec_err.det1 hb.dec_err
  have h8 := ha.sysvel.det1 hb.sysvel
  have h9 := ha.veltyp.det hb.veltyp
  have h10 := ha.veldef.det hb.veldef
  have h11 := ha.pmra.det1 hb.pmra
  have h12 := ha.pmdec.det1 hb.pmdec
  have h13 := ha.pmra_err.det1 hb.pmra_err
  have h14 := ha.pmdec_err.det1 hb.pmdec_err
  have h15 := ha.parallax.det1 hb.parallax
  have h16 := ha.para_err.det1 hb.para_err
  have h17 := cut_det ha.spectyp hb.spectyp
  rw [h0, h1, h2, h3, h4, h5, h6, h7, h8, h9, h10, h11, h12, h13, h14, h15, h16, h17]

theorem TargetsIn.det {a b : OiTarget R} (ha : TargetsIn h a) (hb : TargetsIn h b) : a.blank = b.blank := by
  have h1 := IntKey.det ha.revision hb.revision
  have h2 : a.usecategory = b.usecategory := by rw [ha.usecategory, hb.usecategory, h1]
  have h3 := ha.targ.det hb.targ (f := fun x => { x with category := if b.usecategory then x.category else [] })
    (g := fun x => { x with category := if b.usecategory then x.category else [] })
    (fun _ _ _ x y => TargetIn.det (h2 ▸ x) y)
  unfold OiTarget.blank
  rw [h2, h3, h1]

theorem not_correlated {v : CStr} (hc : ¬ Correlated h) (ho : OptText h "CORRNAME" v) : v = [] := by
  rcases ho with ho | ⟨-, ho⟩
  · exact absurd (readStr_ok_has ho) hc
  · exact ho

theorem corrindx_det {c : Prop} {name n : CStr} {i : Nat} {x y : Int} (hn : ¬ c → n = [])
    (ha : c → Ints h name i 1 [x]) (hb : c → Ints h name i 1 [y]) :
    (if n = [] then 0 else x) = (if n = [] then 0 else y) := by
  by_cases hc : c
  · rw [(ha hc).det1 (hb hc)]
  · rw [if_pos (hn hc), if_pos (hn hc)]

theorem CorrnameIn.det {rev : Int} {v w : CStr} (ha : CorrnameIn h rev v) (hb : CorrnameIn h rev w) : v = w := by
  by_cases hr : 2 ≤ rev
  · exact (ha.two hr).det (hb.two hr)
  · rw [ha.one (by omega), hb.one (by omega)]

theorem CorrnameIn.none {rev : Int} {v : CStr} (ha : CorrnameIn h rev v) (hn : ¬ (2 ≤ rev ∧ Correlated h)) : v = [] := by
  by_cases hr : 2 ≤ rev
  · exact not_correlated (fun hc => hn ⟨hr, hc⟩) (ha.two hr)
  · exact ha.one (by omega)

theorem Vis2In.det {a b : OiVis2 R} (ha : Vis2In h a) (hb : Vis2In h b) : a.blank = b.blank := by
  have h1 := IntKey.det ha.revision hb.revision
  have h2 := TextKey.det ha.date_obs hb.date_obs
  have h3 := OptText.det ha.arrname hb.arrname
  have h4 := TextKey.det ha.insname hb.insname
  have h5 := CorrnameIn.det ha.corrname (h1 ▸ hb.corrname)
  have h6 := ha.nwave.det hb.nwave
  have h7 := ha.record.det hb.record (f := fun r => { r with
      corrindx_vis2data := if b.corrname = [] then 0 else r.corrindx_vis2data })
    (g := fun r => { r with corrindx_vis2data := if b.corrname = [] then 0 else r.corrindx_vis2data })
    (fun i r r' x y => by
      rw [h1, h6] at x
      have g0 := corrindx_det hb.corrname.none x.corrindx y.corrindx
      have g1 := x.target_id.det1 y.target_id
      have g2 := x.time.det1 y.time
      have g3 := x.mjd.det1 y.mjd
      have g4 := x.int_time.det1 y.int_time
      have g5 := x.vis2data.det y.vis2data
      have g6 := x.vis2err.det y.vis2err
      have g7 := x.ucoord.det1 y.ucoord
      have g8 := x.vcoord.det1 y.vcoord
      have g9 : r.sta_index = r'.sta_index := pair2 (x.sta_index.det y.sta_index)
      have g10 := x.flag.det y.flag
      rw [g0, g1, g2, g3, g4, g5, g6, g7, g8, g9, g10])
  unfold OiVis2.blank
  rw [h5, h7, h1, h2, h3, h4, h6]

theorem T3In.det {a b : OiT3 R} (ha : T3In h a) (hb : T3In h b) : a.blank = b.blank := by
  have h1 := IntKey.det ha.revision hb.revision
  have h2 := TextKey.det ha.date_obs hb.date_obs
  have h3 := OptText.det ha.arrname hb.arrname
  have h4 := TextKey.det ha.insname hb.insname
  have h5 := CorrnameIn.det ha.corrname (h1 ▸ hb.corrname)
  have h6 := ha.nwave.det hb.nwave
  have h7 := ha.record.det hb.record (f := fun r => { r with
      corrindx_t3amp := if b.corrname = [] then 0 else r.corrindx_t3amp
      corrindx_t3phi := if b.corrname = [] then 0 else r.corrindx_t3phi })
    (g := fun r => { r with
      corrindx_t3amp := if b.corrname = [] then 0 else r.corrindx_t3amp
      corrindx_t3phi := if b.corrname = [] then 0 else r.corrindx_t3phi })
    (fun i r r' x y => by
      rw [h1, h6] at x
      have g0 := corrindx_det hb.corrname.none x.corrindx_amp y.corrindx_amp
      have g00 := corrindx_det hb.corrname.none x.corrindx_phi y.corrindx_phi
      have g1 := x.target_id.det1 y.target_id
      have g2 := x.time.det1 y.time
      have g3 := x.mjd.det1 y.mjd
      have g4 := x.int_time.det1 y.int_time
      have g5 := x.t3amp.det y.t3amp
      have g6 := x.t3amperr.det y.t3amperr
      have g7 := x.t3phi.det y.t3phi
      have g8 := x.t3phierr.det y.t3phierr
      have g9 := x.u1coord.det1 y.u1coord
      have g10 := x.v1coord.det1 y.v1coord
      have g11 := x.u2coord.det1 y.u2coord
      have g12 := x.v2coord.det1 y.v2coord
      have g13 := pair3 (x.sta_index.det y.sta_index)
      have g14 := x.flag.det y.flag
      rw [g0, g00, g1, g2, g3, g4, g5, g6, g7, g8, g9, g10, g11, g12, g13, g14])
  unfold OiT3.blank
  rw [h5, h7, h1, h2, h3, h4, h6]

theorem FluxIn.det {a b : OiFlux R} (ha : FluxIn h a) (hb : FluxIn h b) : a.blank = b.blank := by
  have h1 := IntKey.det ha.revision hb.revision
  have h2 := TextKey.det ha.date_obs hb.date_obs
  have h3 := OptText.det ha.arrname hb.arrname
  have h4 := TextKey.det ha.insname hb.insname
  have h5 := OptText.det ha.corrname hb.corrname
  have h6 := ha.nwave.det hb.nwave
  have h8 := OptReal.det ha.fov hb.fov
  have h9 := OptText.det ha.fovtype hb.fovtype
  have h10 : a.calstat = b.calstat := by
    obtain ⟨v, g1, g2⟩ := ha.calstat
    obtain ⟨w, g3, g4⟩ := hb.calstat
    rw [g2, g4, TextKey.det g1 g3]
  have h11 := ColUnit.det ha.fluxunit hb.fluxunit
  have h7 := ha.record.det hb.record (f := fun r => { r with
      corrindx_fluxdata := if b.corrname = [] then 0 else r.corrindx_fluxdata })
    (g := fun r => { r with corrindx_fluxdata := if b.corrname = [] then 0 else r.corrindx_fluxdata })
    (fun i r r' x y => by
      rw [h6] at x
      have g0 := corrindx_det (fun hn => not_correlated hn hb.corrname) x.corrindx y.corrindx
      have g1 := x.target_id.det1 y.target_id
      have g3 := x.mjd.det1 y.mjd
      have g4 := x.int_time.det1 y.int_time
      have g5 := x.fluxdata.det y.fluxdata
      have g6 := x.fluxerr.det y.fluxerr
      have g9 : r.sta_index = r'.sta_index := by
        cases hs : hasColumn "STA_INDEX" h with
        | true => exact (x.sta_index hs).det1 (y.sta_index hs)
        | false => rw [x.no_station hs, y.no_station hs]
      have g10 := x.flag.det y.flag
      rw [g0, g1, g3, g4, g5, g6, g9, g10])
  unfold OiFlux.blank
  rw [h5, h7, h1, h2, h3, h4, h6, h8, h9, h10, h11]

theorem some_det {name : CStr} {i n : Nat} {conv : Cell R → Option α} {x y : Option (List α)}
    (a : ∃ xs, x = some xs ∧ Cells conv h name i n xs) (b : ∃ xs, y = some xs ∧ Cells conv h name i n xs) : x = y := by
  obtain ⟨xs, rfl, h1⟩ := a
  obtain ⟨ys, rfl, h2⟩ := b
  rw [h1.det h2]

/-- The indices of a correlated OI_VIS table as they are after `blank`. -/
def visBlank (complex : Bool) (corrname : CStr) (r : OiVisRecord R) : OiVisRecord R :=
  { r with
    corrindx_visamp := if corrname = [] then 0 else r.corrindx_visamp
    corrindx_visphi := if corrname = [] then 0 else r.corrindx_visphi
    corrindx_rvis := if complex ∧ corrname ≠ [] then r.corrindx_rvis else 0
    corrindx_ivis := if complex ∧ corrname ≠ [] then r.corrindx_ivis else 0 }

theorem corrindx_det' {c : Prop} {name n : CStr} {i : Nat} {x y : Int} {p : Bool} (hn : ¬ c → n = [])
    (ha : p = true → c → Ints h name i 1 [x]) (hb : p = true → c → Ints h name i 1 [y]) :
    (if p = true ∧ n ≠ [] then x else 0) = (if p = true ∧ n ≠ [] then y else 0) := by
  by_cases hp : p = true ∧ n ≠ []
  · have hc : c := Classical.byContradiction fun hc => hp.2 (hn hc)
    rw [(ha hp.1 hc).det1 (hb hp.1 hc)]
  · rw [if_neg hp, if_neg hp]

theorem VisIn.det {a b : OiVis R} (ha : VisIn h a) (hb : VisIn h b) : a.blank = b.blank := by
  have h1 := IntKey.det ha.revision hb.revision
  have h2 := TextKey.det ha.date_obs hb.date_obs
  have h3 := OptText.det ha.arrname hb.arrname
  have h4 := TextKey.det ha.insname hb.insname
  have h6 := ha.nwave.det hb.nwave
  have h7 := OptColUnit.det ha.ampunit hb.ampunit
  have hx : a.corrname = b.corrname ∧ a.amptyp = b.amptyp ∧ a.phityp = b.phityp ∧ a.amporder = b.amporder ∧
      a.phiorder = b.phiorder ∧ a.usevisrefmap = b.usevisrefmap ∧ a.usecomplex = b.usecomplex ∧
      (if a.usecomplex then a.complexunit else []) = (if b.usecomplex then b.complexunit else []) := by
    by_cases hr : b.revision = 1
    · obtain ⟨x1, x2, x3, x4, x5, x6, x7⟩ := ha.version1 (h1.trans hr)
      obtain ⟨y1, y2, y3, y4, y5, y6, y7⟩ := hb.version1 hr
      simp [x1, x2, x3, x4, x5, x6, x7, y1, y2, y3, y4, y5, y6, y7]
    · have hr' : a.revision ≠ 1 := by rw [h1]; exact hr
      have hu : a.usecomplex = b.usecomplex := (ha.usecomplex hr').trans (hb.usecomplex hr).symm
      refine ⟨(ha.corrname hr').det (hb.corrname hr), (ha.amptyp hr').det (hb.amptyp hr),
        (ha.phityp hr').det (hb.phityp hr), (ha.amporder hr').det (hb.amporder hr),
        (ha.phiorder hr').det (hb.phiorder hr), (ha.usevisrefmap hr').trans (hb.usevisrefmap hr).symm, hu, ?_⟩
      cases hc : b.usecomplex with
      | false => rw [hu, hc]; rfl
      | true =>
        rw [hu, hc]
        exact ColUnit.det (ha.complexunit hr' (hu.trans hc)) (hb.complexunit hr hc)
  obtain ⟨x1, x2, x3, x4, x5, x6, x7, x8⟩ := hx
  have h9 : a.record.map (visBlank b.usecomplex b.corrname) = b.record.map (visBlank b.usecomplex b.corrname) := by
    apply List.ext_getElem (by simp [ha.record.each, hb.record.each])
    intro i g1 g2
    simp only [List.length_map] at g1 g2
    simp only [List.getElem_map]
    have x := ha.record.row i _ (List.getElem?_eq_getElem g1)
    have y := hb.record.row i _ (List.getElem?_eq_getElem g2)
    have nx := ha.absent _ (List.getElem_mem g1)
    have ny := hb.absent _ (List.getElem_mem g2)
    rw [x6, x7] at nx
    rw [h6] at x
    have hE : b.revision ≠ 1 → VisExtrasIn h b.nwave b.usevisrefmap b.usecomplex (i + 1) a.record[i] ∧
        VisExtrasIn h b.nwave b.usevisrefmap b.usecomplex (i + 1) b.record[i] := fun hr => by
      have ex := (ha.extras (by rw [h1]; exact hr)).row i _ (List.getElem?_eq_getElem g1)
      rw [h6, x6, x7] at ex
      exact ⟨ex, (hb.extras hr).row i _ (List.getElem?_eq_getElem g2)⟩
    have v1 : b.revision = 1 → b.corrname = [] ∧ b.usevisrefmap = false ∧ b.usecomplex = false := fun hr => by
      obtain ⟨y1, y2, y3, y4, y5, y6, y7⟩ := hb.version1 hr
      exact ⟨y1, y6, y7⟩
    generalize a.record[i] = r at *
    generalize b.record[i] = r' at *
    have hcn : ¬ (b.revision ≠ 1 ∧ Correlated h) → b.corrname = [] := fun hn => by
      by_cases hr : b.revision = 1
      · exact (v1 hr).1
      · exact not_correlated (fun hc => hn ⟨hr, hc⟩) (hb.corrname hr)
    have e1 := corrindx_det (x := r.corrindx_visamp) (y := r'.corrindx_visamp) hcn
      (fun c => (hE c.1).1.corrindx_amp c.2) (fun c => (hE c.1).2.corrindx_amp c.2)
    have e2 := corrindx_det (x := r.corrindx_visphi) (y := r'.corrindx_visphi) hcn
      (fun c => (hE c.1).1.corrindx_phi c.2) (fun c => (hE c.1).2.corrindx_phi c.2)
    have e3 := corrindx_det' (x := r.corrindx_rvis) (y := r'.corrindx_rvis) (p := b.usecomplex) hcn
      (fun p c => (hE c.1).1.corrindx_rvis p c.2) (fun p c => (hE c.1).2.corrindx_rvis p c.2)
    have e4 := corrindx_det' (x := r.corrindx_ivis) (y := r'.corrindx_ivis) (p := b.usecomplex) hcn
      (fun p c => (hE c.1).1.corrindx_ivis p c.2) (fun p c => (hE c.1).2.corrindx_ivis p c.2)
    have c1 : b.usevisrefmap = true → b.revision ≠ 1 := fun hu hr => by rw [(v1 hr).2.1] at hu; cases hu
    have c2 : b.usecomplex = true → b.revision ≠ 1 := fun hu hr => by rw [(v1 hr).2.2] at hu; cases hu
    have e5 : r.visrefmap = r'.visrefmap := by
      cases hu : b.usevisrefmap with
      | false => rw [nx.visrefmap hu, ny.visrefmap hu]
      | true => exact some_det ((hE (c1 hu)).1.visrefmap hu) ((hE (c1 hu)).2.visrefmap hu)
    have e6 : r.rvis = r'.rvis ∧ r.rviserr = r'.rviserr ∧ r.ivis = r'.ivis ∧ r.iviserr = r'.iviserr := by
      cases hu : b.usecomplex with
      | false =>
        exact ⟨by rw [nx.rvis hu, ny.rvis hu], by rw [nx.rviserr hu, ny.rviserr hu],
          by rw [nx.ivis hu, ny.ivis hu], by rw [nx.iviserr hu, ny.iviserr hu]⟩
      | true =>
        obtain ⟨z, z'⟩ := hE (c2 hu)
        exact ⟨some_det (z.rvis hu) (z'.rvis hu), some_det (z.rviserr hu) (z'.rviserr hu),
          some_det (z.ivis hu) (z'.ivis hu), some_det (z.iviserr hu) (z'.iviserr hu)⟩
    have f1 := x.target_id.det1 y.target_id
    have f2 := x.time.det1 y.time
    have f3 := x.mjd.det1 y.mjd
    have f4 := x.int_time.det1 y.int_time
    have f5 := x.visamp.det y.visamp
    have f6 := x.visamperr.det y.visamperr
    have f7 := x.visphi.det y.visphi
    have f8 := x.visphierr.det y.visphierr
    have f9 := x.ucoord.det1 y.ucoord
    have f10 := x.vcoord.det1 y.vcoord
    have f11 : r.sta_index = r'.sta_index := pair2 (x.sta_index.det y.sta_index)
    have f12 := x.flag.det y.flag
    unfold visBlank
    rw [e1, e2, e3, e4, e5, e6.1, e6.2.1, e6.2.2.1, e6.2.2.2, f1, f2, f3, f4, f5, f6, f7, f8, f9, f10, f11, f12]
  have bl : ∀ t : OiVis R, t.blank = { t with
      complexunit := if t.usecomplex then t.complexunit else []
      record := t.record.map (visBlank t.usecomplex t.corrname) } := fun _ => rfl
  rw [bl a, bl b, x8, x7, x1, h9, h1, h2, h3, h4, h6, h7, x2, x3, x4, x5, x6]

theorem HeaderIn.det {a b : OiHeader} (ha : HeaderIn h a) (hb : HeaderIn h b) : a = b := by
  have h1 := ha.origin.det hb.origin
  have h2 := ha.date.det hb.date
  have h3 := ha.date_obs.det hb.date_obs
  have h4 := ha.content.det hb.content
  have h5 := ha.telescop.det hb.telescop
  have h6 := ha.instrume.det hb.instrume
  have h7 := ha.observer.det hb.observer
  have h8 := ha.insmode.det hb.insmode
  have h9 := ha.object.det hb.object
  have h10 := ha.referenc.det hb.referenc
  have h11 := ha.author.det hb.author
  have h12 := ha.prog_id.det hb.prog_id
  have h13 := ha.procsoft.det hb.procsoft
  have h14 := ha.obstech.det hb.obstech
  cases a; cases b
  simp only at h1 h2 h3 h4 h5 h6 h7 h8 h9 h10 h11 h12 h13 h14
  subst h1 h2 h3 h4 h5 h6 h7 h8 h9 h10 h11 h12 h13 h14
  rfl

/-! ### Lists of tables -/

theorem HeldAt.det {In : Hdu R → α → Prop} {hdus : List (Hdu R)} {ps : List Nat} {l l' : List α} {f : α → β}
    (ha : HeldAt In hdus ps l) (hb : HeldAt In hdus ps l') (hIn : ∀ h a b, In h a → In h b → f a = f b) :
    l.map f = l'.map f := by
  apply List.ext_getElem (by simp [← ha.1, ← hb.1])
  intro i g1 g2
  simp only [List.length_map] at g1 g2
  simp only [List.getElem_map]
  have hp : i < ps.length := by rw [ha.1]; exact g1
  obtain ⟨k, k1, k2⟩ := ha.2 i _ _ (List.getElem?_eq_getElem hp) (List.getElem?_eq_getElem g1)
  obtain ⟨k', k3, k4⟩ := hb.2 i _ _ (List.getElem?_eq_getElem hp) (List.getElem?_eq_getElem g2)
  obtain rfl : k = k' := Option.some.inj (k1.symm.trans k3)
  exact hIn _ _ _ k2 k4

theorem sublist_det {l a b : List Nat} (hn : l.Nodup) (ha : a.Sublist l) (hb : b.Sublist l)
    (he : ∀ x, x ∈ a ↔ x ∈ b) : a = b := by
  have key : ∀ {l a : List Nat}, l.Nodup → a.Sublist l → a = l.filter (fun x => decide (x ∈ a)) := by
    intro l
    induction l with
    | nil => intro a _ h; rw [List.sublist_nil.mp h]; rfl
    | cons x l ih =>
      intro a hn h
      obtain ⟨hx, hn⟩ := List.nodup_cons.mp hn
      cases h with
      | cons _ h =>
        have : x ∉ a := fun hm => hx (h.subset hm)
        rw [List.filter_cons_of_neg (by simpa using this)]
        exact ih hn h
      | @cons_cons a' _ _ h =>
        rw [List.filter_cons_of_pos (by simp)]
        congr 1
        rw [ih hn h]
        apply List.filter_congr
        intro y hy
        have : y ≠ x := fun e => hx (e ▸ hy)
        rw [← ih hn h]
        simp [this]
  rw [key hn ha, key hn hb]
  apply List.filter_congr
  intro x _
  simp [he x]

theorem positions_nodup (name : CStr) (hdus : List (Hdu R)) : (positions name hdus).Nodup :=
  List.nodup_range.sublist List.filter_sublist

theorem Held.det {In : Hdu R → α → Prop} {name : CStr} {hdus : List (Hdu R)} {l l' : List α} {f : α → β}
    (ha : Held In name hdus l) (hb : Held In name hdus l') (hIn : ∀ h a b, In h a → In h b → f a = f b) :
    l.map f = l'.map f := by
  obtain ⟨ps, h1, h2, h3⟩ := ha
  obtain ⟨ps', h1', h2', h3'⟩ := hb
  have mem : ∀ {ps : List Nat} {l : List α}, HeldAt In hdus ps l → ∀ p ∈ ps, ∃ h a, hdus[p]? = some h ∧ In h a := by
    intro ps l hh p hp
    obtain ⟨i, hi, rfl⟩ := List.getElem_of_mem hp
    have hi' : i < l.length := by rw [← hh.1]; exact hi
    obtain ⟨k, k1, k2⟩ := hh.2 i _ _ (List.getElem?_eq_getElem hi) (List.getElem?_eq_getElem hi')
    exact ⟨k, _, k1, k2⟩
  obtain rfl : ps = ps' := sublist_det (positions_nodup _ _) h1 h1'
    fun x => ⟨fun hx => h3' x (h1.subset hx) (mem h2 x hx), fun hx => h3 x (h1'.subset hx) (mem h2' x hx)⟩
  exact h2.det h2' hIn

/-! ### Datasets -/

theorem foldl_mjd_vis (f : R.Dbl → R.Dbl → R.Dbl) (l : List (OiVis R)) (m : R.Dbl) :
    (l.map OiVis.blank).foldl (fun m t => t.record.foldl (fun m r => f m r.mjd) m) m
      = l.foldl (fun m t => t.record.foldl (fun m r => f m r.mjd) m) m := by
  simp only [List.foldl_map, OiVis.blank]

theorem foldl_mjd_vis2 (f : R.Dbl → R.Dbl → R.Dbl) (l : List (OiVis2 R)) (m : R.Dbl) :
    (l.map OiVis2.blank).foldl (fun m t => t.record.foldl (fun m r => f m r.mjd) m) m
      = l.foldl (fun m t => t.record.foldl (fun m r => f m r.mjd) m) m := by
  simp only [List.foldl_map, OiVis2.blank]

theorem foldl_mjd_t3 (f : R.Dbl → R.Dbl → R.Dbl) (l : List (OiT3 R)) (m : R.Dbl) :
    (l.map OiT3.blank).foldl (fun m t => t.record.foldl (fun m r => f m r.mjd) m) m
      = l.foldl (fun m t => t.record.foldl (fun m r => f m r.mjd) m) m := by
  simp only [List.foldl_map, OiT3.blank]

theorem foldl_mjd_flux (f : R.Dbl → R.Dbl → R.Dbl) (l : List (OiFlux R)) (m : R.Dbl) :
    (l.map OiFlux.blank).foldl (fun m t => t.record.foldl (fun m r => f m r.mjd) m) m
      = l.foldl (fun m t => t.record.foldl (fun m r => f m r.mjd) m) m := by
  simp only [List.foldl_map, OiFlux.blank]

theorem get_min_mjd_blank (oi : OiFits R) : get_min_mjd oi.blank = get_min_mjd oi := by
  show List.foldl _ _ (oi.fluxList.map OiFlux.blank) = _
  rw [foldl_mjd_flux]
  show List.foldl _ (List.foldl _ _ (oi.t3List.map OiT3.blank)) _ = _
  rw [foldl_mjd_t3]
  show List.foldl _ (List.foldl _ (List.foldl _ _ (oi.vis2List.map OiVis2.blank)) _) _ = _
  rw [foldl_mjd_vis2]
  show List.foldl _ (List.foldl _ (List.foldl _ (List.foldl _ _ (oi.visList.map OiVis.blank)) _) _) _ = _
  rw [foldl_mjd_vis]
  rfl

theorem get_max_mjd_blank (oi : OiFits R) : get_max_mjd oi.blank = get_max_mjd oi := by
  show List.foldl _ _ (oi.fluxList.map OiFlux.blank) = _
  rw [foldl_mjd_flux]
  show List.foldl _ (List.foldl _ _ (oi.t3List.map OiT3.blank)) _ = _
  rw [foldl_mjd_t3]
  show List.foldl _ (List.foldl _ (List.foldl _ _ (oi.vis2List.map OiVis2.blank)) _) _ = _
  rw [foldl_mjd_vis2]
  show List.foldl _ (List.foldl _ (List.foldl _ (List.foldl _ _ (oi.visList.map OiVis.blank)) _) _) _ = _
  rw [foldl_mjd_vis]
  rfl

theorem headerObject_blank (oi : OiFits R) : headerObject oi.blank = headerObject oi := by
  unfold headerObject OiFits.blank OiTarget.blank
  match oi.targets.targ with
  | [] => rfl
  | [_] => rfl
  | _ :: _ :: _ => rfl

theorem finishHeader_blank (oi : OiFits R) : finishHeader oi.blank = (finishHeader oi).bind fun x => .ok x.blank := by
  unfold finishHeader
  rw [show is_oi_fits_two oi.blank = is_oi_fits_two oi from rfl]
  cases is_oi_fits_two oi with
  | true => rfl
  | false =>
    show set_oi_header oi.blank = (set_oi_header oi).bind _
    unfold set_oi_header
    rw [headerObject_blank, get_min_mjd_blank, show headerTelescop oi.blank = headerTelescop oi from rfl,
      show headerInstrume oi.blank = headerInstrume oi from rfl]
    cases headerTelescop oi with
    | ok a =>
      cases headerInstrume oi with
      | ok b => rfl
      | abort => rfl
      | ub => rfl
    | abort => rfl
    | ub => rfl

theorem hashArray_blank (oi : OiFits R) (n : CStr) : hashArray oi.blank n = (hashArray oi n).blank := by
  unfold hashArray
  rw [show find_oi_array oi.blank n = find_oi_array oi n from rfl, show oi.blank.arrayHash = oi.arrayHash from rfl]
  split
  · split <;> rfl
  · rfl

theorem hashWavelength_blank (oi : OiFits R) (n : CStr) : hashWavelength oi.blank n = (hashWavelength oi n).blank := by
  unfold hashWavelength
  rw [show find_oi_wavelength oi.blank n = find_oi_wavelength oi n from rfl,
    show oi.blank.wavelengthHash = oi.wavelengthHash from rfl]
  split <;> rfl

theorem hashCorr_blank (oi : OiFits R) (n : CStr) : hashCorr oi.blank n = (hashCorr oi n).blank := by
  unfold hashCorr
  rw [show find_oi_corr oi.blank n = find_oi_corr oi n from rfl, show oi.blank.corrHash = oi.corrHash from rfl]
  split
  · split <;> rfl
  · rfl

theorem hashData_blank (oi : OiFits R) (a i c : CStr) : hashData oi.blank a i c = (hashData oi a i c).blank := by
  unfold hashData
  rw [hashArray_blank, hashWavelength_blank, hashCorr_blank]

theorem foldl_blank {γ δ : Type} (g : γ → δ) (f : OiFits R → δ → OiFits R) (f' : OiFits R → γ → OiFits R)
    (hf : ∀ x (t : γ), f (OiFits.blank x) (g t) = (f' x t).blank) (l : List γ) (x : OiFits R) :
    (l.map g).foldl f x.blank = (l.foldl f' x).blank := by
  induction l generalizing x with
  | nil => rfl
  | cons t l ih => rw [List.map_cons, List.foldl_cons, List.foldl_cons, hf, ih]

theorem assemble_blank (header : OiHeader) (targets : OiTarget R) (arrayList : List (OiArray R))
    (wavelengthList : List (OiWavelength R)) (corrList : List (OiCorr R))
    (inspolList : List (OiInspol R)) (visList : List (OiVis R)) (vis2List : List (OiVis2 R))
    (t3List : List (OiT3 R)) (fluxList : List (OiFlux R)) :
    assemble header targets.blank arrayList wavelengthList corrList inspolList (visList.map OiVis.blank)
        (vis2List.map OiVis2.blank) (t3List.map OiT3.blank) (fluxList.map OiFlux.blank)
      = (assemble header targets arrayList wavelengthList corrList inspolList visList vis2List t3List fluxList).blank := by
  unfold assemble
  simp only
  rw [← foldl_blank OiFlux.blank (fun oi t => hashWavelength (hashArray oi t.arrname) t.insname) _
      (fun x t => by rw [hashArray_blank, hashWavelength_blank]; rfl),
    ← foldl_blank OiT3.blank (fun oi t => hashData oi t.arrname t.insname t.corrname) _
      (fun x t => by rw [hashData_blank]; rfl),
    ← foldl_blank OiVis2.blank (fun oi t => hashData oi t.arrname t.insname t.corrname) _
      (fun x t => by rw [hashData_blank]; rfl),
    ← foldl_blank OiVis.blank (fun oi t => hashData oi t.arrname t.insname t.corrname) _
      (fun x t => by rw [hashData_blank]; rfl)]
  simp only [List.length_map, OiFits.blank]

theorem read_assembled {u : Undef R} {hdus : List (Hdu R)} (h0 : hdus ≠ []) {oi : OiFits R} {st : Status}
    (h : read_oi_fits u (some hdus) .ok = .ok (some oi, st)) :
    ∃ p hd, hdus[0]? = some p ∧ HeaderIn p hd ∧ finishHeader (assemble hd oi.targets oi.arrayList oi.wavelengthList
      oi.corrList oi.inspolList oi.visList oi.vis2List oi.t3List oi.fluxList) = .ok oi := by
  have hb := readBody_ends u h0
  have e : read_oi_fits u (some hdus) .ok = (do
      let (oi, s) ← readBody u ⟨hdus, 0, .ok⟩
      return (oi, s.status)) := by rw [read_oi_fits, if_neg (by decide)]
  rw [h] at e
  generalize readBody u ⟨hdus, 0, .ok⟩ = r at hb e
  cases hb with
  | abort hne => cases e
  | error hst => cases e
  | ok header hd targets arrayList wavelengthList corrList inspolList visList vis2List t3List fluxList
      hst hh ht ha hw hc hi hv hv2 ht3 hf hfin =>
    obtain ⟨s', k1, k2⟩ := hh
    obtain ⟨p, k3, k4⟩ := header_tells h0 k2 k1
    refine ⟨p, header, k3, k4, ?_⟩
    obtain ⟨hs1, -⟩ := assemble_spec header targets arrayList wavelengthList corrList inspolList visList vis2List t3List fluxList
    cases e
    unfold SameLists at hs1
    refine Eq.trans ?_ hfin
    have key : ∀ x : OiFits R, x.targets = targets → x.arrayList = arrayList → x.wavelengthList = wavelengthList →
        x.corrList = corrList → x.inspolList = inspolList → x.visList = visList → x.vis2List = vis2List →
        x.t3List = t3List → x.fluxList = fluxList →
        finishHeader (assemble header x.targets x.arrayList x.wavelengthList x.corrList x.inspolList x.visList x.vis2List
          x.t3List x.fluxList)
        = finishHeader (assemble header targets arrayList wavelengthList corrList inspolList visList vis2List t3List
          fluxList) := by
      intro x e1 e2 e3 e4 e5 e6 e7 e8 e9
      rw [e1, e2, e3, e4, e5, e6, e7, e8, e9]
    generalize hx : assemble header targets arrayList wavelengthList corrList inspolList visList vis2List t3List fluxList
      = x at hs1
    rw [hx] at key
    exact key { x with header := hd } (congrArg OiFits.targets hs1).symm (congrArg OiFits.arrayList hs1).symm
      (congrArg OiFits.wavelengthList hs1).symm (congrArg OiFits.corrList hs1).symm
      (congrArg OiFits.inspolList hs1).symm (congrArg OiFits.visList hs1).symm (congrArg OiFits.vis2List hs1).symm
      (congrArg OiFits.t3List hs1).symm (congrArg OiFits.fluxList hs1).symm

/-- Whether a file can be read does not depend on what is in memory. -/
theorem read_again (u u' : Undef R) {hdus : List (Hdu R)} (hf : Filled hdus) {oi : OiFits R} {st : Status}
    (h : read_oi_fits u (some hdus) .ok = .ok (some oi, st)) :
    ∃ oi', read_oi_fits u' (some hdus) .ok = .ok (some oi', .ok) := by
  obtain ⟨p, hd, h1, h2, -⟩ := C77_header hf.primary h
  obtain ⟨t, h3, h4⟩ := C77_targets hf.primary hf.names h
  have all : ∀ {α : Type} {In : Hdu R → α → Prop} {ps : List Nat} {l : List α}, HeldAt In hdus ps l →
      ∀ p ∈ ps, ∃ h a, hdus[p]? = some h ∧ In h a := by
    intro α In ps l hh p hp
    obtain ⟨i, hi, rfl⟩ := List.getElem_of_mem hp
    have hi' : i < l.length := by rw [← hh.1]; exact hi
    obtain ⟨k, k1, k2⟩ := hh.2 i _ _ (List.getElem?_eq_getElem hi) (List.getElem?_eq_getElem hi')
    exact ⟨k, _, k1, k2⟩
  exact C77_succeeds u' hf.names hf.tables h1 h2 h3 h4 (all (C77_array hf.primary hf.names h))
    (all (C77_wavelength hf.primary hf.names h))

/-- A file is read as the same data, but for what it does not say. -/
theorem read_alike {u u' : Undef R} {hdus : List (Hdu R)} (hf : Filled hdus) {a b : OiFits R} {st st' : Status}
    (ha : read_oi_fits u (some hdus) .ok = .ok (some a, st))
    (hb : read_oi_fits u' (some hdus) .ok = .ok (some b, st')) : a.blank = b.blank := by
  obtain ⟨h0, hn, -, hv, hx⟩ := hf
  obtain ⟨p, hd, h1, h2, h3⟩ := read_assembled h0 ha
  obtain ⟨p', hd', h1', h2', h3'⟩ := read_assembled h0 hb
  obtain rfl : p = p' := Option.some.inj (h1.symm.trans h1')
  obtain rfl := h2.det h2'
  obtain ⟨t, k1, k2⟩ := C77_targets h0 hn ha
  obtain ⟨t', k1', k2'⟩ := C77_targets h0 hn hb
  obtain rfl : t = t' := Option.some.inj (k1.symm.trans k1')
  have e1 := k2.det k2'
  have e2 : a.arrayList = b.arrayList := by
    simpa using (C77_array h0 hn ha).det (C77_array h0 hn hb) (f := id) (fun _ _ _ => ArrayIn.det)
  have e3 : a.wavelengthList = b.wavelengthList := by
    simpa using (C77_wavelength h0 hn ha).det (C77_wavelength h0 hn hb) (f := id) (fun _ _ _ => WavelengthIn.det)
  have e4 : a.corrList = b.corrList := by
    simpa using (C77_corr h0 hn ha).det (C77_corr h0 hn hb) (f := id) (fun _ _ _ => CorrIn.det)
  have e5 : a.inspolList = b.inspolList := by
    simpa using (C77_inspol_partial h0 hn ha).det (C77_inspol_partial h0 hn hb) (f := id) (fun _ _ _ => InspolIn.det)
  have e6 := (C77_vis_partial h0 hn hv ha).det (C77_vis_partial h0 hn hv hb) (fun _ _ _ => VisIn.det)
  have e7 := (C77_vis2 h0 hn ha).det (C77_vis2 h0 hn hb) (fun _ _ _ => Vis2In.det)
  have e8 := (C77_t3 h0 hn ha).det (C77_t3 h0 hn hb) (fun _ _ _ => T3In.det)
  have e9 := (C77_flux_partial h0 hn hx ha).det (C77_flux_partial h0 hn hx hb) (fun _ _ _ => FluxIn.det)
  have ea := finishHeader_blank (assemble hd a.targets a.arrayList a.wavelengthList
      a.corrList a.inspolList a.visList a.vis2List a.t3List a.fluxList)
  have eb := finishHeader_blank (assemble hd b.targets b.arrayList b.wavelengthList
      b.corrList b.inspolList b.visList b.vis2List b.t3List b.fluxList)
  rw [h3] at ea
  rw [h3'] at eb
  rw [← assemble_blank, e1, e2, e3, e4, e5, e6, e7, e8, e9, assemble_blank, eb] at ea
  exact (Outcome.ok.inj ea).symm

end Verif.Spec
