import Verif.Proof.FitsBasic

/-! Lemmas about reading keywords and columns of the current HDU. -/

namespace Verif
open Outcome

variable {R : FP} {α β γ : Type}

/-- The current HDU is `h`, and no error is pending. -/
structure At (s : FState R) (h : Hdu R) : Prop where
  ok : s.status = .ok
  cur : s.hdus[s.cur]? = some h

theorem cfRead_ok {s : FState R} {h : Hdu R} (hs : At s h) {f : Hdu R → Except Status α} {a : α}
    (hf : f h = .ok a) (junk : α) : cfRead junk f s = .ok (a, s) := by
  simp [cfRead, hs.ok, hs.cur, hf]

theorem cfRead_error {s : FState R} {h : Hdu R} (hs : At s h) {f : Hdu R → Except Status α}
    {st : Status} (hf : f h = .error st) (junk : α) :
    cfRead junk f s = .ok (junk, { s with status := st }) := by
  simp [cfRead, hs.ok, hs.cur, hf]

theorem status_reset {s : FState R} (hs : s.status = .ok) : { s with status := .ok } = s := by
  cases s; simp_all

/-! ### Keywords -/

section
variable {s : FState R} {h : Hdu R} {name : CStr}

theorem read_key_str (hs : At s h) {v : CStr} (hk : h.keys.lookup name = some (.str v)) (dst : CStr) :
    fits_read_key_str name dst s = .ok (v, s) :=
  cfRead_ok hs (by simp [Hdu.readStr, hk]) dst

theorem read_key_int (hs : At s h) {v : Int} (hk : h.keys.lookup name = some (.int v)) (dst : Int) :
    fits_read_key_int name dst s = .ok (v, s) :=
  cfRead_ok hs (by simp [Hdu.readInt, hk]) dst

theorem read_key_dbl (hs : At s h) {v : R.Dbl} (hk : h.keys.lookup name = some (.dbl v)) (dst : R.Dbl) :
    fits_read_key_dbl name dst s = .ok (v, s) :=
  cfRead_ok hs (by simp [Hdu.readDbl, hk]) dst

theorem readKeyOpt_found (hs : s.status = .ok) {read : FitsM R α} {v : α} (hr : read s = .ok (v, s))
    (dst missing : α) : readKeyOpt read dst missing s = .ok ((true, v), s) := by
  rw [readKeyOpt, guardStatus_ok hs, FitsM.bind_ok hr]
  simp [FitsM.run_bind, hs]

theorem readKeyOpt_missing (hs : s.status = .ok) {read : FitsM R α} {v : α}
    (hr : read s = .ok (v, { s with status := .KEY_NO_EXIST })) (dst missing : α) :
    readKeyOpt read dst missing s = .ok ((false, missing), s) := by
  rw [readKeyOpt, guardStatus_ok hs, FitsM.bind_ok hr]
  change Outcome.ok ((false, missing), { s with status := .ok }) = _
  rw [status_reset hs]

theorem read_opt_str (hs : At s h) {v : CStr} (hk : h.keys.lookup name = some (.str v)) (dst : CStr) :
    read_key_opt_string name dst s = .ok ((true, v), s) :=
  readKeyOpt_found hs.ok (read_key_str hs hk dst) _ _

theorem read_opt_str_none (hs : At s h) (hk : h.keys.lookup name = none) (dst : CStr) :
    read_key_opt_string name dst s = .ok ((false, []), s) :=
  readKeyOpt_missing (v := dst) hs.ok (cfRead_error hs (by simp [Hdu.readStr, hk]) dst) _ _

theorem read_opt_int (hs : At s h) {v : Int} (hk : h.keys.lookup name = some (.int v)) (dst : Int) :
    read_key_opt_int name dst s = .ok ((true, v), s) :=
  readKeyOpt_found hs.ok (read_key_int hs hk dst) _ _

theorem read_opt_int_none (hs : At s h) (hk : h.keys.lookup name = none) (dst : Int) :
    read_key_opt_int name dst s = .ok ((false, -1), s) :=
  readKeyOpt_missing (v := dst) hs.ok (cfRead_error hs (by simp [Hdu.readInt, hk]) dst) _ _

theorem read_opt_dbl (hs : At s h) {v : R.Dbl} (hk : h.keys.lookup name = some (.dbl v)) (dst : R.Dbl) :
    read_key_opt_double name dst s = .ok ((true, v), s) :=
  readKeyOpt_found hs.ok (read_key_dbl hs hk dst) _ _

theorem read_opt_dbl_none (hs : At s h) (hk : h.keys.lookup name = none) (dst : R.Dbl) :
    read_key_opt_double name dst s = .ok ((false, R.nan), s) :=
  readKeyOpt_missing (v := dst) hs.ok (cfRead_error hs (by simp [Hdu.readDbl, hk]) dst) _ _

/-- An optional string keyword, as the writer leaves it out when empty. -/
theorem read_opt_str_opt (hs : At s h) {v : CStr}
    (hk : h.keys.lookup name = if v = [] then none else some (.str (keyStr v))) (dst : CStr) :
    read_key_opt_string name dst s = .ok ((decide (v ≠ []), keyStr v), s) := by
  by_cases hv : v = []
  · subst hv
    rw [read_opt_str_none hs (by simpa using hk)]
    rfl
  · rw [read_opt_str hs (by simpa [hv] using hk)]
    simp [hv]

/-- An optional integer keyword, as the writer leaves it out when negative. -/
theorem read_opt_int_opt (hs : At s h) {v : Int}
    (hk : h.keys.lookup name = if v ≥ 0 then some (.int v) else none) (dst : Int) :
    read_key_opt_int name dst s = .ok ((decide (v ≥ 0), if v ≥ 0 then v else -1), s) := by
  by_cases hv : v ≥ 0
  · rw [read_opt_int hs (by simpa [hv] using hk)]
    simp [hv]
  · rw [read_opt_int_none hs (by simpa [hv] using hk)]
    simp [hv]

theorem get_num_rows (hs : At s h) (hb : h.type = .binary) (junk : Nat) :
    fits_get_num_rows junk s = .ok (h.nrows, s) :=
  cfRead_ok hs (by simp [hb]) junk

end

/-! ### Looking up keywords and columns in lists -/

theorem lookup_hit {k : CStr} {v : α} {l : List (CStr × α)} : ((k, v) :: l).lookup k = some v := by
  simp [List.lookup]

theorem lookup_skip {k k' : CStr} {v : α} {l : List (CStr × α)} (h : (k == k') = false) :
    ((k', v) :: l).lookup k = l.lookup k := by
  simp [List.lookup, h]

theorem lookup_opt_hit {k v : CStr} {l : Spec.Keys R} (h : l.lookup k = none) :
    (Spec.optKey k v ++ l).lookup k = if v = [] then none else some (.str (keyStr v)) := by
  unfold Spec.optKey
  split <;> simp [lookup_hit, h]

theorem lookup_opt_skip {k k' v : CStr} {l : Spec.Keys R} (h : (k == k') = false) :
    (Spec.optKey k' v ++ l).lookup k = l.lookup k := by
  unfold Spec.optKey
  split
  · rfl
  · exact lookup_skip h

theorem lookup_order_hit {k : CStr} {v : Int} {l : Spec.Keys R} (h : l.lookup k = none) :
    (Spec.optOrder k v ++ l).lookup k = if v ≥ 0 then some (.int v) else none := by
  unfold Spec.optOrder
  split
  · simp [lookup_hit]
  · simpa using h

theorem lookup_order_skip {k k' : CStr} {v : Int} {l : Spec.Keys R} (h : (k == k') = false) :
    (Spec.optOrder k' v ++ l).lookup k = l.lookup k := by
  unfold Spec.optOrder
  split
  · exact lookup_skip h
  · rfl

/-- The column of a given name. -/
def colAt (cols : List (Col R)) (name : CStr) : Option (Col R) :=
  cols.find? fun c => upper c.name == upper name

theorem colAt_hit {c : Col R} {cols : List (Col R)} {name : CStr} (h : (upper c.name == upper name) = true) :
    colAt (c :: cols) name = some c := by
  simp only [colAt, List.find?_cons, h]

theorem colAt_skip {c : Col R} {cols : List (Col R)} {name : CStr} (h : (upper c.name == upper name) = false) :
    colAt (c :: cols) name = colAt cols name := by
  simp only [colAt, List.find?_cons, h]

theorem colAt_optCols_nil (cols : List (Col R)) (b : Bool) (name : CStr) :
    colAt (Spec.optCols b [] ++ cols) name = colAt cols name := by
  cases b <;> rfl

theorem colAt_optCols_skip {c : Col R} {l cols : List (Col R)} {b : Bool} {name : CStr}
    (h : (upper c.name == upper name) = false) :
    colAt (Spec.optCols b (c :: l) ++ cols) name = colAt (Spec.optCols b l ++ cols) name := by
  cases b
  · rfl
  · exact colAt_skip h

section
variable {s : FState R} {h : Hdu R} {name : CStr}

theorem colAt_colnum (hb : h.type = .binary) {c : Col R} (hc : colAt h.cols name = some c) :
    ∃ k, h.colnum name = .ok (k + 1) ∧ h.cols[k]? = some c := by
  rw [colAt, List.find?_eq_some_iff_getElem] at hc
  obtain ⟨hp, k, hk, hkc, hlt⟩ := hc
  have : h.cols.findIdx? (fun c => upper c.name == upper name) = some k := by
    rw [List.findIdx?_eq_some_iff_getElem]
    exact ⟨hk, by rw [hkc]; exact hp, fun j hj => by simpa using hlt j hj⟩
  exact ⟨k, by simp [Hdu.colnum, hb, this], by simp [hk, hkc]⟩

theorem get_colnum (hs : At s h) {k : Nat} (hk : h.colnum name = .ok k) (junk : Nat) :
    fits_get_colnum name junk s = .ok (k, s) :=
  cfRead_ok hs hk junk

theorem colAt_none (hs : At s h) (hb : h.type = .binary) (hc : colAt h.cols name = none) (junk : Nat) :
    fits_get_colnum name junk s = .ok (junk, { s with status := .COL_NOT_FOUND }) := by
  refine cfRead_error hs ?_ junk
  rw [colAt, List.find?_eq_none] at hc
  have : h.cols.findIdx? (fun c => upper c.name == upper name) = none := by
    rw [List.findIdx?_eq_none_iff]
    intro c hm
    simpa using hc c hm
  simp [Hdu.colnum, hb, this]

/-- The elements of a row. -/
theorem get_row {c : Col R} {i n : Nat} {row : List (Cell R)} (hl : row.length = n) (hn : n ≤ c.nelem)
    (hd : ∀ e x, row[e]? = some x → c.data i e = x) : c.get i n = row := by
  subst hl
  unfold Col.get
  apply List.ext_getElem
  · simp
  · intro k h1 h2
    have hk : k < c.nelem := by omega
    simp only [List.getElem_map, List.getElem_range, Nat.div_eq_of_lt hk, Nat.mod_eq_of_lt hk, Nat.add_zero]
    exact hd k _ (by simp [h2])

theorem readCol_row {k i n : Nat} {c : Col R} (hc : h.cols[k]? = some c) (hct : c.type ≠ .C)
    {row : List (Cell R)} (hl : row.length = n) (hn0 : 0 < c.nelem) (hn : n ≤ c.nelem) (hi : i < h.nrows)
    (hd : ∀ e x, row[e]? = some x → c.data i e = x) {conv : Cell R → Option α} {ys : List α}
    (hy : row.mapM conv = some ys) : h.readCol (k + 1) (i + 1) n conv = .ok ys := by
  have hre : c.realNelem = c.nelem := by simp [Col.realNelem, hct]
  have hq : (n - 1) / c.nelem = 0 := Nat.div_eq_of_lt (by omega)
  simp only [Hdu.readCol, Nat.add_sub_cancel, hc, hre, hq, if_neg hct, get_row hl hn hd, hy, Nat.add_zero]
  rw [if_neg (by omega), if_neg (by omega)]

/-- Reading a row of a column given by its rows. -/
theorem readArr_row (hs : At s h) (hb : h.type = .binary) {nm : CStr} {ty : ColType} {rep : Nat}
    {unit tdim : Option CStr} {rows : List (List (Cell R))}
    (hc : colAt h.cols name = some (Spec.col nm ty rep unit tdim rows)) (hct : ty ≠ .C)
    {i n : Nat} {row : List (Cell R)} (hrow : rows[i]? = some row) (hi : i < h.nrows)
    (hl : row.length = n) (hn0 : 0 < (Spec.col nm ty rep unit tdim rows).nelem)
    (hn : n ≤ (Spec.col nm ty rep unit tdim rows).nelem) {conv : Cell R → Option α} {ys : List α}
    (hy : row.mapM conv = some ys) (junk : α) :
    readArr conv junk name (i + 1) n s = .ok (ys, s) := by
  obtain ⟨k, hk, hkc⟩ := colAt_colnum hb hc
  rw [readArr, FitsM.bind_ok (get_colnum hs hk 0)]
  refine cfRead_ok hs (readCol_row hkc hct hl hn0 hn hi ?_ hy) _
  intro e x he
  simp [Spec.col, hrow, he]

theorem mapM_conv {β : Type} {mk : β → Cell R} {conv : Cell R → Option α} {g : β → α} (l : List β)
    (h : ∀ x, conv (mk x) = some (g x)) : (l.map mk).mapM conv = some (l.map g) := by
  induction l with
  | nil => rfl
  | cons x xs ih => simp [List.mapM_cons, h, ih]

theorem mapM_conv_id {mk : α → Cell R} {conv : Cell R → Option α} (l : List α)
    (h : ∀ x, conv (mk x) = some x) : (l.map mk).mapM conv = some l := by
  simpa using mapM_conv (g := id) l h

section
variable {recs : List β} {i : Nat} {r : β} {nm : CStr}

theorem readArr_ints (hs : At s h) (hb : h.type = .binary) {ty : ColType} {n : Nat} {f : β → List Int}
    (hc : colAt h.cols name = some (Spec.intsCol nm ty n recs f)) (hct : ty ≠ .C) (hca : ty ≠ .A)
    (hr : recs[i]? = some r) (hn : recs.length = h.nrows) (hl : (f r).length = n) (hn0 : 0 < n)
    (junk : Int) : readArr Cell.toInt junk name (i + 1) n s = .ok (f r, s) := by
  have hi := (List.getElem?_eq_some_iff.mp hr).1
  refine readArr_row hs hb hc hct (row := (f r).map .int) (by simp [hr]) (by omega) (by simpa using hl)
    ?_ ?_ (mapM_conv_id _ fun _ => rfl) junk
  all_goals simp [Col.nelem, Spec.col, hca, hn0]

theorem readArr_dbls (hs : At s h) (hb : h.type = .binary) {unit : Option CStr} {n : Nat} {f : β → List R.Dbl}
    (hc : colAt h.cols name = some (Spec.dblsCol nm n unit recs f))
    (hr : recs[i]? = some r) (hn : recs.length = h.nrows) (hl : (f r).length = n) (hn0 : 0 < n)
    (junk : R.Dbl) : readArr Cell.toDbl junk name (i + 1) n s = .ok (f r, s) := by
  have hi := (List.getElem?_eq_some_iff.mp hr).1
  refine readArr_row hs hb hc (by decide) (row := (f r).map .dbl) (by simp [hr]) (by omega) (by simpa using hl)
    ?_ ?_ (mapM_conv_id _ fun _ => rfl) junk
  all_goals simp [Col.nelem, Spec.col, hn0]

theorem readArr_flts (hs : At s h) (hb : h.type = .binary) {unit : Option CStr} {n : Nat} {f : β → List R.Flt}
    (hc : colAt h.cols name = some (Spec.fltsCol nm n unit recs f))
    (hr : recs[i]? = some r) (hn : recs.length = h.nrows) (hl : (f r).length = n) (hn0 : 0 < n)
    (junk : R.Flt) : readArr Cell.toFlt junk name (i + 1) n s = .ok (f r, s) := by
  have hi := (List.getElem?_eq_some_iff.mp hr).1
  refine readArr_row hs hb hc (by decide) (row := (f r).map .flt) (by simp [hr]) (by omega) (by simpa using hl)
    ?_ ?_ (mapM_conv_id _ fun _ => rfl) junk
  all_goals simp [Col.nelem, Spec.col, hn0]

theorem readArr_logs (hs : At s h) (hb : h.type = .binary) {tdim : Option CStr} {n : Nat} {f : β → List Bool}
    (hc : colAt h.cols name = some (Spec.logsCol nm n tdim recs f))
    (hr : recs[i]? = some r) (hn : recs.length = h.nrows) (hl : (f r).length = n) (hn0 : 0 < n)
    (junk : Bool) : readArr Cell.toLog junk name (i + 1) n s = .ok (f r, s) := by
  have hi := (List.getElem?_eq_some_iff.mp hr).1
  refine readArr_row hs hb hc (by decide) (row := (f r).map .log) (by simp [hr]) (by omega) (by simpa using hl)
    ?_ ?_ (mapM_conv_id _ fun _ => rfl) junk
  all_goals simp [Col.nelem, Spec.col, hn0]

theorem readOne_of_arr {conv : Cell R → Option α} {junk : α} {irow : Nat} {x : α}
    (hx : readArr conv junk name irow 1 s = .ok ([x], s)) : readOne conv junk name irow s = .ok (x, s) := by
  rw [readOne, FitsM.bind_ok hx]; rfl

theorem readOne_ints (hs : At s h) (hb : h.type = .binary) {ty : ColType} {f : β → List Int} {x : Int}
    (hc : colAt h.cols name = some (Spec.intsCol nm ty 1 recs f)) (hct : ty ≠ .C) (hca : ty ≠ .A)
    (hr : recs[i]? = some r) (hn : recs.length = h.nrows) (hx : f r = [x])
    (junk : Int) : readOne Cell.toInt junk name (i + 1) s = .ok (x, s) :=
  readOne_of_arr (hx ▸ readArr_ints hs hb hc hct hca hr hn (by simp [hx]) (by simp) junk)

theorem readOne_dbls (hs : At s h) (hb : h.type = .binary) {unit : Option CStr} {f : β → List R.Dbl} {x : R.Dbl}
    (hc : colAt h.cols name = some (Spec.dblsCol nm 1 unit recs f))
    (hr : recs[i]? = some r) (hn : recs.length = h.nrows) (hx : f r = [x])
    (junk : R.Dbl) : readOne Cell.toDbl junk name (i + 1) s = .ok (x, s) :=
  readOne_of_arr (hx ▸ readArr_dbls hs hb hc hr hn (by simp [hx]) (by simp) junk)

theorem readOne_flts (hs : At s h) (hb : h.type = .binary) {unit : Option CStr} {f : β → List R.Flt} {x : R.Flt}
    (hc : colAt h.cols name = some (Spec.fltsCol nm 1 unit recs f))
    (hr : recs[i]? = some r) (hn : recs.length = h.nrows) (hx : f r = [x])
    (junk : R.Flt) : readOne Cell.toFlt junk name (i + 1) s = .ok (x, s) :=
  readOne_of_arr (hx ▸ readArr_flts hs hb hc hr hn (by simp [hx]) (by simp) junk)

theorem findStrCol_col (hs : At s h) (hb : h.type = .binary) {w : Nat} {f : β → CStr}
    (hc : colAt h.cols name = some (Spec.strCol nm w recs f))
    (hr : recs[i]? = some r) (hn : recs.length = h.nrows) (mx : Option Nat) (hm : mx.any (· < w) = false)
    (optional : Bool) (value : CStr) :
    findStrCol optional name mx (i + 1) value s = .ok ((true, colStr w (f r)), s) := by
  have hi := (List.getElem?_eq_some_iff.mp hr).1
  obtain ⟨k, hk, hkc⟩ := colAt_colnum hb hc
  rw [findStrCol, guardStatus_ok hs.ok, FitsM.bind_ok (get_colnum hs hk 0), FitsM.bind_ok (run_getStatus s), hs.ok]
  rw [if_neg (by decide), readStrCol]
  have ht : fits_get_coltype (k + 1) (.A, 0) s = .ok ((.A, w), s) :=
    cfRead_ok hs (by simp [hkc, Spec.strCol, Spec.col]) _
  rw [FitsM.bind_ok ht]
  simp only [ne_eq, not_true_eq_false, if_false, hm]
  have hread : fits_read_col Cell.toStr (k + 1) (i + 1) 1 [value] s = .ok ([colStr w (f r)], s) := by
    refine cfRead_ok hs (readCol_row hkc (by simp [Spec.strCol, Spec.col]) (row := [.str (colStr w (f r))])
      rfl ?_ ?_ (by omega) ?_ rfl) _
    · simp [Col.nelem, Spec.strCol, Spec.col]
    · simp [Col.nelem, Spec.strCol, Spec.col]
    · intro e x he
      simp [Spec.strCol, Spec.col, hr, he]
  simp only [Bool.false_eq_true, if_false]
  rw [FitsM.bind_ok hread, FitsM.bind_ok (run_getStatus s), hs.ok]
  rfl

theorem read_col_str (hs : At s h) (hb : h.type = .binary) {w : Nat} {f : β → CStr}
    (hc : colAt h.cols name = some (Spec.strCol nm w recs f))
    (hr : recs[i]? = some r) (hn : recs.length = h.nrows) (optional : Bool) (value : CStr) :
    read_col_string optional name w (i + 1) value s = .ok ((true, colStr w (f r)), s) :=
  findStrCol_col hs hb hc hr hn _ (by simp) _ _

theorem colStr_length_le (w : Nat) (v : CStr) : (colStr w v).length ≤ w := by
  have h1 : (List.dropWhile (· == ' ') (v.take w).reverse).length ≤ (v.take w).reverse.length :=
    List.Sublist.length_le (List.dropWhile_sublist _)
  simp only [colStr, rtrim, List.length_reverse] at *
  have := List.length_take_le w v
  omega

theorem read_col_str_truncate (hs : At s h) (hb : h.type = .binary) {w : Nat} {f : β → CStr}
    (hc : colAt h.cols name = some (Spec.strCol nm w recs f))
    (hr : recs[i]? = some r) (hn : recs.length = h.nrows) (value : CStr) :
    read_col_string_truncate name w (i + 1) value s = .ok ((true, colStr w (f r)), s) := by
  rw [read_col_string_truncate, FitsM.bind_ok (findStrCol_col hs hb hc hr hn none rfl false value)]
  simp [List.take_of_length_le (colStr_length_le w (f r))]

theorem read_col_str_none (hs : At s h) (hb : h.type = .binary) (hc : colAt h.cols name = none)
    (mx irow : Nat) (value : CStr) :
    read_col_string true name mx irow value s = .ok ((false, value), s) := by
  rw [read_col_string, findStrCol, guardStatus_ok hs.ok, FitsM.bind_ok (colAt_none hs hb hc 0)]
  change Outcome.ok ((false, value), { s with status := .ok }) = _
  rw [status_reset hs.ok]

end

/-- Reading all rows of a column of single elements. -/
theorem readArr_all (hs : At s h) (hb : h.type = .binary) {nm : CStr} {ty : ColType}
    {unit tdim : Option CStr} {β : Type} {mk : β → Cell R} {l : List β}
    (hc : colAt h.cols name = some (Spec.col nm ty 1 unit tdim (l.map fun x => [mk x])))
    (hct : ty ≠ .C) (hn : l.length = h.nrows) (hn0 : 0 < h.nrows)
    {conv : Cell R → Option β} (hy : ∀ x, conv (mk x) = some x) (junk : β) :
    readArr conv junk name 1 h.nrows s = .ok (l, s) := by
  obtain ⟨k, hk, hkc⟩ := colAt_colnum hb hc
  rw [readArr, FitsM.bind_ok (get_colnum hs hk 0)]
  refine cfRead_ok hs ?_ _
  have hne : (Spec.col nm ty 1 unit tdim (l.map fun x => [mk x])).nelem = 1 := by
    cases ty <;> simp [Col.nelem, Spec.col] at hct ⊢
  have hre : (Spec.col nm ty 1 unit tdim (l.map fun x => [mk x])).realNelem = 1 := by
    rw [Col.realNelem, if_neg (by exact hct), hne]
  have hg : (Spec.col nm ty 1 unit tdim (l.map fun x => [mk x])).get 0 h.nrows = l.map mk := by
    unfold Col.get
    rw [hne]
    apply List.ext_getElem
    · simp [hn]
    · intro k h1 h2
      simp at h2
      simp [Spec.col, Nat.mod_one, h2]
  simp only [Hdu.readCol, Nat.add_sub_cancel, hkc, hre, if_neg (show ¬ (Spec.col nm ty 1 unit tdim
    (l.map fun x => [mk x])).type = .C from hct), hg, mapM_conv_id l hy, Nat.sub_self]
  rw [if_neg (by omega), if_neg (by simp; omega)]

theorem coltype_of_colAt (hs : At s h) (hb : h.type = .binary) {c : Col R} (hc : colAt h.cols name = some c)
    (junk : ColType × Nat) :
    ∃ k, fits_get_colnum name 0 s = .ok (k + 1, s) ∧ h.cols[k]? = some c
      ∧ fits_get_coltype (k + 1) junk s = .ok ((c.type, c.rep), s) := by
  obtain ⟨k, hk, hkc⟩ := colAt_colnum hb hc
  exact ⟨k, cfRead_ok hs hk 0, hkc, cfRead_ok hs (by simp [hkc]) junk⟩

end

/-! ### Loops over rows -/

theorem forRows_map {s : FState R} (recs : List β) (g : β → α) (first : Nat) (body : Nat → FitsM R α)
    (h : ∀ i r, recs[i]? = some r → body (first + i) s = .ok (g r, s)) :
    forRows first recs.length body s = .ok (recs.map g, s) := by
  induction recs generalizing first with
  | nil => rfl
  | cons x xs ih =>
    simp only [List.length_cons, forRows]
    rw [FitsM.bind_ok (by simpa using h 0 x rfl), FitsM.bind_ok (ih (first + 1) ?_)]
    · rfl
    · intro i r hr
      have := h (i + 1) r (by simpa using hr)
      rwa [show first + (i + 1) = first + 1 + i by omega] at this

theorem forRows_map_one {s : FState R} (recs : List β) (g : β → α) (body : Nat → FitsM R α)
    (h : ∀ i r, recs[i]? = some r → body (i + 1) s = .ok (g r, s)) :
    forRows 1 recs.length body s = .ok (recs.map g, s) :=
  forRows_map recs g 1 body fun i r hr => by rw [Nat.add_comm]; exact h i r hr

theorem forRecs_map {s : FState R} (recs : List β) (pre : β → α) (g : β → γ) (first : Nat)
    (body : Nat → α → FitsM R γ)
    (h : ∀ i r, recs[i]? = some r → body (first + i) (pre r) s = .ok (g r, s)) :
    forRecs first (recs.map pre) body s = .ok (recs.map g, s) := by
  induction recs generalizing first with
  | nil => rfl
  | cons x xs ih =>
    simp only [List.map_cons, forRecs]
    rw [FitsM.bind_ok (by simpa using h 0 x rfl), FitsM.bind_ok (ih (first + 1) ?_)]
    · rfl
    · intro i r hr
      have := h (i + 1) r (by simpa using hr)
      rwa [show first + (i + 1) = first + 1 + i by omega] at this

theorem forRecs_map_one {s : FState R} (recs : List β) (pre : β → α) (g : β → γ)
    (body : Nat → α → FitsM R γ)
    (h : ∀ i r, recs[i]? = some r → body (i + 1) (pre r) s = .ok (g r, s)) :
    forRecs 1 (recs.map pre) body s = .ok (recs.map g, s) :=
  forRecs_map recs pre g 1 body fun i r hr => by rw [Nat.add_comm]; exact h i r hr

theorem chkmallocN_ok {n : Nat} (h : n ≠ 0) : chkmallocN n = .ok () := by
  simp [chkmallocN, h]

theorem allocRecords_ok {n m : Nat} (hn : n ≠ 0) (hm : m ≠ 0) : allocRecords n m = .ok () := by
  simp [allocRecords, chkmallocN_ok hn, chkmallocN_ok hm, bind_ok]

end Verif
