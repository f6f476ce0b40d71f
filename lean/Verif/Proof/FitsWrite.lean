import Verif.Proof.FitsCols

/-! The HDUs which the writing functions produce. -/

set_option linter.unusedSimpArgs false

namespace Verif
open Outcome

variable {R : FP} {α : Type}

theorem int16_fits {x : Int} (h : Spec.Int16 x) : Fld.IntFits .I x := .inr ⟨rfl, h⟩

theorem make_tform_cons {a b : CStr} {tpl out : List CStr} {v : Int} (h : expandTform v a = .ok b)
    (h' : tpl.mapM (expandTform v) = .ok out) : (a :: tpl).mapM (expandTform v) = .ok (b :: out) := by
  rw [List.mapM_cons, h, bind_ok, h', bind_ok]; rfl

theorem make_tform_eq {a : CStr} {tpl out : List CStr} {v : Int}
    (h : (a :: tpl).mapM (expandTform v) = .ok out) : make_tform (a :: tpl) v = .ok out := by
  rw [make_tform]
  exact h

/-- The arrays of the fields being written fit their columns. -/
def ItemOk (recs : List α) : Item R α → Prop
  | .inl _ => True
  | .inr F => F.Ok recs

theorem write_all (xs : List (Item R α)) (recs : List α) (hok : ∀ x ∈ xs, ItemOk recs x)
    (hany : (planOf 0 xs).any (fun e => e.2.1 ≠ 0) = true) (pre : List (Hdu R)) (ty : HduType)
    (keys : Spec.Keys R) (n : Nat) (write : Nat → α → FitsM R Unit)
    (hw : ∀ r ∈ recs, ∀ i, write i r = Plan.write i r (planOf 0 xs)) :
    forEach 1 recs write (endState pre ⟨ty, keys, itemCols xs, n⟩)
      = .ok ((), endState pre ⟨ty, keys, itemDone recs xs, max n recs.length⟩) :=
  write_items xs recs (fun _ hF => hok _ hF) hany pre ty keys n write hw

/-- Close the goals about single fields. -/
macro "fld_ok" : tactic => `(tactic| first
  | exact trivial
  | exact List.forall_mem_nil _
  | exact Fld.ok_str _ _ _ _
  | exact Fld.ok_dbls _ _ _ _ _ (fun _ _ => rfl)
  | exact Fld.ok_flts _ _ _ _ _ (fun _ _ => rfl)
  | (apply Fld.ok_dbls; assumption)
  | (apply Fld.ok_cpxs; assumption)
  | (apply Fld.ok_logs; assumption)
  | exact Fld.ok_ints _ .J _ _ _ (by decide) (fun _ _ => rfl) fitsJ
  | (refine Fld.ok_ints _ .I _ _ _ (by decide) (fun _ _ => rfl) ?_; assumption))

/-- Close the goals about all fields of a table. -/
macro "flds_ok" xs:ident : tactic => `(tactic| (
  simp only [$xs:ident, List.forall_mem_cons, ItemOk]
  repeat' apply And.intro
  all_goals fld_ok))

theorem fits1 {recs : List α} {f : α → Int} (h : ∀ r ∈ recs, Spec.Int16 (f r)) :
    ∀ r ∈ recs, ∀ x ∈ [f r], Fld.IntFits .I x := fun r hr x hx => by
  rw [List.mem_singleton.mp hx]; exact int16_fits (h r hr)

theorem fits2 {recs : List α} {f g : α → Int} (h : ∀ r ∈ recs, Spec.Int16 (f r) ∧ Spec.Int16 (g r)) :
    ∀ r ∈ recs, ∀ x ∈ [f r, g r], Fld.IntFits .I x := by
  intro r hr x hx
  simp only [List.mem_cons, List.not_mem_nil, or_false] at hx
  rcases hx with rfl | rfl
  · exact int16_fits (h r hr).1
  · exact int16_fits (h r hr).2

theorem fits3 {recs : List α} {f g k : α → Int}
    (h : ∀ r ∈ recs, Spec.Int16 (f r) ∧ Spec.Int16 (g r) ∧ Spec.Int16 (k r)) :
    ∀ r ∈ recs, ∀ x ∈ [f r, g r, k r], Fld.IntFits .I x := by
  intro r hr x hx
  simp only [List.mem_cons, List.not_mem_nil, or_false] at hx
  rcases hx with rfl | rfl | rfl
  · exact int16_fits (h r hr).1
  · exact int16_fits (h r hr).2.1
  · exact int16_fits (h r hr).2.2

theorem fitsJ {recs : List α} {f : α → List Int} : ∀ r ∈ recs, ∀ x ∈ f r, Fld.IntFits .J x :=
  fun _ _ _ _ => .inl rfl

/-- Insert one column. -/
theorem insert_col_end {n : Nat} {name form : CStr} {c : Col R} (pre : List (Hdu R)) (h : Hdu R)
    (hc : newCol name form [] = some c) (hn : n ≠ 0) (hl : n ≤ h.cols.length + 1) :
    fits_insert_col n name form (endState pre h)
      = .ok ((), endState pre { h with cols := h.cols.take (n - 1) ++ [c] ++ h.cols.drop (n - 1) }) := by
  rw [fits_insert_col, insert_cols_end (cols := [c]) _ _ _ hn hl]
  simp [hc]

theorem planOf_append (xs ys : List (Item R α)) (i : Nat) :
    planOf i (xs ++ ys) = planOf i xs ++ planOf (i + xs.length) ys := by
  induction xs generalizing i with
  | nil => simp [planOf]
  | cons x xs ih =>
    rw [List.length_cons, show i + (xs.length + 1) = i + 1 + xs.length by omega]
    cases x with
    | inl c => rw [List.cons_append, planOf, planOf, ih]
    | inr F => rw [List.cons_append, planOf, planOf, ih, List.cons_append]

theorem planOf_inl (cols : List (Col R)) (i : Nat) : planOf i (cols.map .inl : List (Item R α)) = [] := by
  induction cols generalizing i with
  | nil => rfl
  | cons c cols ih => exact ih (i + 1)

theorem itemCols_inl (cols : List (Col R)) : itemCols (cols.map .inl : List (Item R α)) = cols := by
  simp [itemCols]

theorem itemDone_inl (recs : List α) (cols : List (Col R)) :
    itemDone recs (cols.map .inl : List (Item R α)) = cols := by
  simp [itemDone]

theorem itemCols_append (xs ys : List (Item R α)) : itemCols (xs ++ ys) = itemCols xs ++ itemCols ys := by
  simp [itemCols]

theorem itemDone_append (recs : List α) (xs ys : List (Item R α)) :
    itemDone recs (xs ++ ys) = itemDone recs xs ++ itemDone recs ys := by
  simp [itemDone]

/-- Fill columns in the middle of a table. -/
theorem fill_middle (A B : List (Col R)) (xs : List (Item R α)) (recs : List α)
    (hok : ∀ x ∈ xs, ItemOk recs x)
    (hany : (planOf A.length xs).any (fun e => e.2.1 ≠ 0) = true) (pre : List (Hdu R)) (ty : HduType)
    (keys : Spec.Keys R) (n : Nat) (write : Nat → α → FitsM R Unit)
    (hw : ∀ r ∈ recs, ∀ i, write i r = Plan.write i r (planOf A.length xs)) :
    forEach 1 recs write (endState pre ⟨ty, keys, A ++ itemCols xs ++ B, n⟩)
      = .ok ((), endState pre ⟨ty, keys, A ++ itemDone recs xs ++ B, max n recs.length⟩) := by
  have hp : planOf 0 (A.map .inl ++ xs ++ B.map .inl : List (Item R α)) = planOf A.length xs := by
    rw [planOf_append, planOf_append, planOf_inl, planOf_inl]
    simp
  have := write_all (A.map .inl ++ xs ++ B.map .inl) recs (by
    intro x hx
    simp only [List.mem_append, List.mem_map] at hx
    rcases hx with (⟨c, _, rfl⟩ | hx) | ⟨c, _, rfl⟩
    · trivial
    · exact hok x hx
    · trivial) (by rw [hp]; exact hany) pre ty keys n write (by rw [hp]; exact hw)
  rw [itemCols_append, itemCols_append, itemCols_inl, itemCols_inl, itemDone_append, itemDone_append,
    itemDone_inl, itemDone_inl] at this
  exact this

/-- Insert a column and fill it. -/
theorem insert_fill {F : Fld R α} {name form : CStr} (hc : newCol name form [] = some F.blank) (i : Nat)
    (recs : List α) (hok : F.Ok recs) (hany : F.blank.nelem ≠ 0) (cols : List (Col R))
    (hl : i ≤ cols.length) (pre : List (Hdu R)) (ty : HduType)
    (keys : Spec.Keys R) (n : Nat) (write : Nat → α → FitsM R Unit)
    (hw : ∀ r ∈ recs, ∀ j, write j r = fits_write_col (i + 1) j F.blank.nelem (F.f r)) :
    (do fits_insert_col (i + 1) name form; forEach 1 recs write : FitsM R Unit)
        (endState pre ⟨ty, keys, cols, n⟩)
      = .ok ((), endState pre ⟨ty, keys, cols.take i ++ [F.done recs] ++ cols.drop i, max n recs.length⟩) := by
  rw [FitsM.bind_ok (insert_col_end _ _ hc (by omega) (by simpa using hl))]
  simp only [Nat.add_sub_cancel]
  have := fill_middle (cols.take i) (cols.drop i) [.inr F] recs (by simpa [ItemOk] using hok)
    (by simp [planOf, hany]) pre ty keys n write (fun r hr j => by
      rw [hw r hr j, List.length_take, Nat.min_eq_left hl]
      simp [planOf, Plan.write])
  exact this

/-- Insert two columns of integers and fill them. -/
theorem insert_fill2 (name1 name2 : CStr) (f1 f2 : α → Int) (i j : Nat) (recs : List α)
    (cols : List (Col R)) (hl : i + j ≤ cols.length) (pre : List (Hdu R)) (ty : HduType)
    (keys : Spec.Keys R) (n : Nat) :
    (do fits_insert_col (i + 1) name1 ("J" : CStr)
        fits_insert_col (i + j + 2) name2 ("J" : CStr)
        forEach 1 recs fun irow r => do
          fits_write_col (i + 1) irow 1 [.int (f1 r)]
          fits_write_col (i + j + 2) irow 1 [.int (f2 r)] : FitsM R Unit)
        (endState pre ⟨ty, keys, cols, n⟩)
      = .ok ((), endState pre ⟨ty, keys,
          cols.take i ++ [Spec.intsCol name1 .J 1 recs (fun r => [f1 r])] ++ (cols.drop i).take j
            ++ [Spec.intsCol name2 .J 1 recs (fun r => [f2 r])] ++ cols.drop (i + j),
          max n recs.length⟩) := by
  let F : Fld R α := .ints name1 .J 1 (fun r => [f1 r])
  let G : Fld R α := .ints name2 .J 1 (fun r => [f2 r])
  rw [FitsM.bind_ok (insert_col_end (c := F.blank) _ _ rfl (by omega) (by simp; omega)),
    FitsM.bind_ok (insert_col_end (c := G.blank) _ _ rfl (by omega) (by simp; omega))]
  have hcols : ((cols.take i ++ [F.blank] ++ cols.drop i).take (i + j + 1) ++ [G.blank]
      ++ (cols.take i ++ [F.blank] ++ cols.drop i).drop (i + j + 1))
      = cols.take i ++ itemCols ([.inr F] ++ ((cols.drop i).take j).map .inl ++ [.inr G]) ++ cols.drop (i + j) := by
    rw [itemCols_append, itemCols_append, itemCols_inl]
    rw [show (cols.take i ++ [F.blank] ++ cols.drop i).take (i + j + 1)
      = cols.take i ++ [F.blank] ++ (cols.drop i).take j from ?_,
      show (cols.take i ++ [F.blank] ++ cols.drop i).drop (i + j + 1) = cols.drop (i + j) from ?_]
    · simp [itemCols]
    · rw [List.drop_append, List.drop_eq_nil_of_le (by simp; omega), List.nil_append, List.drop_drop,
        List.length_append, List.length_take, Nat.min_eq_left (by omega)]
      congr 1
      simp
    · rw [List.take_append, List.take_of_length_le (by simp; omega), List.length_append, List.length_take,
        Nat.min_eq_left (by omega)]
      congr 2
      simp
  have hp : planOf (R := R) (cols.take i).length ([.inr F] ++ ((cols.drop i).take j).map .inl ++ [.inr G])
      = [(i + 1, 1, F.f), (i + j + 2, 1, G.f)] := by
    rw [planOf_append, planOf_append, planOf_inl, List.length_take, Nat.min_eq_left (by omega)]
    simp [planOf, Nat.min_eq_left (show j ≤ cols.length - i by omega)]
    exact ⟨rfl, by omega, rfl⟩
  have hd := itemDone_inl (α := α) recs ((cols.drop i).take j)
  have := fill_middle (cols.take i) (cols.drop (i + j)) ([.inr F] ++ ((cols.drop i).take j).map .inl ++ [.inr G])
    recs (by
      intro x hx
      simp only [List.mem_append, List.mem_singleton, List.mem_map] at hx
      rcases hx with (rfl | ⟨c, _, rfl⟩) | rfl
      · exact Fld.ok_ints _ .J _ _ _ (by decide) (fun _ _ => rfl) fitsJ
      · trivial
      · exact Fld.ok_ints _ .J _ _ _ (by decide) (fun _ _ => rfl) fitsJ)
    (by rw [hp]; rfl) pre ty keys n
    (fun irow r => do
          fits_write_col (i + 1) irow 1 [.int (f1 r)]
          fits_write_col (i + j + 2) irow 1 [.int (f2 r)])
    (by rw [hp]; intro r _ k; simp [Plan.write, F, G, Fld.ints])
  simp only [Nat.add_sub_cancel, show i + j + 2 - 1 = i + j + 1 from rfl] at this ⊢
  rw [hcols, this, itemDone_append, itemDone_append, hd]
  simp [itemDone, F, G, Fld.done_ints _ _ _ _ _ fitsJ]

/-- Insert a column of integers and fill it. -/
theorem insert_fillJ (name : CStr) (f : α → Int) (i : Nat) (recs : List α)
    (cols : List (Col R)) (hl : i ≤ cols.length) (pre : List (Hdu R)) (ty : HduType)
    (keys : Spec.Keys R) (n : Nat) :
    (do fits_insert_col (i + 1) name ("J" : CStr)
        forEach 1 recs fun irow r => fits_write_col (i + 1) irow 1 [.int (f r)] : FitsM R Unit)
        (endState pre ⟨ty, keys, cols, n⟩)
      = .ok ((), endState pre ⟨ty, keys,
          cols.take i ++ [Spec.intsCol name .J 1 recs (fun r => [f r])] ++ cols.drop i,
          max n recs.length⟩) := by
  have h := insert_fill (F := .ints name .J 1 (fun r => [f r])) (form := ("J" : CStr)) rfl i recs
      (Fld.ok_ints _ .J _ _ _ (by decide) (fun _ _ => rfl) fitsJ) (by simp [Col.nelem, Fld.blank, Fld.ints])
      cols hl pre ty keys n (fun irow r => fits_write_col (i + 1) irow 1 [.int (f r)]) (fun _ _ _ => rfl)
  rw [Fld.done_ints _ _ _ _ _ fitsJ] at h
  exact h

/-! ### OI_VIS2 -/

theorem writeVis2Corr_end (t : OiVis2 R) (pre : List (Hdu R)) (ty : HduType) (keys : Spec.Keys R)
    (cols : List (Col R)) (hl : 6 ≤ cols.length) :
    writeVis2Corr t (endState pre ⟨ty, keys, cols, t.record.length⟩)
      = .ok ((), endState pre ⟨ty, keys ++ Spec.optKey "CORRNAME" t.corrname,
          cols.take 6 ++ Spec.optCols (t.corrname ≠ [])
            [Spec.intsCol "CORRINDX_VIS2DATA" .J 1 t.record (fun r => [r.corrindx_vis2data])]
            ++ cols.drop 6, t.record.length⟩) := by
  rw [writeVis2Corr]
  by_cases hc : t.corrname = []
  · simp [hc, Spec.optKey, Spec.optCols]
  · rw [if_pos (List.length_pos_iff.mpr hc), FitsM.bind_ok (write_key_str _ _ _ _),
      insert_fillJ _ _ 6 _ _ hl]
    simp [hc, Spec.optKey, Spec.optCols]

theorem write_oi_vis2_eq (t : OiVis2 R) (ht : t.Storable) (v : Int) (s : FState R) (hs : s.status = .ok) :
    write_oi_vis2 t v s = .ok ((), endState (primed s.hdus) (Spec.hduVis2 t v)) := by
  rw [write_oi_vis2, guardStatus_ok hs]
  have hD := expandTform_mark ht.nwave 'D'
  have hL := expandTform_mark ht.nwave 'L'
  have hform : make_tform ["I", "D", "D", "D", "?D", "?D", "1D", "1D", "2I", "?L"] t.nwave
      = .ok ["I", "D", "D", "D", fmtInt t.nwave ++ ['D'], fmtInt t.nwave ++ ['D'], "1D", "1D", "2I",
        fmtInt t.nwave ++ ['L']] :=
    make_tform_eq (make_tform_cons rfl (make_tform_cons rfl (make_tform_cons rfl (make_tform_cons rfl
      (make_tform_cons hD (make_tform_cons hD (make_tform_cons rfl (make_tform_cons rfl
      (make_tform_cons rfl (make_tform_cons hL rfl))))))))))
  have f1 := fits1 ht.target_id
  have f2 := fits2 ht.sta_index
  have l1 := fun r hr => (ht.wf.recs r hr).vis2data
  have l2 := fun r hr => (ht.wf.recs r hr).vis2err
  have l3 := fun r hr => (ht.wf.recs r hr).flag
  let xs : List (Item R (OiVis2Record R)) :=
    [.inr (.ints "TARGET_ID" .I 1 (fun r => [r.target_id])),
     .inr (.dbls "TIME" 1 (some "s") (fun _ => [R.lit 0.0])),
     .inr (.dbls "MJD" 1 (some "day") (fun r => [r.mjd])),
     .inr (.dbls "INT_TIME" 1 (some "s") (fun r => [r.int_time])),
     .inr (.dbls "VIS2DATA" t.nwave none (·.vis2data)),
     .inr (.dbls "VIS2ERR" t.nwave none (·.vis2err)),
     .inr (.dbls "UCOORD" 1 (some "m") (fun r => [r.ucoord])),
     .inr (.dbls "VCOORD" 1 (some "m") (fun r => [r.vcoord])),
     .inr (.ints "STA_INDEX" .I 2 (fun r => [r.sta_index.1, r.sta_index.2])),
     .inr (.logs "FLAG" t.nwave none (·.flag))]
  rw [hform, FitsM.bind_ok (FitsM.run_lift_ok _ _), FitsM.bind_ok (create_tbl_end (cols := itemCols xs) (by
    simp only [zip3, List.zip_cons_cons, List.zip_nil_left, List.mapM_cons, List.mapM_nil,
      newCol_fmtInt _ _ t.nwave (c := 'D') rfl, newCol_fmtInt _ _ t.nwave (c := 'L') rfl]
    rfl) s hs _)]
  rw [FitsM.bind_ok (write_key_int _ _ _ _), FitsM.bind_ok (write_key_str _ _ _ _),
    FitsM.bind_ok (writeOptKey_end _ _ _ _), FitsM.bind_ok (write_key_str _ _ _ _),
    FitsM.bind_ok (write_key_int _ _ _ _)]
  have hrow := fun keys n => write_all xs t.record (by flds_ok xs) rfl (primed s.hdus) .binary keys n
    (writeVis2Record t.nwave) (fun r _ i => by simp [xs, writeVis2Record, Plan.write, planOf]; rfl)
  rw [FitsM.bind_ok (hrow _ _)]
  simp only [xs, itemDone, List.map_cons, List.map_nil, Sum.elim_inr, Fld.done_dbls, Fld.done_logs,
    Fld.done_ints _ _ _ _ _ f1, Fld.done_ints _ _ _ _ _ f2]
  rw [Nat.max_eq_right (Nat.zero_le _), writeVis2Corr_end _ _ _ _ _ (by simp)]
  simp [Spec.hduVis2, OI_REVN_V2_VIS2]

/-! ### OI_ARRAY and OI_TARGET -/

theorem asKey_eq {x : R.Dbl} (h : (R.keyD x).isSome) : R.keyD x = some (Spec.asKey x) := by
  obtain ⟨y, hy⟩ := Option.isSome_iff_exists.mp h
  rw [Spec.asKey, hy]; rfl

theorem write_oi_array_eq (t : OiArray R) (ht : t.Storable) (v : Int) (s : FState R) (hs : s.status = .ok) :
    write_oi_array t v s = .ok ((), endState (primed s.hdus) (Spec.hduArray t v)) := by
  rw [write_oi_array, guardStatus_ok hs]
  have f1 := fits1 ht.sta_index
  let xs : List (Item R (Element R)) :=
    [.inr (.str "TEL_NAME" 16 (·.tel_name)),
     .inr (.str "STA_NAME" 16 (·.sta_name)),
     .inr (.ints "STA_INDEX" .I 1 (fun r => [r.sta_index])),
     .inr (.flts "DIAMETER" 1 (some "m") (fun r => [r.diameter])),
     .inr (.dbls "STAXYZ" 3 (some "m") (fun e => [e.staxyz.1, e.staxyz.2.1, e.staxyz.2.2])),
     .inr (.dbls "FOV" 1 (some "arcsec") (fun r => [r.fov])),
     .inr (.str "FOVTYPE" 6 (·.fovtype))]
  rw [FitsM.bind_ok (create_tbl_end (cols := itemCols xs) rfl s hs _)]
  rw [FitsM.bind_ok (write_key_int _ _ _ _),
    FitsM.bind_ok (write_key_str _ _ _ _),
    FitsM.bind_ok (write_key_str _ _ _ _),
    FitsM.bind_ok (write_key_dbl (asKey_eq ht.arrayx) _ _ _),
    FitsM.bind_ok (write_key_dbl (asKey_eq ht.arrayy) _ _ _),
    FitsM.bind_ok (write_key_dbl (asKey_eq ht.arrayz) _ _ _),
    FitsM.bind_ok (write_key_int _ _ _ _)]
  have hrow := fun keys n => write_all xs t.elem (by flds_ok xs) rfl (primed s.hdus) .binary keys n
    (writeElement) (fun r _ i => by simp [xs, writeElement, Plan.write, planOf]; rfl)
  rw [hrow _ _]
  simp only [xs, itemDone, List.map_cons, List.map_nil, Sum.elim_inr, Fld.done_dbls, Fld.done_flts, Fld.done_str,
    Fld.done_cpxs, Fld.done_logs, Fld.done_ints _ _ _ _ _ f1]
  simp [Spec.hduArray, OI_REVN_V2_ARRAY]

theorem writeCategory_end (t : OiTarget R) (pre : List (Hdu R)) (ty : HduType) (keys : Spec.Keys R)
    (cols : List (Col R)) (hl : cols.length = 17) :
    writeCategory t (endState pre ⟨ty, keys, cols, t.targ.length⟩)
      = .ok ((), endState pre ⟨ty, keys,
          cols ++ Spec.optCols t.usecategory [Spec.strCol "CATEGORY" 3 t.targ (·.category)], t.targ.length⟩) := by
  rw [writeCategory]
  cases hu : t.usecategory
  · simp [Spec.optCols]
  · have h := insert_fill (F := .str "CATEGORY" 3 (fun r : Target R => r.category)) (form := ("3A" : CStr)) rfl 17
      t.targ (Fld.ok_str _ _ _ _) (by simp [Col.nelem, Fld.blank, Fld.str])
      cols (by omega) pre ty keys t.targ.length (fun irow r => fits_write_col 18 irow 1 [.str r.category])
      (fun _ _ _ => rfl)
    rw [if_pos rfl]
    refine h.trans ?_
    rw [Fld.done_str, List.take_of_length_le (by omega), List.drop_eq_nil_of_le (by omega)]
    simp [Spec.optCols]

theorem write_oi_target_eq (t : OiTarget R) (ht : t.Storable) (s : FState R) (hs : s.status = .ok) :
    write_oi_target t s = .ok ((), endState (primed s.hdus) (Spec.hduTarget t)) := by
  rw [write_oi_target, guardStatus_ok hs]
  have f1 := fits1 ht.target_id
  let xs : List (Item R (Target R)) :=
    [.inr (.ints "TARGET_ID" .I 1 (fun r => [r.target_id])),
     .inr (.str "TARGET" 32 (·.target)),
     .inr (.dbls "RAEP0" 1 (some "deg") (fun r => [r.raep0])),
     .inr (.dbls "DECEP0" 1 (some "deg") (fun r => [r.decep0])),
     .inr (.flts "EQUINOX" 1 (some "yr") (fun r => [r.equinox])),
     .inr (.dbls "RA_ERR" 1 (some "deg") (fun r => [r.ra_err])),
     .inr (.dbls "DEC_ERR" 1 (some "deg") (fun r => [r.dec_err])),
     .inr (.dbls "SYSVEL" 1 (some "m/s") (fun r => [r.sysvel])),
     .inr (.str "VELTYP" 8 (·.veltyp)),
     .inr (.str "VELDEF" 8 (·.veldef)),
     .inr (.dbls "PMRA" 1 (some "deg/yr") (fun r => [r.pmra])),
     .inr (.dbls "PMDEC" 1 (some "deg/yr") (fun r => [r.pmdec])),
     .inr (.dbls "PMRA_ERR" 1 (some "deg/yr") (fun r => [r.pmra_err])),
     .inr (.dbls "PMDEC_ERR" 1 (some "deg/yr") (fun r => [r.pmdec_err])),
     .inr (.flts "PARALLAX" 1 (some "deg") (fun r => [r.parallax])),
     .inr (.flts "PARA_ERR" 1 (some "deg") (fun r => [r.para_err])),
     .inr (.str "SPECTYP" 32 (·.spectyp))]
  rw [FitsM.bind_ok (create_tbl_end (cols := itemCols xs) rfl s hs _)]
  rw [FitsM.bind_ok (write_key_int _ _ _ _)]
  have hrow := fun keys n => write_all xs t.targ (by flds_ok xs) rfl (primed s.hdus) .binary keys n
    (writeTarget) (fun r _ i => by simp [xs, writeTarget, Plan.write, planOf]; rfl)
  rw [FitsM.bind_ok (hrow _ _)]
  simp only [xs, itemDone, List.map_cons, List.map_nil, Sum.elim_inr, Fld.done_dbls, Fld.done_flts, Fld.done_str,
    Fld.done_cpxs, Fld.done_logs, Fld.done_ints _ _ _ _ _ f1]
  rw [Nat.max_eq_right (Nat.zero_le _), writeCategory_end _ _ _ _ _ (by simp)]
  simp [Spec.hduTarget, OI_REVN_V2_TARGET]

/-! ### OI_WAVELENGTH and OI_CORR -/

/-- Writing a column of single numbers with one call. -/
theorem write_column {β : Type} (name : CStr) (t : ColType) (unit : Option CStr) (mk : β → Cell R) (vals : List β)
    (ht : t ≠ .A) (hst : ∀ (c : Col R), c.type = t → ∀ x, store c (mk x) = (mk x, .ok)) (hne : vals ≠ [])
    (A B : List (Col R)) (pre : List (Hdu R)) (ty : HduType) (keys : Spec.Keys R) (n : Nat) :
    fits_write_col (A.length + 1) 1 vals.length (vals.map mk)
        (endState pre ⟨ty, keys, A ++ [blank name t 1 unit none] ++ B, n⟩)
      = .ok ((), endState pre ⟨ty, keys,
          A ++ [Spec.col name t 1 unit none (vals.map fun x => [mk x])] ++ B, max n vals.length⟩) := by
  have hget : (A ++ [blank (R := R) name t 1 unit none] ++ B)[A.length]? = some (blank name t 1 unit none) := by simp
  have hnel : (blank (R := R) name t 1 unit none).nelem = 1 := by simp [Col.nelem, ht]
  have hpos := List.length_pos_iff.mpr hne
  have h1 : ((vals.map mk).map fun x => (store (blank (R := R) name t 1 unit none) x).1) = vals.map mk := by
    rw [List.map_map]
    apply List.map_congr_left
    intro x _
    simp [hst (blank (R := R) name t 1 unit none) rfl x]
  have h2 : firstError ((vals.map mk).map fun x => (store (blank (R := R) name t 1 unit none) x).2) = .ok := by
    apply firstError_ok
    intro st hs
    simp only [List.mem_map, List.map_map] at hs
    obtain ⟨x, _, rfl⟩ := hs
    simp [hst (blank (R := R) name t 1 unit none) rfl x]
  have hput : (blank (R := R) name t 1 unit none).put 0 (vals.map mk)
      = Spec.col name t 1 unit none (vals.map fun x => [mk x]) := by
    unfold Col.put Spec.col
    rw [hnel]
    congr 1
    funext r e
    simp only [Nat.zero_le, true_and, Nat.sub_zero, Nat.mul_one, List.getElem?_map]
    by_cases he : e < 1
    · have : e = 0 := by omega
      subst this
      cases vals[r]? <;> simp
    · rw [if_neg he]
      cases hv : vals[r]? with
      | none => rfl
      | some v =>
        simp only [Option.map_some, Option.bind_some]
        rw [List.getElem?_eq_none (by simp only [List.length_singleton]; omega)]
        rfl
  have hset : ∀ c : Col R, (A ++ [blank (R := R) name t 1 unit none] ++ B).set A.length c = A ++ [c] ++ B := by
    intro c; simp
  unfold fits_write_col
  simp only [endState_status, if_true, List.length_map, Nat.lt_irrefl, if_false]
  rw [List.take_of_length_le (by simp), cfHdu_end, Hdu.writeCol]
  simp only [Nat.add_sub_cancel, hget, hnel]
  rw [if_neg (by simpa using hne), if_neg (by decide), h1, h2, Nat.sub_self, hput, hset]
  simp only [endState, List.length_map, Nat.div_one, Nat.zero_add]
  rw [show vals.length - 1 + 1 = vals.length by omega]

theorem write_oi_wavelength_eq (t : OiWavelength R) (ht : t.WF) (v : Int) (s : FState R) (hs : s.status = .ok) :
    write_oi_wavelength t v s = .ok ((), endState (primed s.hdus) (Spec.hduWavelength t v)) := by
  rw [write_oi_wavelength, guardStatus_ok hs]
  have hn := ht.chans
  have h1 : t.eff_wave ≠ [] := by intro h; apply hn; rw [← ht.eff_wave, h]; rfl
  have h2 : t.eff_band ≠ [] := by intro h; apply hn; rw [← ht.eff_band, h]; rfl
  rw [FitsM.bind_ok (create_tbl_end (cols := [blank "EFF_WAVE" .E 1 (some "m") none,
    blank "EFF_BAND" .E 1 (some "m") none]) rfl s hs _)]
  rw [FitsM.bind_ok (write_key_int _ _ _ _), FitsM.bind_ok (write_key_str _ _ _ _),
    FitsM.bind_ok (write_key_int _ _ _ _)]
  have w1 := fun keys n => write_column "EFF_WAVE" .E (some "m") .flt t.eff_wave (by decide)
    (fun c hc x => by simp [store, hc]) h1 [] [blank "EFF_BAND" .E 1 (some "m") none] (primed s.hdus) .binary keys n
  have w2 := fun keys n => write_column "EFF_BAND" .E (some "m") .flt t.eff_band (by decide)
    (fun c hc x => by simp [store, hc]) h2
    [Spec.col "EFF_WAVE" .E 1 (some "m") none (t.eff_wave.map fun x => [.flt x])] [] (primed s.hdus) .binary keys n
  rw [ht.eff_wave] at w1
  rw [ht.eff_band] at w2
  refine (FitsM.bind_ok (w1 _ _) _).trans ?_
  refine (w2 _ _).trans ?_
  simp [Spec.hduWavelength, Spec.fltsCol, OI_REVN_V2_WAVELENGTH]

theorem write_oi_corr_eq (t : OiCorr R) (ht : t.WF) (v : Int) (s : FState R) (hs : s.status = .ok) :
    write_oi_corr t v s = .ok ((), endState (primed s.hdus) (Spec.hduCorr t v)) := by
  rw [write_oi_corr, guardStatus_ok hs]
  have hn := ht.rows
  have h1 : t.iindx ≠ [] := by intro h; apply hn; rw [← ht.iindx, h]; rfl
  have h2 : t.jindx ≠ [] := by intro h; apply hn; rw [← ht.jindx, h]; rfl
  have h3 : t.corr ≠ [] := by intro h; apply hn; rw [← ht.corr, h]; rfl
  rw [FitsM.bind_ok (create_tbl_end (cols := [blank "IINDX" .J 1 none none, blank "JINDX" .J 1 none none,
    blank "CORR" .D 1 none none]) rfl s hs _)]
  rw [FitsM.bind_ok (write_key_int _ _ _ _), FitsM.bind_ok (write_key_str _ _ _ _),
    FitsM.bind_ok (write_key_int _ _ _ _), FitsM.bind_ok (write_key_int _ _ _ _)]
  have w1 := fun keys n => write_column "IINDX" .J none .int t.iindx (by decide)
    (fun c hc x => by simp [store, hc]) h1 [] [blank "JINDX" .J 1 none none, blank "CORR" .D 1 none none]
    (primed s.hdus) .binary keys n
  have w2 := fun keys n => write_column "JINDX" .J none .int t.jindx (by decide)
    (fun c hc x => by simp [store, hc]) h2
    [Spec.col "IINDX" .J 1 none none (t.iindx.map fun x => [.int x])] [blank "CORR" .D 1 none none]
    (primed s.hdus) .binary keys n
  have w3 := fun keys n => write_column "CORR" .D none .dbl t.corr (by decide)
    (fun c hc x => by simp [store, hc]) h3
    [Spec.col "IINDX" .J 1 none none (t.iindx.map fun x => [.int x]),
     Spec.col "JINDX" .J 1 none none (t.jindx.map fun x => [.int x])] [] (primed s.hdus) .binary keys n
  rw [ht.iindx] at w1
  rw [ht.jindx] at w2
  rw [ht.corr] at w3
  refine (FitsM.bind_ok (w1 _ _) _).trans ?_
  refine (FitsM.bind_ok (w2 _ _) _).trans ?_
  refine (w3 _ _).trans ?_
  simp [Spec.hduCorr, Spec.intsCol, Spec.dblsCol, OI_REVN_V2_CORR]

/-! ### OI_INSPOL -/

theorem write_oi_inspol_eq (t : OiInspol R) (ht : t.Storable) (v : Int) (s : FState R) (hs : s.status = .ok) :
    write_oi_inspol t v s = .ok ((), endState (primed s.hdus) (Spec.hduInspol t v)) := by
  rw [write_oi_inspol, guardStatus_ok hs]
  have hC := expandTform_mark ht.nwave 'C'
  have hform : make_tform ["I", "70A", "D", "D", "?C", "?C", "?C", "?C", "I"] t.nwave
      = .ok ["I", "70A", "D", "D", fmtInt t.nwave ++ ['C'], fmtInt t.nwave ++ ['C'], fmtInt t.nwave ++ ['C'], fmtInt t.nwave ++ ['C'], "I"] :=
    make_tform_eq (make_tform_cons rfl (make_tform_cons rfl (make_tform_cons rfl (make_tform_cons rfl (make_tform_cons hC (make_tform_cons hC (make_tform_cons hC (make_tform_cons hC (make_tform_cons rfl rfl)))))))))
  have f1 := fits1 ht.target_id
  have f2 := fits1 ht.sta_index
  have l0 := fun r hr => (ht.wf.recs r hr).jxx
  have l1 := fun r hr => (ht.wf.recs r hr).jyy
  have l2 := fun r hr => (ht.wf.recs r hr).jxy
  have l3 := fun r hr => (ht.wf.recs r hr).jyx
  let xs : List (Item R (OiInspolRecord R)) :=
    [.inr (.ints "TARGET_ID" .I 1 (fun r => [r.target_id])),
     .inr (.str "INSNAME" 70 (·.insname)),
     .inr (.dbls "MJD_OBS" 1 (some "day") (fun r => [r.mjd_obs])),
     .inr (.dbls "MJD_END" 1 (some "day") (fun r => [r.mjd_end])),
     .inr (.cpxs "JXX" t.nwave (·.jxx)),
     .inr (.cpxs "JYY" t.nwave (·.jyy)),
     .inr (.cpxs "JXY" t.nwave (·.jxy)),
     .inr (.cpxs "JYX" t.nwave (·.jyx)),
     .inr (.ints "STA_INDEX" .I 1 (fun r => [r.sta_index]))]
  rw [hform, FitsM.bind_ok (FitsM.run_lift_ok _ _), FitsM.bind_ok (create_tbl_end (cols := itemCols xs) (by
    simp only [zip3, List.zip_cons_cons, List.zip_nil_left, List.mapM_cons, List.mapM_nil, newCol_fmtInt _ _ t.nwave (c := 'C') rfl]
    rfl) s hs _)]
  rw [FitsM.bind_ok (write_key_int _ _ _ _),
    FitsM.bind_ok (write_key_str _ _ _ _),
    FitsM.bind_ok (write_key_int _ _ _ _),
    FitsM.bind_ok (write_key_str _ _ _ _),
    FitsM.bind_ok (write_key_str _ _ _ _),
    FitsM.bind_ok (write_key_str _ _ _ _),
    FitsM.bind_ok (write_key_int _ _ _ _)]
  have hrow := fun keys n => write_all xs t.record (by flds_ok xs) rfl (primed s.hdus) .binary keys n
    (writeInspolRecord t.nwave) (fun r _ i => by simp [xs, writeInspolRecord, Plan.write, planOf]; rfl)
  rw [hrow _ _]
  simp only [xs, itemDone, List.map_cons, List.map_nil, Sum.elim_inr, Fld.done_dbls, Fld.done_flts, Fld.done_str,
    Fld.done_cpxs, Fld.done_logs, Fld.done_ints _ _ _ _ _ f1, Fld.done_ints _ _ _ _ _ f2]
  simp [Spec.hduInspol, OI_REVN_V2_INSPOL]

/-! ### OI_T3 -/

theorem writeT3Corr_end (t : OiT3 R) (pre : List (Hdu R)) (ty : HduType) (keys : Spec.Keys R)
    (cols : List (Col R)) (hl : 8 ≤ cols.length) :
    writeT3Corr t (endState pre ⟨ty, keys, cols, t.record.length⟩)
      = .ok ((), endState pre ⟨ty, keys ++ Spec.optKey "CORRNAME" t.corrname,
          cols.take 6 ++ Spec.optCols (t.corrname ≠ [])
            [Spec.intsCol "CORRINDX_T3AMP" .J 1 t.record (fun r => [r.corrindx_t3amp])]
            ++ (cols.drop 6).take 2
            ++ Spec.optCols (t.corrname ≠ [])
            [Spec.intsCol "CORRINDX_T3PHI" .J 1 t.record (fun r => [r.corrindx_t3phi])]
            ++ cols.drop 8, t.record.length⟩) := by
  rw [writeT3Corr]
  by_cases hc : t.corrname = []
  · have : cols.take 6 ++ (cols.drop 6).take 2 ++ cols.drop 8 = cols := by
      rw [← List.take_add (i := 6) (j := 2), List.take_append_drop]
    simp [hc, Spec.optKey, Spec.optCols, ← List.append_assoc, this]
  · rw [if_pos (List.length_pos_iff.mpr hc), FitsM.bind_ok (write_key_str _ _ _ _),
      insert_fill2 _ _ _ _ 6 2 _ _ hl]
    simp [hc, Spec.optKey, Spec.optCols]

theorem write_oi_t3_eq (t : OiT3 R) (ht : t.Storable) (v : Int) (s : FState R) (hs : s.status = .ok) :
    write_oi_t3 t v s = .ok ((), endState (primed s.hdus) (Spec.hduT3 t v)) := by
  rw [write_oi_t3, guardStatus_ok hs]
  have hD := expandTform_mark ht.nwave 'D'
  have hL := expandTform_mark ht.nwave 'L'
  have hform : make_tform ["I", "D", "D", "D", "?D", "?D", "?D", "?D", "1D", "1D", "1D", "1D", "3I", "?L"] t.nwave
      = .ok ["I", "D", "D", "D", fmtInt t.nwave ++ ['D'], fmtInt t.nwave ++ ['D'], fmtInt t.nwave ++ ['D'], fmtInt t.nwave ++ ['D'], "1D", "1D", "1D", "1D", "3I", fmtInt t.nwave ++ ['L']] :=
    make_tform_eq (make_tform_cons rfl (make_tform_cons rfl (make_tform_cons rfl (make_tform_cons rfl (make_tform_cons hD (make_tform_cons hD (make_tform_cons hD (make_tform_cons hD (make_tform_cons rfl (make_tform_cons rfl (make_tform_cons rfl (make_tform_cons rfl (make_tform_cons rfl (make_tform_cons hL rfl))))))))))))))
  have f1 := fits1 ht.target_id
  have f2 := fits3 ht.sta_index
  have l0 := fun r hr => (ht.wf.recs r hr).t3amp
  have l1 := fun r hr => (ht.wf.recs r hr).t3amperr
  have l2 := fun r hr => (ht.wf.recs r hr).t3phi
  have l3 := fun r hr => (ht.wf.recs r hr).t3phierr
  have l4 := fun r hr => (ht.wf.recs r hr).flag
  let xs : List (Item R (OiT3Record R)) :=
    [.inr (.ints "TARGET_ID" .I 1 (fun r => [r.target_id])),
     .inr (.dbls "TIME" 1 (some "s") (fun _ => [R.lit 0.0])),
     .inr (.dbls "MJD" 1 (some "day") (fun r => [r.mjd])),
     .inr (.dbls "INT_TIME" 1 (some "s") (fun r => [r.int_time])),
     .inr (.dbls "T3AMP" t.nwave none (·.t3amp)),
     .inr (.dbls "T3AMPERR" t.nwave none (·.t3amperr)),
     .inr (.dbls "T3PHI" t.nwave (some "deg") (·.t3phi)),
     .inr (.dbls "T3PHIERR" t.nwave (some "deg") (·.t3phierr)),
     .inr (.dbls "U1COORD" 1 (some "m") (fun r => [r.u1coord])),
     .inr (.dbls "V1COORD" 1 (some "m") (fun r => [r.v1coord])),
     .inr (.dbls "U2COORD" 1 (some "m") (fun r => [r.u2coord])),
     .inr (.dbls "V2COORD" 1 (some "m") (fun r => [r.v2coord])),
     .inr (.ints "STA_INDEX" .I 3 (fun r => [r.sta_index.1, r.sta_index.2.1, r.sta_index.2.2])),
     .inr (.logs "FLAG" t.nwave none (·.flag))]
  rw [hform, FitsM.bind_ok (FitsM.run_lift_ok _ _), FitsM.bind_ok (create_tbl_end (cols := itemCols xs) (by
    simp only [zip3, List.zip_cons_cons, List.zip_nil_left, List.mapM_cons, List.mapM_nil, newCol_fmtInt _ _ t.nwave (c := 'D') rfl, newCol_fmtInt _ _ t.nwave (c := 'L') rfl]
    rfl) s hs _)]
  rw [FitsM.bind_ok (write_key_int _ _ _ _),
    FitsM.bind_ok (write_key_str _ _ _ _),
    FitsM.bind_ok (writeOptKey_end _ _ _ _),
    FitsM.bind_ok (write_key_str _ _ _ _),
    FitsM.bind_ok (write_key_int _ _ _ _)]
  have hrow := fun keys n => write_all xs t.record (by flds_ok xs) rfl (primed s.hdus) .binary keys n
    (writeT3Record t.nwave) (fun r _ i => by simp [xs, writeT3Record, Plan.write, planOf]; rfl)
  rw [FitsM.bind_ok (hrow _ _)]
  simp only [xs, itemDone, List.map_cons, List.map_nil, Sum.elim_inr, Fld.done_dbls, Fld.done_flts, Fld.done_str,
    Fld.done_cpxs, Fld.done_logs, Fld.done_ints _ _ _ _ _ f1, Fld.done_ints _ _ _ _ _ f2]
  rw [Nat.max_eq_right (Nat.zero_le _), writeT3Corr_end _ _ _ _ _ (by simp)]
  simp [Spec.hduT3, OI_REVN_V2_T3]

/-! ### OI_FLUX -/

theorem writeFluxFov_end (t : OiFlux R) (ht : t.fovtype ≠ [] → (R.keyD t.fov).isSome) (pre : List (Hdu R)) (h : Hdu R) :
    writeFluxFov t (endState pre h) = .ok ((), endState pre { h with keys := h.keys ++
      (if t.fovtype = [] then []
        else ([("FOV", .dbl (Spec.asKey t.fov)), ("FOVTYPE", .str (keyStr t.fovtype))] : Spec.Keys R)) }) := by
  rw [writeFluxFov]
  by_cases hc : t.fovtype = []
  · simp [hc]
  · rw [if_pos (List.length_pos_iff.mpr hc), FitsM.bind_ok (write_key_dbl (asKey_eq (ht hc)) _ _ _), write_key_str]
    simp [hc]

theorem writeFluxCorr_end (t : OiFlux R) (pre : List (Hdu R)) (ty : HduType) (keys : Spec.Keys R)
    (cols : List (Col R)) (hl : 4 ≤ cols.length) :
    writeFluxCorr t (endState pre ⟨ty, keys, cols, t.record.length⟩)
      = .ok ((), endState pre ⟨ty, keys ++ Spec.optKey "CORRNAME" t.corrname,
          cols.take 4 ++ Spec.optCols (t.corrname ≠ [])
            [Spec.intsCol "CORRINDX_FLUXDATA" .J 1 t.record (fun r => [r.corrindx_fluxdata])]
            ++ cols.drop 4, t.record.length⟩) := by
  rw [writeFluxCorr]
  by_cases hc : t.corrname = []
  · simp [hc, Spec.optKey, Spec.optCols]
  · rw [if_pos (List.length_pos_iff.mpr hc), FitsM.bind_ok (write_key_str _ _ _ _),
      insert_fillJ _ _ 4 _ _ hl]
    simp [hc, Spec.optKey, Spec.optCols]

theorem writeFluxSta_end (t : OiFlux R) (ht : t.arrname ≠ [] → ∀ r ∈ t.record, Spec.Int16 r.sta_index)
    (pre : List (Hdu R)) (ty : HduType) (keys : Spec.Keys R) (cols : List (Col R)) (hl : 5 ≤ cols.length) :
    writeFluxSta t (endState pre ⟨ty, keys, cols, t.record.length⟩)
      = .ok ((), endState pre ⟨ty, keys,
          cols.take 5 ++ Spec.optCols (t.arrname ≠ [])
            [Spec.intsCol "STA_INDEX" .I 1 t.record (fun r => [r.sta_index])]
            ++ cols.drop 5, t.record.length⟩) := by
  rw [writeFluxSta]
  by_cases hc : t.arrname = []
  · simp [hc, Spec.optCols]
  · have f1 := fits1 (ht hc)
    have h := insert_fill (F := .ints "STA_INDEX" .I 1 (fun r : OiFluxRecord R => [r.sta_index]))
      (form := ("I" : CStr)) rfl 5 t.record
      (Fld.ok_ints _ .I _ _ _ (by decide) (fun _ _ => rfl) f1) (by simp [Col.nelem, Fld.blank, Fld.ints])
      cols hl pre ty keys t.record.length (fun irow r => fits_write_col 6 irow 1 [.int r.sta_index])
      (fun _ _ _ => rfl)
    rw [if_pos (List.length_pos_iff.mpr hc)]
    refine h.trans ?_
    rw [Fld.done_ints _ _ _ _ _ f1]
    simp [hc, Spec.optCols]

theorem write_oi_flux_eq (t : OiFlux R) (ht : t.Storable) (v : Int) (s : FState R) (hs : s.status = .ok) :
    write_oi_flux t v s = .ok ((), endState (primed s.hdus) (Spec.hduFlux t v)) := by
  rw [write_oi_flux, guardStatus_ok hs]
  have hD := expandTform_mark ht.nwave 'D'
  have hL := expandTform_mark ht.nwave 'L'
  have hform : make_tform ["I", "D", "D", "?D", "?D", "?L"] t.nwave
      = .ok ["I", "D", "D", fmtInt t.nwave ++ ['D'], fmtInt t.nwave ++ ['D'], fmtInt t.nwave ++ ['L']] :=
    make_tform_eq (make_tform_cons rfl (make_tform_cons rfl (make_tform_cons rfl (make_tform_cons hD (make_tform_cons hD (make_tform_cons hL rfl))))))
  have f1 := fits1 ht.target_id
  have l0 := fun r hr => (ht.wf.recs r hr).fluxdata
  have l1 := fun r hr => (ht.wf.recs r hr).fluxerr
  have l2 := fun r hr => (ht.wf.recs r hr).flag
  let xs : List (Item R (OiFluxRecord R)) :=
    [.inr (.ints "TARGET_ID" .I 1 (fun r => [r.target_id])),
     .inr (.dbls "MJD" 1 (some "day") (fun r => [r.mjd])),
     .inr (.dbls "INT_TIME" 1 (some "s") (fun r => [r.int_time])),
     .inr (.dbls "FLUXDATA" t.nwave (some (keyStr t.fluxunit)) (·.fluxdata)),
     .inr (.dbls "FLUXERR" t.nwave (some (keyStr t.fluxunit)) (·.fluxerr)),
     .inr (.logs "FLAG" t.nwave none (·.flag))]
  let xs0 : List (Item R (OiFluxRecord R)) :=
    [.inr (.ints "TARGET_ID" .I 1 (fun r => [r.target_id])),
     .inr (.dbls "MJD" 1 (some "day") (fun r => [r.mjd])),
     .inr (.dbls "INT_TIME" 1 (some "s") (fun r => [r.int_time])),
     .inr (.dbls "FLUXDATA" t.nwave none (·.fluxdata)),
     .inr (.dbls "FLUXERR" t.nwave none (·.fluxerr)),
     .inr (.logs "FLAG" t.nwave none (·.flag))]
  let xs1 : List (Item R (OiFluxRecord R)) :=
    [.inr (.ints "TARGET_ID" .I 1 (fun r => [r.target_id])),
     .inr (.dbls "MJD" 1 (some "day") (fun r => [r.mjd])),
     .inr (.dbls "INT_TIME" 1 (some "s") (fun r => [r.int_time])),
     .inr (.dbls "FLUXDATA" t.nwave (some (keyStr t.fluxunit)) (·.fluxdata)),
     .inr (.dbls "FLUXERR" t.nwave none (·.fluxerr)),
     .inr (.logs "FLAG" t.nwave none (·.flag))]
  rw [hform, FitsM.bind_ok (FitsM.run_lift_ok _ _), FitsM.bind_ok (create_tbl_end (cols := itemCols xs0) (by
    simp only [zip3, List.zip_cons_cons, List.zip_nil_left, List.mapM_cons, List.mapM_nil, newCol_fmtInt _ _ t.nwave (c := 'D') rfl, newCol_fmtInt _ _ t.nwave (c := 'L') rfl]
    rfl) s hs _)]
  have hu1 : ∀ keys, writeColUnit 4 t.fluxunit (endState (primed s.hdus) ⟨.binary, keys, itemCols xs0, 0⟩)
      = .ok ((), endState (primed s.hdus) ⟨.binary, keys, itemCols xs1, 0⟩) :=
    fun keys => (writeColUnit_end _ _ _ _).trans rfl
  have hu2 : ∀ keys, writeColUnit 5 t.fluxunit (endState (primed s.hdus) ⟨.binary, keys, itemCols xs1, 0⟩)
      = .ok ((), endState (primed s.hdus) ⟨.binary, keys, itemCols xs, 0⟩) :=
    fun keys => (writeColUnit_end _ _ _ _).trans rfl
  rw [FitsM.bind_ok (hu1 _), FitsM.bind_ok (hu2 _)]
  rw [FitsM.bind_ok (write_key_int _ _ _ _),
    FitsM.bind_ok (write_key_str _ _ _ _),
    FitsM.bind_ok (writeOptKey_end _ _ _ _),
    FitsM.bind_ok (write_key_str _ _ _ _),
    FitsM.bind_ok (write_key_str _ _ _ _),
    FitsM.bind_ok (write_key_int _ _ _ _)]
  have hrow := fun keys n => write_all xs t.record (by flds_ok xs) rfl (primed s.hdus) .binary keys n
    (writeFluxRecord t.nwave) (fun r _ i => by simp [xs, writeFluxRecord, Plan.write, planOf]; rfl)
  rw [FitsM.bind_ok (hrow _ _)]
  simp only [xs, itemDone, List.map_cons, List.map_nil, Sum.elim_inr, Fld.done_dbls, Fld.done_flts, Fld.done_str,
    Fld.done_cpxs, Fld.done_logs, Fld.done_ints _ _ _ _ _ f1]
  rw [Nat.max_eq_right (Nat.zero_le _), FitsM.bind_ok (writeFluxFov_end t ht.fov _ _)]
  dsimp only
  rw [FitsM.bind_ok (writeFluxCorr_end t _ _ _ _ (by simp only [List.length_cons]; omega))]
  rw [writeFluxSta_end t ht.sta_index _ _ _ _ (by
    simp only [List.length_append, List.length_take, List.length_drop, List.length_cons, List.length_nil]; omega)]
  rw [Spec.hduFlux]
  by_cases hc : t.corrname = []
  · simp only [hc, Spec.optCols, OI_REVN_V2_FLUX, ne_eq, not_true_eq_false, decide_false, if_true, Bool.false_eq_true, if_false,
      List.take_succ_cons, List.take_zero, List.drop_succ_cons, List.drop_zero, List.cons_append, List.nil_append, List.append_assoc]
  · simp only [hc, Spec.optCols, OI_REVN_V2_FLUX, ne_eq, not_false_eq_true, decide_true, if_true, Bool.false_eq_true, if_false,
      List.take_succ_cons, List.take_zero, List.drop_succ_cons, List.drop_zero, List.cons_append, List.nil_append, List.append_assoc]

/-! ### OI_VIS -/

theorem modify_middle (A B : List α) (c : α) (f : α → α) :
    (A ++ [c] ++ B).modify A.length f = A ++ [f c] ++ B := by
  induction A with
  | nil => rfl
  | cons a A ih => simpa using ih

theorem write_ptr_some (k i n : Nat) (a : List (Cell R)) :
    fits_write_col_ptr k i n (some a) = fits_write_col k i n a := rfl

theorem lift_ok_bind {β γ : Type} (a : β) (f : β → FitsM R γ) : (FitsM.lift (.ok a) >>= f) = f a := rfl

theorem bind_pure_unit (x : FitsM R Unit) : (x >>= fun _ => pure ()) = x := by
  simp

theorem writeVisOptKeys_end (t : OiVis R) (pre : List (Hdu R)) (h : Hdu R) :
    writeVisOptKeys t (endState pre h) = .ok ((), endState pre { h with keys := (h.keys
      ++ Spec.optKey "CORRNAME" t.corrname ++ Spec.optKey "AMPTYP" t.amptyp ++ Spec.optKey "PHITYP" t.phityp
      ++ Spec.optOrder "AMPORDER" t.amporder ++ Spec.optOrder "PHIORDER" t.phiorder) }) := by
  rw [writeVisOptKeys, FitsM.bind_ok (writeOptKey_end _ _ _ _), FitsM.bind_ok (writeOptKey_end _ _ _ _),
    FitsM.bind_ok (writeOptKey_end _ _ _ _), FitsM.bind_ok (writeOptOrder_end _ _ _ _), writeOptOrder_end]

theorem writeVisCorr_end (t : OiVis R) (pre : List (Hdu R)) (ty : HduType) (keys : Spec.Keys R)
    (cols : List (Col R)) (hl : 8 ≤ cols.length) :
    writeVisCorr t (endState pre ⟨ty, keys, cols, t.record.length⟩)
      = .ok ((), endState pre ⟨ty, keys, if t.corrname = [] then cols else
          cols.take 6 ++ [Spec.intsCol "CORRINDX_VISAMP" .J 1 t.record (fun r => [r.corrindx_visamp])]
            ++ (cols.drop 6).take 2
            ++ [Spec.intsCol "CORRINDX_VISPHI" .J 1 t.record (fun r => [r.corrindx_visphi])]
            ++ cols.drop 8, t.record.length⟩) := by
  rw [writeVisCorr]
  by_cases hc : t.corrname = []
  · simp [hc]
  · rw [if_pos (List.length_pos_iff.mpr hc), insert_fill2 _ _ _ _ 6 2 _ _ hl]
    simp [hc]

theorem writeVisComplexCorr_end (t : OiVis R) (pre : List (Hdu R)) (ty : HduType) (keys : Spec.Keys R)
    (cols : List (Col R)) (hl : 12 ≤ cols.length) :
    writeVisComplexCorr t (endState pre ⟨ty, keys, cols, t.record.length⟩)
      = .ok ((), endState pre ⟨ty, keys, if t.corrname = [] then cols else
          cols.take 10 ++ [Spec.intsCol "CORRINDX_RVIS" .J 1 t.record (fun r => [r.corrindx_rvis])]
            ++ (cols.drop 10).take 2
            ++ [Spec.intsCol "CORRINDX_IVIS" .J 1 t.record (fun r => [r.corrindx_ivis])]
            ++ cols.drop 12, t.record.length⟩) := by
  rw [writeVisComplexCorr]
  by_cases hc : t.corrname = []
  · simp [hc]
  · rw [if_pos (List.length_pos_iff.mpr hc), insert_fill2 _ _ _ _ 10 2 _ _ hl]
    simp [hc]

theorem optArray_getD {β : Type} {n : Nat} {a : Option (List β)} (h : OptArray true n a) :
    a = some (a.getD []) ∧ (a.getD []).length = n := by
  cases a with
  | none => exact absurd h (by simp [OptArray])
  | some l => exact ⟨rfl, h⟩

theorem fmtInt_length_le {n k : Nat} (h : n < 10 ^ k) (hk : 0 < k) : (fmtInt (n : Int)).length ≤ k := by
  rw [fmtInt_digits]
  exact (Nat.length_toDigits_le_iff (b := 10) (n := n) (k := k) (by omega) hk).mpr h

theorem writeVisRefmap_end (t : OiVis R) (ht : t.Storable) (pre : List (Hdu R)) (ty : HduType) (keys : Spec.Keys R)
    (cols : List (Col R)) (hl : 10 ≤ cols.length) :
    writeVisRefmap t (endState pre ⟨ty, keys, cols, t.record.length⟩)
      = .ok ((), endState pre ⟨ty, keys,
          cols.take 10 ++ Spec.optCols t.usevisrefmap
            [Spec.logsCol "VISREFMAP" (t.nwave * t.nwave)
              (some (keyStr (("(" : CStr) ++ fmtInt t.nwave ++ ("," : CStr) ++ fmtInt t.nwave ++ (")" : CStr))))
              t.record (fun r => r.visrefmap.getD [])] ++ cols.drop 10, t.record.length⟩) := by
  rw [writeVisRefmap]
  cases hu : t.usevisrefmap
  · simp [Spec.optCols]
  · have hn := ht.nwave
    have hlen : (fmtInt (t.nwave : Int)).length ≤ 4 := fmtInt_length_le (by omega) (by decide)
    have hlen2 : (fmtInt ((t.nwave * t.nwave : Nat) : Int)).length ≤ 8 :=
      fmtInt_length_le (Nat.lt_of_lt_of_le (Nat.mul_lt_mul'' hn hn) (by decide)) (by decide)
    have hdim : snprintf FLEN_VALUE
        (("(" : CStr) ++ fmtInt t.nwave ++ ("," : CStr) ++ fmtInt t.nwave ++ (")" : CStr))
        = ("(" : CStr) ++ fmtInt t.nwave ++ ("," : CStr) ++ fmtInt t.nwave ++ (")" : CStr) := by
      rw [snprintf, List.take_of_length_le]
      simp only [List.length_append, FLEN_VALUE]
      have h1 : ("(" : CStr).length = 1 := rfl
      have h2 : ("," : CStr).length = 1 := rfl
      have h3 : (")" : CStr).length = 1 := rfl
      omega
    have hform : snprintf FLEN_VALUE (fmtInt ((t.nwave : Int) * t.nwave) ++ ("L" : CStr))
        = fmtInt ((t.nwave * t.nwave : Nat) : Int) ++ ['L'] := by
      rw [snprintf, ← Int.natCast_mul, List.take_of_length_le]
      · rfl
      · simp only [List.length_append, FLEN_VALUE]
        have h1 : ("L" : CStr).length = 1 := rfl
        omega
    rw [if_pos rfl, hform, hdim]
    have hlens : ∀ r ∈ t.record, (r.visrefmap.getD []).length = t.nwave * t.nwave := fun r hr => by
      have := (ht.wf.recs r hr).visrefmap
      rw [hu] at this
      exact (optArray_getD this).2
    let F : Fld R (OiVisRecord R) := .logs "VISREFMAP" (t.nwave * t.nwave)
      (some (keyStr (("(" : CStr) ++ fmtInt t.nwave ++ ("," : CStr) ++ fmtInt t.nwave ++ (")" : CStr))))
      (fun r => r.visrefmap.getD [])
    rw [FitsM.bind_ok (insert_col_end _ _ (newCol_fmtInt _ _ _ (c := 'L') rfl) (by decide) (by simpa using hl)),
      FitsM.bind_ok (writeColDim_end _ _ _ _)]
    have hA : (cols.take 10).length = 10 := by simp [hl]
    have hm := fun c f => modify_middle (cols.take 10) (cols.drop 10) (c : Col R) f
    rw [hA] at hm
    simp only [Nat.reduceSub]
    rw [hm]
    have hne := ht.wf.chans
    have hfill := fill_middle (cols.take 10) (cols.drop 10) [.inr F] t.record
      (by
        simp only [List.forall_mem_cons, List.forall_mem_nil, and_true, ItemOk]
        exact ⟨Fld.ok_logs _ _ _ _ _ hlens, List.forall_mem_nil _⟩)
      (by
        have := Nat.mul_ne_zero hne hne
        simp [planOf, F, Fld.logs, Fld.blank, Col.nelem, this]) pre ty keys t.record.length
      (fun irow r => fits_write_col_ptr 11 irow (t.nwave * t.nwave) (r.visrefmap.map fun l => l.map .log))
      (fun r hr i => by
        have hw := (ht.wf.recs r hr).visrefmap
        rw [hu] at hw
        rw [hA]
        simp only [planOf, Plan.write]
        rw [(optArray_getD hw).1, Option.map_some, write_ptr_some]
        simp [F, Fld.logs, Fld.blank, Col.nelem])
    refine hfill.trans ?_
    simp [itemDone, F, Fld.done_logs, Spec.optCols]

theorem split_middle (A B : List α) (hA : A.length = 8) (a b c d : α) :
    (A ++ (a :: b :: c :: d :: B)).take 10 = A ++ [a, b]
      ∧ ((A ++ (a :: b :: c :: d :: B)).drop 10).take 2 = [c, d]
      ∧ (A ++ (a :: b :: c :: d :: B)).drop 12 = B := by
  refine ⟨?_, ?_, ?_⟩
  · rw [List.take_append, List.take_of_length_le (by omega), hA]; rfl
  · rw [List.drop_append, List.drop_eq_nil_of_le (by omega), hA]; rfl
  · rw [List.drop_append, List.drop_eq_nil_of_le (by omega), hA]; rfl

theorem writeVisComplex_end (t : OiVis R) (ht : t.Storable) (pre : List (Hdu R)) (ty : HduType)
    (keys : Spec.Keys R) (cols : List (Col R)) (hl : 8 ≤ cols.length) :
    let real : List (Col R) :=
      [Spec.dblsCol "RVIS" t.nwave (some (keyStr t.complexunit)) t.record (fun r => r.rvis.getD []),
       Spec.dblsCol "RVISERR" t.nwave (some (keyStr t.complexunit)) t.record (fun r => r.rviserr.getD [])]
    let imag : List (Col R) :=
      [Spec.dblsCol "IVIS" t.nwave (some (keyStr t.complexunit)) t.record (fun r => r.ivis.getD []),
       Spec.dblsCol "IVISERR" t.nwave (some (keyStr t.complexunit)) t.record (fun r => r.iviserr.getD [])]
    writeVisComplex t (endState pre ⟨ty, keys, cols, t.record.length⟩)
      = .ok ((), endState pre ⟨ty, keys,
          cols.take 8 ++ Spec.optCols t.usecomplex (if t.corrname = [] then real ++ imag else
            real ++ [Spec.intsCol "CORRINDX_RVIS" .J 1 t.record (fun r => [r.corrindx_rvis])]
            ++ imag ++ [Spec.intsCol "CORRINDX_IVIS" .J 1 t.record (fun r => [r.corrindx_ivis])])
            ++ cols.drop 8, t.record.length⟩) := by
  intro real imag
  rw [writeVisComplex]
  cases hu : t.usecomplex
  · simp [Spec.optCols]
  · rw [if_pos rfl]
    have hD := expandTform_mark ht.nwave 'D'
    have hform : make_tform ["?D", "?D", "?D", "?D"] t.nwave = .ok [fmtInt t.nwave ++ ['D'],
        fmtInt t.nwave ++ ['D'], fmtInt t.nwave ++ ['D'], fmtInt t.nwave ++ ['D']] :=
      make_tform_eq (make_tform_cons hD (make_tform_cons hD (make_tform_cons hD (make_tform_cons hD rfl))))
    have hA : (cols.take 8).length = 8 := by simp [hl]
    let xs (u : Option CStr) : List (Item R (OiVisRecord R)) :=
      [.inr (.dbls "RVIS" t.nwave u (fun r => r.rvis.getD [])),
       .inr (.dbls "RVISERR" t.nwave u (fun r => r.rviserr.getD [])),
       .inr (.dbls "IVIS" t.nwave u (fun r => r.ivis.getD [])),
       .inr (.dbls "IVISERR" t.nwave u (fun r => r.iviserr.getD []))]
    rw [hform, FitsM.bind_ok (FitsM.run_lift_ok _ _), FitsM.bind_ok (insert_cols_end
      (cols := itemCols (xs none)) (by
      simp only [List.zip_cons_cons, List.zip_nil_left, List.mapM_cons, List.mapM_nil,
        newCol_fmtInt _ _ t.nwave (c := 'D') rfl]
      rfl) _ _ (by decide) (by simp only; omega))]
    simp only [Nat.reduceSub]
    have m0 := fun B f c => modify_middle (cols.take 8) B (c : Col R) f
    have m1 := fun B f c c0 => modify_middle (cols.take 8 ++ [c0]) B (c : Col R) f
    have m2 := fun B f c c0 c1 => modify_middle (cols.take 8 ++ [c0, c1]) B (c : Col R) f
    have m3 := fun B f c c0 c1 c2 => modify_middle (cols.take 8 ++ [c0, c1, c2]) B (c : Col R) f
    simp only [List.length_append, hA, List.length_cons, List.length_nil, Nat.zero_add, Nat.reduceAdd,
      List.append_assoc, List.cons_append, List.nil_append] at m0 m1 m2 m3
    rw [FitsM.bind_ok (writeColUnit_end _ _ _ _), FitsM.bind_ok (writeColUnit_end _ _ _ _),
      FitsM.bind_ok (writeColUnit_end _ _ _ _), FitsM.bind_ok (writeColUnit_end _ _ _ _)]
    simp only [itemCols, xs, List.map_cons, List.map_nil, Sum.elim_inr, Nat.reduceSub, m0, m1, m2, m3,
      List.append_assoc, List.cons_append, List.nil_append]
    have hw := ht.wf.recs
    rw [hu] at hw
    have l1 := fun r hr => (optArray_getD (hw r hr).rvis).2
    have l2 := fun r hr => (optArray_getD (hw r hr).rviserr).2
    have l3 := fun r hr => (optArray_getD (hw r hr).ivis).2
    have l4 := fun r hr => (optArray_getD (hw r hr).iviserr).2
    have hne := ht.wf.chans
    have hfill := fill_middle (cols.take 8) (cols.drop 8) (xs (some (keyStr t.complexunit))) t.record
      (by flds_ok xs) (by simp [xs, planOf, Fld.dbls, Fld.blank, Col.nelem, hne]) pre ty keys t.record.length
      (writeVisComplexRow t.nwave)
      (fun r hr i => by
        rw [hA, writeVisComplexRow, (optArray_getD (hw r hr).rvis).1, (optArray_getD (hw r hr).rviserr).1,
          (optArray_getD (hw r hr).ivis).1, (optArray_getD (hw r hr).iviserr).1]
        simp only [xs, planOf, Plan.write, Option.map_some, write_ptr_some, Option.isSome_some, guardAssert_true,
          lift_ok_bind, bind_pure_unit]
        rfl)
    generalize hDd : itemDone t.record (xs (some (keyStr t.complexunit))) = D at hfill
    simp only [itemCols, xs, List.map_cons, List.map_nil, Sum.elim_inr, Fld.blank, Fld.dbls,
      List.append_assoc, List.cons_append, List.nil_append, Nat.max_self] at hfill
    simp only [Fld.blank, Fld.dbls, Option.none_or]
    rw [FitsM.bind_ok hfill]
    simp only [itemDone, xs, List.map_cons, List.map_nil, Sum.elim_inr, Fld.done_dbls] at hDd
    subst hDd
    rw [writeVisComplexCorr_end _ _ _ _ _ (by
      simp only [List.length_append, hA, List.length_cons, List.length_nil]; omega)]
    simp only [Spec.optCols, if_true]
    by_cases hc : t.corrname = []
    · simp only [hc, if_true, real, imag, List.cons_append, List.nil_append]
    · simp only [hc, if_false, real, imag, List.cons_append, List.nil_append, List.append_assoc]
      obtain ⟨h1, h2, h3⟩ := split_middle (cols.take 8) (cols.drop 8) hA
        (Spec.dblsCol "RVIS" t.nwave (some (keyStr t.complexunit)) t.record (fun r => r.rvis.getD []))
        (Spec.dblsCol "RVISERR" t.nwave (some (keyStr t.complexunit)) t.record (fun r => r.rviserr.getD []))
        (Spec.dblsCol "IVIS" t.nwave (some (keyStr t.complexunit)) t.record (fun r => r.ivis.getD []))
        (Spec.dblsCol "IVISERR" t.nwave (some (keyStr t.complexunit)) t.record (fun r => r.iviserr.getD []))
      rw [h1, h2, h3]
      simp only [List.cons_append, List.nil_append, List.append_assoc]

theorem writeAmpunit_end (t : OiVis R) (pre : List (Hdu R)) (ty : HduType) (keys : Spec.Keys R) (n : Nat)
    (A B : List (Col R)) (c d : Col R) (hA : A.length = 4) (hc : c.unit = none) (hd : d.unit = none) :
    let u := if t.amptyp = ("correlated flux" : CStr) then some (keyStr t.ampunit) else none
    writeAmpunit t (endState pre ⟨ty, keys, A ++ [c, d] ++ B, n⟩)
      = .ok ((), endState pre ⟨ty, keys, A ++ [{ c with unit := u }, { d with unit := u }] ++ B, n⟩) := by
  intro u
  rw [writeAmpunit]
  by_cases h : t.amptyp = ("correlated flux" : CStr)
  · have m0 := fun f c => modify_middle A (d :: B) (c : Col R) f
    have m1 := fun f c d => modify_middle (A ++ [d]) B (c : Col R) f
    simp only [List.length_append, hA, List.length_cons, List.length_nil, Nat.zero_add, Nat.reduceAdd,
      List.append_assoc, List.cons_append, List.nil_append] at m0 m1
    rw [if_pos h, FitsM.bind_ok (writeColUnit_end _ _ _ _), writeColUnit_end]
    simp only [Nat.reduceSub, m0, m1, List.append_assoc, List.cons_append, List.nil_append, hc, hd, u, h, if_true,
      Option.none_or]
  · rw [if_neg h]
    simp only [u, h, if_false]
    obtain ⟨c1, c2, c3, c4, c5, c6⟩ := c
    obtain ⟨d1, d2, d3, d4, d5, d6⟩ := d
    simp only at hc hd
    subst hc hd
    rfl

theorem write_oi_vis_eq (t : OiVis R) (ht : t.Storable) (v : Int) (s : FState R) (hs : s.status = .ok) :
    write_oi_vis t v s = .ok ((), endState (primed s.hdus) (Spec.hduVis t v)) := by
  rw [write_oi_vis, guardStatus_ok hs]
  have hD := expandTform_mark ht.nwave 'D'
  have hL := expandTform_mark ht.nwave 'L'
  have hform : make_tform ["I", "D", "D", "D", "?D", "?D", "?D", "?D", "1D", "1D", "2I", "?L"] t.nwave
      = .ok ["I", "D", "D", "D", fmtInt t.nwave ++ ['D'], fmtInt t.nwave ++ ['D'], fmtInt t.nwave ++ ['D'],
        fmtInt t.nwave ++ ['D'], "1D", "1D", "2I", fmtInt t.nwave ++ ['L']] :=
    make_tform_eq (make_tform_cons rfl (make_tform_cons rfl (make_tform_cons rfl (make_tform_cons rfl
      (make_tform_cons hD (make_tform_cons hD (make_tform_cons hD (make_tform_cons hD (make_tform_cons rfl
      (make_tform_cons rfl (make_tform_cons rfl (make_tform_cons hL rfl))))))))))))
  have f1 := fits1 ht.target_id
  have f2 := fits2 ht.sta_index
  have l1 := fun r hr => (ht.wf.recs r hr).visamp
  have l2 := fun r hr => (ht.wf.recs r hr).visamperr
  have l3 := fun r hr => (ht.wf.recs r hr).visphi
  have l4 := fun r hr => (ht.wf.recs r hr).visphierr
  have l5 := fun r hr => (ht.wf.recs r hr).flag
  let xs (u : Option CStr) : List (Item R (OiVisRecord R)) :=
    [.inr (.ints "TARGET_ID" .I 1 (fun r => [r.target_id])),
     .inr (.dbls "TIME" 1 (some "s") (fun _ => [R.lit 0.0])),
     .inr (.dbls "MJD" 1 (some "day") (fun r => [r.mjd])),
     .inr (.dbls "INT_TIME" 1 (some "s") (fun r => [r.int_time])),
     .inr (.dbls "VISAMP" t.nwave u (·.visamp)),
     .inr (.dbls "VISAMPERR" t.nwave u (·.visamperr)),
     .inr (.dbls "VISPHI" t.nwave (some "deg") (·.visphi)),
     .inr (.dbls "VISPHIERR" t.nwave (some "deg") (·.visphierr)),
     .inr (.dbls "UCOORD" 1 (some "m") (fun r => [r.ucoord])),
     .inr (.dbls "VCOORD" 1 (some "m") (fun r => [r.vcoord])),
     .inr (.ints "STA_INDEX" .I 2 (fun r => [r.sta_index.1, r.sta_index.2])),
     .inr (.logs "FLAG" t.nwave none (·.flag))]
  let u := if t.amptyp = ("correlated flux" : CStr) then some (keyStr t.ampunit) else none
  rw [hform, FitsM.bind_ok (FitsM.run_lift_ok _ _), FitsM.bind_ok (create_tbl_end (cols := itemCols (xs none)) (by
    simp only [zip3, List.zip_cons_cons, List.zip_nil_left, List.mapM_cons, List.mapM_nil,
      newCol_fmtInt _ _ t.nwave (c := 'D') rfl, newCol_fmtInt _ _ t.nwave (c := 'L') rfl]
    rfl) s hs _)]
  have hamp : ∀ keys, writeAmpunit t (endState (primed s.hdus) ⟨.binary, keys, itemCols (xs none), 0⟩)
      = .ok ((), endState (primed s.hdus) ⟨.binary, keys, itemCols (xs u), 0⟩) := fun keys =>
    writeAmpunit_end t (primed s.hdus) .binary keys 0 ((itemCols (xs none)).take 4) ((itemCols (xs none)).drop 6)
      (Fld.dbls (α := OiVisRecord R) "VISAMP" t.nwave none (·.visamp)).blank
      (Fld.dbls (α := OiVisRecord R) "VISAMPERR" t.nwave none (·.visamperr)).blank rfl rfl rfl
  rw [FitsM.bind_ok (hamp _)]
  rw [FitsM.bind_ok (write_key_int _ _ _ _), FitsM.bind_ok (write_key_str _ _ _ _),
    FitsM.bind_ok (writeOptKey_end _ _ _ _), FitsM.bind_ok (write_key_str _ _ _ _),
    FitsM.bind_ok (write_key_int _ _ _ _)]
  have hrow := fun keys n => write_all (xs u) t.record (by flds_ok xs) rfl (primed s.hdus) .binary keys n
    (writeVisRecord t.nwave) (fun r _ i => by simp [xs, writeVisRecord, Plan.write, planOf]; rfl)
  rw [FitsM.bind_ok (hrow _ _)]
  simp only [xs, itemDone, List.map_cons, List.map_nil, Sum.elim_inr, Fld.done_dbls, Fld.done_logs,
    Fld.done_ints _ _ _ _ _ f1, Fld.done_ints _ _ _ _ _ f2]
  rw [Nat.max_eq_right (Nat.zero_le _), write_oi_vis_opt, FitsM.bind_ok (writeVisOptKeys_end _ _ _)]
  dsimp only
  rw [FitsM.bind_ok (writeVisCorr_end t _ _ _ _ (by simp only [List.length_cons]; omega))]
  rw [Spec.hduVis, Spec.visCols]
  by_cases hc : t.corrname = []
  · rw [if_pos hc, FitsM.bind_ok (writeVisRefmap_end t ht _ _ _ _ (by simp only [List.length_cons]; omega))]
    rw [writeVisComplex_end t ht _ _ _ _ (by
      simp only [List.length_append, List.length_take, List.length_cons]; omega)]
    simp only [hc, if_true, OI_REVN_V2_VIS, u,
      List.take_succ_cons, List.take_zero, List.drop_succ_cons, List.drop_zero, List.cons_append, List.nil_append,
      List.append_assoc]
  · rw [if_neg hc, FitsM.bind_ok (writeVisRefmap_end t ht _ _ _ _ (by
      simp only [List.length_append, List.length_take, List.length_cons, List.length_drop]; omega))]
    rw [writeVisComplex_end t ht _ _ _ _ (by
      simp only [List.length_append, List.length_take, List.length_cons, List.length_drop]; omega)]
    simp only [hc, if_false, OI_REVN_V2_VIS, u,
      List.take_succ_cons, List.take_zero, List.drop_succ_cons, List.drop_zero, List.cons_append, List.nil_append,
      List.append_assoc]

end Verif
