import Verif.Spec.Machine
import Verif.Proof.Fault

namespace Verif
open Outcome

variable {R : FP}

theorem machine_ok {bits : Nat} {x : Int} (h : Holds bits x) : machine bits x = .ok x := if_pos h

theorem machine_ub {bits : Nat} {x : Int} (h : ¬ Holds bits x) : machine bits x = .ub := if_neg h

theorem exists_quarter {bits : Nat} (hb : 32 ≤ bits) :
    ∃ Q : Int, 536870912 ≤ Q ∧ (2 : Int) ^ (bits - 1) = 4 * Q := by
  obtain ⟨k, rfl⟩ : ∃ k, bits = k + 32 := ⟨bits - 32, by omega⟩
  refine ⟨2 ^ (k + 29), ?_, ?_⟩
  · have : (1 : Int) ≤ 2 ^ k := by
      have := Nat.one_le_two_pow (n := k)
      exact_mod_cast this
    rw [pow_add]
    omega
  · rw [show k + 32 - 1 = (k + 29) + 2 from by omega, pow_add (2 : Int) (k + 29) 2]
    omega

theorem holds_of {bits : Nat} {Q x : Int} (hQ : (2 : Int) ^ (bits - 1) = 4 * Q) (h1 : -(4 * Q) ≤ x)
    (h2 : x < 4 * Q) : Holds bits x := by
  unfold Holds
  rw [hQ]
  exact ⟨h1, h2⟩

theorem tdiv_cases (x k : Int) (hk : 0 < k) :
    (0 ≤ x ∧ 0 ≤ x.tdiv k ∧ k * x.tdiv k ≤ x ∧ x < k * x.tdiv k + k) ∨
    (x < 0 ∧ x.tdiv k ≤ 0 ∧ x ≤ k * x.tdiv k ∧ k * x.tdiv k - k < x) := by
  have e := Int.tmod_add_mul_tdiv x k
  by_cases hx : 0 ≤ x
  · left
    have h1 := Int.tmod_nonneg k hx
    have h2 := Int.tmod_lt_of_pos x hk
    exact ⟨hx, Int.tdiv_nonneg hx (by omega), by omega, by omega⟩
  · right
    have hn : (-x).tdiv k = - x.tdiv k := Int.neg_tdiv ..
    have hm : (-x).tmod k = - x.tmod k := Int.neg_tmod ..
    have h1 := Int.tmod_nonneg k (a := -x) (by omega)
    have h2 := Int.tmod_lt_of_pos (-x) hk
    have h3 := Int.tdiv_nonneg (a := -x) (b := k) (by omega) (by omega)
    exact ⟨by omega, by omega, by omega, by omega⟩

theorem date2mjdM_eq {bits : Nat} (hb : 32 ≤ bits) {y m d : Int} (hm : -1000000 ≤ m ∧ m ≤ 1000000)
    (hd : -1000000 ≤ d ∧ d ≤ 1000000) : date2mjdM bits y m d = date2mjd y m d := by
  obtain ⟨Q, hQ, he⟩ := exists_quarter hb
  unfold date2mjdM date2mjd
  by_cases hy : y ≥ 1901 ∧ y ≤ 2099
  · rw [if_pos hy]
    simp only [guardAssert, hy, and_self, decide_true]
    have h1 := tdiv_cases (m + 9) 12 (by omega)
    generalize hq1 : (m + 9).tdiv 12 = q1 at *
    have h2 := tdiv_cases (7 * (y + q1)) 4 (by omega)
    generalize hq2 : (7 * (y + q1)).tdiv 4 = q2 at *
    have h3 := tdiv_cases (275 * m) 9 (by omega)
    generalize hq3 : (275 * m).tdiv 9 = q3 at *
    have b1 : -90000 ≤ q1 ∧ q1 ≤ 90000 := by omega
    have b2 : -200000 ≤ q2 ∧ q2 ≤ 200000 := by omega
    have b3 : -31000000 ≤ q3 ∧ q3 ≤ 31000000 := by omega
    clear h1 h2 h3
    have hh : ∀ x : Int, -2000000000 ≤ x → x ≤ 2000000000 → machine bits x = .ok x := fun x l u =>
      machine_ok (holds_of he (by omega) (by omega))
    simp (discharger := omega) only [hh, Outcome.bind_ok, hq1, hq2, hq3, if_true]
  · rw [if_neg hy]
    simp [guardAssert, hy]

theorem mjd2dateM_ok {bits : Nat} (hb : 32 ≤ bits) {mjd : Int} (h : DayFits bits mjd) :
    mjd2dateM bits mjd = .ok (mjd2date mjd) := by
  obtain ⟨Q, hQ, he⟩ := exists_quarter hb
  unfold DayFits Holds at h
  rw [he] at h
  have hh : ∀ x : Int, -(4 * Q) ≤ x → x < 4 * Q → machine bits x = .ok x := fun x l u =>
    machine_ok (holds_of he l u)
  unfold mjd2dateM mjd2date
  dsimp only
  obtain ⟨L, hL⟩ : ∃ L, mjd + 2400001 + 68569 = L := ⟨_, rfl⟩
  have hL1 : -Q ≤ L := by omega
  have hL2 : L < Q := by omega
  have h1 := tdiv_cases (4 * L) 146097 (by omega)
  rw [hL]
  rw [hh (mjd + 2400001) (by omega) (by omega), Outcome.bind_ok, hL, hh L (by omega) (by omega),
    Outcome.bind_ok, hh (4 * L) (by omega) (by omega), Outcome.bind_ok]
  generalize (4 * L).tdiv 146097 = N at *
  have h2 := tdiv_cases (146097 * N + 3) 4 (by omega)
  rw [hh (146097 * N) (by omega) (by omega), Outcome.bind_ok, hh (146097 * N + 3) (by omega) (by omega),
    Outcome.bind_ok]
  generalize (146097 * N + 3).tdiv 4 = A at *
  have b1 : -40000 ≤ L - A ∧ L - A ≤ 40000 := by omega
  rw [hh (L - A) (by omega) (by omega), Outcome.bind_ok]
  have bN : -(4 * Q) ≤ 146097 * N ∧ 146097 * N < 4 * Q := by omega
  generalize L - A = B at *
  clear h2 h1 hL hL1 hL2
  rw [hh (B + 1) (by omega) (by omega), Outcome.bind_ok, hh (4000 * (B + 1)) (by omega) (by omega), Outcome.bind_ok]
  have h3 := tdiv_cases (4000 * (B + 1)) 1461001 (by omega)
  generalize (4000 * (B + 1)).tdiv 1461001 = I at *
  have b2 : -200 ≤ I ∧ I ≤ 200 := by omega
  rw [hh (1461 * I) (by omega) (by omega), Outcome.bind_ok]
  have h4 := tdiv_cases (1461 * I) 4 (by omega)
  generalize (1461 * I).tdiv 4 = C at *
  have b3 : -100000 ≤ C ∧ C ≤ 100000 := by omega
  clear h3 h4
  rw [hh (B - C) (by omega) (by omega), Outcome.bind_ok, hh (B - C + 31) (by omega) (by omega), Outcome.bind_ok]
  have b4 : -200000 ≤ B - C + 31 ∧ B - C + 31 ≤ 200000 := by omega
  generalize B - C + 31 = D at *
  rw [hh (80 * D) (by omega) (by omega), Outcome.bind_ok]
  have h5 := tdiv_cases (80 * D) 2447 (by omega)
  generalize (80 * D).tdiv 2447 = J at *
  have b5 : -10000 ≤ J ∧ J ≤ 10000 := by omega
  rw [hh (2447 * J) (by omega) (by omega), Outcome.bind_ok]
  have h6 := tdiv_cases (2447 * J) 80 (by omega)
  generalize (2447 * J).tdiv 80 = E at *
  have b6 : -400000 ≤ E ∧ E ≤ 400000 := by omega
  clear h5 h6
  rw [hh (D - E) (by omega) (by omega), Outcome.bind_ok]
  have h7 := tdiv_cases J 11 (by omega)
  generalize J.tdiv 11 = K at *
  have b7 : -1000 ≤ K ∧ K ≤ 1000 := by omega
  clear h7
  rw [hh (J + 2) (by omega) (by omega), Outcome.bind_ok, hh (12 * K) (by omega) (by omega), Outcome.bind_ok,
    hh (J + 2 - 12 * K) (by omega) (by omega), Outcome.bind_ok, hh (N - 49) (by omega) (by omega), Outcome.bind_ok,
    hh (100 * (N - 49)) (by omega) (by omega), Outcome.bind_ok, hh (100 * (N - 49) + I) (by omega) (by omega),
    Outcome.bind_ok, hh (100 * (N - 49) + I + K) (by omega) (by omega), Outcome.bind_ok]
  rfl

theorem mjd2dateM_ub {bits : Nat} {mjd : Int} (h : ¬ DayFits bits mjd) : mjd2dateM bits mjd = .ub := by
  unfold mjd2dateM
  by_cases h1 : Holds bits (mjd + 2400001)
  · rw [machine_ok h1, Outcome.bind_ok]
    by_cases h2 : Holds bits (mjd + 2400001 + 68569)
    · rw [machine_ok h2, Outcome.bind_ok]
      rw [machine_ub (x := 4 * (mjd + 2400001 + 68569))]
      · rfl
      · intro h3
        apply h
        unfold DayFits
        rwa [show mjd + 2468570 = mjd + 2400001 + 68569 from by omega]
    · rw [machine_ub h2]
      rfl
  · rw [machine_ub h1]
    rfl

/-- What `%<w>ld` stores is bounded by its width. -/
theorem digitsVal_lt (ds : CStr) (h : ∀ c ∈ ds, c.isDigit = true) : digitsVal ds < 10 ^ ds.length := by
  unfold digitsVal
  suffices ∀ (n : Nat), (∀ c ∈ ds, c.isDigit = true) →
      ds.foldl (fun n c => 10 * n + (c.toNat - 48)) n < (n + 1) * 10 ^ ds.length by
    simpa using this 0 h
  clear h
  induction ds with
  | nil => intro n _; simp
  | cons c cs ih =>
    intro n h
    have hc : c.toNat - 48 ≤ 9 := by
      have := h c (by simp)
      unfold Char.isDigit at this
      simp only [Bool.and_eq_true, decide_eq_true_eq] at this
      have h2 : c.val ≤ 57 := this.2
      have : c.toNat ≤ 57 := h2
      omega
    have := ih (10 * n + (c.toNat - 48)) fun c hc => h c (by simp [hc])
    refine lt_of_lt_of_le this ?_
    rw [List.length_cons, pow_succ, Nat.mul_comm (10 ^ cs.length) 10, ← Nat.mul_assoc]
    exact Nat.mul_le_mul_right _ (by omega)

theorem scanDigits_lt {w n : Nat} {s s' : CStr} (h : scanDigits w s = some (n, s')) : n < 10 ^ w := by
  unfold scanDigits at h
  dsimp only at h
  split at h
  · cases h
  · simp only [Option.some.injEq, Prod.mk.injEq] at h
    rw [← h.1]
    refine lt_of_lt_of_le (digitsVal_lt _ fun c hc => by
      have := List.all_takeWhile (p := Char.isDigit) (l := s.take w)
      exact List.all_eq_true.mp this c hc) ?_
    refine Nat.pow_le_pow_right (by omega) ?_
    exact (List.takeWhile_prefix _).length_le.trans (by simp)

theorem scanLong_bound {w : Nat} {s s' : CStr} {x : Int} (h : scanLong w s = some (x, s')) :
    -(10 ^ w : Nat) < x ∧ x < (10 ^ w : Nat) := by
  have mono : 10 ^ (w - 1) ≤ 10 ^ w := Nat.pow_le_pow_right (by omega) (by omega)
  unfold scanLong at h
  split at h <;> rw [Option.map_eq_some_iff] at h <;> obtain ⟨⟨n, t⟩, h1, h2⟩ := h <;>
    have := scanDigits_lt h1 <;> simp only [Prod.mk.injEq] at h2 <;> omega

theorem sscanfDate_bound {s : CStr} {d : Date} (h : sscanfDate s = some d) :
    (-1000000 ≤ d.month ∧ d.month ≤ 1000000) ∧ (-1000000 ≤ d.day ∧ d.day ≤ 1000000) := by
  unfold sscanfDate at h
  simp only [Option.bind_eq_bind, Option.bind_eq_some_iff] at h
  obtain ⟨⟨y, s1⟩, -, s2, -, ⟨m, s3⟩, hm, s4, -, ⟨d', s5⟩, hd, h⟩ := h
  cases h
  have := scanLong_bound hm
  have := scanLong_bound hd
  dsimp only
  omega

theorem minMjdStepM_eq {bits : Nat} (hb : 32 ≤ bits) (m : Int) (oi : OiFits R) :
    minMjdStepM bits m oi = minMjdStep m oi := by
  unfold minMjdStepM minMjdStep
  cases h : sscanfDate oi.header.date_obs with
  | none => rfl
  | some d =>
    dsimp only
    rw [date2mjdM_eq hb (sscanfDate_bound h).1 (sscanfDate_bound h).2]

theorem files_min_mjdM_eq {bits : Nat} (hb : 32 ≤ bits) (l : List (OiFits R)) :
    files_min_mjdM bits l = files_min_mjd l := by
  unfold files_min_mjdM files_min_mjd
  congr 1
  funext m oi
  exact minMjdStepM_eq hb m oi

theorem date2mjd_bound {y m d x : Int} (hm : -1000000 ≤ m ∧ m ≤ 1000000)
    (hd : -1000000 ≤ d ∧ d ≤ 1000000) (h : date2mjd y m d = .ok x) : -100000000 ≤ x := by
  unfold date2mjd at h
  split at h
  · cases h
    have h1 := tdiv_cases (m + 9) 12 (by omega)
    generalize hq1 : (m + 9).tdiv 12 = q1 at *
    have h2 := tdiv_cases (7 * (y + q1)) 4 (by omega)
    generalize hq2 : (7 * (y + q1)).tdiv 4 = q2 at *
    have h3 := tdiv_cases (275 * m) 9 (by omega)
    generalize hq3 : (275 * m).tdiv 9 = q3 at *
    omega
  · cases h

theorem files_min_mjd_bound {l : List (OiFits R)} {x : Int} (h : files_min_mjd l = .ok x) :
    -100000000 ≤ x ∧ x ≤ 100000 := by
  unfold files_min_mjd at h
  suffices ∀ (l : List (OiFits R)) (m : Int), -100000000 ≤ m ∧ m ≤ 100000 → l.foldlM minMjdStep m = .ok x →
      -100000000 ≤ x ∧ x ≤ 100000 from this l 100000 (by omega) h
  intro l
  induction l with
  | nil => intro m hm h; cases h; exact hm
  | cons oi l ih =>
    intro m hm h
    rw [List.foldlM_cons, Outcome.bind_eq_ok] at h
    obtain ⟨m', h1, h2⟩ := h
    refine ih m' ?_ h2
    unfold minMjdStep at h1
    split at h1
    · cases h1; exact hm
    · rename_i d hd
      rw [Outcome.bind_eq_ok] at h1
      obtain ⟨k, h3, h4⟩ := h1
      have := date2mjd_bound (sscanfDate_bound hd).1 (sscanfDate_bound hd).2 h3
      split at h4 <;> cases h4 <;> omega

theorem dayFits_of {bits : Nat} (hb : 32 ≤ bits) {x : Int} (h1 : -500000000 ≤ x) (h2 : x ≤ 500000000) :
    DayFits bits x := by
  obtain ⟨Q, hQ, he⟩ := exists_quarter hb
  exact holds_of he (by omega) (by omega)

theorem merge_oi_headerM_eq {bits : Nat} (hb : 32 ≤ bits) (l : List (OiFits R)) (out : OiFits R) :
    merge_oi_headerM bits l out = merge_oi_header l out := by
  unfold merge_oi_headerM merge_oi_header
  rw [files_min_mjdM_eq hb]
  congr 1
  funext _
  cases h : files_min_mjd l with
  | ok x =>
    have := files_min_mjd_bound h
    rw [Outcome.bind_ok, mjd2dateM_ok hb (dayFits_of hb (by omega) (by omega))]
    rfl
  | abort => rfl
  | ub => rfl

theorem set_oi_headerM_eq {bits : Nat} (hb : 32 ≤ bits) {oi : OiFits R}
    (h : DayFits bits (R.floor (get_min_mjd oi))) : set_oi_headerM bits oi = set_oi_header oi := by
  unfold set_oi_headerM set_oi_header
  congr 1
  funext _
  congr 1
  funext _
  have : Holds bits (R.floor (get_min_mjd oi)) := by
    obtain ⟨Q, hQ, he⟩ := exists_quarter hb
    unfold DayFits Holds at h
    rw [he] at h
    exact holds_of he (by omega) (by omega)
  rw [machine_ok this, Outcome.bind_ok, mjd2dateM_ok hb h]
  rfl

theorem set_oi_headerM_ub {bits : Nat} {oi oi' : OiFits R} (hs : set_oi_header oi = .ok oi')
    (h : ¬ DayFits bits (R.floor (get_min_mjd oi))) : set_oi_headerM bits oi = .ub := by
  unfold set_oi_header at hs
  rw [Outcome.bind_eq_ok] at hs
  obtain ⟨t, h1, hs⟩ := hs
  rw [Outcome.bind_eq_ok] at hs
  obtain ⟨i, h2, -⟩ := hs
  unfold set_oi_headerM
  rw [h1, Outcome.bind_ok, h2, Outcome.bind_ok]
  by_cases hm : Holds bits (R.floor (get_min_mjd oi))
  · rw [machine_ok hm, Outcome.bind_ok, mjd2dateM_ub h]
    rfl
  · rw [machine_ub hm]
    rfl

/-- The body of `read_oi_fits`, with any last step. -/
def readBodyWith (fin : OiFits R → Outcome (OiFits R)) (u : Undef R) : FitsM R (Option (OiFits R)) := do
  let header ← read_oi_header u.header
  let targets ← read_oi_target u u.target
  guardStatus none do
    let arrayList ← readTables false (read_next_oi_array u u.array)
    guardStatus none do
      let wavelengthList ← readTables false (read_next_oi_wavelength u u.wave)
      guardStatus none do
        let corrList ← readTables true (read_next_oi_corr u u.corr)
        let inspolList ← readTables true (read_next_oi_inspol u u.inspol)
        let visList ← readTables true (read_next_oi_vis u u.vis)
        let vis2List ← readTables true (read_next_oi_vis2 u u.vis2)
        let t3List ← readTables true (read_next_oi_t3 u u.t3)
        let fluxList ← readTables true (read_next_oi_flux u u.flux)
        let oi ← FitsM.lift (fin (assemble header targets arrayList wavelengthList
          corrList inspolList visList vis2List t3List fluxList))
        return some oi

/-- The last step, for a dataset or an error. -/
def lastOf (fin : OiFits R → Outcome (OiFits R)) : Option (OiFits R) → FitsM R (Option (OiFits R))
  | none => pure none
  | some oi => do
    let oi ← FitsM.lift (fin oi)
    return some oi

theorem guardStatus_bind_none {m : FitsM R (Option (OiFits R))} {fin : OiFits R → Outcome (OiFits R)} :
    (guardStatus none m >>= lastOf fin) = guardStatus none (m >>= lastOf fin) := by
  funext s
  by_cases h : s.status = .ok
  · have h1 : guardStatus none m s = m s := if_pos h
    have h2 : guardStatus none (m >>= lastOf fin) s = (m >>= lastOf fin) s := if_pos h
    rw [h2]
    cases h3 : m s with
    | ok x => rw [FitsM.bind_ok (h1.trans h3), FitsM.bind_ok h3]
    | abort => rw [bind_abort (h1.trans h3), bind_abort h3]
    | ub => rw [bind_ub (h1.trans h3), bind_ub h3]
  · have h1 : guardStatus none m s = .ok (none, s) := if_neg h
    have h2 : guardStatus none (m >>= lastOf fin) s = .ok (none, s) := if_neg h
    rw [h2, FitsM.bind_ok h1]
    rfl

theorem readBodyWith_eq (fin : OiFits R → Outcome (OiFits R)) (u : Undef R) :
    readBodyWith fin u = readBodyWith .ok u >>= lastOf fin := by
  unfold readBodyWith
  simp only [bind_assoc, guardStatus_bind_none]
  rfl

/-- What reading gives, whatever the last step is. -/
theorem readBodyWith_cases (u : Undef R) (hdus : List (Hdu R)) :
    (∃ oi s, ∀ fin : OiFits R → Outcome (OiFits R), readBodyWith fin u ⟨hdus, 0, .ok⟩ =
      fin oi >>= fun oi => .ok (some oi, s)) ∨
    (∀ fin fin' : OiFits R → Outcome (OiFits R), readBodyWith fin u ⟨hdus, 0, .ok⟩ = readBodyWith fin' u ⟨hdus, 0, .ok⟩ ∧
      ∀ oi s, readBodyWith fin u ⟨hdus, 0, .ok⟩ ≠ .ok (some oi, s)) := by
  cases h : readBodyWith (R := R) .ok u ⟨hdus, 0, .ok⟩ with
  | ok x =>
    obtain ⟨o, s⟩ := x
    cases o with
    | none =>
      right
      intro fin fin'
      rw [readBodyWith_eq fin, readBodyWith_eq fin', FitsM.bind_ok h, FitsM.bind_ok h]
      exact ⟨rfl, by rintro oi s' ⟨⟩⟩
    | some oi =>
      left
      refine ⟨oi, s, fun fin => ?_⟩
      rw [readBodyWith_eq fin, FitsM.bind_ok h]
      show (FitsM.lift (fin oi) >>= fun oi => pure (some oi)) s = _
      cases h : fin oi <;> rfl
  | abort =>
    right
    intro fin fin'
    have e : ∀ f, readBodyWith f u ⟨hdus, 0, .ok⟩ = .abort := fun f => by
      rw [readBodyWith_eq f]
      exact bind_abort h
    rw [e, e]
    exact ⟨rfl, by rintro oi s' ⟨⟩⟩
  | ub =>
    right
    intro fin fin'
    have e : ∀ f, readBodyWith f u ⟨hdus, 0, .ok⟩ = .ub := fun f => by
      rw [readBodyWith_eq f]
      exact bind_ub h
    rw [e, e]
    exact ⟨rfl, by rintro oi s' ⟨⟩⟩

theorem get_min_mjd_header (oi : OiFits R) (h : OiHeader) : get_min_mjd { oi with header := h } = get_min_mjd oi := rfl

theorem set_oi_header_min {oi oi' : OiFits R} (h : set_oi_header oi = .ok oi') :
    get_min_mjd oi' = get_min_mjd oi ∧ oi'.header.content = oi.header.content := by
  unfold set_oi_header at h
  rw [Outcome.bind_eq_ok] at h
  obtain ⟨t, h1, h⟩ := h
  rw [Outcome.bind_eq_ok] at h
  obtain ⟨i, h2, h⟩ := h
  have := Outcome.ok.inj h
  rw [← this]
  exact ⟨rfl, rfl⟩

end Verif
