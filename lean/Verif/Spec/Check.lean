import Verif.Model.Check
import Verif.Spec.WF

/-! Specification of the conformity checks: which breaches each check should
report. Only data types are taken from the model of oicheck.c. -/

namespace Verif.Spec
variable {R : FP}

/-- A breach of the standard, as reported. -/
structure Breach where
  level : Level
  description : CStr
  location : CStr
deriving DecidableEq

/-- What a check result must contain after the breaches `bs` were found, in that
order: the worst level, the number of breaches, their description, the locations
of the first nine, and a marker in the tenth place if there are ten or more. -/
structure Reports (r : CheckResult) (bs : List Breach) : Prop where
  atLeast : ∀ b ∈ bs, b.level.toNat ≤ r.level.toNat
  attained : r.level = .none ∨ ∃ b ∈ bs, b.level = r.level
  numBreach : r.numBreach = bs.length
  description : r.description = bs.head?.map (·.description)
  stored : ∀ i < 9, r.location[i]? = some (bs[i]?.map (·.location))
  marker : r.location[9]? = some (if 10 ≤ bs.length then some ("[List truncated]" : CStr) else none)
  size : r.location.length = 10

/-- All breaches have the same description. -/
def SameDescription (bs : List Breach) : Prop :=
  ∀ b ∈ bs, ∀ c ∈ bs, b.description = c.description

/-- Decimal digits. -/
def dec (n : Nat) : CStr := Nat.toDigits 10 n

/-- A location text is cut to 70 characters, the length of a FITS value. -/
def shown (s : CStr) : CStr := s.take 70

/-- The location `NAME #k`. -/
def atTable (name : CStr) (k : Nat) : CStr := name ++ (" #" : CStr) ++ dec k

/-- The location `NAME #k record i`. -/
def atRecord (name : CStr) (k i : Nat) : CStr := atTable name k ++ (" record " : CStr) ++ dec i

/-- The location `NAME #k record i channel j`. -/
def atChannel (name : CStr) (k i j : Nat) : CStr :=
  atRecord name k i ++ (" channel " : CStr) ++ dec j

/-- All that `f` yields for the entries of `l`, which are numbered from 1. -/
def numbered {α : Type} (f : Nat → α → List Breach) (l : List α) : List Breach :=
  (l.zipIdx 1).flatMap fun e => f e.2 e.1

/-- One breach if `p` holds. -/
def breachIf (p : Prop) [Decidable p] (level : Level) (description location : CStr) :
    List Breach :=
  if p then [⟨level, description, shown location⟩] else []

/-! ### Targets -/

/-- A target with this id is listed in OI_TARGET. -/
def TargetKnown (oi : OiFits R) (id : Int) : Prop := ∃ t ∈ oi.targets.targ, t.target_id = id

instance (oi : OiFits R) (id : Int) : Decidable (TargetKnown oi id) := by
  unfold TargetKnown; infer_instance

/-- One breach for each record of the table whose target is not known. -/
def unknownTargets {ρ : Type} (oi : OiFits R) (name : CStr) (id : ρ → Int) (k : Nat)
    (recs : List ρ) : List Breach :=
  numbered (fun i r => breachIf (¬ TargetKnown oi (id r)) .notOifits
    "Reference to missing target record" (atRecord name k i)) recs

/-- The breaches `check_targets_present` should report. -/
def targetBreaches (oi : OiFits R) : List Breach :=
  numbered (fun k t => unknownTargets oi "OI_VIS" (·.target_id) k t.record) oi.visList ++
  numbered (fun k t => unknownTargets oi "OI_VIS2" (·.target_id) k t.record) oi.vis2List ++
  numbered (fun k t => unknownTargets oi "OI_T3" (·.target_id) k t.record) oi.t3List ++
  numbered (fun k t => unknownTargets oi "OI_FLUX" (·.target_id) k t.record) oi.fluxList

/-- The records of `l` whose name occurs in `seen` or earlier in the list. -/
def repeats (seen : List CStr) : List (Target R) → List (Target R)
  | [] => []
  | t :: l => (if t.target ∈ seen then [t] else []) ++ repeats (seen ++ [t.target]) l

/-- The breaches `check_unique_targets` should report. -/
def uniqueBreaches (oi : OiFits R) : List Breach :=
  (repeats [] oi.targets.targ).map fun t =>
    ⟨.warning, "Duplicate value in TARGET column of OI_TARGET",
      shown (("TARGET_ID=" : CStr) ++ fmtInt t.target_id ++ ("  TARGET='" : CStr) ++ t.target ++
        ("'" : CStr))⟩

/-! ### Array names and elements -/

/-- One breach for each table without ARRNAME. -/
def namelessTables {τ : Type} (name : CStr) (required : τ → Prop) [DecidablePred required]
    (arrname : τ → CStr) (tabs : List τ) : List Breach :=
  numbered (fun k t => breachIf (required t ∧ arrname t = []) .notOifits
    "ARRNAME missing" (atTable name k)) tabs

/-- Version 2 of the standard applies. -/
def V2 (oi : OiFits R) : Prop := oi.header.content = ("OIFITS2" : CStr)

instance (oi : OiFits R) : Decidable (V2 oi) := by unfold V2; infer_instance

/-- The breaches `check_arrname` should report, but for the table number of OI_INSPOL
tables, which is given by `inspolPos` for the actual number. -/
def arrnameBreaches (inspolPos : Nat → Nat) (oi : OiFits R) : List Breach :=
  if V2 oi then
    numbered (fun k (t : OiInspol R) => breachIf (t.arrname = []) .notOifits
      "ARRNAME missing" (atTable "OI_INSPOL" (inspolPos k))) oi.inspolList ++
    namelessTables "OI_VIS" (fun _ => True) (·.arrname) oi.visList ++
    namelessTables "OI_VIS2" (fun _ => True) (·.arrname) oi.vis2List ++
    namelessTables "OI_T3" (fun _ => True) (·.arrname) oi.t3List ++
    namelessTables "OI_FLUX" (fun t => t.calstat = 'U') (·.arrname) oi.fluxList
  else []

/-- The array that `arrname` denotes (by hash table look-up) has a station of that index. -/
def ElementKnown (oi : OiFits R) (arrname : CStr) (sta : Int) : Prop :=
  ∃ a, oi.arrayHash.lookup arrname = some a ∧ ∃ e ∈ a.elem, e.sta_index = sta

instance (oi : OiFits R) (arrname : CStr) (sta : Int) : Decidable (ElementKnown oi arrname sta) := by
  unfold ElementKnown
  cases h : oi.arrayHash.lookup arrname with
  | none => exact isFalse (by simp)
  | some a =>
    exact decidable_of_iff (∃ e ∈ a.elem, e.sta_index = sta) (by simp)

/-- One breach for each station index in the records of a table with ARRNAME which
denotes no station. -/
def unknownElements {ρ : Type} (oi : OiFits R) (name arrname : CStr) (stations : ρ → List Int)
    (k : Nat) (recs : List ρ) : List Breach :=
  if arrname = [] then []
  else numbered (fun i r => (stations r).flatMap fun sta =>
    breachIf (¬ ElementKnown oi arrname sta) .notOifits
      "Reference to missing array element" (atRecord name k i)) recs

/-- The breaches `check_elements_present` should report in OI_INSPOL tables. -/
def inspolElementBreaches (oi : OiFits R) : List Breach :=
  numbered (fun k t => unknownElements oi "OI_INSPOL" t.arrname (fun r => [r.sta_index]) k t.record)
    oi.inspolList

/-- The breaches `check_elements_present` should report in other tables. A
STA_INDEX of -1 in OI_FLUX means that there is none. -/
def dataElementBreaches (oi : OiFits R) : List Breach :=
  numbered (fun k t => unknownElements oi "OI_VIS" t.arrname
    (fun r => [r.sta_index.1, r.sta_index.2]) k t.record) oi.visList ++
  numbered (fun k t => unknownElements oi "OI_VIS2" t.arrname
    (fun r => [r.sta_index.1, r.sta_index.2]) k t.record) oi.vis2List ++
  numbered (fun k t => unknownElements oi "OI_T3" t.arrname
    (fun r => [r.sta_index.1, r.sta_index.2.1, r.sta_index.2.2]) k t.record) oi.t3List ++
  numbered (fun k t => unknownElements oi "OI_FLUX" t.arrname
    (fun r => if r.sta_index = -1 then [] else [r.sta_index]) k t.record) oi.fluxList

/-! ### Correlations -/

/-- One breach for each table with a CORRNAME which denotes no OI_CORR table. -/
def unknownCorrs {τ : Type} (oi : OiFits R) (name : CStr) (corrname : τ → CStr) (tabs : List τ) :
    List Breach :=
  numbered (fun k t => breachIf (corrname t ≠ [] ∧ oi.corrHash.lookup (corrname t) = none)
    .notOifits "Reference to missing OI_CORR table" (atTable name k)) tabs

/-- The breaches `check_corr_present` should report. -/
def corrBreaches (oi : OiFits R) : List Breach :=
  unknownCorrs oi "OI_VIS" (·.corrname) oi.visList ++
  unknownCorrs oi "OI_VIS2" (·.corrname) oi.vis2List ++
  unknownCorrs oi "OI_T3" (·.corrname) oi.t3List ++
  unknownCorrs oi "OI_FLUX" (·.corrname) oi.fluxList

/-! ### Tables and revisions -/

/-- One breach for each table with a revision number other than `rev`. -/
def badRevisions {τ : Type} (name : CStr) (revision : τ → Int) (rev : Int) (tabs : List τ) :
    List Breach :=
  numbered (fun k t => breachIf (revision t ≠ rev) .notOifits "Invalid OI_REVN"
    (atTable name k)) tabs

/-- The missing mandatory tables. -/
def missingTables (oi : OiFits R) : List Breach :=
  let desc : CStr := "Mandatory table missing"
  if V2 oi then
    breachIf (oi.arrayList = []) .notOifits desc "No OI_ARRAY table - at least one required" ++
    breachIf (oi.wavelengthList = []) .notOifits desc
      "No OI_WAVELENGTH table - at least one required" ++
    breachIf (oi.visList = [] ∧ oi.vis2List = [] ∧ oi.t3List = [] ∧ oi.fluxList = [])
      .notOifits desc "No data table - at least one OI_VIS/VIS2/T3/FLUX required"
  else
    breachIf (oi.wavelengthList = []) .notOifits desc
      "No OI_WAVELENGTH table - at least one required" ++
    breachIf (oi.visList = [] ∧ oi.vis2List = [] ∧ oi.t3List = [])
      .notOifits desc "No data table - at least one OI_VIS/VIS2/T3 required"

/-- The tables whose revision number is not that of the standard's version:
2 for tables which version 1 of the standard had too and 1 for OI_FLUX, OI_CORR
and OI_INSPOL in version 2; 1 in version 1. -/
def revisionBreaches (oi : OiFits R) : List Breach :=
  if V2 oi then
    breachIf (oi.targets.revision ≠ 2) .notOifits "Invalid OI_REVN" "OI_TARGET" ++
    badRevisions "OI_ARRAY" (·.revision) 2 oi.arrayList ++
    badRevisions "OI_WAVELENGTH" (·.revision) 2 oi.wavelengthList ++
    badRevisions "OI_VIS" (·.revision) 2 oi.visList ++
    badRevisions "OI_VIS2" (·.revision) 2 oi.vis2List ++
    badRevisions "OI_T3" (·.revision) 2 oi.t3List ++
    badRevisions "OI_FLUX" (·.revision) 1 oi.fluxList ++
    badRevisions "OI_CORR" (·.revision) 1 oi.corrList ++
    badRevisions "OI_INSPOL" (·.revision) 1 oi.inspolList
  else
    breachIf (oi.targets.revision ≠ 1) .notOifits "Invalid OI_REVN" "OI_TARGET" ++
    badRevisions "OI_ARRAY" (·.revision) 1 oi.arrayList ++
    badRevisions "OI_WAVELENGTH" (·.revision) 1 oi.wavelengthList ++
    badRevisions "OI_VIS" (·.revision) 1 oi.visList ++
    badRevisions "OI_VIS2" (·.revision) 1 oi.vis2List ++
    badRevisions "OI_T3" (·.revision) 1 oi.t3List

/-- The mandatory tables are there. -/
def TablesPresent (oi : OiFits R) : Prop :=
  (V2 oi → oi.arrayList ≠ []) ∧ oi.wavelengthList ≠ [] ∧
  (oi.visList ≠ [] ∨ oi.vis2List ≠ [] ∨ oi.t3List ≠ [] ∨ (V2 oi ∧ oi.fluxList ≠ []))

/-- All tables have the revision number of the standard's version. -/
def RevisionsRight (oi : OiFits R) : Prop :=
  (V2 oi → oi.targets.revision = 2 ∧ (∀ t ∈ oi.arrayList, t.revision = 2) ∧
    (∀ t ∈ oi.wavelengthList, t.revision = 2) ∧ (∀ t ∈ oi.visList, t.revision = 2) ∧
    (∀ t ∈ oi.vis2List, t.revision = 2) ∧ (∀ t ∈ oi.t3List, t.revision = 2) ∧
    (∀ t ∈ oi.fluxList, t.revision = 1) ∧ (∀ t ∈ oi.corrList, t.revision = 1) ∧
    (∀ t ∈ oi.inspolList, t.revision = 1)) ∧
  (¬ V2 oi → oi.targets.revision = 1 ∧ (∀ t ∈ oi.arrayList, t.revision = 1) ∧
    (∀ t ∈ oi.wavelengthList, t.revision = 1) ∧ (∀ t ∈ oi.visList, t.revision = 1) ∧
    (∀ t ∈ oi.vis2List, t.revision = 1) ∧ (∀ t ∈ oi.t3List, t.revision = 1))

/-! ### Keywords -/

/-- A breach if the primary header keyword `key` has no value. -/
def missingKey (value key : CStr) : List Breach :=
  breachIf (value = []) .notOifits "Invalid/missing primary header keyword value"
    (key ++ (" value missing from primary header" : CStr))

/-- The breaches `check_header` should report: the mandatory keywords of version 2
without a value. (CONTENT has one, as it identifies the version.) -/
def headerBreaches (oi : OiFits R) : List Breach :=
  if V2 oi then
    missingKey oi.header.origin "ORIGIN" ++ missingKey oi.header.date "DATE" ++
    missingKey oi.header.date_obs "DATE-OBS" ++ missingKey oi.header.telescop "TELESCOP" ++
    missingKey oi.header.instrume "INSTRUME" ++ missingKey oi.header.observer "OBSERVER" ++
    missingKey oi.header.insmode "INSMODE" ++ missingKey oi.header.object "OBJECT"
  else []

/-- The allowed values of FRAME. -/
def frames : List CStr := ["GEOCENTRIC", "SKY"].map String.toList
/-- The allowed values of AMPTYP (empty: absent). -/
def amptyps : List CStr := ["", "absolute", "differential", "correlated flux"].map String.toList
/-- The allowed values of PHITYP (empty: absent). -/
def phityps : List CStr := ["", "absolute", "differential"].map String.toList
/-- The allowed values of FOVTYPE (empty: absent). -/
def fovtypes : List CStr := ["", "FWHM", "RADIUS"].map String.toList

/-- The breaches `check_keywords` should report. -/
def keywordBreaches (oi : OiFits R) : List Breach :=
  let desc : CStr := "Invalid keyword value"
  numbered (fun k t => breachIf (t.frame ∉ frames) .notOifits desc
    (atTable "OI_ARRAY" k ++ (" FRAME='" : CStr) ++ t.frame ++
      ("' ('GEOCENTRIC'/'SKY')" : CStr))) oi.arrayList ++
  numbered (fun k t =>
    breachIf (V2 oi ∧ t.amptyp ∉ amptyps) .notOifits desc
      (atTable "OI_VIS" k ++ (" AMPTYP='" : CStr) ++ t.amptyp ++
        ("' ('absolute'/'differential'/'correlated flux')" : CStr)) ++
    breachIf (V2 oi ∧ t.phityp ∉ phityps) .notOifits desc
      (atTable "OI_VIS" k ++ (" PHITYP='" : CStr) ++ t.phityp ++
        ("' ('absolute'/'differential')" : CStr))) oi.visList ++
  numbered (fun k t =>
    breachIf (t.calstat ∉ ['C', 'U']) .notOifits desc
      (atTable "OI_FLUX" k ++ (" CALSTAT='" : CStr) ++
        (if t.calstat = '\x00' then [] else t.calstat :: ("' ('C'/'U')" : CStr))) ++
    breachIf (t.fovtype ∉ fovtypes) .notOifits desc
      (atTable "OI_FLUX" k ++ (" FOVTYPE='" : CStr) ++ t.fovtype ++
        ("' ('FWHM', 'RADIUS')" : CStr))) oi.fluxList

/-- The amplitudes or phases of the table are differential. -/
def Differential (t : OiVis R) : Prop :=
  t.amptyp = ("differential" : CStr) ∨ t.phityp = ("differential" : CStr)

instance (t : OiVis R) : Decidable (Differential t) := by unfold Differential; infer_instance

/-- The breaches `check_visrefmap` should report. -/
def visrefmapBreaches (oi : OiFits R) : List Breach :=
  let desc : CStr := "VISREFMAP present (missing) for absolute (differential) vis"
  numbered (fun k t =>
    let types := atTable "OI_VIS" k ++ (" AMPTYP='" : CStr) ++ t.amptyp ++
      ("' PHITYP='" : CStr) ++ t.phityp
    breachIf (Differential t ∧ t.usevisrefmap = false) .notOifits desc
      (types ++ ("' has no VISREFMAP" : CStr)) ++
    breachIf (¬ Differential t ∧ t.usevisrefmap = true) .warning desc
      (types ++ ("' has VISREFMAP" : CStr))) oi.visList

/-! ### Data -/

/-- Entry `j` of `a` exists and satisfies `p`. -/
def Has {α : Type} (a : List α) (j : Nat) (p : α → Bool) : Prop := (a[j]?.any p) = true

instance {α : Type} (a : List α) (j : Nat) (p : α → Bool) : Decidable (Has a j p) := by
  unfold Has; infer_instance

/-- Datum `j` is not flagged. -/
def Unflagged (flag : List Bool) (j : Nat) : Prop := flag[j]? = some false

instance (flag : List Bool) (j : Nat) : Decidable (Unflagged flag j) := by
  unfold Unflagged; infer_instance

/-- The value is less than zero. -/
def neg (x : R.Dbl) : Bool := R.lt x (R.lit 0)

/-- One breach for each channel `j < n` of each record with property `bad`. -/
def badChannels {ρ : Type} (desc name : CStr) (n k : Nat) (bad : ρ → Nat → Prop)
    [∀ r j, Decidable (bad r j)] (recs : List ρ) : List Breach :=
  numbered (fun i r => (List.range n).flatMap fun j =>
    breachIf (bad r j) .notOifits desc (atChannel name k i (j + 1))) recs

/-- An unflagged OI_VIS datum has a negative error. -/
def visNegError (r : OiVisRecord R) (j : Nat) : Prop :=
  Unflagged r.flag j ∧ (Has r.visamperr j neg ∨ Has r.visphierr j neg)

/-- An unflagged OI_VIS2 datum has a negative error. -/
def vis2NegError (r : OiVis2Record R) (j : Nat) : Prop :=
  Unflagged r.flag j ∧ Has r.vis2err j neg

/-- An unflagged OI_T3 datum has a negative error. -/
def t3NegError (r : OiT3Record R) (j : Nat) : Prop :=
  Unflagged r.flag j ∧ (Has r.t3amperr j neg ∨ Has r.t3phierr j neg)

instance (r : OiVisRecord R) (j : Nat) : Decidable (visNegError r j) := by
  unfold visNegError; infer_instance
instance (r : OiVis2Record R) (j : Nat) : Decidable (vis2NegError r j) := by
  unfold vis2NegError; infer_instance
instance (r : OiT3Record R) (j : Nat) : Decidable (t3NegError r j) := by
  unfold t3NegError; infer_instance

/-- The breaches `check_flagging` should report. -/
def flaggingBreaches (oi : OiFits R) : List Breach :=
  let desc : CStr := "Data table contains negative error bar"
  numbered (fun k t => badChannels desc "OI_VIS" t.nwave k visNegError t.record) oi.visList ++
  numbered (fun k t => badChannels desc "OI_VIS2" t.nwave k vis2NegError t.record) oi.vis2List ++
  numbered (fun k t => badChannels desc "OI_T3" t.nwave k t3NegError t.record) oi.t3List

/-- An unflagged triple product amplitude exceeds 1 by more than its error. -/
def t3Unnormalised (r : OiT3Record R) (j : Nat) : Prop :=
  Unflagged r.flag j ∧ Has r.t3amp j fun a =>
    r.t3amperr[j]?.any fun e => R.lt (R.mul (R.lit 1) e) (R.sub a (R.lit 1))

instance (r : OiT3Record R) (j : Nat) : Decidable (t3Unnormalised r j) := by
  unfold t3Unnormalised; infer_instance

/-- The breaches `check_t3amp` should report. -/
def t3ampBreaches (oi : OiFits R) : List Breach :=
  numbered (fun k t => badChannels "OI_T3 table may contain unnormalised triple product amplitude"
    "OI_T3" t.nwave k t3Unnormalised t.record) oi.t3List

/-- Channel `i + 1` of `w` has a shorter wavelength than channel `i` (from 0). -/
def Inverted (w : OiWavelength R) (i : Nat) : Prop :=
  Has w.eff_wave i fun x => w.eff_wave[i + 1]?.any fun y => R.lt (R.toD y) (R.toD x)

instance (w : OiWavelength R) (i : Nat) : Decidable (Inverted w i) := by
  unfold Inverted; infer_instance

/-- The wavelengths never decrease from one channel to the next. -/
def Ascending (w : OiWavelength R) : Prop := ∀ i, ¬ Inverted w i

/-- The breaches `check_waveorder` reports: channels, from the second, which have
a shorter wavelength than the one before or a longer one than the next. -/
def waveorderBreaches (oi : OiFits R) : List Breach :=
  oi.wavelengthList.flatMap fun w => (List.range (w.nwave - 1)).flatMap fun i =>
    breachIf (Inverted w i ∨ Inverted w (i + 1)) .warning
      "OI_WAVELENGTH has wavelengths not in ascending order"
      (("OI_WAVELENGTH INSNAME=" : CStr) ++ w.insname ++ (" channel " : CStr) ++ dec (i + 2))

/-- The magnitude exceeds 1e-10. -/
def NonZeroTime (x : R.Dbl) : Prop := R.lt (R.lit 1e-10) (R.abs x) = true

instance (x : R.Dbl) : Decidable (NonZeroTime x) := by unfold NonZeroTime; infer_instance

/-- One breach for each record of non-zero TIME. -/
def nonZeroTimes {ρ : Type} (name : CStr) (time : ρ → R.Dbl) (k : Nat) (recs : List ρ) :
    List Breach :=
  numbered (fun i r => breachIf (NonZeroTime (time r)) .warning
    "Non-zero TIME values in OIFITS v2 data table" (atRecord name k i)) recs

/-- The breaches `check_time` should report. -/
def timeBreaches (oi : OiFits R) : List Breach :=
  if V2 oi then
    numbered (fun k t => nonZeroTimes "OI_VIS" (·.time) k t.record) oi.visList ++
    numbered (fun k t => nonZeroTimes "OI_VIS2" (·.time) k t.record) oi.vis2List ++
    numbered (fun k t => nonZeroTimes "OI_T3" (·.time) k t.record) oi.t3List
  else []

/-- The first record has a STA_INDEX (not -1). -/
def HasStation (t : OiFlux R) : Prop := ∃ r, t.record[0]? = some r ∧ r.sta_index ≠ -1

instance (t : OiFlux R) : Decidable (HasStation t) := by
  unfold HasStation
  cases h : t.record[0]? with
  | none => exact isFalse (by simp)
  | some r => exact decidable_of_iff (r.sta_index ≠ -1) (by simp)

/-- The breaches `check_flux` should report. -/
def fluxBreaches (oi : OiFits R) : List Breach :=
  let desc : CStr := "ARRNAME/STA_INDEX/FOVTYPE present (missing) in (un)calibrated fluxes"
  numbered (fun k t =>
    breachIf (t.calstat = 'C' ∧ t.arrname ≠ []) .notOifits desc
      (atTable "OI_FLUX" k ++ (" Calibrated but ARRNAME='" : CStr) ++ t.arrname ++ ("'" : CStr)) ++
    breachIf (t.calstat = 'C' ∧ HasStation t) .notOifits desc
      (atTable "OI_FLUX" k ++ (" Calibrated but STA_INDEX present" : CStr)) ++
    breachIf (t.calstat = 'U' ∧ t.arrname = []) .notOifits desc
      (atTable "OI_FLUX" k ++ (" Uncalibrated but ARRNAME missing" : CStr)) ++
    breachIf (t.calstat = 'U' ∧ ¬ HasStation t) .notOifits desc
      (atTable "OI_FLUX" k ++ (" Uncalibrated but STA_INDEX missing" : CStr)) ++
    breachIf (t.calstat = 'U' ∧ t.fovtype ≠ []) .notOifits desc
      (atTable "OI_FLUX" k ++ (" Uncalibrated but FOVTYPE present" : CStr))) oi.fluxList

end Verif.Spec
