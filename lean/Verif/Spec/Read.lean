import Verif.Model.Read

/-! Vocabulary for stating what reading a file does. -/

namespace Verif
namespace Spec
variable {R : FP} {α : Type}

/-- The HDU is a binary table with the given EXTNAME. -/
def isTable (name : CStr) (h : Hdu R) : Bool :=
  match h.type, h.keys.lookup ("EXTNAME" : CStr) with
  | .binary, some (.str s) => s == name
  | _, _ => false

/-- EXTNAME is a string, as FITS demands, or absent. -/
def StringName (h : Hdu R) : Prop :=
  ∀ v, h.keys.lookup ("EXTNAME" : CStr) = some v → ∃ s, v = .str s

/-- Positions, counted from 0, of the extensions which are tables of the given EXTNAME,
in file order. Position 0 is the primary HDU. -/
def positions (name : CStr) (hdus : List (Hdu R)) : List Nat :=
  (List.range hdus.length).filter fun i => 0 < i && (hdus[i]?).any (isTable name)

/-- Calling `read` again and again, clearing errors other than END_OF_FILE, makes the HDUs
at the given positions current, one after the other, and then ends with END_OF_FILE. -/
inductive Visits (read : FitsM R α) : FState R → List Nat → Prop where
  | done {s s' : FState R} {a : α} (h : read s = .ok (a, s')) (hst : s'.status = .END_OF_FILE) :
      Visits read s []
  | next {s s' : FState R} {a : α} {l : List Nat} (h : read s = .ok (a, s'))
      (hst : s'.status ≠ .END_OF_FILE) (hl : Visits read { s' with status := .ok } l) :
      Visits read s (s'.cur :: l)

/-- Calling `read` again and again returns the given tables, in this order, and then ends
with END_OF_FILE. With `skip`, calls which end with another error are passed over. -/
inductive Collects (skip : Bool) (read : FitsM R α) : FState R → List α → Prop where
  | done {s s' : FState R} {a : α} (h : read s = .ok (a, s')) (hst : s'.status = .END_OF_FILE) :
      Collects skip read s []
  | next {s s' : FState R} {a : α} {l : List α} (h : read s = .ok (a, s')) (hst : s'.status = .ok)
      (hl : Collects skip read s' l) : Collects skip read s (a :: l)
  | skip {s s' : FState R} {a : α} {l : List α} (hs : skip = true) (h : read s = .ok (a, s'))
      (hst : s'.status ≠ .ok) (hst' : s'.status ≠ .END_OF_FILE)
      (hl : Collects skip read { s' with status := .ok } l) : Collects skip read s l

/-- What `read` returns if the HDU at position `i` is the next of its type: the table, or
`none` if it ends with an error. -/
def readable (read : FitsM R α) (hdus : List (Hdu R)) (i : Nat) : Option α :=
  match read ⟨hdus, i - 1, .ok⟩ with
  | .ok (a, s) => if s.status = .ok then some a else none
  | _ => none

/-- Every table has rows, and every column has elements in each row. -/
def NoEmptyTables (hdus : List (Hdu R)) : Prop :=
  ∀ h ∈ hdus, h.type = .binary → h.nrows ≠ 0 ∧ ∀ c ∈ h.cols, c.rep ≠ 0

/-- The table has a column of the given name, in upper or lower case. -/
def hasColumn (name : CStr) (h : Hdu R) : Bool := h.cols.any fun c => upper c.name == upper name

/-- The header has a keyword of the given name. -/
def hasKeyword (name : CStr) (h : Hdu R) : Bool := (h.keys.lookup name).isSome

/-- The mandatory columns and keywords of each table, by EXTNAME (those version 1 of the
format has already). -/
def mandatoryColumns : List (CStr × List CStr) :=
  [("OI_TARGET", ["TARGET_ID", "TARGET", "RAEP0", "DECEP0", "EQUINOX", "RA_ERR", "DEC_ERR", "SYSVEL",
     "VELTYP", "VELDEF", "PMRA", "PMDEC", "PMRA_ERR", "PMDEC_ERR", "PARALLAX", "PARA_ERR", "SPECTYP"]),
   ("OI_ARRAY", ["TEL_NAME", "STA_NAME", "STA_INDEX", "DIAMETER", "STAXYZ"]),
   ("OI_WAVELENGTH", ["EFF_WAVE", "EFF_BAND"]),
   ("OI_CORR", ["IINDX", "JINDX", "CORR"]),
   ("OI_INSPOL", ["TARGET_ID", "INSNAME", "MJD_OBS", "MJD_END", "JXX", "JYY", "JXY", "JYX", "STA_INDEX"]),
   ("OI_VIS", ["TARGET_ID", "TIME", "MJD", "INT_TIME", "VISAMP", "VISAMPERR", "VISPHI", "VISPHIERR",
     "UCOORD", "VCOORD", "STA_INDEX", "FLAG"]),
   ("OI_VIS2", ["TARGET_ID", "TIME", "MJD", "INT_TIME", "VIS2DATA", "VIS2ERR", "UCOORD", "VCOORD",
     "STA_INDEX", "FLAG"]),
   ("OI_T3", ["TARGET_ID", "TIME", "MJD", "INT_TIME", "T3AMP", "T3AMPERR", "T3PHI", "T3PHIERR",
     "U1COORD", "V1COORD", "U2COORD", "V2COORD", "STA_INDEX", "FLAG"]),
   ("OI_FLUX", ["TARGET_ID", "MJD", "INT_TIME", "FLUXDATA", "FLUXERR", "FLAG"])]

@[inherit_doc mandatoryColumns]
def mandatoryKeywords : List (CStr × List CStr) :=
  [("OI_TARGET", ["OI_REVN"]),
   ("OI_ARRAY", ["OI_REVN", "ARRNAME", "FRAME", "ARRAYX", "ARRAYY", "ARRAYZ"]),
   ("OI_WAVELENGTH", ["OI_REVN", "INSNAME"]),
   ("OI_CORR", ["OI_REVN", "CORRNAME", "NDATA"]),
   ("OI_INSPOL", ["OI_REVN", "DATE-OBS", "NPOL", "ARRNAME", "ORIENT", "MODEL"]),
   ("OI_VIS", ["OI_REVN", "DATE-OBS", "INSNAME"]),
   ("OI_VIS2", ["OI_REVN", "DATE-OBS", "INSNAME"]),
   ("OI_T3", ["OI_REVN", "DATE-OBS", "INSNAME"]),
   ("OI_FLUX", ["OI_REVN", "DATE-OBS", "INSNAME", "CALSTAT"])]

/-- The table has all the mandatory columns and keywords of its type. -/
def Complete (name : CStr) (h : Hdu R) : Prop :=
  (∀ l, mandatoryColumns.lookup name = some l → ∀ c ∈ l, hasColumn c h = true) ∧
  (∀ l, mandatoryKeywords.lookup name = some l → ∀ k ∈ l, hasKeyword k h = true)

/-- The HDU is a binary table with the given EXTNAME, and the given string as the value of
the keyword. -/
def isTableOf (name keyword value : CStr) (h : Hdu R) : Bool :=
  isTable name h && match h.keys.lookup keyword with
    | some (.str s) => s == value
    | _ => false

/-- The keyword is a string, as the format demands, or absent. -/
def StringKey (keyword : CStr) (h : Hdu R) : Prop :=
  ∀ v, h.keys.lookup keyword = some v → ∃ s, v = .str s

/-- The first extension which is as asked for. -/
def FirstAt (p : Hdu R → Bool) (hdus : List (Hdu R)) (i : Nat) : Prop :=
  0 < i ∧ (hdus[i]?).any p = true ∧ ∀ j, 0 < j → j < i → (hdus[j]?).any p = false

/-- All extensions before number `i` are binary tables. -/
def TablesBefore (hdus : List (Hdu R)) (i : Nat) : Prop :=
  ∀ j h, 0 < j → j < i → hdus[j]? = some h → h.type = .binary

/-- An extension which is not a binary table, such as an image. -/
def notTable (h : Hdu R) : Bool := h.type != .binary

/-- Extensions which are not binary tables do not have the keyword OI_REVN, which
belongs to the tables of OIFITS. -/
def ForeignPlain (hdus : List (Hdu R)) : Prop :=
  ∀ h ∈ hdus, h.type ≠ .binary → h.keys.lookup ("OI_REVN" : CStr) = none

end Spec
end Verif
