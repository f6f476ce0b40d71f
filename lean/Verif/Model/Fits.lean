import Verif.Model.Types

/-! The part of CFITSIO used by `write_fits.c` and `read_fits.c`.

CFITSIO itself is not in `/repo`: what follows models its documented behaviour and
is part of the trusted base. Simplifications: checksums, comments, error messages
and the physical layout are left out; a file is a list of header-data units (HDUs)
and operations succeed unless a reason for failure is given here (I/O errors and
malformed headers are not modelled). -/

namespace Verif
open Outcome

variable {R : FP}

/-- The CFITSIO status values the code distinguishes. `other` stands for all the
other errors. -/
inductive Status where
  /-- 0, no error -/
  | ok
  | KEY_NO_EXIST
  | COL_NOT_FOUND
  | END_OF_FILE
  | BAD_HDU_NUM
  | BAD_BTABLE_FORMAT
  | NUM_OVERFLOW
  | other (n : Nat)
deriving DecidableEq, Repr

/-- Other CFITSIO errors: a value which cannot be written to a keyword (`BAD_F2C`). -/
def BAD_F2C : Status := .other 402
/-- Column number out of range. -/
def BAD_COL_NUM : Status := .other 302
/-- Row number out of range. -/
def BAD_ROW_NUM : Status := .other 307
/-- Element number out of range. -/
def BAD_ELEM_NUM : Status := .other 308
/-- Malformed column format. -/
def BAD_TFORM : Status := .other 261
/-- Value of an unsuitable type. -/
def BAD_DATATYPE : Status := .other 410
/-- Keyword value of an unsuitable type. -/
def BAD_KEY_TYPE : Status := .other 403
/-- The current HDU is not a table. -/
def NOT_TABLE : Status := .other 235

/-- Types of binary table columns, by the letter of their TFORM keyword. -/
inductive ColType where
  /-- 16-bit integer -/
  | I
  /-- 32-bit integer -/
  | J
  /-- 32-bit floating point -/
  | E
  /-- 64-bit floating point -/
  | D
  /-- 32-bit floating point complex -/
  | C
  /-- character string -/
  | A
  /-- logical -/
  | L
deriving DecidableEq, Repr

/-- An element of a table, or a value in memory on its way to or from a table. -/
inductive Cell (R : FP) where
  | int (n : Int)
  | flt (x : R.Flt)
  | dbl (x : R.Dbl)
  | cpx (x : R.Flt × R.Flt)
  | str (s : CStr)
  | log (b : Bool)

/-- A table column. `rep` is the repeat count, which for strings (`A`) is the width
in characters. `unit` is the value of its TUNITn keyword and `tdim` of TDIMn: they
are kept with the column because CFITSIO renumbers these keywords when it inserts
columns. `data r e` is element `e` of row `r`, both counted from 0. -/
structure Col (R : FP) where
  name : CStr
  type : ColType
  rep : Nat
  unit : Option CStr
  tdim : Option CStr
  data : Nat → Nat → Cell R

/-- Elements per row: a string is a single element. -/
def Col.nelem (c : Col R) : Nat := if c.type = .A then 1 else c.rep

/-- Value of a header keyword. -/
inductive KeyVal (R : FP) where
  | str (s : CStr)
  | int (n : Int)
  | dbl (x : R.Dbl)

/-- Types of HDU (`IMAGE_HDU`, `ASCII_TBL`, `BINARY_TBL`). -/
inductive HduType where
  | image
  | ascii
  | binary
deriving DecidableEq

/-- A header-data unit. Pixel data of images are left out. -/
structure Hdu (R : FP) where
  type : HduType
  keys : List (CStr × KeyVal R)
  cols : List (Col R)
  nrows : Nat

/-- An open file (`fitsfile *`), with the index of the current HDU counted from 0,
and the status variable passed along with it. -/
structure FState (R : FP) where
  hdus : List (Hdu R)
  cur : Nat
  status : Status

/-- A piece of C code acting on an open FITS file and a status variable. -/
def FitsM (R : FP) (α : Type) := FState R → Outcome (α × FState R)

namespace FitsM
variable {α β : Type}

/-- Sequencing. -/
protected def bind (x : FitsM R α) (f : α → FitsM R β) : FitsM R β := fun s =>
  match x s with
  | .ok (a, s') => f a s'
  | .abort => .abort
  | .ub => .ub

instance : Monad (FitsM R) where
  pure a := fun s => .ok (a, s)
  bind := FitsM.bind

/-- Code which does not touch the file. -/
def lift (x : Outcome α) : FitsM R α := fun s => (fun a => (a, s)) <$> x

end FitsM

/-- The value of the status variable. -/
def getStatus : FitsM R Status := fun s => .ok (s.status, s)

/-- Assign to the status variable. -/
def setStatus (st : Status) : FitsM R Unit := fun s => .ok ((), { s with status := st })

/-- `if (*pStatus) return ...;` or `if (*pStatus) goto except;` followed by `body`:
`out` is the state of the output arguments at that point. -/
def guardStatus {α : Type} (out : α) (body : FitsM R α) : FitsM R α := fun s =>
  if s.status = .ok then body s else .ok (out, s)

/-- The loop `for (irow = first; ...; irow++)` over `n` rows, collecting what each
iteration stores. -/
def forRows {α : Type} (first : Nat) : Nat → (Nat → FitsM R α) → FitsM R (List α)
  | 0, _ => pure []
  | n + 1, body => do
    let x ← body first
    let xs ← forRows (first + 1) n body
    pure (x :: xs)

/-- The loop `for (irow = first; ...; irow++)` over the elements of an array. -/
def forEach {α : Type} (first : Nat) : List α → (Nat → α → FitsM R Unit) → FitsM R Unit
  | [], _ => pure ()
  | x :: xs, body => do
    body first x
    forEach (first + 1) xs body

/-- Every CFITSIO function does nothing when it is entered with an error status.
Otherwise `f` acts on the current HDU and sets the status. `junk` is the value left
in the output argument on failure. -/
def cfHdu {α : Type} (junk : α) (f : Hdu R → Hdu R × Status × α) : FitsM R α := fun s =>
  if s.status = .ok then
    match s.hdus[s.cur]? with
    | some h =>
      match f h with
      | (h', st, a) => .ok (a, { s with hdus := s.hdus.set s.cur h', status := st })
    | none => .ok (junk, { s with status := .BAD_HDU_NUM })
  else .ok (junk, s)

/-- A CFITSIO function which reads from the current HDU, without changing it. -/
def cfRead {α : Type} (junk : α) (f : Hdu R → Except Status α) : FitsM R α := fun s =>
  if s.status = .ok then
    match s.hdus[s.cur]? with
    | some h =>
      match f h with
      | .ok a => .ok (a, s)
      | .error st => .ok (junk, { s with status := st })
    | none => .ok (junk, { s with status := .BAD_HDU_NUM })
  else .ok (junk, s)

/-! ### Strings -/

/-- Remove trailing blanks, which are not significant in FITS. -/
def rtrim (s : CStr) : CStr := (s.reverse.dropWhile (· == ' ')).reverse

/-- The part of a string which fits on a header card with `n` characters left; a
quote takes two. -/
def cardFit : Nat → CStr → CStr
  | _, [] => []
  | n, c :: cs =>
    let w := if c = '\'' then 2 else 1
    if w ≤ n then c :: cardFit (n - w) cs else []

/-- A string keyword value as it is read back: cut to the 68 characters that fit on a
header card, without trailing blanks. -/
def keyStr (s : CStr) : CStr := rtrim (cardFit 68 s)

/-- An element of a string column of width `w` as it is read back: cut to the width,
without trailing blanks. -/
def colStr (w : Nat) (s : CStr) : CStr := rtrim (s.take w)

/-! ### Files and HDUs -/

/-- `fits_get_num_hdus`. -/
def fits_get_num_hdus : FitsM R Nat := fun s => .ok (if s.status = .ok then s.hdus.length else 0, s)

/-- `fits_create_img` of a primary HDU without data. -/
def fits_create_img : FitsM R Unit := fun s =>
  if s.status = .ok then
    .ok ((), { s with hdus := s.hdus ++ [⟨.image, [], [], 0⟩], cur := s.hdus.length })
  else .ok ((), s)

/-- `fits_movabs_hdu`: move to HDU number `n`, counted from 1; the type of the HDU
is returned. -/
def fits_movabs_hdu (n : Nat) : FitsM R HduType := fun s =>
  if s.status = .ok then
    match s.hdus[n - 1]? with
    | some h => if n = 0 then .ok (.image, { s with status := .BAD_HDU_NUM })
      else .ok (h.type, { s with cur := n - 1 })
    | none => .ok (.image, { s with status := .END_OF_FILE })
  else .ok (.image, s)

/-- Parse the decimal digits at the start of a string. -/
def parseDigits : Nat → CStr → Nat × CStr
  | n, [] => (n, [])
  | n, c :: cs => if c.isDigit then parseDigits (10 * n + (c.toNat - '0'.toNat)) cs else (n, c :: cs)

/-- A TFORM value: an optional repeat count (1 if absent) and the type letter. -/
def parseTform (s : CStr) : Option (Nat × ColType) :=
  let (n, rest) := parseDigits 0 s
  let n := if rest.length = s.length then 1 else n
  match rest with
  | ['I'] => some (n, .I)
  | ['J'] => some (n, .J)
  | ['E'] => some (n, .E)
  | ['D'] => some (n, .D)
  | ['C'] => some (n, .C)
  | ['A'] => some (n, .A)
  | ['L'] => some (n, .L)
  | _ => none

/-- The content of elements not yet written (CFITSIO fills the file with zeros,
and string columns with NULs or blanks, which read as the empty string). -/
def zeroCell : ColType → Cell R
  | .I | .J => .int 0
  | .E => .flt (R.toF (R.lit 0))
  | .D => .dbl (R.lit 0)
  | .C => .cpx (R.toF (R.lit 0), R.toF (R.lit 0))
  | .A => .str []
  | .L => .log false

/-- A new column with the given name, TFORM and unit; an empty unit writes no TUNITn
keyword. -/
def newCol (name tform unit : CStr) : Option (Col R) :=
  match parseTform tform with
  | some (n, t) =>
    some ⟨name, t, n, if unit = [] then none else some unit, none, fun _ _ => zeroCell t⟩
  | none => none

/-- `fits_create_tbl(fptr, BINARY_TBL, 0, tfields, ttype, tform, tunit, extname)`:
append a table with no rows and make it current. In an empty file an empty primary
HDU is created first. -/
def fits_create_tbl (fields : List (CStr × CStr × CStr)) (extname : CStr) : FitsM R Unit := fun s =>
  if s.status = .ok then
    match fields.mapM fun f => newCol (R := R) f.1 f.2.1 f.2.2 with
    | some cols =>
      let pre := if s.hdus = [] then [⟨.image, [], [], 0⟩] else s.hdus
      .ok ((), { s with hdus := pre ++ [⟨.binary, [("EXTNAME", .str extname)], cols, 0⟩], cur := pre.length })
    | none => .ok ((), { s with status := BAD_TFORM })
  else .ok ((), s)

/-! ### Keywords -/

/-- The value stored for a keyword, and the status of storing it. -/
def storeKey : KeyVal R → Option (KeyVal R)
  | .str s => some (.str (keyStr s))
  | .int n => some (.int n)
  | .dbl x => (R.keyD x).map .dbl

/-- Append a keyword to a header. -/
def Hdu.addKey (h : Hdu R) (name : CStr) (v : KeyVal R) : Hdu R × Status :=
  match storeKey v with
  | some v' => ({ h with keys := h.keys ++ [(name, v')] }, .ok)
  | none => (h, BAD_F2C)

/-- `fits_write_key`. -/
def fits_write_key (name : CStr) (v : KeyVal R) : FitsM R Unit :=
  cfHdu () fun h => ((h.addKey name v).1, (h.addKey name v).2, ())

/-- `fits_write_date`: write the DATE keyword; `today` is the current date. -/
def fits_write_date (today : CStr) : FitsM R Unit := fits_write_key "DATE" (.str today)

/-- Write the keyword TUNIT`n`; if there is one already the new one comes after it
and is never read. -/
def writeColUnit (n : Nat) (v : CStr) : FitsM R Unit :=
  cfHdu () fun h =>
    ({ h with cols := h.cols.modify (n - 1) fun c => { c with unit := c.unit.or (some (keyStr v)) } }, .ok, ())

/-- Write the keyword TDIM`n`. -/
def writeColDim (n : Nat) (v : CStr) : FitsM R Unit :=
  cfHdu () fun h =>
    ({ h with cols := h.cols.modify (n - 1) fun c => { c with tdim := c.tdim.or (some (keyStr v)) } }, .ok, ())

/-- Read a keyword as a string. Integers are given as their text; reading a real
number as a string is not modelled and fails. -/
def Hdu.readStr (h : Hdu R) (name : CStr) : Except Status CStr :=
  match h.keys.lookup name with
  | none => .error .KEY_NO_EXIST
  | some (.str s) => .ok s
  | some (.int n) => .ok (fmtInt n)
  | some (.dbl _) => .error BAD_KEY_TYPE

/-- Read a keyword as an integer. Conversion of real numbers and of strings of
digits is not modelled and fails. -/
def Hdu.readInt (h : Hdu R) (name : CStr) : Except Status Int :=
  match h.keys.lookup name with
  | none => .error .KEY_NO_EXIST
  | some (.int n) => .ok n
  | some _ => .error BAD_KEY_TYPE

/-- Read a keyword as a real number. -/
def Hdu.readDbl (h : Hdu R) (name : CStr) : Except Status R.Dbl :=
  match h.keys.lookup name with
  | none => .error .KEY_NO_EXIST
  | some (.dbl x) => .ok x
  | some (.int n) => .ok (R.lit n)
  | some (.str _) => .error BAD_KEY_TYPE

/-- `fits_read_key` with `TSTRING`. On failure the output is left as it is. -/
def fits_read_key_str (name : CStr) (dst : CStr) : FitsM R CStr := cfRead dst fun h => h.readStr name

/-- `fits_read_key` with `TINT`. -/
def fits_read_key_int (name : CStr) (dst : Int) : FitsM R Int := cfRead dst fun h => h.readInt name

/-- `fits_read_key` with `TDOUBLE`. -/
def fits_read_key_dbl (name : CStr) (dst : R.Dbl) : FitsM R R.Dbl := cfRead dst fun h => h.readDbl name

/-- `fits_read_key` with `TSTRING` of the keyword TUNIT`n`. -/
def readColUnit (n : Nat) (dst : CStr) : FitsM R CStr :=
  cfRead dst fun h =>
    match h.cols[n - 1]? with
    | some c => match c.unit with
      | some u => .ok u
      | none => .error .KEY_NO_EXIST
    | none => .error .KEY_NO_EXIST

/-! ### Columns -/

/-- `fits_insert_cols`: insert columns such that the first becomes column `n`. -/
def fits_insert_cols (n : Nat) (fields : List (CStr × CStr)) : FitsM R Unit :=
  cfHdu () fun h =>
    if h.cols.length + 1 < n ∨ n = 0 then (h, BAD_COL_NUM, ())
    else
      match fields.mapM fun f => newCol (R := R) f.1 f.2 [] with
      | some cols => ({ h with cols := h.cols.take (n - 1) ++ cols ++ h.cols.drop (n - 1) }, .ok, ())
      | none => (h, BAD_TFORM, ())

/-- `fits_insert_col`. -/
def fits_insert_col (n : Nat) (name tform : CStr) : FitsM R Unit := fits_insert_cols n [(name, tform)]

/-- The element stored for a value written to a column: integers written to a 16-bit
column are clipped, with an error, and strings are cut to the column width. Writing
with a C type other than the one corresponding to the column type is not modelled
(the code does not do it) and fails. -/
def store (c : Col R) : Cell R → Cell R × Status
  | .int n => match c.type with
    | .I =>
      if n < -32768 then (.int (-32768), .NUM_OVERFLOW)
      else if 32767 < n then (.int 32767, .NUM_OVERFLOW) else (.int n, .ok)
    | .J => (.int n, .ok)
    | t => (zeroCell t, BAD_DATATYPE)
  | .flt x => if c.type = .E then (.flt x, .ok) else (zeroCell c.type, BAD_DATATYPE)
  | .dbl x => if c.type = .D then (.dbl x, .ok) else (zeroCell c.type, BAD_DATATYPE)
  | .cpx x => if c.type = .C then (.cpx x, .ok) else (zeroCell c.type, BAD_DATATYPE)
  | .str s => if c.type = .A then (.str (colStr c.rep s), .ok) else (zeroCell c.type, BAD_DATATYPE)
  | .log b => if c.type = .L then (.log b, .ok) else (zeroCell c.type, BAD_DATATYPE)

/-- Store `xs` as consecutive elements from the first element of row `row` (counted
from 0), going on in the next row when a row is full. -/
def Col.put (c : Col R) (row : Nat) (xs : List (Cell R)) : Col R :=
  { c with data := fun r e =>
      if row ≤ r ∧ e < c.nelem then
        (xs[(r - row) * c.nelem + e]?).getD (c.data r e)
      else c.data r e }

/-- The first error in a list of statuses. -/
def firstError (l : List Status) : Status := (l.find? (· ≠ .ok)).getD .ok

/-- Write elements to a table, extending it by rows as needed. -/
def Hdu.writeCol (h : Hdu R) (colnum row : Nat) (xs : List (Cell R)) : Hdu R × Status :=
  match h.cols[colnum - 1]? with
  | none => (h, BAD_COL_NUM)
  | some c =>
    if xs = [] then (h, .ok)
    else if c.nelem = 0 then (h, BAD_ELEM_NUM)
    else
      ({ h with cols := h.cols.set (colnum - 1) (c.put (row - 1) (xs.map fun x => (store c x).1))
                nrows := max h.nrows (row - 1 + (xs.length - 1) / c.nelem + 1) },
       firstError (xs.map fun x => (store c x).2))

/-- `fits_write_col(fptr, type, colnum, row, 1, n, array)`, with row and column
numbers counted from 1. Reading past the end of `array` is undefined. -/
def fits_write_col (colnum row n : Nat) (array : List (Cell R)) : FitsM R Unit := fun s =>
  if s.status = .ok then
    if array.length < n then .ub
    else cfHdu () (fun h => ((h.writeCol colnum row (array.take n)).1, (h.writeCol colnum row (array.take n)).2, ())) s
  else .ok ((), s)

/-- `fits_write_col` from an array given by a pointer which may be NULL. -/
def fits_write_col_ptr (colnum row n : Nat) (array : Option (List (Cell R))) : FitsM R Unit := fun s =>
  match array with
  | some a => fits_write_col colnum row n a s
  | none => if s.status = .ok ∧ n ≠ 0 then .ub else .ok ((), s)

/-- Upper case, for comparing column names without regard to case. -/
def upper (s : CStr) : CStr := s.map Char.toUpper

/-- Number, counted from 1, of the first column of a given name. -/
def Hdu.colnum (h : Hdu R) (name : CStr) : Except Status Nat :=
  if h.type = .binary then
    match h.cols.findIdx? fun c => upper c.name == upper name with
    | some i => .ok (i + 1)
    | none => .error .COL_NOT_FOUND
  else .error NOT_TABLE

/-- `fits_get_colnum(fptr, CASEINSEN, name, &colnum)`; `colnum` is left as it is on
failure. Wild cards and ambiguous names are not modelled. -/
def fits_get_colnum (name : CStr) (colnum : Nat) : FitsM R Nat := cfRead colnum fun h => h.colnum name

/-- `fits_get_coltype`: type and repeat count of a column. -/
def fits_get_coltype (colnum : Nat) (junk : ColType × Nat) : FitsM R (ColType × Nat) :=
  cfRead junk fun h =>
    match h.cols[colnum - 1]? with
    | some c => .ok (c.type, c.rep)
    | none => .error BAD_COL_NUM

/-- `fits_get_num_rows`. -/
def fits_get_num_rows (junk : Nat) : FitsM R Nat :=
  cfRead junk fun h => if h.type = .image then .error NOT_TABLE else .ok h.nrows

/-- The `n` consecutive elements of a column from the first element of row `row`
(counted from 0). -/
def Col.get (c : Col R) (row n : Nat) : List (Cell R) :=
  (List.range n).map fun k => c.data (row + k / c.nelem) (k % c.nelem)

/-- The elements of a complex column as CFITSIO delivers them when asked for real
numbers: real and imaginary parts alternate. -/
def Col.getParts (c : Col R) (row n : Nat) : List (Cell R) :=
  (List.range n).map fun k =>
    match c.data (row + k / (2 * c.nelem)) (k % (2 * c.nelem) / 2) with
    | .cpx z => .flt (if k % 2 = 0 then z.1 else z.2)
    | x => x

/-- Elements per row as seen by a reader asking for real numbers. -/
def Col.realNelem (c : Col R) : Nat := if c.type = .C then 2 * c.nelem else c.nelem

/-- Read `n` elements from row `row` (counted from 1) on, converting each. -/
def Hdu.readCol {α : Type} (h : Hdu R) (colnum row n : Nat) (conv : Cell R → Option α) :
    Except Status (List α) :=
  match h.cols[colnum - 1]? with
  | none => .error BAD_COL_NUM
  | some c =>
    if c.realNelem = 0 then .error BAD_ELEM_NUM
    else if h.nrows < row + (n - 1) / c.realNelem then .error BAD_ROW_NUM
    else
      match (if c.type = .C then c.getParts (row - 1) n else c.get (row - 1) n).mapM conv with
      | some xs => .ok xs
      | none => .error BAD_DATATYPE

/-- Conversion to `int`; from real numbers it is not modelled and fails. -/
def Cell.toInt : Cell R → Option Int
  | .int n => some n
  | _ => none

/-- Conversion to `double`. -/
def Cell.toDbl : Cell R → Option R.Dbl
  | .dbl x => some x
  | .flt x => some (R.toD x)
  | .int n => some (R.lit n)
  | _ => none

/-- Conversion to `float`. -/
def Cell.toFlt : Cell R → Option R.Flt
  | .flt x => some x
  | .dbl x => some (R.toF x)
  | .int n => some (R.toF (R.lit n))
  | _ => none

/-- Conversion to a string. -/
def Cell.toStr : Cell R → Option CStr
  | .str s => some s
  | _ => none

/-- Conversion to a truth value. -/
def Cell.toLog : Cell R → Option Bool
  | .log b => some b
  | _ => none

/-- `fits_read_col(fptr, type, colnum, row, 1, n, NULL, array, &anynull)`; on failure
`array` is left as it is. -/
def fits_read_col {α : Type} (conv : Cell R → Option α) (colnum row n : Nat) (array : List α) :
    FitsM R (List α) :=
  cfRead array fun h => h.readCol colnum row n conv

/-- `fits_movrel_hdu(fptr, 1)` and the search loop of `next_named_hdu` need the HDUs
after the current one. -/
def FState.rest (s : FState R) : List (Hdu R) := s.hdus.drop (s.cur + 1)

end Verif
