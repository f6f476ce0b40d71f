/-! C strings and hash tables. -/

namespace Verif

/-- A NUL-terminated C string, without the terminating NUL. -/
abbrev CStr := List Char

instance : Coe String CStr := ⟨String.toList⟩

/-- `FLEN_VALUE` of CFITSIO's fitsio.h: size of a keyword value buffer. -/
def FLEN_VALUE : Nat := 71

/-- `g_strlcpy(dest, src, size)` (GLib): copies at most `size - 1` characters. -/
def strlcpy (src : CStr) (size : Nat) : CStr := src.take (size - 1)

/-- `g_snprintf(dest, size, ...)` (GLib): `full` is the complete formatted text, of
which at most `size - 1` characters are stored. -/
def snprintf (size : Nat) (full : CStr) : CStr := full.take (size - 1)

/-- `%d`/`%ld` conversion of `printf`. -/
def fmtInt (i : Int) : CStr :=
  if i < 0 then '-' :: Nat.toDigits 10 i.natAbs else Nat.toDigits 10 i.natAbs

/-- Left-pad `s` with `c` to at least `w` characters. -/
def padLeft (w : Nat) (c : Char) (s : CStr) : CStr := List.replicate (w - s.length) c ++ s

/-- `%0wd` conversion of `printf` (the sign precedes the zeros). -/
def fmtInt0 (w : Nat) (i : Int) : CStr :=
  if i < 0 then '-' :: padLeft (w - 1) '0' (Nat.toDigits 10 i.natAbs)
  else padLeft w '0' (Nat.toDigits 10 i.natAbs)

/-- `%wd` conversion of `printf`. -/
def fmtIntW (w : Nat) (i : Int) : CStr := padLeft w ' ' (fmtInt i)

/-- A `GHashTable` with string keys (GLib), as the list of insertions and its
look-up by key. The most recent insertion for a key is first. -/
structure HMap (α : Type) where
  entries : List (CStr × α)
deriving DecidableEq

namespace HMap
variable {α : Type}

/-- `g_hash_table_new_full`. -/
def empty : HMap α := ⟨[]⟩

/-- `g_hash_table_insert`: replaces the value of an existing key. -/
def insert (m : HMap α) (k : CStr) (v : α) : HMap α := ⟨(k, v) :: m.entries⟩

/-- `g_hash_table_lookup`: `none` stands for NULL. -/
def lookup (m : HMap α) (k : CStr) : Option α := m.entries.lookup k

/-- `g_hash_table_remove`. -/
def remove (m : HMap α) (k : CStr) : HMap α := ⟨m.entries.filter fun e => !(e.1 == k)⟩

@[simp] theorem lookup_empty (k : CStr) : (empty : HMap α).lookup k = none := rfl

theorem lookup_insert (m : HMap α) (k k' : CStr) (v : α) :
    (m.insert k v).lookup k' = if k' = k then some v else m.lookup k' := by
  unfold lookup insert
  by_cases h : k' = k
  · simp [h]
  · have : (k' == k) = false := by simpa using h
    simp [List.lookup, h, this]

theorem lookup_remove (m : HMap α) (k k' : CStr) :
    (m.remove k).lookup k' = if k' = k then none else m.lookup k' := by
  unfold lookup remove
  obtain ⟨l⟩ := m
  induction l with
  | nil => simp
  | cons e l ih =>
    obtain ⟨a, v⟩ := e
    simp only at ih ⊢
    by_cases hak : a = k
    · subst hak
      rw [List.filter_cons_of_neg (by simp), ih]
      by_cases h : k' = a
      · simp [h]
      · have : (k' == a) = false := by simpa using h
        simp [List.lookup, h, this]
    · rw [List.filter_cons_of_pos (by simpa using hak)]
      by_cases h : k' = a
      · subst h; simp [hak]
      · have : (k' == a) = false := by simpa using h
        simp only [List.lookup, this]
        exact ih

end HMap

end Verif
