import Verif.Core.CStr
import Verif.Core.Outcome

/-!
# Ownership of memory

A model of what the library does with blocks of memory: which it requests from `malloc`,
which pointers it stores where, which blocks it reads through those pointers, and which it
passes to `free`. It covers alloc_fits.c, free_fits.c, chkmalloc.c, `free_oi_fits` and the
`dup_oi_*` functions of oifile.c, and the allocations made while reading, filtering and
merging datasets.

The contents of the data columns do not occur here (they are the subject of the models in
`Types`, `File`, `Filter`, `Merge` and `Read`). A decision of the program which depends on
them, such as whether a filter accepts a record, is a parameter of the model, so that a
statement for every value of the parameter covers whatever the data may be.

Simplifications, for the whole file:
* a block is all or nothing: the model knows which blocks are allocated, not their sizes
  (bounds are dealt with by the other models), except that a request for no bytes aborts;
* a request that `malloc` cannot satisfy aborts (chkmalloc.c:39-44), which is an outcome
  that needs no further modelling;
* `realloc` to a positive size always moves the block; `realloc` to no bytes frees the block
  and yields NULL, as the GNU C library does;
* the nodes of a GList are not modelled: GLib allocates them, and `g_list_free` is called
  for each list.
-/

namespace Verif.Mem

/-- A pointer to a block of memory; `none` is NULL. -/
abbrev Ptr := Option Nat

/-- The state of the allocator: the blocks allocated at present, and the number which the
next new block will get. Numbers are never used again, so that a pointer to a freed block
cannot be mistaken for a pointer to a newer one. -/
structure Heap where
  next : Nat
  live : List Nat
deriving DecidableEq, Repr

/-- Code that uses the allocator. -/
abbrev Mem (α : Type) := StateT Heap Outcome α

/-- Undefined behaviour. -/
def undefined {α : Type} : Mem α := fun _ => .ub

/-- chkmalloc.c:30-46 `_chkmalloc`: a request for `n` elements. -/
def chkmalloc (n : Nat) : Mem Ptr := fun h =>
  if n = 0 then .abort else .ok (some h.next, ⟨h.next + 1, h.next :: h.live⟩)

/-- `free`: freeing NULL does nothing; freeing a block which is not allocated, in particular
freeing one a second time, is undefined. -/
def free (p : Ptr) : Mem Unit := fun h =>
  match p with
  | none => .ok ((), h)
  | some i => if i ∈ h.live then .ok ((), { h with live := h.live.erase i }) else .ub

/-- Reading or writing through a pointer: defined only if the block is allocated. -/
def touch (p : Ptr) : Mem Unit := fun h =>
  match p with
  | none => .ub
  | some i => if i ∈ h.live then .ok ((), h) else .ub

/-- `realloc` to `n` elements. -/
def realloc (p : Ptr) (n : Nat) : Mem Ptr := do
  if n = 0 then
    free p
    return none
  else
    let q ← chkmalloc n
    touch p
    free p
    return q

/-- oifile.h:58-63 `MEMDUP` of `n` elements. -/
def memdup (p : Ptr) (n : Nat) : Mem Ptr := do
  let q ← chkmalloc n
  touch p
  return q

/-! ### Loops -/

/-- Run `f` on each element and collect the results. -/
def memMap {α β : Type} (f : α → Mem β) : List α → Mem (List β)
  | [] => return []
  | a :: as => do
    let b ← f a
    let bs ← memMap f as
    return b :: bs

/-- Run `f` on each element. -/
def memFor {α : Type} (f : α → Mem Unit) : List α → Mem Unit
  | [] => return ()
  | a :: as => do
    f a
    memFor f as

/-- Run `f` on each element, passing on what has been built up. -/
def memFold {σ α : Type} (f : σ → α → Mem σ) : σ → List α → Mem σ
  | s, [] => return s
  | s, a :: as => do
    let s' ← f s a
    memFold f s' as

/-! ### Tables

Of each struct only the pointers, the counts which govern loops, and the names used as keys
of hash tables are kept. `self` is the block holding the struct itself. Where a struct points
to an array of records, the records are listed in the struct, and reading one needs the array
to be allocated (`recAt`). -/

/-- exchange.h `oi_array`. -/
structure Array where
  self : Ptr
  arrname : CStr
  elem : Ptr
  nelement : Nat
deriving DecidableEq, Repr

/-- exchange.h `oi_target` (part of the oi_fits struct, so it has no block of its own). -/
structure Target where
  targ : Ptr
  ntarget : Nat
deriving DecidableEq, Repr

/-- exchange.h `oi_wavelength`. -/
structure Wave where
  self : Ptr
  insname : CStr
  eff_wave : Ptr
  eff_band : Ptr
  nwave : Nat
deriving DecidableEq, Repr

/-- exchange.h `oi_corr`. -/
structure Corr where
  self : Ptr
  corrname : CStr
  iindx : Ptr
  jindx : Ptr
  corr : Ptr
  ncorr : Nat
deriving DecidableEq, Repr

/-- exchange.h `oi_inspol_record`. -/
structure InspolRec where
  jxx : Ptr
  jyy : Ptr
  jxy : Ptr
  jyx : Ptr
deriving DecidableEq, Repr

/-- exchange.h `oi_inspol`. -/
structure Inspol where
  self : Ptr
  arrname : CStr
  record : Ptr
  numrec : Nat
  nwave : Nat
  recs : List InspolRec
deriving DecidableEq, Repr

/-- exchange.h `oi_vis_record`. -/
structure VisRec where
  visamp : Ptr
  visamperr : Ptr
  visphi : Ptr
  visphierr : Ptr
  flag : Ptr
  visrefmap : Ptr
  rvis : Ptr
  rviserr : Ptr
  ivis : Ptr
  iviserr : Ptr
deriving DecidableEq, Repr

/-- exchange.h `oi_vis`. -/
structure Vis where
  self : Ptr
  arrname : CStr
  insname : CStr
  corrname : CStr
  record : Ptr
  numrec : Nat
  nwave : Nat
  usevisrefmap : Bool
  usecomplex : Bool
  recs : List VisRec
deriving DecidableEq, Repr

/-- exchange.h `oi_vis2_record`. -/
structure Vis2Rec where
  vis2data : Ptr
  vis2err : Ptr
  flag : Ptr
deriving DecidableEq, Repr

/-- exchange.h `oi_vis2`. -/
structure Vis2 where
  self : Ptr
  arrname : CStr
  insname : CStr
  corrname : CStr
  record : Ptr
  numrec : Nat
  nwave : Nat
  recs : List Vis2Rec
deriving DecidableEq, Repr

/-- exchange.h `oi_t3_record`. -/
structure T3Rec where
  t3amp : Ptr
  t3amperr : Ptr
  t3phi : Ptr
  t3phierr : Ptr
  flag : Ptr
deriving DecidableEq, Repr

/-- exchange.h `oi_t3`. -/
structure T3 where
  self : Ptr
  arrname : CStr
  insname : CStr
  corrname : CStr
  record : Ptr
  numrec : Nat
  nwave : Nat
  recs : List T3Rec
deriving DecidableEq, Repr

/-- exchange.h `oi_flux_record`. -/
structure FluxRec where
  fluxdata : Ptr
  fluxerr : Ptr
  flag : Ptr
deriving DecidableEq, Repr

/-- exchange.h `oi_flux`. -/
structure Flux where
  self : Ptr
  arrname : CStr
  insname : CStr
  corrname : CStr
  record : Ptr
  numrec : Nat
  nwave : Nat
  recs : List FluxRec
deriving DecidableEq, Repr

/-- Access to `record[i]`. -/
def recAt {ρ : Type} (record : Ptr) (recs : List ρ) (i : Nat) : Mem ρ := do
  touch record
  match recs[i]? with
  | some r => return r
  | none => undefined

/-! ### alloc_fits.c

Each function takes the struct with its old contents and returns it with the new. -/

/-- alloc_fits.c:37-41 `alloc_oi_array`. -/
def alloc_oi_array (t : Array) (nelement : Nat) : Mem Array := do
  let elem ← chkmalloc nelement
  return { t with elem := elem, nelement := nelement }

/-- alloc_fits.c:51-55 `alloc_oi_target`. -/
def alloc_oi_target (t : Target) (ntarget : Nat) : Mem Target := do
  let targ ← chkmalloc ntarget
  return { t with targ := targ, ntarget := ntarget }

/-- alloc_fits.c:65-70 `alloc_oi_wavelength`. -/
def alloc_oi_wavelength (t : Wave) (nwave : Nat) : Mem Wave := do
  let eff_wave ← chkmalloc nwave
  let eff_band ← chkmalloc nwave
  return { t with eff_wave := eff_wave, eff_band := eff_band, nwave := nwave }

/-- alloc_fits.c:80-86 `alloc_oi_corr`. -/
def alloc_oi_corr (t : Corr) (ncorr : Nat) : Mem Corr := do
  let iindx ← chkmalloc ncorr
  let jindx ← chkmalloc ncorr
  let corr ← chkmalloc ncorr
  return { t with iindx := iindx, jindx := jindx, corr := corr, ncorr := ncorr }

/-- alloc_fits.c:97-113 `alloc_oi_inspol`. -/
def alloc_oi_inspol (t : Inspol) (numrec nwave : Nat) : Mem Inspol := do
  let record ← chkmalloc numrec
  let recs ← memMap (fun _ => do
    let jxx ← chkmalloc nwave
    let jyy ← chkmalloc nwave
    let jxy ← chkmalloc nwave
    let jyx ← chkmalloc nwave
    return (⟨jxx, jyy, jxy, jyx⟩ : InspolRec)) (List.range numrec)
  return { t with record := record, recs := recs, numrec := numrec, nwave := nwave }

/-- alloc_fits.c:124-150 `alloc_oi_vis`. -/
def alloc_oi_vis (t : Vis) (numrec nwave : Nat) : Mem Vis := do
  let record ← chkmalloc numrec
  let recs ← memMap (fun _ => do
    let visamp ← chkmalloc nwave
    let visamperr ← chkmalloc nwave
    let visphi ← chkmalloc nwave
    let visphierr ← chkmalloc nwave
    let flag ← chkmalloc nwave
    return (⟨visamp, visamperr, visphi, visphierr, flag, none, none, none, none, none⟩ : VisRec))
    (List.range numrec)
  return { t with record := record, recs := recs, numrec := numrec, nwave := nwave,
                  usevisrefmap := false, usecomplex := false }

/-- alloc_fits.c:161-176 `alloc_oi_vis2`. -/
def alloc_oi_vis2 (t : Vis2) (numrec nwave : Nat) : Mem Vis2 := do
  let record ← chkmalloc numrec
  let recs ← memMap (fun _ => do
    let vis2data ← chkmalloc nwave
    let vis2err ← chkmalloc nwave
    let flag ← chkmalloc nwave
    return (⟨vis2data, vis2err, flag⟩ : Vis2Rec)) (List.range numrec)
  return { t with record := record, recs := recs, numrec := numrec, nwave := nwave }

/-- alloc_fits.c:187-204 `alloc_oi_t3`. -/
def alloc_oi_t3 (t : T3) (numrec nwave : Nat) : Mem T3 := do
  let record ← chkmalloc numrec
  let recs ← memMap (fun _ => do
    let t3amp ← chkmalloc nwave
    let t3amperr ← chkmalloc nwave
    let t3phi ← chkmalloc nwave
    let t3phierr ← chkmalloc nwave
    let flag ← chkmalloc nwave
    return (⟨t3amp, t3amperr, t3phi, t3phierr, flag⟩ : T3Rec)) (List.range numrec)
  return { t with record := record, recs := recs, numrec := numrec, nwave := nwave }

/-- alloc_fits.c:214-229 `alloc_oi_flux`. -/
def alloc_oi_flux (t : Flux) (numrec nwave : Nat) : Mem Flux := do
  let record ← chkmalloc numrec
  let recs ← memMap (fun _ => do
    let fluxdata ← chkmalloc nwave
    let fluxerr ← chkmalloc nwave
    let flag ← chkmalloc nwave
    return (⟨fluxdata, fluxerr, flag⟩ : FluxRec)) (List.range numrec)
  return { t with record := record, recs := recs, numrec := numrec, nwave := nwave }

/-! ### free_fits.c -/

/-- free_fits.c:34-37 `free_oi_array`. -/
def free_oi_array (t : Array) : Mem Unit := free t.elem

/-- free_fits.c:44-47 `free_oi_target`. -/
def free_oi_target (t : Target) : Mem Unit := free t.targ

/-- free_fits.c:54-58 `free_oi_wavelength`. -/
def free_oi_wavelength (t : Wave) : Mem Unit := do
  free t.eff_wave
  free t.eff_band

/-- free_fits.c:65-70 `free_oi_corr`. -/
def free_oi_corr (t : Corr) : Mem Unit := do
  free t.iindx
  free t.jindx
  free t.corr

/-- free_fits.c:77-89 `free_oi_inspol`. -/
def free_oi_inspol (t : Inspol) : Mem Unit := do
  memFor (fun i => do
    let r ← recAt t.record t.recs i
    free r.jxx
    free r.jyy
    free r.jxy
    free r.jyx) (List.range t.numrec)
  free t.record

/-- free_fits.c:96-119 `free_oi_vis`. -/
def free_oi_vis (t : Vis) : Mem Unit := do
  memFor (fun i => do
    let r ← recAt t.record t.recs i
    free r.visamp
    free r.visamperr
    free r.visphi
    free r.visphierr
    free r.flag
    if t.usevisrefmap then free r.visrefmap
    if t.usecomplex then
      free r.rvis
      free r.rviserr
      free r.ivis
      free r.iviserr) (List.range t.numrec)
  free t.record

/-- free_fits.c:126-137 `free_oi_vis2`. -/
def free_oi_vis2 (t : Vis2) : Mem Unit := do
  memFor (fun i => do
    let r ← recAt t.record t.recs i
    free r.vis2data
    free r.vis2err
    free r.flag) (List.range t.numrec)
  free t.record

/-- free_fits.c:144-157 `free_oi_t3`. -/
def free_oi_t3 (t : T3) : Mem Unit := do
  memFor (fun i => do
    let r ← recAt t.record t.recs i
    free r.t3amp
    free r.t3amperr
    free r.t3phi
    free r.t3phierr
    free r.flag) (List.range t.numrec)
  free t.record

/-- free_fits.c:164-175 `free_oi_flux`. -/
def free_oi_flux (t : Flux) : Mem Unit := do
  memFor (fun i => do
    let r ← recAt t.record t.recs i
    free r.fluxdata
    free r.fluxerr
    free r.flag) (List.range t.numrec)
  free t.record

/-! ### oifile.c: copying tables -/

/-- oifile.c:1218-1226 `dup_oi_array`. -/
def dup_oi_array (t : Array) : Mem Array := do
  let self ← memdup t.self 1
  let elem ← memdup t.elem t.nelement
  return { t with self := self, elem := elem }

/-- oifile.c:1235-1245 `dup_oi_wavelength`. -/
def dup_oi_wavelength (t : Wave) : Mem Wave := do
  let self ← memdup t.self 1
  let eff_wave ← memdup t.eff_wave t.nwave
  let eff_band ← memdup t.eff_band t.nwave
  return { t with self := self, eff_wave := eff_wave, eff_band := eff_band }

/-- oifile.c:1254-1265 `dup_oi_corr`. -/
def dup_oi_corr (t : Corr) : Mem Corr := do
  let self ← memdup t.self 1
  let iindx ← memdup t.iindx t.ncorr
  let jindx ← memdup t.jindx t.ncorr
  let corr ← memdup t.corr t.ncorr
  return { t with self := self, iindx := iindx, jindx := jindx, corr := corr }

/-- oifile.c:1274-1293 `dup_oi_inspol`. -/
def dup_oi_inspol (t : Inspol) : Mem Inspol := do
  let self ← memdup t.self 1
  let record ← memdup t.record t.numrec
  let recs ← memMap (fun i => do
    let r ← recAt t.record t.recs i
    let jxx ← memdup r.jxx t.nwave
    let jyy ← memdup r.jyy t.nwave
    let jxy ← memdup r.jxy t.nwave
    let jyx ← memdup r.jyx t.nwave
    return { r with jxx := jxx, jyy := jyy, jxy := jxy, jyx := jyx }) (List.range t.numrec)
  return { t with self := self, record := record, recs := recs }

/-- The visrefmap of a copied OI_VIS record, oifile.c:1325-1329. -/
def dupVisRefmap (t : Vis) (r : VisRec) : Mem VisRec :=
  if t.usevisrefmap then do
    let visrefmap ← memdup r.visrefmap (t.nwave * t.nwave)
    return { r with visrefmap := visrefmap }
  else return r

/-- The complex visibilities of a copied OI_VIS record, oifile.c:1330-1340. The last copy
reads from rviserr, as in the code. -/
def dupVisComplex (t : Vis) (r : VisRec) : Mem VisRec :=
  if t.usecomplex then do
    let rvis ← memdup r.rvis t.nwave
    let rviserr ← memdup r.rviserr t.nwave
    let ivis ← memdup r.ivis t.nwave
    let iviserr ← memdup r.rviserr t.nwave
    return { r with rvis := rvis, rviserr := rviserr, ivis := ivis, iviserr := iviserr }
  else return r

/-- oifile.c:1302-1343 `dup_oi_vis`. -/
def dup_oi_vis (t : Vis) : Mem Vis := do
  let self ← memdup t.self 1
  let record ← memdup t.record t.numrec
  let recs ← memMap (fun i => do
    let r ← recAt t.record t.recs i
    let visamp ← memdup r.visamp t.nwave
    let visamperr ← memdup r.visamperr t.nwave
    let visphi ← memdup r.visphi t.nwave
    let visphierr ← memdup r.visphierr t.nwave
    let flag ← memdup r.flag t.nwave
    let r1 ← dupVisRefmap t r
    let r2 ← dupVisComplex t r1
    return { r2 with visamp := visamp, visamperr := visamperr, visphi := visphi,
                     visphierr := visphierr, flag := flag }) (List.range t.numrec)
  return { t with self := self, record := record, recs := recs }

/-- oifile.c:1352-1373 `dup_oi_vis2`. -/
def dup_oi_vis2 (t : Vis2) : Mem Vis2 := do
  let self ← memdup t.self 1
  let record ← memdup t.record t.numrec
  let recs ← memMap (fun i => do
    let r ← recAt t.record t.recs i
    let vis2data ← memdup r.vis2data t.nwave
    let vis2err ← memdup r.vis2err t.nwave
    let flag ← memdup r.flag t.nwave
    return { r with vis2data := vis2data, vis2err := vis2err, flag := flag })
    (List.range t.numrec)
  return { t with self := self, record := record, recs := recs }

/-- oifile.c:1382-1407 `dup_oi_t3`. -/
def dup_oi_t3 (t : T3) : Mem T3 := do
  let self ← memdup t.self 1
  let record ← memdup t.record t.numrec
  let recs ← memMap (fun i => do
    let r ← recAt t.record t.recs i
    let t3amp ← memdup r.t3amp t.nwave
    let t3amperr ← memdup r.t3amperr t.nwave
    let t3phi ← memdup r.t3phi t.nwave
    let t3phierr ← memdup r.t3phierr t.nwave
    let flag ← memdup r.flag t.nwave
    return { r with t3amp := t3amp, t3amperr := t3amperr, t3phi := t3phi, t3phierr := t3phierr,
                    flag := flag }) (List.range t.numrec)
  return { t with self := self, record := record, recs := recs }

/-- oifile.c:1416-1437 `dup_oi_flux`. -/
def dup_oi_flux (t : Flux) : Mem Flux := do
  let self ← memdup t.self 1
  let record ← memdup t.record t.numrec
  let recs ← memMap (fun i => do
    let r ← recAt t.record t.recs i
    let fluxdata ← memdup r.fluxdata t.nwave
    let fluxerr ← memdup r.fluxerr t.nwave
    let flag ← memdup r.flag t.nwave
    return { r with fluxdata := fluxdata, fluxerr := fluxerr, flag := flag })
    (List.range t.numrec)
  return { t with self := self, record := record, recs := recs }

/-! ### Hash tables -/

/-- An entry of a GHashTable: the block in which the key (a string) lies, the key itself,
and the value (a pointer). -/
structure Entry where
  owner : Ptr
  name : CStr
  value : Ptr
deriving DecidableEq, Repr

/-- A GHashTable with strings for keys: the block which GLib allocated for it, whether it
frees keys and values when entries go (the arguments of `g_hash_table_new_full`), and its
entries. -/
structure Hash where
  self : Ptr
  keyFree : Bool
  valFree : Bool
  entries : List Entry
deriving DecidableEq, Repr

/-- `g_hash_table_new_full`. -/
def hashNew (keyFree valFree : Bool) : Mem Hash := do
  let self ← chkmalloc 1
  return ⟨self, keyFree, valFree, []⟩

/-- What any search of a hash table reads: the table, and keys. Every key is taken to be
compared, though GLib compares only those with the same hash value. -/
def hashSearch (H : Hash) : Mem Unit := do
  touch H.self
  memFor (fun e => touch e.owner) H.entries

/-- `g_hash_table_lookup`; NULL if there is no entry. -/
def hashLookup (H : Hash) (name : CStr) : Mem Ptr := do
  hashSearch H
  match H.entries.find? (fun e => e.name == name) with
  | some e => return e.value
  | none => return none

/-- `g_hash_table_insert`. If the key is there already the old key stays, the value is
replaced, and the old value and the new key are freed if the table frees such things. -/
def hashInsert (H : Hash) (owner : Ptr) (name : CStr) (value : Ptr) : Mem Hash := do
  touch owner
  hashSearch H
  match H.entries.find? (fun e => e.name == name) with
  | some old => do
    if H.valFree then free old.value
    if H.keyFree then free owner
    let entries := H.entries.map (fun e => if e.name == name then { e with value := value } else e)
    return { H with entries := entries }
  | none => return { H with entries := H.entries ++ [⟨owner, name, value⟩] }

/-- `g_hash_table_remove`, for tables which free neither keys nor values. -/
def hashRemove (H : Hash) (name : CStr) : Mem Hash := do
  hashSearch H
  return { H with entries := H.entries.filter (fun e => !(e.name == name)) }

/-- `g_hash_table_destroy`. -/
def hashDestroy (H : Hash) : Mem Unit := do
  memFor (fun e => do
    if H.keyFree then free e.owner
    if H.valFree then free e.value) H.entries
  free H.self

/-! ### Datasets -/

/-- oifile.h:70-105 `oi_fits`. -/
structure OiFits where
  targets : Target
  arrayList : List Array
  wavelengthList : List Wave
  corrList : List Corr
  inspolList : List Inspol
  visList : List Vis
  vis2List : List Vis2
  t3List : List T3
  fluxList : List Flux
  arrayHash : Hash
  wavelengthHash : Hash
  corrHash : Hash
deriving DecidableEq, Repr

/-- oifile.c:338-380 `init_oi_fits`. -/
def init_oi_fits : Mem OiFits := do
  let arrayHash ← hashNew false false
  let wavelengthHash ← hashNew false false
  let corrHash ← hashNew false false
  return ⟨⟨none, 0⟩, [], [], [], [], [], [], [], [], arrayHash, wavelengthHash, corrHash⟩

/-- oifile.c:977-991 `free_list`: free what each struct points to, then the struct. -/
def free_list {τ : Type} (self : τ → Ptr) (internalFree : τ → Mem Unit) (l : List τ) : Mem Unit :=
  memFor (fun t => do
    touch (self t)
    internalFree t
    free (self t)) l

/-- oifile.c:998-1012 `free_oi_fits`. -/
def free_oi_fits (d : OiFits) : Mem Unit := do
  hashDestroy d.arrayHash
  hashDestroy d.wavelengthHash
  hashDestroy d.corrHash
  free_oi_target d.targets
  free_list Array.self free_oi_array d.arrayList
  free_list Wave.self free_oi_wavelength d.wavelengthList
  free_list Corr.self free_oi_corr d.corrList
  free_list Inspol.self free_oi_inspol d.inspolList
  free_list Vis.self free_oi_vis d.visList
  free_list Vis2.self free_oi_vis2 d.vis2List
  free_list T3.self free_oi_t3 d.t3List
  free_list Flux.self free_oi_flux d.fluxList

/-! ### Reading a file -/

/-- What becomes of an attempt to read one table, whose shape is `α`.
* `good`: the table is read;
* `early`: reading fails before storage for the columns is allocated;
* `late`: reading fails after that. -/
inductive Attempt (α : Type) where
  | good (a : α)
  | early
  | late (a : α)
deriving DecidableEq, Repr

/-- The shape of an OI_ARRAY, OI_WAVELENGTH or OI_CORR table in a file: its name and its
number of rows. -/
structure NamedShape where
  name : CStr
  rows : Nat
deriving DecidableEq, Repr

/-- The shape of a table with spectral data in a file. `refmap` and `complex` (of OI_VIS
tables) say whether those columns are allocated. -/
structure DataShape where
  arrname : CStr
  insname : CStr
  corrname : CStr
  rows : Nat
  nwave : Nat
  refmap : Bool
  complex : Bool
deriving DecidableEq, Repr

/-- oifile.c:684-990 `read_oi_fits`. What a file holds and what happens as it is read. `targets` is `none` if the file cannot
be opened. -/
structure ReadPlan where
  targets : Option (Attempt Nat)
  arrays : List (Attempt NamedShape)
  waves : List (Attempt NamedShape)
  corrs : List (Attempt NamedShape)
  inspols : List (Attempt DataShape)
  viss : List (Attempt DataShape)
  vis2s : List (Attempt DataShape)
  t3s : List (Attempt DataShape)
  fluxs : List (Attempt DataShape)
deriving DecidableEq, Repr

/-- The allocation of columns for optional content of an OI_VIS table,
read_fits.c:1142-1172 `read_oi_vis_opt` and :1036-1104 `read_oi_vis_complex`. The loops run
to the end whatever the status. -/
def readVisOpt (t : Vis) (refmap complex : Bool) : Mem Vis := do
  let recs1 ← (if refmap then memMap (fun i => do
      let r ← recAt t.record t.recs i
      let visrefmap ← chkmalloc (t.nwave * t.nwave)
      return { r with visrefmap := visrefmap }) (List.range t.numrec)
    else return t.recs)
  let recs2 ← (if complex then memMap (fun i => do
      let r ← recAt t.record recs1 i
      let rvis ← chkmalloc t.nwave
      let rviserr ← chkmalloc t.nwave
      let ivis ← chkmalloc t.nwave
      let iviserr ← chkmalloc t.nwave
      return { r with rvis := rvis, rviserr := rviserr, ivis := ivis, iviserr := iviserr })
      (List.range t.numrec)
    else return recs1)
  return { t with recs := recs2, usevisrefmap := refmap, usecomplex := complex }

/-- Reading all tables of a kind of which none may fail (oifile.c:725-739 for OI_ARRAY,
:741-757 for OI_WAVELENGTH). `alloc a self` allocates a table in the struct at `self`. The
struct allocated for the attempt which ends the loop is freed. `none` if a table failed. -/
def readStrict {α τ : Type} (alloc : α → Ptr → Mem τ) : List τ → List (Attempt α) →
    Mem (Option (List τ))
  | done, [] => do
    let self ← chkmalloc 1
    free self
    return some done
  | done, .good a :: as => do
    let self ← chkmalloc 1
    let t ← alloc a self
    readStrict alloc (done ++ [t]) as
  | _, .early :: _ => do
    let self ← chkmalloc 1
    free self
    return none
  | _, .late a :: _ => do
    let self ← chkmalloc 1
    let _ ← alloc a self
    free self
    return none

/-- Reading all tables of a kind of which bad ones are skipped (oifile.c:759-781 for OI_CORR,
:783-806 for OI_INSPOL, :808-974 for the data tables). What was allocated for the columns of a
bad table is not freed, only the struct is (oifile.c:767, 792, 818, 859, 900, 941). `enter`
is what is done with a good table after it has been appended to the list. -/
def readSkip {α τ σ : Type} (alloc : α → Ptr → Mem τ) (enter : σ → τ → Mem σ) :
    σ → List (Attempt α) → Mem σ
  | s, [] => do
    let self ← chkmalloc 1
    free self
    return s
  | s, .good a :: as => do
    let self ← chkmalloc 1
    let t ← alloc a self
    let s' ← enter s t
    readSkip alloc enter s' as
  | s, .early :: as => do
    let self ← chkmalloc 1
    free self
    readSkip alloc enter s as
  | s, .late a :: as => do
    let self ← chkmalloc 1
    let _ ← alloc a self
    free self
    readSkip alloc enter s as

/-- oifile.c:47-61 `find_oi_array`, :64-81 `find_oi_wavelength`, :84-99 `find_oi_corr`: the
first table of that name, each table searched being read. -/
def findNamed {τ : Type} (self : τ → Ptr) (nameOf : τ → CStr) (name : CStr) : List τ → Mem Ptr
  | [] => return none
  | t :: ts => do
    touch (self t)
    if nameOf t == name then return self t else findNamed self nameOf name ts

/-- Entering the array, wavelength or corr table named by a data table in a hash table
(oifile.c:832-846 and its repetitions). The key lies in the struct of the data table. The
name is not entered if it is empty and `optional`. -/
def enterName {τ : Type} (self : τ → Ptr) (nameOf : τ → CStr) (l : List τ) (optional : Bool)
    (H : Hash) (owner : Ptr) (name : CStr) : Mem Hash :=
  if optional && name.isEmpty then return H
  else do
    let v ← hashLookup H name
    match v with
    | some _ => return H
    | none => do
      let p ← findNamed self nameOf name l
      hashInsert H owner name p

/-- oifile.c:830-846, 871-887, 912-928. Entering the three tables which an OI_VIS, OI_VIS2 or OI_T3 table names. -/
def enterThree (d : OiFits) (owner : Ptr) (arrname insname corrname : CStr) : Mem OiFits := do
  let ah ← enterName Array.self Array.arrname d.arrayList true d.arrayHash owner arrname
  let wh ← enterName Wave.self Wave.insname d.wavelengthList false d.wavelengthHash owner insname
  let ch ← enterName Corr.self Corr.corrname d.corrList true d.corrHash owner corrname
  return { d with arrayHash := ah, wavelengthHash := wh, corrHash := ch }

/-- oifile.c:808-847: an OI_VIS table is appended to the list, and what it names entered. -/
def enterVis (d : OiFits) (t : Vis) : Mem OiFits :=
  enterThree { d with visList := d.visList ++ [t] } t.self t.arrname t.insname t.corrname

/-- oifile.c:849-888. -/
def enterVis2 (d : OiFits) (t : Vis2) : Mem OiFits :=
  enterThree { d with vis2List := d.vis2List ++ [t] } t.self t.arrname t.insname t.corrname

/-- oifile.c:890-929. -/
def enterT3 (d : OiFits) (t : T3) : Mem OiFits :=
  enterThree { d with t3List := d.t3List ++ [t] } t.self t.arrname t.insname t.corrname

/-- oifile.c:931-965. The name of the OI_CORR table is not entered. -/
def enterFlux (d : OiFits) (t : Flux) : Mem OiFits := do
  let d1 := { d with fluxList := d.fluxList ++ [t] }
  let ah ← enterName Array.self Array.arrname d1.arrayList true d1.arrayHash t.self t.arrname
  let wh ← enterName Wave.self Wave.insname d1.wavelengthList false d1.wavelengthHash t.self
    t.insname
  return { d1 with arrayHash := ah, wavelengthHash := wh }

/-- read_fits.c:380-440 as called by `read_next_oi_array`: storage for one OI_ARRAY table. -/
def readArray (a : NamedShape) (self : Ptr) : Mem Array :=
  alloc_oi_array ⟨self, a.name, none, 0⟩ a.rows

/-- read_fits.c:505 in `read_oi_wavelength`. -/
def readWave (a : NamedShape) (self : Ptr) : Mem Wave :=
  alloc_oi_wavelength ⟨self, a.name, none, none, 0⟩ a.rows

/-- read_fits.c:563 in `read_oi_corr`. -/
def readCorr (a : NamedShape) (self : Ptr) : Mem Corr :=
  alloc_oi_corr ⟨self, a.name, none, none, none, 0⟩ a.rows

/-- read_fits.c:620 in `read_oi_inspol`. -/
def readInspol (a : DataShape) (self : Ptr) : Mem Inspol :=
  alloc_oi_inspol ⟨self, a.arrname, none, 0, 0, []⟩ a.rows a.nwave

/-- read_fits.c:1223 in `read_next_oi_vis`, and :1268. -/
def readVis (a : DataShape) (self : Ptr) : Mem Vis := do
  let t ← alloc_oi_vis ⟨self, a.arrname, a.insname, a.corrname, none, 0, 0, false, false, []⟩
    a.rows a.nwave
  readVisOpt t a.refmap a.complex

/-- read_fits.c:1338 in `read_next_oi_vis2`. -/
def readVis2 (a : DataShape) (self : Ptr) : Mem Vis2 :=
  alloc_oi_vis2 ⟨self, a.arrname, a.insname, a.corrname, none, 0, 0, []⟩ a.rows a.nwave

/-- read_fits.c:1454 in `read_next_oi_t3`. -/
def readT3 (a : DataShape) (self : Ptr) : Mem T3 :=
  alloc_oi_t3 ⟨self, a.arrname, a.insname, a.corrname, none, 0, 0, []⟩ a.rows a.nwave

/-- read_fits.c:1584 in `read_next_oi_flux`. -/
def readFlux (a : DataShape) (self : Ptr) : Mem Flux :=
  alloc_oi_flux ⟨self, a.arrname, a.insname, a.corrname, none, 0, 0, []⟩ a.rows a.nwave

/-- oifile.c:682-975 `read_oi_fits`. `none` if it fails. -/
def read_oi_fits (p : ReadPlan) : Mem (Option OiFits) :=
  match p.targets with
  | none => return none
  | some targets => do
    let d0 ← init_oi_fits
    match targets with
    | .early => return none
    | .late n => do
      let _ ← alloc_oi_target ⟨none, 0⟩ n
      return none
    | .good n => do
      let targets ← alloc_oi_target ⟨none, 0⟩ n
      let arrays ← readStrict readArray [] p.arrays
      match arrays with
      | none => return none
      | some arrayList => do
        let waves ← readStrict readWave [] p.waves
        match waves with
        | none => return none
        | some wavelengthList => do
          let corrList ← readSkip readCorr (fun l t => return l ++ [t]) [] p.corrs
          let inspolList ← readSkip readInspol (fun l t => return l ++ [t]) [] p.inspols
          let d1 : OiFits := { d0 with
            targets := targets, arrayList := arrayList, wavelengthList := wavelengthList,
            corrList := corrList, inspolList := inspolList }
          let d2 ← readSkip readVis enterVis d1 p.viss
          let d3 ← readSkip readVis2 enterVis2 d2 p.vis2s
          let d4 ← readSkip readT3 enterT3 d3 p.t3s
          let d5 ← readSkip readFlux enterFlux d4 p.fluxs
          return some d5

/-! ### Filtering -/

/-- oifilter.c:610-1815. What a filter decides. Tables of a kind are numbered in order, and so are the records of
a table.
* `target`: `none` if no TARGET_ID is asked for, otherwise which rows of OI_TARGET have it;
* `arr`, `ins`, `corr`: which names match the patterns;
* `waveOut`: for each OI_WAVELENGTH table, how many channels are accepted;
* `polRec`: for each record of each OI_INSPOL table, whether it passes the tests on
  TARGET_ID, INSNAME and MJD, the INSNAME, and how many channels are accepted;
* `vis`, `vis2`, `t3`, `flux`: whether that kind of data is accepted;
* `visRec` etc.: which records are accepted; `visWave` etc.: the number of channels accepted
  in each table. -/
structure FilterPlan where
  target : Option (Nat → Bool)
  arr : CStr → Bool
  ins : CStr → Bool
  corr : CStr → Bool
  waveOut : Nat → Nat
  polRec : Nat → Nat → Bool × CStr × Nat
  vis : Bool
  vis2 : Bool
  t3 : Bool
  flux : Bool
  visRec : Nat → Nat → Bool
  vis2Rec : Nat → Nat → Bool
  t3Rec : Nat → Nat → Bool
  fluxRec : Nat → Nat → Bool
  visWave : Nat → Nat
  vis2Wave : Nat → Nat
  t3Wave : Nat → Nat
  fluxWave : Nat → Nat

/-- oifilter.c:618-646 `filter_oi_target`. -/
def filter_oi_target (t : Target) (target : Option (Nat → Bool)) (out : Target) : Mem Target :=
  match target with
  | some isWanted =>
    memFold (fun (o : Target) i => do
      touch t.targ
      if isWanted i then do
        let o' ← alloc_oi_target o 1
        touch o'.targ
        return o'
      else return o) { out with ntarget := 0 } (List.range t.ntarget)
  | none => do
    let targ ← memdup t.targ t.ntarget
    return { t with targ := targ }

/-- oifilter.c:657-677 `filter_all_oi_array`. -/
def filter_all_oi_array (inp : OiFits) (f : FilterPlan) (out : OiFits) : Mem OiFits :=
  memFold (fun (o : OiFits) (t : Array) => do
    touch t.self
    if f.arr t.arrname then do
      let t' ← dup_oi_array t
      let H ← hashInsert o.arrayHash t'.self t'.arrname t'.self
      return { o with arrayList := o.arrayList ++ [t'], arrayHash := H }
    else return o) out inp.arrayList

/-- oifilter.c:787-807 `filter_all_oi_corr`. -/
def filter_all_oi_corr (inp : OiFits) (f : FilterPlan) (out : OiFits) : Mem OiFits :=
  memFold (fun (o : OiFits) (t : Corr) => do
    touch t.self
    if f.corr t.corrname then do
      let t' ← dup_oi_corr t
      let H ← hashInsert o.corrHash t'.self t'.corrname t'.self
      return { o with corrList := o.corrList ++ [t'], corrHash := H }
    else return o) out inp.corrList

/-- oifilter.c:741-776 `filter_oi_wavelength`, with the struct at `self` and the array
`useWave` supplied by the caller; `n` channels are accepted. -/
def filter_oi_wavelength (t : Wave) (n : Nat) (self useWave : Ptr) : Mem Wave := do
  touch t.self
  touch self
  let eff_wave ← chkmalloc t.nwave
  let eff_band ← chkmalloc t.nwave
  touch t.eff_wave
  touch t.eff_band
  touch useWave
  touch eff_wave
  touch eff_band
  if n < t.nwave then do
    let eff_wave' ← realloc eff_wave n
    let eff_band' ← realloc eff_band n
    return ⟨self, t.insname, eff_wave', eff_band', n⟩
  else return ⟨self, t.insname, eff_wave, eff_band, t.nwave⟩

/-- oifilter.c:690-729 `filter_all_oi_wavelength`. The keys of the hash table of accepted
channels are copied strings, which it frees, as it does the values. -/
def filter_all_oi_wavelength (inp : OiFits) (f : FilterPlan) (out : OiFits) :
    Mem (OiFits × Hash) := do
  let use ← hashNew true true
  memFold (fun (s : OiFits × Hash) (x : Wave × Nat) => do
    let t := x.1
    touch t.self
    if f.ins t.insname then do
      let useWave ← chkmalloc t.nwave
      let self ← chkmalloc 1
      let t' ← filter_oi_wavelength t (f.waveOut x.2) self useWave
      if t'.nwave > 0 then do
        let H ← hashInsert s.1.wavelengthHash t'.self t'.insname t'.self
        let key ← chkmalloc 1
        let use' ← hashInsert s.2 key t.insname useWave
        return ({ s.1 with wavelengthList := s.1.wavelengthList ++ [t'], wavelengthHash := H },
          use')
      else do
        let key ← chkmalloc 1
        let use' ← hashInsert s.2 key t.insname none
        free useWave
        free self
        return (s.1, use')
    else return s) (out, use) inp.wavelengthList.zipIdx

/-- One turn of the loop at oifilter.c:873-928, on record `i`. -/
def filterInspolRec (t : Inspol) (rec : Nat → Bool × CStr × Nat) (use : Hash) (out : Inspol)
    (i : Nat) : Mem Inspol := do
  let r ← recAt t.record t.recs i
  if (rec i).1 then do
    let useWave ← hashLookup use (rec i).2.1
    match useWave with
    | none => return out
    | some _ => do
      let k := (rec i).2.2
      touch out.record
      let jxx ← chkmalloc out.nwave
      let jyy ← chkmalloc out.nwave
      let jxy ← chkmalloc out.nwave
      let jyx ← chkmalloc out.nwave
      touch useWave
      touch r.jxx
      touch r.jyy
      touch r.jxy
      touch r.jyx
      touch jxx
      touch jyy
      touch jxy
      touch jyx
      if out.recs.isEmpty && decide (k < out.nwave) then do
        let jxx' ← realloc jxx k
        let jyy' ← realloc jyy k
        let jxy' ← realloc jxy k
        let jyx' ← realloc jyx k
        return { out with nwave := k, recs := out.recs ++ [⟨jxx', jyy', jxy', jyx'⟩] }
      else return { out with recs := out.recs ++ [⟨jxx, jyy, jxy, jyx⟩] }
  else return out

/-- oifilter.c:859-931 `filter_oi_inspol`, with the struct at `self`. -/
def filter_oi_inspol (t : Inspol) (rec : Nat → Bool × CStr × Nat) (use : Hash) (self : Ptr) :
    Mem Inspol := do
  touch t.self
  touch self
  let record ← chkmalloc t.numrec
  let out ← memFold (filterInspolRec t rec use)
    { t with self := self, record := record, recs := [] } (List.range t.numrec)
  let record' ← realloc out.record out.recs.length
  return { out with record := record', numrec := out.recs.length }

/-- oifilter.c:818-848 `filter_all_oi_inspol`. -/
def filter_all_oi_inspol (inp : OiFits) (f : FilterPlan) (use : Hash) (out : OiFits) :
    Mem OiFits :=
  memFold (fun (o : OiFits) (x : Inspol × Nat) => do
    touch x.1.self
    if f.arr x.1.arrname then do
      let self ← chkmalloc 1
      let t' ← filter_oi_inspol x.1 (f.polRec x.2) use self
      if t'.nwave > 0 ∧ t'.numrec > 0 then
        return { o with inspolList := o.inspolList ++ [t'] }
      else do
        free t'.self
        return o
    else return o) out inp.inspolList.zipIdx

/-- What is read of the wavelength table which a data table names (oifilter.c:968-972 and its
use in the tests on UV radius): the struct and its array of wavelengths. `p` is what the
lookup gave; the struct it points to is looked for among the tables of the dataset. -/
def readPWave (inp : OiFits) (p : Ptr) : Mem Unit :=
  match p with
  | none => return ()
  | some i =>
    match inp.wavelengthList.find? (fun w => w.self == some i) with
    | some w => do
      touch w.self
      touch w.eff_wave
    | none => undefined

/-- oifilter.c:1025-1120 `filter_oi_vis_record`. -/
def filter_oi_vis_record (t : Vis) (r : VisRec) (nwaveOut : Nat) : Mem VisRec := do
  let visamp ← chkmalloc nwaveOut
  let visamperr ← chkmalloc nwaveOut
  let visphi ← chkmalloc nwaveOut
  let visphierr ← chkmalloc nwaveOut
  let flag ← chkmalloc nwaveOut
  let visrefmap ← (if t.usevisrefmap then chkmalloc (nwaveOut * nwaveOut) else return none)
  let rvis ← (if t.usecomplex then chkmalloc nwaveOut else return none)
  let rviserr ← (if t.usecomplex then chkmalloc nwaveOut else return none)
  let ivis ← (if t.usecomplex then chkmalloc nwaveOut else return none)
  let iviserr ← (if t.usecomplex then chkmalloc nwaveOut else return none)
  touch r.visamp
  touch r.visamperr
  touch r.visphi
  touch r.visphierr
  touch r.flag
  if t.usevisrefmap then touch r.visrefmap
  if t.usecomplex then
    touch r.rvis
    touch r.rviserr
    touch r.ivis
    touch r.iviserr
  return ⟨visamp, visamperr, visphi, visphierr, flag, visrefmap, rvis, rviserr, ivis, iviserr⟩

/-- oifilter.c:1129-1176 `filter_oi_vis`, with the struct at `self`. -/
def filter_oi_vis (t : Vis) (keep : Nat → Bool) (nwaveOut : Nat) (useWave self : Ptr) :
    Mem Vis := do
  touch t.self
  touch self
  touch useWave
  let record ← chkmalloc t.numrec
  let recs ← memFold (fun (out : List VisRec) i => do
    let r ← recAt t.record t.recs i
    if keep i then do
      touch record
      let r' ← filter_oi_vis_record t r nwaveOut
      return out ++ [r']
    else return out) [] (List.range t.numrec)
  let record' ← realloc record recs.length
  return { t with self := self, nwave := nwaveOut, record := record', recs := recs,
                  numrec := recs.length }

/-- oifilter.c:942-987 `filter_all_oi_vis`. -/
def filter_all_oi_vis (inp : OiFits) (f : FilterPlan) (use : Hash) (out : OiFits) : Mem OiFits :=
  if !f.vis then return out
  else memFold (fun (o : OiFits) (x : Vis × Nat) => do
    let t := x.1
    touch t.self
    if f.ins t.insname && f.arr t.arrname && f.corr t.corrname then do
      let useWave ← hashLookup use t.insname
      match useWave with
      | none => return o
      | some _ => do
        let self ← chkmalloc 1
        let pWave ← hashLookup inp.wavelengthHash t.insname
        readPWave inp pWave
        let t' ← filter_oi_vis t (f.visRec x.2) (f.visWave x.2) useWave self
        if t'.nwave > 0 ∧ t'.numrec > 0 then
          return { o with visList := o.visList ++ [t'] }
        else do
          free t'.self
          return o
    else return o) out inp.visList.zipIdx

/-- oifilter.c:1262-1309 `filter_oi_vis2_record`. -/
def filter_oi_vis2_record (r : Vis2Rec) (nwaveOut : Nat) : Mem Vis2Rec := do
  let vis2data ← chkmalloc nwaveOut
  let vis2err ← chkmalloc nwaveOut
  let flag ← chkmalloc nwaveOut
  touch r.vis2data
  touch r.vis2err
  touch r.flag
  return ⟨vis2data, vis2err, flag⟩

/-- oifilter.c:1320-1364 `filter_oi_vis2`, with the struct at `self`. -/
def filter_oi_vis2 (t : Vis2) (keep : Nat → Bool) (nwaveOut : Nat) (useWave self : Ptr) :
    Mem Vis2 := do
  touch t.self
  touch self
  touch useWave
  let record ← chkmalloc t.numrec
  let recs ← memFold (fun (out : List Vis2Rec) i => do
    let r ← recAt t.record t.recs i
    if keep i then do
      touch record
      let r' ← filter_oi_vis2_record r nwaveOut
      return out ++ [r']
    else return out) [] (List.range t.numrec)
  let record' ← realloc record recs.length
  return { t with self := self, nwave := nwaveOut, record := record', recs := recs,
                  numrec := recs.length }

/-- oifilter.c:1187-1227 `filter_all_oi_vis2`. -/
def filter_all_oi_vis2 (inp : OiFits) (f : FilterPlan) (use : Hash) (out : OiFits) :
    Mem OiFits :=
  if !f.vis2 then return out
  else memFold (fun (o : OiFits) (x : Vis2 × Nat) => do
    let t := x.1
    touch t.self
    if f.ins t.insname && f.arr t.arrname && f.corr t.corrname then do
      let useWave ← hashLookup use t.insname
      match useWave with
      | none => return o
      | some _ => do
        let self ← chkmalloc 1
        let pWave ← hashLookup inp.wavelengthHash t.insname
        readPWave inp pWave
        let t' ← filter_oi_vis2 t (f.vis2Rec x.2) (f.vis2Wave x.2) useWave self
        if t'.nwave > 0 ∧ t'.numrec > 0 then
          return { o with vis2List := o.vis2List ++ [t'] }
        else do
          free t'.self
          return o
    else return o) out inp.vis2List.zipIdx

/-- oifilter.c:1479-1555 `filter_oi_t3_record`. -/
def filter_oi_t3_record (r : T3Rec) (nwaveOut : Nat) : Mem T3Rec := do
  let t3amp ← chkmalloc nwaveOut
  let t3amperr ← chkmalloc nwaveOut
  let t3phi ← chkmalloc nwaveOut
  let t3phierr ← chkmalloc nwaveOut
  let flag ← chkmalloc nwaveOut
  touch r.t3amp
  touch r.t3amperr
  touch r.t3phi
  touch r.t3phierr
  touch r.flag
  return ⟨t3amp, t3amperr, t3phi, t3phierr, flag⟩

/-- oifilter.c:1572-1624 `filter_oi_t3`, with the struct at `self`. -/
def filter_oi_t3 (t : T3) (keep : Nat → Bool) (nwaveOut : Nat) (useWave self : Ptr) :
    Mem T3 := do
  touch t.self
  touch self
  touch useWave
  let record ← chkmalloc t.numrec
  let recs ← memFold (fun (out : List T3Rec) i => do
    let r ← recAt t.record t.recs i
    if keep i then do
      touch record
      let r' ← filter_oi_t3_record r nwaveOut
      return out ++ [r']
    else return out) [] (List.range t.numrec)
  let record' ← realloc record recs.length
  return { t with self := self, nwave := nwaveOut, record := record', recs := recs,
                  numrec := recs.length }

/-- oifilter.c:1375-1417 `filter_all_oi_t3`. -/
def filter_all_oi_t3 (inp : OiFits) (f : FilterPlan) (use : Hash) (out : OiFits) : Mem OiFits :=
  if !f.t3 then return out
  else memFold (fun (o : OiFits) (x : T3 × Nat) => do
    let t := x.1
    touch t.self
    if f.ins t.insname && f.arr t.arrname && f.corr t.corrname then do
      let useWave ← hashLookup use t.insname
      match useWave with
      | none => return o
      | some _ => do
        let self ← chkmalloc 1
        let pWave ← hashLookup inp.wavelengthHash t.insname
        readPWave inp pWave
        let t' ← filter_oi_t3 t (f.t3Rec x.2) (f.t3Wave x.2) useWave self
        if t'.nwave > 0 ∧ t'.numrec > 0 then
          return { o with t3List := o.t3List ++ [t'] }
        else do
          free t'.self
          return o
    else return o) out inp.t3List.zipIdx

/-- oifilter.c:1677-1717 `filter_oi_flux_record`. -/
def filter_oi_flux_record (r : FluxRec) (nwaveOut : Nat) : Mem FluxRec := do
  let fluxdata ← chkmalloc nwaveOut
  let fluxerr ← chkmalloc nwaveOut
  let flag ← chkmalloc nwaveOut
  touch r.fluxdata
  touch r.fluxerr
  touch r.flag
  return ⟨fluxdata, fluxerr, flag⟩

/-- oifilter.c:1727-1761 `filter_oi_flux`, with the struct at `self`. -/
def filter_oi_flux (t : Flux) (keep : Nat → Bool) (nwaveOut : Nat) (useWave self : Ptr) :
    Mem Flux := do
  touch t.self
  touch self
  touch useWave
  let record ← chkmalloc t.numrec
  let recs ← memFold (fun (out : List FluxRec) i => do
    let r ← recAt t.record t.recs i
    if keep i then do
      touch record
      let r' ← filter_oi_flux_record r nwaveOut
      return out ++ [r']
    else return out) [] (List.range t.numrec)
  let record' ← realloc record recs.length
  return { t with self := self, nwave := nwaveOut, record := record', recs := recs,
                  numrec := recs.length }

/-- oifilter.c:1633-1672 `filter_all_oi_flux`. -/
def filter_all_oi_flux (inp : OiFits) (f : FilterPlan) (use : Hash) (out : OiFits) :
    Mem OiFits :=
  if !f.flux then return out
  else memFold (fun (o : OiFits) (x : Flux × Nat) => do
    let t := x.1
    touch t.self
    if f.ins t.insname && f.arr t.arrname && f.corr t.corrname then do
      let useWave ← hashLookup use t.insname
      match useWave with
      | none => return o
      | some _ => do
        let self ← chkmalloc 1
        let t' ← filter_oi_flux t (f.fluxRec x.2) (f.fluxWave x.2) useWave self
        if t'.nwave > 0 ∧ t'.numrec > 0 then
          return { o with fluxList := o.fluxList ++ [t'] }
        else do
          free t'.self
          return o
    else return o) out inp.fluxList.zipIdx

/-- The names which the data tables refer to and the structs in which they lie:
oifilter.c:137-191 `get_arrname_list`, :197-248 `get_insname_list`, :254-308
`get_corrname_list`. Names that repeat are kept here. -/
def nameRefs (d : OiFits) (v : Vis → CStr) (v2 : Vis2 → CStr) (t3 : T3 → CStr)
    (fl : Flux → CStr) : List (Ptr × CStr) :=
  d.visList.map (fun t => (t.self, v t)) ++ d.vis2List.map (fun t => (t.self, v2 t)) ++
    d.t3List.map (fun t => (t.self, t3 t)) ++ d.fluxList.map (fun t => (t.self, fl t))

/-- oifilter.c:314-440: `g_list_find_custom` in such a list: every string is read. -/
def findRef (refs : List (Ptr × CStr)) (name : CStr) : Mem Bool := do
  memFor (fun r => touch r.1) refs
  return refs.any (fun r => !r.2.isEmpty && r.2 == name)

/-- oifilter.c:314-440 (`prune_...`). The first table of a list whose name is not referred to, with the tables before and
after it. -/
def firstOrphan {τ : Type} (self : τ → Ptr) (nameOf : τ → CStr) (refs : List (Ptr × CStr)) :
    List τ → List τ → Mem (Option (List τ × τ × List τ))
  | _, [] => return none
  | before, t :: ts => do
    touch (self t)
    let found ← findRef refs (nameOf t)
    if found then firstOrphan self nameOf refs (before ++ [t]) ts
    else return some (before, t, ts)

/-- oifilter.c:313-338 `prune_oi_array`, and the loop which calls it until it returns FALSE
(oifilter.c:1802-1803). `n` bounds the number of calls. -/
def prune_oi_array (refs : List (Ptr × CStr)) : Nat → OiFits → Mem OiFits
  | 0, d => return d
  | n + 1, d => do
    match ← firstOrphan Array.self Array.arrname refs [] d.arrayList with
    | none => return d
    | some (before, t, after) => do
      let H ← hashRemove d.arrayHash t.arrname
      free_oi_array t
      free t.self
      prune_oi_array refs n { d with arrayHash := H, arrayList := before ++ after }

/-- oifilter.c:345-370 `prune_oi_wavelength` and its loop. -/
def prune_oi_wavelength (refs : List (Ptr × CStr)) : Nat → OiFits → Mem OiFits
  | 0, d => return d
  | n + 1, d => do
    match ← firstOrphan Wave.self Wave.insname refs [] d.wavelengthList with
    | none => return d
    | some (before, t, after) => do
      let H ← hashRemove d.wavelengthHash t.insname
      free_oi_wavelength t
      free t.self
      prune_oi_wavelength refs n { d with wavelengthHash := H, wavelengthList := before ++ after }

/-- oifilter.c:377-402 `prune_oi_corr` and its loop. -/
def prune_oi_corr (refs : List (Ptr × CStr)) : Nat → OiFits → Mem OiFits
  | 0, d => return d
  | n + 1, d => do
    match ← firstOrphan Corr.self Corr.corrname refs [] d.corrList with
    | none => return d
    | some (before, t, after) => do
      let H ← hashRemove d.corrHash t.corrname
      free_oi_corr t
      free t.self
      prune_oi_corr refs n { d with corrHash := H, corrList := before ++ after }

/-- oifilter.c:409-433 `prune_oi_inspol` and its loop. -/
def prune_oi_inspol (refs : List (Ptr × CStr)) : Nat → OiFits → Mem OiFits
  | 0, d => return d
  | n + 1, d => do
    match ← firstOrphan Inspol.self Inspol.arrname refs [] d.inspolList with
    | none => return d
    | some (before, t, after) => do
      free_oi_inspol t
      free t.self
      prune_oi_inspol refs n { d with inspolList := before ++ after }

/-- oifilter.c:1770-1828 `apply_oi_filter`. The three compiled patterns are blocks. -/
def apply_oi_filter (inp : OiFits) (f : FilterPlan) : Mem OiFits := do
  let o ← init_oi_fits
  let p1 ← chkmalloc 1
  let p2 ← chkmalloc 1
  let p3 ← chkmalloc 1
  let targets ← filter_oi_target inp.targets f.target o.targets
  let o ← filter_all_oi_array inp f { o with targets := targets }
  let o ← filter_all_oi_corr inp f o
  let (o, use) ← filter_all_oi_wavelength inp f o
  let o ← filter_all_oi_inspol inp f use o
  let o ← filter_all_oi_vis inp f use o
  let o ← filter_all_oi_vis2 inp f use o
  let o ← filter_all_oi_t3 inp f use o
  let o ← filter_all_oi_flux inp f use o
  let arrs := nameRefs o Vis.arrname Vis2.arrname T3.arrname Flux.arrname
  let o ← prune_oi_array arrs (o.arrayList.length + 1) o
  let o ← prune_oi_inspol arrs (o.inspolList.length + 1) o
  let inss := nameRefs o Vis.insname Vis2.insname T3.insname Flux.insname
  let o ← prune_oi_wavelength inss (o.wavelengthList.length + 1) o
  let corrs := nameRefs o Vis.corrname Vis2.corrname T3.corrname Flux.corrname
  let o ← prune_oi_corr corrs (o.corrList.length + 1) o
  free p1
  free p2
  free p3
  hashDestroy use
  return o

/-! ### Merging -/

/-- oimerge.c. What merging decides. Datasets, and within one the tables of a kind or the targets, are
numbered in order.
* `isNew`: which target names occur for the first time;
* `name`: the names of targets;
* `arrMatch`, `waveMatch`: the position in the output of a table equal to the given one;
* `arrName`, `waveName`, `corrName`: the name which the copy of a table gets. -/
structure MergePlan where
  isNew : Nat → Nat → Bool
  targName : Nat → Nat → CStr
  arrMatch : Nat → Nat → Option Nat
  waveMatch : Nat → Nat → Option Nat
  arrName : Nat → Nat → CStr
  waveName : Nat → Nat → CStr
  corrName : Nat → Nat → CStr

/-- oimerge.c:231-268 `merge_oi_target`. The keys of the hash table lie in the input. -/
def merge_oi_target (ins : List OiFits) (p : MergePlan) : Mem (Target × Hash) := do
  let targ ← chkmalloc 100
  let H ← hashNew false true
  let s ← memFold (fun (s : Nat × Hash) (x : OiFits × Nat) =>
    memFold (fun (s : Nat × Hash) i => do
      touch x.1.targets.targ
      hashSearch s.2
      if p.isNew x.2 i then do
        let v ← chkmalloc 1
        touch v
        if s.1 + 1 < 100 then do
          let H' ← hashInsert s.2 x.1.targets.targ (p.targName x.2 i) v
          touch targ
          return (s.1 + 1, H')
        else fun _ => .abort
      else return s) s (List.range x.1.targets.ntarget)) (0, H) ins.zipIdx
  let targ' ← realloc targ s.1
  return (⟨targ', s.1⟩, s.2)

/-- oimerge.c:281-326 `merge_all_oi_array`: the search for an equal table reads all tables of
the output (`match_oi_array`). Returns the hash tables from old to new names. -/
def merge_all_oi_array (ins : List OiFits) (p : MergePlan) (out : OiFits) :
    Mem (OiFits × List Hash) :=
  memFold (fun (s : OiFits × List Hash) (x : OiFits × Nat) => do
    let hash ← hashNew false false
    let r ← memFold (fun (s : OiFits × Hash) (y : Array × Nat) => do
      let t := y.1
      touch t.self
      touch t.elem
      memFor (fun (o : Array) => do touch o.self; touch o.elem) s.1.arrayList
      match (p.arrMatch x.2 y.2).bind (fun j => s.1.arrayList[j]?) with
      | some o => do
        let hash' ← hashInsert s.2 t.self t.arrname o.self
        return (s.1, hash')
      | none => do
        let t1 ← dup_oi_array t
        touch t1.elem
        let _ ← hashLookup s.1.arrayHash t1.arrname
        touch t1.self
        let t' := { t1 with arrname := p.arrName x.2 y.2 }
        let H ← hashInsert s.1.arrayHash t'.self t'.arrname t'.self
        let hash' ← hashInsert s.2 t.self t.arrname t'.self
        return ({ s.1 with arrayList := s.1.arrayList ++ [t'], arrayHash := H }, hash'))
      (s.1, hash) x.1.arrayList.zipIdx
    return (r.1, s.2 ++ [r.2])) (out, []) ins.zipIdx

/-- oimerge.c:338-391 `merge_all_oi_wavelength`. -/
def merge_all_oi_wavelength (ins : List OiFits) (p : MergePlan) (out : OiFits) :
    Mem (OiFits × List Hash) :=
  memFold (fun (s : OiFits × List Hash) (x : OiFits × Nat) => do
    let hash ← hashNew false false
    let r ← memFold (fun (s : OiFits × Hash) (y : Wave × Nat) => do
      let t := y.1
      touch t.self
      touch t.eff_wave
      touch t.eff_band
      memFor (fun (o : Wave) => do touch o.self; touch o.eff_wave; touch o.eff_band)
        s.1.wavelengthList
      match (p.waveMatch x.2 y.2).bind (fun j => s.1.wavelengthList[j]?) with
      | some o => do
        let hash' ← hashInsert s.2 t.self t.insname o.self
        return (s.1, hash')
      | none => do
        let t1 ← dup_oi_wavelength t
        let _ ← hashLookup s.1.wavelengthHash t1.insname
        touch t1.self
        let t' := { t1 with insname := p.waveName x.2 y.2 }
        let H ← hashInsert s.1.wavelengthHash t'.self t'.insname t'.self
        let hash' ← hashInsert s.2 t.self t.insname t'.self
        return ({ s.1 with wavelengthList := s.1.wavelengthList ++ [t'], wavelengthHash := H },
          hash'))
      (s.1, hash) x.1.wavelengthList.zipIdx
    return (r.1, s.2 ++ [r.2])) (out, []) ins.zipIdx

/-- oimerge.c:402-447 `merge_all_oi_corr`. -/
def merge_all_oi_corr (ins : List OiFits) (p : MergePlan) (out : OiFits) :
    Mem (OiFits × List Hash) :=
  memFold (fun (s : OiFits × List Hash) (x : OiFits × Nat) => do
    let hash ← hashNew false false
    let r ← memFold (fun (s : OiFits × Hash) (y : Corr × Nat) => do
      let t := y.1
      let t1 ← dup_oi_corr t
      let _ ← hashLookup s.1.corrHash t1.corrname
      touch t1.self
      let t' := { t1 with corrname := p.corrName x.2 y.2 }
      let H ← hashInsert s.1.corrHash t'.self t'.corrname t'.self
      let hash' ← hashInsert s.2 t.self t.corrname t'.self
      return ({ s.1 with corrList := s.1.corrList ++ [t'], corrHash := H }, hash'))
      (s.1, hash) x.1.corrList.zipIdx
    return (r.1, s.2 ++ [r.2])) (out, []) ins.zipIdx

/-- Replacing a name by what a hash table gives for it (oimerge.c:451-479 `REPLACE_ARRNAME`
etc.): the table and its keys are read, and the string which is found, which lies in a struct
of the output; any entry may be the one found. That one is found is the concern of
`Verif.Model.Merge`. -/
def replaceName (H : Hash) (self : Ptr) : Mem Unit := do
  hashSearch H
  memFor (fun e => touch e.value) H.entries
  touch self

/-- oimerge.c:481-493 `REPLACE_TARGET_ID`: the targets of the input are searched, the hash
table gives a pointer to the new value, and the record is written. Nothing happens if there
are no records. That the target is found is the concern of `Verif.Model.Merge`. -/
def replaceTargetId (inp : OiFits) (H : Hash) (numrec : Nat) (record : Ptr) : Mem Unit :=
  memFor (fun _ => do
    memFor (fun _ => touch inp.targets.targ) (List.range inp.targets.ntarget)
    hashSearch H
    memFor (fun e => touch e.value) H.entries
    touch record) (List.range numrec)

/-- The hash table for the `i`-th dataset. -/
def hashAt (l : List Hash) (i : Nat) : Mem Hash :=
  match l[i]? with
  | some H => return H
  | none => undefined

/-- oimerge.c:508-551 `merge_all_oi_inspol`. -/
def merge_all_oi_inspol (ins : List OiFits) (targetId : Hash) (arrs waves : List Hash)
    (out : OiFits) : Mem OiFits :=
  memFold (fun (s : OiFits) (x : OiFits × Nat) => do
    let ah ← hashAt arrs x.2
    let wh ← hashAt waves x.2
    memFold (fun (s : OiFits) (t : Inspol) => do
      let t' ← dup_oi_inspol t
      replaceName ah t'.self
      replaceTargetId x.1 targetId t'.numrec t'.record
      memFor (fun _ => replaceName wh t'.record) (List.range t'.numrec)
      return { s with inspolList := s.inspolList ++ [t'] }) s x.1.inspolList) out ins.zipIdx

/-- oimerge.c:568-609 `merge_all_oi_vis`. -/
def merge_all_oi_vis (ins : List OiFits) (targetId : Hash) (arrs waves corrs : List Hash)
    (out : OiFits) : Mem OiFits :=
  memFold (fun (s : OiFits) (x : OiFits × Nat) => do
    let ah ← hashAt arrs x.2
    let wh ← hashAt waves x.2
    let ch ← hashAt corrs x.2
    memFold (fun (s : OiFits) (t : Vis) => do
      let t' ← dup_oi_vis t
      replaceName ah t'.self
      replaceName wh t'.self
      replaceName ch t'.self
      replaceTargetId x.1 targetId t'.numrec t'.record
      return { s with visList := s.visList ++ [t'] }) s x.1.visList) out ins.zipIdx

/-- oimerge.c:627-668 `merge_all_oi_vis2`. -/
def merge_all_oi_vis2 (ins : List OiFits) (targetId : Hash) (arrs waves corrs : List Hash)
    (out : OiFits) : Mem OiFits :=
  memFold (fun (s : OiFits) (x : OiFits × Nat) => do
    let ah ← hashAt arrs x.2
    let wh ← hashAt waves x.2
    let ch ← hashAt corrs x.2
    memFold (fun (s : OiFits) (t : Vis2) => do
      let t' ← dup_oi_vis2 t
      replaceName ah t'.self
      replaceName wh t'.self
      replaceName ch t'.self
      replaceTargetId x.1 targetId t'.numrec t'.record
      return { s with vis2List := s.vis2List ++ [t'] }) s x.1.vis2List) out ins.zipIdx

/-- oimerge.c:685-726 `merge_all_oi_t3`. -/
def merge_all_oi_t3 (ins : List OiFits) (targetId : Hash) (arrs waves corrs : List Hash)
    (out : OiFits) : Mem OiFits :=
  memFold (fun (s : OiFits) (x : OiFits × Nat) => do
    let ah ← hashAt arrs x.2
    let wh ← hashAt waves x.2
    let ch ← hashAt corrs x.2
    memFold (fun (s : OiFits) (t : T3) => do
      let t' ← dup_oi_t3 t
      replaceName ah t'.self
      replaceName wh t'.self
      replaceName ch t'.self
      replaceTargetId x.1 targetId t'.numrec t'.record
      return { s with t3List := s.t3List ++ [t'] }) s x.1.t3List) out ins.zipIdx

/-- oimerge.c:743-783 `merge_all_oi_flux`. -/
def merge_all_oi_flux (ins : List OiFits) (targetId : Hash) (arrs waves corrs : List Hash)
    (out : OiFits) : Mem OiFits :=
  memFold (fun (s : OiFits) (x : OiFits × Nat) => do
    let ah ← hashAt arrs x.2
    let wh ← hashAt waves x.2
    let ch ← hashAt corrs x.2
    memFold (fun (s : OiFits) (t : Flux) => do
      let t' ← dup_oi_flux t
      replaceName ah t'.self
      replaceName wh t'.self
      replaceName ch t'.self
      replaceTargetId x.1 targetId t'.numrec t'.record
      return { s with fluxList := s.fluxList ++ [t'] }) s x.1.fluxList) out ins.zipIdx

/-- oimerge.c:793-837 `merge_oi_fits_list`. -/
def merge_oi_fits_list (ins : List OiFits) (p : MergePlan) : Mem OiFits := do
  let o ← init_oi_fits
  let (targets, targetId) ← merge_oi_target ins p
  let (o, arrs) ← merge_all_oi_array ins p { o with targets := targets }
  let (o, waves) ← merge_all_oi_wavelength ins p o
  let (o, corrs) ← merge_all_oi_corr ins p o
  let o ← merge_all_oi_inspol ins targetId arrs waves o
  let o ← merge_all_oi_vis ins targetId arrs waves corrs o
  let o ← merge_all_oi_vis2 ins targetId arrs waves corrs o
  let o ← merge_all_oi_t3 ins targetId arrs waves corrs o
  let o ← merge_all_oi_flux ins targetId arrs waves corrs o
  hashDestroy targetId
  memFor hashDestroy arrs
  memFor hashDestroy waves
  memFor hashDestroy corrs
  return o

/-! ### Looking up tables -/

/-- oifile.c:1022-1025 `oi_fits_lookup_array`, and the use of what it returns: the table
pointed to is read. -/
def use_lookup_array (d : OiFits) (arrname : CStr) : Mem Unit := do
  let p ← hashLookup d.arrayHash arrname
  match p with
  | none => return ()
  | some i =>
    match d.arrayList.find? (fun t => t.self == some i) with
    | some t => do
      touch t.self
      touch t.elem
    | none => undefined

/-- oifile.c:1060-1064 `oi_fits_lookup_wavelength`, and the use of what it returns. -/
def use_lookup_wavelength (d : OiFits) (insname : CStr) : Mem Unit := do
  let p ← hashLookup d.wavelengthHash insname
  match p with
  | none => return ()
  | some i =>
    match d.wavelengthList.find? (fun t => t.self == some i) with
    | some t => do
      touch t.self
      touch t.eff_wave
      touch t.eff_band
    | none => undefined

/-- oifile.c:1075-1078 `oi_fits_lookup_corr`, and the use of what it returns. -/
def use_lookup_corr (d : OiFits) (corrname : CStr) : Mem Unit := do
  let p ← hashLookup d.corrHash corrname
  match p with
  | none => return ()
  | some i =>
    match d.corrList.find? (fun t => t.self == some i) with
    | some t => do
      touch t.self
      touch t.iindx
      touch t.jindx
      touch t.corr
    | none => undefined

/-! ### Programs which use the library -/

/-- oifile.h, oifilter.h, oimerge.h. A call made by a program. Datasets are known by the order in which they were made. -/
inductive Call where
  | read (p : ReadPlan)
  | filter (i : Nat) (f : FilterPlan)
  | merge (is : List Nat) (p : MergePlan)
  | lookupArray (i : Nat) (arrname : CStr)
  | lookupWavelength (i : Nat) (insname : CStr)
  | lookupCorr (i : Nat) (corrname : CStr)
  | free (i : Nat)

/-- The effect of one call on the datasets the program holds. A dataset that has been freed
is replaced by `none`; the program makes no call that needs one (such calls are skipped). -/
def runCall (ds : List (Option OiFits)) : Call → Mem (List (Option OiFits))
  | .read p => do
    let d ← read_oi_fits p
    return ds ++ [d]
  | .filter i f =>
    match ds[i]? with
    | some (some d) => do
      let o ← apply_oi_filter d f
      return ds ++ [some o]
    | _ => return ds
  | .merge is p =>
    match is.mapM (fun i => (ds[i]?).bind id) with
    | some ins => do
      let o ← merge_oi_fits_list ins p
      return ds ++ [some o]
    | none => return ds
  | .lookupArray i n =>
    match ds[i]? with
    | some (some d) => do
      use_lookup_array d n
      return ds
    | _ => return ds
  | .lookupWavelength i n =>
    match ds[i]? with
    | some (some d) => do
      use_lookup_wavelength d n
      return ds
    | _ => return ds
  | .lookupCorr i n =>
    match ds[i]? with
    | some (some d) => do
      use_lookup_corr d n
      return ds
    | _ => return ds
  | .free i =>
    match ds[i]? with
    | some (some d) => do
      free_oi_fits d
      return ds.set i none
    | _ => return ds

/-- A program's calls, one after the other. -/
def runCalls (ds : List (Option OiFits)) (cs : List Call) : Mem (List (Option OiFits)) :=
  memFold runCall ds cs

end Verif.Mem
