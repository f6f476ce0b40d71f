import Verif.Model.Memory
import Mathlib.Algebra.Order.Group.Multiset
import Mathlib.Algebra.BigOperators.Group.List.Basic

/-!
# Which blocks of memory belong to what

The specification of ownership: for each table and each dataset the collection of blocks
which are its own. Collections are multisets, so that a block which two pointers of a dataset
own counts twice, and could not be accounted for by a heap in which it is allocated once.
-/

namespace Verif.Mem

/-- The block a pointer points to, if any. -/
def blk : Ptr → Multiset Nat
  | none => 0
  | some i => {i}

/-- All blocks of the elements of a list. -/
def allOf {τ : Type} (f : τ → Multiset Nat) (l : List τ) : Multiset Nat := (l.map f).sum

/-! ### Blocks of tables: those inside the struct, and with the struct itself -/

def Array.inner (t : Array) : Multiset Nat := blk t.elem
def Array.blocks (t : Array) : Multiset Nat := blk t.self + t.inner

def Target.inner (t : Target) : Multiset Nat := blk t.targ

def Wave.inner (t : Wave) : Multiset Nat := blk t.eff_wave + blk t.eff_band
def Wave.blocks (t : Wave) : Multiset Nat := blk t.self + t.inner

def Corr.inner (t : Corr) : Multiset Nat := blk t.iindx + (blk t.jindx + blk t.corr)
def Corr.blocks (t : Corr) : Multiset Nat := blk t.self + t.inner

def InspolRec.blocks (r : InspolRec) : Multiset Nat :=
  blk r.jxx + (blk r.jyy + (blk r.jxy + blk r.jyx))
def Inspol.inner (t : Inspol) : Multiset Nat := blk t.record + allOf InspolRec.blocks t.recs
def Inspol.blocks (t : Inspol) : Multiset Nat := blk t.self + t.inner

/-- The optional columns count only if the flags of the table say they are there. -/
def VisRec.blocks (refmap complex : Bool) (r : VisRec) : Multiset Nat :=
  blk r.visamp + (blk r.visamperr + (blk r.visphi + (blk r.visphierr + (blk r.flag +
    ((if refmap then blk r.visrefmap else 0) +
     (if complex then blk r.rvis + (blk r.rviserr + (blk r.ivis + blk r.iviserr)) else 0))))))
def Vis.inner (t : Vis) : Multiset Nat :=
  blk t.record + allOf (VisRec.blocks t.usevisrefmap t.usecomplex) t.recs
def Vis.blocks (t : Vis) : Multiset Nat := blk t.self + t.inner

def Vis2Rec.blocks (r : Vis2Rec) : Multiset Nat := blk r.vis2data + (blk r.vis2err + blk r.flag)
def Vis2.inner (t : Vis2) : Multiset Nat := blk t.record + allOf Vis2Rec.blocks t.recs
def Vis2.blocks (t : Vis2) : Multiset Nat := blk t.self + t.inner

def T3Rec.blocks (r : T3Rec) : Multiset Nat :=
  blk r.t3amp + (blk r.t3amperr + (blk r.t3phi + (blk r.t3phierr + blk r.flag)))
def T3.inner (t : T3) : Multiset Nat := blk t.record + allOf T3Rec.blocks t.recs
def T3.blocks (t : T3) : Multiset Nat := blk t.self + t.inner

def FluxRec.blocks (r : FluxRec) : Multiset Nat := blk r.fluxdata + (blk r.fluxerr + blk r.flag)
def Flux.inner (t : Flux) : Multiset Nat := blk t.record + allOf FluxRec.blocks t.recs
def Flux.blocks (t : Flux) : Multiset Nat := blk t.self + t.inner

/-- All blocks of a dataset. -/
def OiFits.blocks (d : OiFits) : Multiset Nat :=
  blk d.arrayHash.self + (blk d.wavelengthHash.self + (blk d.corrHash.self +
  (d.targets.inner + (allOf Array.blocks d.arrayList + (allOf Wave.blocks d.wavelengthList +
  (allOf Corr.blocks d.corrList + (allOf Inspol.blocks d.inspolList + (allOf Vis.blocks d.visList +
  (allOf Vis2.blocks d.vis2List + (allOf T3.blocks d.t3List +
  allOf Flux.blocks d.fluxList))))))))))

/-- All blocks of the datasets a program holds. -/
def poolBlocks (ds : List (Option OiFits)) : Multiset Nat :=
  allOf (fun | some d => OiFits.blocks d | none => 0) ds

/-- The state of an allocator which numbers blocks consistently: no block is listed twice, and
new numbers are new. -/
def Heap.Good (h : Heap) : Prop := h.live.Nodup ∧ ∀ i ∈ h.live, i < h.next

/-- Exactly the blocks `M` are allocated. -/
def Own (M : Multiset Nat) (h : Heap) : Prop := h.Good ∧ (h.live : Multiset Nat) = M

/-! ### Cases in which the library loses track of blocks -/

/-- The attempt does not fail after storage for the table was allocated. -/
def Attempt.NotLate {α : Type} : Attempt α → Prop
  | .late _ => False
  | _ => True

/-- The attempt succeeds. -/
def Attempt.Good {α : Type} : Attempt α → Prop
  | .good _ => True
  | _ => False

/-- The file cannot be opened; or OI_TARGET and all OI_ARRAY and OI_WAVELENGTH tables are
read, and no other table fails after storage for its columns has been allocated. -/
def ReadPlan.Clean (p : ReadPlan) : Prop :=
  p.targets = none ∨
  ((∃ n, p.targets = some (.good n)) ∧ (∀ a ∈ p.arrays, a.Good) ∧ (∀ a ∈ p.waves, a.Good) ∧
   (∀ a ∈ p.corrs, a.NotLate) ∧ (∀ a ∈ p.inspols, a.NotLate) ∧ (∀ a ∈ p.viss, a.NotLate) ∧
   (∀ a ∈ p.vis2s, a.NotLate) ∧ (∀ a ∈ p.t3s, a.NotLate) ∧ (∀ a ∈ p.fluxs, a.NotLate))

/-- At most one row of OI_TARGET has the TARGET_ID asked for, and every accepted record of an
OI_INSPOL table has an accepted channel. -/
def FilterPlan.Clean (f : FilterPlan) : Prop :=
  (∀ w, f.target = some w → ∀ i j, w i = true → w j = true → i = j) ∧
  ∀ t i, (f.polRec t i).1 = true → 0 < (f.polRec t i).2.2

/-- A call which loses no block. -/
def Call.Clean : Call → Prop
  | .read p => p.Clean
  | .filter _ f => f.Clean
  | _ => True

end Verif.Mem
