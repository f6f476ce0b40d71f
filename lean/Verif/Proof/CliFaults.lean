import Verif.Model.CliFaults
import Verif.Proof.CliReadFault
import Verif.Proof.Fault

/-! Lemmas for C114. -/

namespace Verif
open Outcome Spec

variable {R : FP}

section
variable {Rel : ∀ {α : Type}, Prog R α → Prog R α → Prop} (refl : ∀ {α : Type} (m : Prog R α), Rel m m)
  (hbind : ∀ {α β : Type} {x : Prog R α} {f f' : α → Prog R β}, (∀ a, Rel (f a) (f' a)) → Rel (x >>= f) (x >>= f'))
  {write write' : CStr → OiFits R → Prog R Status}
  (hlast : ∀ name oi, Rel (lastStep write name oi) (lastStep write' name oi))
include refl hbind hlast

theorem mergeWith_rel (read : Nat → CStr → Prog R (Option (OiFits R) × Status)) (argv : List CStr) :
    Rel (mergeWith read write argv) (mergeWith read write' argv) := by
  unfold mergeWith
  split
  · exact hbind fun _ => hbind fun _ => hbind fun _ => hbind fun _ => hlast _ _
  · exact refl _

theorem upgradeWith_rel (read : CStr → Prog R (Option (OiFits R) × Status)) (argv : List CStr) :
    Rel (upgradeWith read write argv) (upgradeWith read write' argv) := by
  unfold upgradeWith
  split
  · refine hbind fun p => ?_
    obtain ⟨oi, st⟩ := p
    cases oi with
    | none => exact refl _
    | some oi =>
      simp only
      by_cases c1 : st ≠ .ok
      · simp only [if_pos c1]; exact refl _
      · simp only [if_neg c1]
        split
        · exact refl _
        · split
          · exact refl _
          · exact hbind fun _ => hbind fun _ => hlast _ _
  · exact refl _

theorem filterWith_rel (read : CStr → Prog R (Option (OiFits R) × Status)) (removable : CStr → Bool)
    (line : CommandLine R) : Rel (filterWith read write removable line) (filterWith read write' removable line) := by
  unfold filterWith
  split
  · exact refl _
  · refine hbind fun p => ?_
    obtain ⟨oi, st⟩ := p
    cases oi with
    | none => exact refl _
    | some oi =>
      simp only
      by_cases c1 : st ≠ .ok
      · simp only [if_pos c1]; exact refl _
      · simp only [if_neg c1]
        refine hbind fun _ => hbind fun _ => hbind fun _ => hbind fun _ => hbind fun out => ?_
        refine hbind fun _ => hbind fun _ => hbind fun there => ?_
        split
        · split
          · exact hbind fun _ => hbind fun _ => hlast _ _
          · split
            · exact hbind fun _ => hbind fun _ => hlast _ _
            · exact hbind fun _ => hlast _ _
        · exact hlast _ _
  · exact refl _

end

theorem filterWith_eq (F : FileFaults) (u : Undef R) (today : CStr) (removable : CStr → Bool) (line : CommandLine R) :
    filterWith (readFileFailing F u) (writeFile today) removable line = filterUnread F u today removable line := rfl

theorem mergeWith_eq (F : Nat → FileFaults) (u : Undef R) (today : CStr) (argv : List CStr) :
    mergeWith (fun k => readFileFailing (F k) u) (writeFile today) argv = mergeUnread F u today argv := rfl

theorem upgradeWith_eq (F : FileFaults) (u : Undef R) (today : CStr) (argv : List CStr) :
    upgradeWith (readFileFailing F u) (writeFile today) argv = upgradeUnread F u today argv := rfl

/-! ### Which files are changed -/

variable {T : Files R → Files R → Prop}

theorem obeys_readFailing (hT : Preorder' T) (F : FileFaults) (u : Undef R) (name : CStr) :
    Obeys T (readFileFailing F u name) := by
  intro w
  unfold readFileFailing
  split
  · exact obeys_call hT _ w
  · exact obeys_call hT _ w

theorem obeys_inputsReading (hT : Preorder' T) {read : Nat → CStr → Prog R (Option (OiFits R) × Status)}
    (hr : ∀ k name, Obeys T (read k name)) : ∀ (files : List CStr) (k : Nat), Obeys T (readInputsReading read k files)
  | [], k => fun w => ⟨fun e h => (by cases h), fun b w' h => by cases h; exact hT.refl _⟩
  | f :: files, k => by
    unfold readInputsReading
    refine obeys_bind hT (hr k f) fun p => ?_
    obtain ⟨oi, st⟩ := p
    cases oi with
    | none => exact obeys_exit hT _
    | some oi =>
      refine obeys_ite (fun _ => obeys_exit hT _) fun _ => obeys_bind hT (obeys_inputsReading hT hr files (k + 1)) fun l => ?_
      exact fun w => ⟨fun e h => (by cases h), fun b w' h => by cases h; exact hT.refl _⟩

theorem obeys_mergeWith (hT : Preorder' T) {read : Nat → CStr → Prog R (Option (OiFits R) × Status)}
    (hr : ∀ k name, Obeys T (read k name)) {write : CStr → OiFits R → Prog R Status} (argv : List CStr)
    (hw : ∀ name, argv[1]? = some name → ∀ oi, Obeys T (write name oi)) : Obeys T (mergeWith read write argv) := by
  unfold mergeWith
  split
  · refine obeys_bind hT (obeys_inputsReading hT hr _ _) fun l => obeys_bind hT (obeys_call hT _) fun o => ?_
    refine obeys_bind hT (obeys_say hT _) fun _ => obeys_bind hT (obeys_sayText hT _) fun _ => ?_
    exact obeys_lastStep hT (hw _ rfl _)
  · exact obeys_bind hT (obeys_say hT _) fun _ => obeys_exit hT _

theorem obeys_upgradeWith (hT : Preorder' T) {read : CStr → Prog R (Option (OiFits R) × Status)}
    (hr : ∀ name, Obeys T (read name)) {write : CStr → OiFits R → Prog R Status} (argv : List CStr)
    (hw : ∀ name, argv[2]? = some name → ∀ oi, Obeys T (write name oi)) : Obeys T (upgradeWith read write argv) := by
  unfold upgradeWith
  split
  · refine obeys_bind hT (hr _) fun p => ?_
    obtain ⟨oi, st⟩ := p
    cases oi with
    | none => exact obeys_exit hT _
    | some oi =>
      refine obeys_ite (fun _ => obeys_exit hT _) fun _ => obeys_ite (fun _ => ?_) fun _ => obeys_ite (fun _ => ?_) fun _ => ?_
      · exact obeys_bind hT (obeys_say hT _) fun _ => obeys_exit hT _
      · exact obeys_bind hT (obeys_say hT _) fun _ => obeys_exit hT _
      · refine obeys_bind hT (obeys_say hT _) fun _ => obeys_bind hT (obeys_sayText hT _) fun _ => ?_
        exact obeys_lastStep hT (hw _ rfl _)
  · exact obeys_bind hT (obeys_say hT _) fun _ => obeys_exit hT _

theorem obeys_filterWith (hT : Preorder' T) {read : CStr → Prog R (Option (OiFits R) × Status)}
    (hr : ∀ name, Obeys T (read name)) {write : CStr → OiFits R → Prog R Status} (removable : CStr → Bool)
    (line : CommandLine R)
    (hw : ∀ opts clobber prog infile outfile, line = .args opts clobber [prog, infile, outfile] → ∀ oi,
      Obeys T (write (strlcpy outfile FLEN_FILENAME) oi))
    (hd : ∀ opts prog infile outfile, line = .args opts true [prog, infile, outfile] → ∀ f : Files R,
      T f (f.set (strlcpy outfile FLEN_FILENAME) none)) :
    Obeys T (filterWith read write removable line) := by
  unfold filterWith
  split
  · exact obeys_bind hT (obeys_say hT _) fun _ => obeys_exit hT _
  · rename_i opts clobber prog infile outfile
    refine obeys_bind hT (hr _) fun p => ?_
    obtain ⟨oi, st⟩ := p
    cases oi with
    | none => exact obeys_exit hT _
    | some oi =>
      refine obeys_ite (fun _ => obeys_exit hT _) fun _ => ?_
      refine obeys_bind hT (obeys_say hT _) fun _ => obeys_bind hT (obeys_sayText hT _) fun _ => ?_
      refine obeys_bind hT (obeys_say hT _) fun _ => obeys_bind hT (obeys_sayText hT _) fun _ => ?_
      refine obeys_bind hT (obeys_call hT _) fun out => ?_
      refine obeys_bind hT (obeys_say hT _) fun _ => obeys_bind hT (obeys_sayText hT _) fun _ => ?_
      refine obeys_bind hT (fun w => ⟨fun e h => (by cases h), fun b w' h => by cases h; exact hT.refl _⟩) fun there => ?_
      have rest : ∀ x : Unit, Obeys T (lastStep write (strlcpy outfile FLEN_FILENAME) out) := fun _ =>
        obeys_lastStep hT (hw _ _ _ _ _ rfl _)
      refine obeys_ite (fun _ => ?_) (fun _ => ?_)
      · refine obeys_ite (fun _ => ?_) (fun hc => ?_)
        · exact obeys_bind hT (obeys_say hT _) fun _ => obeys_bind hT (obeys_exit hT _) rest
        · refine obeys_ite (fun _ => ?_) (fun _ => ?_)
          · exact obeys_bind hT (obeys_say hT _) fun _ => obeys_bind hT (obeys_exit hT _) rest
          · refine obeys_bind hT ?_ rest
            cases clobber with
            | false => exact absurd rfl hc
            | true =>
              exact fun w => ⟨fun e h => (by cases h), fun b w' h => by cases h; exact hd _ _ _ _ rfl _⟩
      · exact rest ()
  · exact obeys_bind hT (obeys_say hT _) fun _ => obeys_exit hT _

end Verif
