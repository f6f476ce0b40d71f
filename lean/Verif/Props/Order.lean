import Verif.Proof.Order
import Verif.Props.Demo

/-! C85: when a file is read, only the order among tables of the same type counts. -/

set_option Elab.async false

namespace Verif
open Outcome Spec
variable {R : FP}

/-- C85. Two files with the same primary HDU and, for each type of OIFITS table, the same tables of that type in the same
order are read alike: the same tables and the same status, or the same failure. This is so however tables of different
types follow each other and whatever other HDUs there are. -/
theorem C85_order (u : Undef R) {hdus hdus' : List (Hdu R)} (hn : ∀ h ∈ hdus, StringName h)
    (hn' : ∀ h ∈ hdus', StringName h) (h0 : hdus ≠ []) (hs : SameTables hdus hdus') (st : Status) :
    read_oi_fits u (some hdus) st = read_oi_fits u (some hdus') st :=
  read_same u hn hn' h0 hs st

/-- An HDU which is no OIFITS table, put anywhere after the primary HDU, changes nothing. -/
theorem C85_other (u : Undef R) {p x : Hdu R} {a b : List (Hdu R)} (hn : ∀ h ∈ p :: a ++ x :: b, StringName h)
    (hx : ∀ name ∈ oiTables, isTable name x = false) (st : Status) :
    read_oi_fits u (some (p :: a ++ x :: b)) st = read_oi_fits u (some (p :: a ++ b)) st := by
  refine C85_order (hdus' := p :: a ++ b) u hn (fun h hh => hn h ?_) (by simp) ⟨rfl, fun name hm => ?_⟩ st
  · simp only [List.cons_append, List.mem_cons, List.mem_append] at hh ⊢
    tauto
  · simp only [List.cons_append, List.tail_cons, List.filter_append]
    rw [List.filter_cons_of_neg (by rw [hx name hm]; exact Bool.false_ne_true)]

/-- Two runs of HDUs which follow each other can be exchanged if no type of table is in both. -/
theorem C85_exchange (u : Undef R) {p : Hdu R} {a b c d : List (Hdu R)}
    (hn : ∀ h ∈ p :: (a ++ b ++ c ++ d), StringName h)
    (hx : ∀ name ∈ oiTables, ∀ h ∈ b, ∀ h' ∈ c, isTable name h = true → isTable name h' = false) (st : Status) :
    read_oi_fits u (some (p :: (a ++ b ++ c ++ d))) st = read_oi_fits u (some (p :: (a ++ c ++ b ++ d))) st := by
  refine C85_order (hdus' := p :: (a ++ c ++ b ++ d)) u hn (fun h hh => hn h ?_) (by simp) ⟨rfl, fun name hm => ?_⟩ st
  · simp only [List.mem_cons, List.mem_append] at hh ⊢
    tauto
  · simp only [List.tail_cons, List.filter_append]
    by_cases hb : b.filter (isTable name) = []
    · rw [hb, List.append_nil, List.append_nil]
    · have hc : c.filter (isTable name) = [] := by
        rw [List.filter_eq_nil_iff]
        intro h' hh'
        obtain ⟨h, hh⟩ := List.exists_mem_of_ne_nil _ hb
        rw [List.mem_filter] at hh
        rw [hx name hm h hh.1 h' hh' hh.2]
        exact Bool.false_ne_true
      rw [hc, List.append_nil, List.append_nil]

/-- Every program which reads the one file finds the same dataset in the other. -/
theorem C85_holds (u : Undef R) {files files' : Files R} {name name' : CStr} {hdus hdus' : List (Hdu R)}
    (hf : files name = some (.fits hdus)) (hf' : files' name' = some (.fits hdus'))
    (hn : ∀ h ∈ hdus, StringName h) (hn' : ∀ h ∈ hdus', StringName h) (h0 : hdus ≠ []) (hs : SameTables hdus hdus')
    (oi : OiFits R) : Holds u files name oi ↔ Holds u files' name' oi := by
  have key := C85_order u hn hn' h0 hs .ok
  constructor
  · rintro ⟨x, h1, h2⟩
    rw [hf] at h1
    obtain rfl : hdus = x := FileData.fits.inj (Option.some.inj h1)
    exact ⟨hdus', hf', key ▸ h2⟩
  · rintro ⟨x, h1, h2⟩
    rw [hf'] at h1
    obtain rfl : hdus' = x := FileData.fits.inj (Option.some.inj h1)
    exact ⟨hdus, hf, key ▸ h2⟩

/-- The order among tables of the same type does count: the tables are listed in that order. -/
theorem C85_within (u : Undef R) {hdus : List (Hdu R)} (h0 : hdus ≠ []) (hn : ∀ h ∈ hdus, StringName h)
    {oi : OiFits R} {st : Status} (h : read_oi_fits u (some hdus) .ok = .ok (some oi, st)) :
    oi.visList = (positions "OI_VIS" hdus).filterMap (readable (read_next_oi_vis u u.vis) hdus) :=
  (C66_tables h0 hn h).2.2.2.2.1

/-- A file with the OI_TARGET table at the end and an image before it. -/
def Ex.shuffled : List (Hdu FP.ratFP) :=
  Ex.demoFile.take 1 ++ Ex.demoFile.drop 2 ++ ⟨.image, [("EXTNAME", .str "NOISE")], [], 0⟩ :: (Ex.demoFile.drop 1).take 1

theorem Ex.shuffled_facts : Ex.shuffled.all (Ex.keyStr "EXTNAME") = true ∧
    Ex.isRead (read_oi_fits Ex.undef (some Ex.demoFile) .ok) = true ∧
    ((Ex.demoFile.drop 2).all fun h => !isTable "OI_TARGET" h) = true := by
  decide +kernel

-- The hypotheses are met by this file and the one with the OI_TARGET table first, and both are read.
example : (∀ h ∈ Ex.demoFile, StringName h) ∧ (∀ h ∈ Ex.shuffled, StringName h) ∧ Ex.demoFile ≠ [] ∧
    SameTables Ex.demoFile Ex.shuffled ∧ Ex.isRead (read_oi_fits Ex.undef (some Ex.shuffled) .ok) = true := by
  obtain ⟨h1, h2, h3⟩ := Ex.shuffled_facts
  have hp := Ex.plain_file Ex.demoFile_facts.1
  have hn' : ∀ h ∈ Ex.shuffled, StringName h := fun h hh => Ex.keyStr_key (List.all_eq_true.mp h1 h hh)
  have hs : SameTables Ex.demoFile Ex.shuffled := by
    refine ⟨rfl, fun name hm => ?_⟩
    have hx : ∀ (t y : Hdu FP.ratFP) (l : List (Hdu FP.ratFP)), isTable name y = false →
        (isTable name t = true → l.filter (isTable name) = []) →
        (t :: l).filter (isTable name) = (l ++ y :: [t]).filter (isTable name) := by
      intro t y l hy ht
      rw [List.filter_append, List.filter_cons_of_neg (a := y) (by rw [hy]; exact Bool.false_ne_true)]
      by_cases h : isTable name t = true
      · rw [List.filter_cons_of_pos h, List.filter_cons_of_pos h, ht h]; rfl
      · rw [List.filter_cons_of_neg h, List.filter_cons_of_neg h]; simp
    refine hx _ _ _ rfl fun ht => ?_
    have : name = "OI_TARGET" := (eq_of_beq (show (("OI_TARGET" : CStr) == name) = true from ht)).symm
    rw [List.filter_eq_nil_iff]
    intro h hh hc
    have := List.all_eq_true.mp h3 h hh
    subst name
    rw [hc] at this
    cases this
  exact ⟨hp.names, hn', hp.primary, hs, by rw [← C85_order _ hp.names hn' hp.primary hs]; exact h2⟩

end Verif
