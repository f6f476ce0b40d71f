import Verif.Spec.Example
import Verif.Spec.Filter
import Verif.Model.Filter

/-! The example dataset meets the conditions for filtering. -/

namespace Verif.Ex
open FP Spec Classical

theorem filterable (f : FilterSpec ratFP) : Filterable f oi where
  wf := oi_wf
  targets := Or.inr (by decide)
  unique := by decide
  fits := by
    intro w hw
    simp only [oi, List.mem_cons, List.not_mem_nil, or_false] at hw
    subst hw; decide
  vis := by
    intro t ht w hw
    simp only [oi, List.mem_cons, List.not_mem_nil, or_false] at ht
    subst ht
    have : instTable oi vis.insname = some wave := by decide +kernel
    rw [this] at hw; cases hw
    exact ⟨by decide +kernel, rfl⟩
  vis2 := by
    intro t ht w hw
    simp only [oi, List.mem_cons, List.not_mem_nil, or_false, or_self] at ht
    subst ht
    have : instTable oi vis2.insname = some wave := by decide +kernel
    rw [this] at hw; cases hw
    exact ⟨by decide +kernel, rfl⟩
  t3 := by
    intro t ht w hw
    simp only [oi, List.mem_cons, List.not_mem_nil, or_false] at ht
    subst ht
    have : instTable oi t3.insname = some wave := by decide +kernel
    rw [this] at hw; cases hw
    exact ⟨by decide +kernel, rfl⟩
  flux := by
    intro t ht w hw
    simp only [oi, List.mem_cons, List.not_mem_nil, or_false] at ht
    subst ht
    have : instTable oi flux.insname = some wave := by decide +kernel
    rw [this] at hw; cases hw
    rfl

theorem inspolUniform (f : FilterSpec ratFP) : ∀ t ∈ oi.inspolList, InspolUniform f oi t := by
  intro t ht
  simp only [oi, List.mem_cons, List.not_mem_nil, or_false] at ht
  subst ht
  have hone : ∀ r ∈ inspolRecs f oi inspol, r.insname = "INS1".toList := by
    intro r hr
    have := (List.mem_filter.mp hr).1
    simp only [inspol, List.mem_cons, List.not_mem_nil, or_false] at this
    subst this; rfl
  intro r hr
  refine ⟨?_, ?_⟩
  · intro w hw
    rw [hone r hr] at hw
    have : instTable oi "INS1".toList = some wave := by decide +kernel
    rw [this] at hw; cases hw; rfl
  · intro r' hr'
    rw [hone r hr, hone r' hr']

/-- A filter: one target, one of the two channels, no flagged records. -/
def someFilter : FilterSpec ratFP :=
  { init_oi_filter ratFP with
    target_id := 1
    wave_range := (numF 0, numF (mkRat 15 10000000))
    accept_flagged := false }

/-! All data of the example are in the nominal ranges. -/

theorem chan2 {P : Nat → Prop} (h0 : P 0) (h1 : P 1) : ∀ j, j < wave.nwave → P j := by
  intro j hj
  match j, hj with
  | 0, _ => exact h0
  | 1, _ => exact h1

theorem inD {r : ratFP.Dbl × ratFP.Dbl} {x} (h : (ratFP.lt x r.1 || ratFP.lt r.2 x) = false) : InD r x := by
  simpa [InD] using h

theorem wave_ok : ∀ j, j < wave.nwave → WaveOk (nominalFilter ratFP) wave j :=
  chan2 ⟨_, rfl, by decide +kernel, by decide +kernel⟩ ⟨_, rfl, by decide +kernel, by decide +kernel⟩

theorem withinRanges : WithinRanges (nominalFilter ratFP) oi where
  vis := by
    intro t ht
    simp only [oi, List.mem_cons, List.not_mem_nil, or_false] at ht
    subst ht
    refine ⟨wave, by decide +kernel, wave_ok, ?_⟩
    intro r hr
    simp only [vis, List.mem_cons, List.not_mem_nil, or_false] at hr
    rcases hr with rfl | rfl <;>
    exact ⟨inD (by decide +kernel), inD (by decide +kernel), chan2
      (.inr ⟨⟨_, rfl, inD (by decide +kernel)⟩,
        ⟨_, _, rfl, rfl, by decide +kernel, by decide +kernel⟩,
        ⟨_, rfl, by decide +kernel, by decide +kernel⟩⟩)
      (.inr ⟨⟨_, rfl, inD (by decide +kernel)⟩,
        ⟨_, _, rfl, rfl, by decide +kernel, by decide +kernel⟩,
        ⟨_, rfl, by decide +kernel, by decide +kernel⟩⟩)⟩
  vis2 := by
    intro t ht
    simp only [oi, List.mem_cons, List.not_mem_nil, or_false, or_self] at ht
    subst ht
    refine ⟨wave, by decide +kernel, wave_ok, ?_⟩
    intro r hr
    simp only [vis2, List.mem_cons, List.not_mem_nil, or_false] at hr
    rcases hr with rfl | rfl | rfl <;>
    exact ⟨inD (by decide +kernel), inD (by decide +kernel), chan2
      (.inr ⟨⟨_, rfl, inD (by decide +kernel)⟩,
        ⟨_, _, rfl, rfl, by decide +kernel, by decide +kernel⟩⟩)
      (.inr ⟨⟨_, rfl, inD (by decide +kernel)⟩,
        ⟨_, _, rfl, rfl, by decide +kernel, by decide +kernel⟩⟩)⟩
  t3 := by
    intro t ht
    simp only [oi, List.mem_cons, List.not_mem_nil, or_false] at ht
    subst ht
    refine ⟨wave, by decide +kernel, wave_ok, ?_⟩
    intro r hr
    simp only [t3, List.mem_cons, List.not_mem_nil, or_false] at hr
    subst hr
    exact ⟨inD (by decide +kernel), inD (by decide +kernel), inD (by decide +kernel), inD (by decide +kernel), chan2
      (.inr ⟨⟨_, rfl, inD (by decide +kernel)⟩, ⟨_, rfl, inD (by decide +kernel)⟩, ⟨_, rfl, inD (by decide +kernel)⟩,
        fun _ => ⟨_, _, rfl, rfl, by decide +kernel, by decide +kernel⟩, fun _ => ⟨_, rfl, by decide +kernel, by decide +kernel⟩⟩)
      (.inl rfl)⟩
  flux := by
    intro t ht
    simp only [oi, List.mem_cons, List.not_mem_nil, or_false] at ht
    subst ht
    refine ⟨wave, by decide +kernel, wave_ok, ?_⟩
    intro r hr
    simp only [flux, List.mem_cons, List.not_mem_nil, or_false] at hr
    subst hr
    exact ⟨inD (by decide +kernel), chan2
      (.inr ⟨_, _, rfl, rfl, by decide +kernel, by decide +kernel⟩)
      (.inr ⟨_, _, rfl, rfl, by decide +kernel, by decide +kernel⟩)⟩

end Verif.Ex
