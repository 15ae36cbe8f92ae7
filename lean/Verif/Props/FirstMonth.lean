import Verif.Props.DeltaAt

/-!
# C19: the first month of UTC
-/

namespace Verif
open Arith F64 Spec

/-- **C19.** In January 1960, the first month of the table, the value is that of the step which takes effect in that month: of all
months with a step it is the only one whose step is not a month late. -/
theorem C19_first_month (p : Profile) (d : GregorianDate) (fd : F64) (f : ℚ)
    (hd : GregorianDate.new d.year d.month d.day = .ok d) (hy : d.year = 1960) (hm : d.month = 1)
    (h : Is fd f) (h0 : 0 ≤ f) (h1 : f ≤ 1) :
    ∃ (v : F64) (x : ℚ) (e : Step), deltaAt p d fd = .ok (.ok (some v)) ∧ Is v x ∧ HasStep d.year d.month ∧
      InForce e d.year d.month ∧ monthNo e.year e.month = monthNo d.year d.month ∧
      |x - e.value (36934 + (d.day - 1) + f)| ≤ 1 / 2 ^ 45 := by
  obtain ⟨_, hd'⟩ := (accepted_iff d).mp hd
  obtain ⟨v, hv, hvn⟩ := deltaAt_row p d fd f hd' (by omega) (by omega) h h0 h1
  obtain ⟨x, hx, hn⟩ := hvn.rat
  rw [hy, hm] at hn ⊢
  have hrow : (datRow (monthNo 1960 1)).step = ⟨1960, 1, 1.417818, 37300.0, 0.001296⟩ := by decide +kernel
  have hN : mjdN 1960 1 d.day = 36934 + (d.day - 1) := by
    unfold mjdN; norm_num; omega
  rw [hrow, hN] at hn
  refine ⟨v, x, ⟨1960, 1, 1.417818, 37300.0, 0.001296⟩, hv, hx, by decide +kernel, ?_, ?_, ?_⟩
  · decide +kernel
  · rfl
  · push_cast at hn; exact hn

example : GregorianDate.new 1960 1 17 = .ok ⟨1960, 1, 17⟩ ∧ (∃ fd : F64, Is fd 0) ∧
    deltaAt .checked ⟨1960, 1, 17⟩ (lit 0 : F64) ≠ .ok (.ok none) :=
  ⟨by decide, ⟨lit 0, by have := Is.lit_int 0 (by norm_num); push_cast at this; exact this⟩, by
    rw [Ne, (C18_delta_at_errors .checked ⟨1960, 1, 17⟩ (lit 0 : F64)).2]
    simp⟩

end Verif
