import Verif.Lemmas.MatAcc
import Verif.Props.Earth

/-!
# The Earth ephemeris in binary64: one term
-/

namespace Verif
open Arith F64 Epv

/-- A left fold that adds or subtracts one term at a time. -/
theorem fold_acc {β : Type} (g : F64 → β → F64) (q e m : β → ℝ) (R η : ℝ) (η0 : 0 ≤ η) :
    ∀ (L : List β), (∀ b ∈ L, 0 ≤ e b ∧ 0 ≤ m b ∧ ∀ s r es Ms, NB s r es Ms → Ms + m b + es + e b ≤ R →
      NB (g s b) (r + q b) (es + e b + η) (Ms + m b)) → ∀ (acc : F64) (a ea A : ℝ), NB acc a ea A →
    A + (L.map m).sum + ea + (L.map e).sum + L.length * η ≤ R →
    NB (L.foldl g acc) (a + (L.map q).sum) (ea + (L.map e).sum + L.length * η) (A + (L.map m).sum)
  | [], _, acc, a, ea, A, ha, _ => by simpa using ha
  | b :: L, h, acc, a, ea, A, ha, hb => by
    obtain ⟨e0, m0, hs⟩ := h b List.mem_cons_self
    have h' := fun c hc => h c (List.mem_cons_of_mem _ hc)
    simp only [List.map_cons, List.sum_cons, List.length_cons, List.foldl_cons] at hb ⊢
    push_cast at hb ⊢
    have lη : 0 ≤ (L.length : ℝ) * η := by positivity
    have s1 : 0 ≤ (L.map m).sum := List.sum_nonneg (by
      intro z hz; obtain ⟨c, hc, rfl⟩ := List.mem_map.mp hz
      exact (h' c hc).2.1)
    have s2 : 0 ≤ (L.map e).sum := List.sum_nonneg (by
      intro z hz; obtain ⟨c, hc, rfl⟩ := List.mem_map.mp hz
      exact (h' c hc).1)
    have h1 := hs acc a ea A ha (by linarith)
    have h2 := fold_acc g q e m R η η0 L h' _ _ _ _ h1 (by linarith)
    exact (h2.congr (by ring)).mono ⟨le_of_eq (by ring), le_of_eq (by ring)⟩

section
variable [Libm F64] (hL : LibmAcc) {t : F64} {τ : ℝ} (ht : NB t τ (3 / 10 ^ 12) 100) {a b c : ℚ} {A C : ℝ}
  (ha : |(a : ℝ)| = A) (hc : |(c : ℝ)| = C) (hb : |(b : ℝ)| ≤ 7) (hA : A ≤ 2) (hC : C ≤ 500)
include ht hc hC

theorem ct_nb : NB (lit c *. t) (c * τ) (C * (3.1 / 10 ^ 12) + 1 / 10 ^ 27) (C * 100) := by
  have C0 : 0 ≤ C := hc ▸ abs_nonneg _
  have hl := NB.lit c (M := C) (E := C / 2 ^ 53 + 1 / 2 ^ 100) ⟨hc.le, le_rfl, by norm_num at hC ⊢; linarith⟩
  exact hl.mul ht ⟨by norm_num at hC ⊢; linarith, le_rfl, by norm_num at hC ⊢; linarith⟩

include hL hb in
theorem phase_nb : NB (Libm.cos (lit b +. lit c *. t)) (Real.cos (b + c * τ)) (C * (3.2 / 10 ^ 12) + 3 / 10 ^ 15) 1 ∧
    NB (Libm.sin (lit b +. lit c *. t)) (Real.sin (b + c * τ)) (C * (3.2 / 10 ^ 12) + 3 / 10 ^ 15) 1 := by
  have C0 : 0 ≤ C := hc ▸ abs_nonneg _
  have hl := NB.lit b (M := 7) (E := 0.8 / 10 ^ 15) ⟨hb, by norm_num, by norm_num⟩
  have hp := hl.add (ct_nb ht hc hC) (E := C * (3.2 / 10 ^ 12) + 2 / 10 ^ 15) (M := C * 100 + 7)
    ⟨by norm_num at hC ⊢; linarith, by linarith, by norm_num at hC ⊢; linarith⟩
  exact ⟨hL.nbCos hp ⟨by norm_num at hC ⊢; linarith, by norm_num at hC ⊢; linarith⟩,
    hL.nbSin hp ⟨by norm_num at hC ⊢; linarith, by norm_num at hC ⊢; linarith⟩⟩

include hL hb ha hA

theorem t0_pos : NB (lit a *. Libm.cos (lit b +. lit c *. t)) (a * Real.cos (b + c * τ))
    (A * (4 / 10 ^ 15) + A * C * (3.3 / 10 ^ 12) + 1 / 10 ^ 24) A := by
  have C0 : 0 ≤ C := hc ▸ abs_nonneg _
  have A0 : 0 ≤ A := ha ▸ abs_nonneg _
  have AC0 := mul_nonneg A0 C0
  have AC1 : A * C ≤ 1000 := by nlinarith
  have hl := NB.lit a (M := A) (E := A / 2 ^ 53 + 1 / 2 ^ 100) ⟨ha.le, le_rfl, by norm_num at hA ⊢; linarith⟩
  exact hl.mul (phase_nb hL ht hc hb hC).1 ⟨by norm_num at hC hA AC1 ⊢; linarith, by linarith, by norm_num at hC hA AC1 ⊢; linarith⟩

theorem t0_vel : NB ((lit a *. lit c) *. Libm.sin (lit b +. lit c *. t)) (a * c * Real.sin (b + c * τ))
    (A * C * (4 / 10 ^ 15) + A * C ^ 2 * (3.3 / 10 ^ 12) + 1 / 10 ^ 24) (A * C) := by
  have C0 : 0 ≤ C := hc ▸ abs_nonneg _
  have A0 : 0 ≤ A := ha ▸ abs_nonneg _
  have AC0 := mul_nonneg A0 C0
  have AC1 : A * C ≤ 1000 := by nlinarith
  have ACC0 : 0 ≤ A * C ^ 2 := by positivity
  have ACC1 : A * C ^ 2 ≤ 500000 := by nlinarith
  have hl := NB.lit a (M := A) (E := A / 2 ^ 53 + 1 / 2 ^ 100) ⟨ha.le, le_rfl, by norm_num at hA ⊢; linarith⟩
  have hl' := NB.lit c (M := C) (E := C / 2 ^ 53 + 1 / 2 ^ 100) ⟨hc.le, le_rfl, by norm_num at hC ⊢; linarith⟩
  have hac := hl.mul hl' (E := A * C * (4 / 10 ^ 16) + 1 / 10 ^ 26) (M := A * C)
    ⟨by norm_num at hC hA AC1 ⊢; linarith, by linarith, by norm_num at hC hA AC1 ⊢; linarith⟩
  exact hac.mul (phase_nb hL ht hc hb hC).2 ⟨by norm_num at hC hA AC1 ACC1 ⊢; linarith, by linarith, by norm_num at hC hA AC1 ACC1 ⊢; linarith⟩

theorem t1_pos : NB ((lit a *. t) *. Libm.cos (lit b +. lit c *. t)) (a * τ * Real.cos (b + c * τ))
    (A * (4 / 10 ^ 12) + A * C * (3.3 / 10 ^ 10) + 1 / 10 ^ 24) (A * 100) := by
  have C0 : 0 ≤ C := hc ▸ abs_nonneg _
  have A0 : 0 ≤ A := ha ▸ abs_nonneg _
  have AC0 := mul_nonneg A0 C0
  have AC1 : A * C ≤ 1000 := by nlinarith
  have hat := ct_nb (c := a) ht ha (by linarith)
  exact hat.mul (phase_nb hL ht hc hb hC).1 ⟨by norm_num at hC hA AC1 ⊢; linarith, by linarith, by norm_num at hC hA AC1 ⊢; linarith⟩

/-- `k cos p - c t sin p`. -/
theorem inner_nb {x : F64} {k : ℝ} (hx : NB x (k * Real.cos (b + c * τ)) (C * (6.5 / 10 ^ 12) + 7 / 10 ^ 15) k) (hk : k ≤ 2) :
    NB (x -. (lit c *. t) *. Libm.sin (lit b +. lit c *. t))
      (k * Real.cos (b + c * τ) - c * τ * Real.sin (b + c * τ))
      (8 / 10 ^ 15 + C * (11 / 10 ^ 12) + C ^ 2 * (3.3 / 10 ^ 10)) (k + C * 100) := by
  have C0 : 0 ≤ C := hc ▸ abs_nonneg _
  have CC0 : 0 ≤ C ^ 2 := by positivity
  have CC1 : C ^ 2 ≤ 250000 := by nlinarith
  have k0 := hx.M_nonneg
  have h1 := (ct_nb ht hc hC).mul (phase_nb hL ht hc hb hC).2 (E := C * (4 / 10 ^ 12) + C ^ 2 * (3.25 / 10 ^ 10) + 1 / 10 ^ 26) (M := C * 100)
    ⟨by norm_num at hC hA CC1 ⊢; linarith, by linarith, by norm_num at hC CC1 ⊢; linarith⟩
  exact hx.sub h1 ⟨by norm_num at hC hA CC1 hk ⊢; linarith, by linarith, by norm_num at hC hA CC1 hk ⊢; linarith⟩

theorem t1_vel : NB (lit a *. (Libm.cos (lit b +. lit c *. t) -. (lit c *. t) *. Libm.sin (lit b +. lit c *. t)))
    (a * (Real.cos (b + c * τ) - c * τ * Real.sin (b + c * τ)))
    (A * (9 / 10 ^ 15) + A * C * (12 / 10 ^ 12) + A * C ^ 2 * (3.4 / 10 ^ 10) + 1 / 10 ^ 24) (A + A * C * 100) := by
  have C0 : 0 ≤ C := hc ▸ abs_nonneg _
  have A0 : 0 ≤ A := ha ▸ abs_nonneg _
  have AC0 := mul_nonneg A0 C0
  have AC1 : A * C ≤ 1000 := by nlinarith
  have ACC0 : 0 ≤ A * C ^ 2 := by positivity
  have ACC1 : A * C ^ 2 ≤ 500000 := by nlinarith
  have CC0 : 0 ≤ C ^ 2 := by positivity
  have CC1 : C ^ 2 ≤ 250000 := by nlinarith
  have hp := ((phase_nb hL ht hc hb hC).1.congr (one_mul _).symm).mono (E := C * (6.5 / 10 ^ 12) + 7 / 10 ^ 15) (M := 1)
    ⟨by norm_num; linarith, le_rfl⟩
  have hi := inner_nb hL ht ha hc hb hA hC hp (by norm_num)
  rw [one_mul] at hi
  have hl := NB.lit a (M := A) (E := A / 2 ^ 53 + 1 / 2 ^ 100) ⟨ha.le, le_rfl, by norm_num at hA ⊢; linarith⟩
  exact hl.mul hi ⟨by norm_num at hC hA AC1 ACC1 CC1 ⊢; linarith, by linarith, by norm_num at hC hA AC1 ACC1 CC1 ⊢; linarith⟩

theorem t2_pos : NB ((lit a *. (t *. t)) *. Libm.cos (lit b +. lit c *. t)) (a * (τ * τ) * Real.cos (b + c * τ))
    (A * (7 / 10 ^ 10) + A * C * (3.3 / 10 ^ 8) + 1 / 10 ^ 22) (A * 10000) := by
  have C0 : 0 ≤ C := hc ▸ abs_nonneg _
  have A0 : 0 ≤ A := ha ▸ abs_nonneg _
  have AC0 := mul_nonneg A0 C0
  have AC1 : A * C ≤ 1000 := by nlinarith
  have htt := ht.mul ht (E := 6.1 / 10 ^ 10) (M := 10000) (by norm_num)
  have hl := NB.lit a (M := A) (E := A / 2 ^ 53 + 1 / 2 ^ 100) ⟨ha.le, le_rfl, by norm_num at hA ⊢; linarith⟩
  have hat := hl.mul htt (E := A * (6.2 / 10 ^ 10) + 1 / 10 ^ 25) (M := A * 10000)
    ⟨by norm_num at hC hA AC1 ⊢; linarith, by linarith, by norm_num at hC hA AC1 ⊢; linarith⟩
  exact hat.mul (phase_nb hL ht hc hb hC).1 ⟨by norm_num at hC hA AC1 ⊢; linarith, by linarith, by norm_num at hC hA AC1 ⊢; linarith⟩

theorem t2_vel : NB ((lit a *. t) *. (lit 2 *. Libm.cos (lit b +. lit c *. t) -. (lit c *. t) *. Libm.sin (lit b +. lit c *. t)))
    (a * τ * (2 * Real.cos (b + c * τ) - c * τ * Real.sin (b + c * τ)))
    (A * (9 / 10 ^ 12) + A * C * (16 / 10 ^ 10) + A * C ^ 2 * (3.4 / 10 ^ 8) + 1 / 10 ^ 22) (A * 200 + A * C * 10000) := by
  have C0 : 0 ≤ C := hc ▸ abs_nonneg _
  have A0 : 0 ≤ A := ha ▸ abs_nonneg _
  have AC0 := mul_nonneg A0 C0
  have AC1 : A * C ≤ 1000 := by nlinarith
  have ACC0 : 0 ≤ A * C ^ 2 := by positivity
  have ACC1 : A * C ^ 2 ≤ 500000 := by nlinarith
  have CC0 : 0 ≤ C ^ 2 := by positivity
  have CC1 : C ^ 2 ≤ 250000 := by nlinarith
  have h2 : Is (lit 2 : F64) 2 := by have := Is.lit_int 2 (by norm_num); norm_num at this; exact this
  have hp := (NB.of_is' (a := 2) (M := 2) h2 (by norm_num) (by norm_num)).mul (phase_nb hL ht hc hb hC).1
    (E := C * (6.5 / 10 ^ 12) + 7 / 10 ^ 15) (M := 2) ⟨by norm_num; linarith, by norm_num, by norm_num at hC ⊢; linarith⟩
  have hi := inner_nb hL ht ha hc hb hA hC hp (by norm_num)
  have hat := ct_nb (c := a) ht ha (by linarith)
  exact hat.mul hi ⟨by norm_num at hC hA AC1 ACC1 CC1 ⊢; linarith, by linarith, by norm_num at hC hA AC1 ACC1 CC1 ⊢; linarith⟩

end
end Verif
