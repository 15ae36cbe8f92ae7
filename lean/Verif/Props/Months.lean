import Verif.Props.Fundargs
import Mathlib.Topology.Order.IntermediateValue
import Mathlib.Topology.Instances.Real.Lemmas

/-!
# C128: the months and years of the fundamental arguments
-/

namespace Verif
open Arith

/-- From `t` (Julian centuries) on, the angle `g` first comes back to its value, up to whole turns `T`, after more than `P` and less than
`Q` days, and in the first half of this time it is less than half a turn ahead (`σ = 1`) or behind (`σ = -1`). -/
def FirstReturn (g : ℝ → ℝ) (T σ t P Q : ℝ) : Prop :=
  (∃ s, P < s ∧ s < Q ∧ ∃ k : ℤ, g (t + s / 36525) = g t + k * T) ∧
  (∀ s, 0 < s → s ≤ P → ∀ k : ℤ, g (t + s / 36525) ≠ g t + k * T) ∧
  ∀ s, 0 < s → s ≤ P / 2 → ∃ k : ℤ, 0 < σ * (g (t + s / 36525) - g t - k * T) ∧ σ * (g (t + s / 36525) - g t - k * T) < T / 2

theorem first_return (g p : ℝ → ℝ) (A N σ t P Q L U : ℝ) (hA : 0 < A) (hσ : σ = 1 ∨ σ = -1) (hN : 0 < N)
    (hg : ∀ u, ∃ k : ℤ, g u = (p u - k * N) * A) (hp : Continuous p) (P0 : 0 < P) (PQ : P < Q) (L0 : 0 < L) (hU : U * P < N) (hL : N < L * Q)
    (h : ∀ s, 0 ≤ s → s ≤ Q → L * s ≤ σ * (p (t + s / 36525) - p t) ∧ σ * (p (t + s / 36525) - p t) ≤ U * s) :
    FirstReturn g (N * A) σ t P Q := by
  have U0 : 0 < U := by have := h Q (by linarith) le_rfl; nlinarith
  have σ2 : σ * σ = 1 := by rcases hσ with rfl | rfl <;> norm_num
  have small : ∀ s, 0 < s → s ≤ P → 0 < σ * (p (t + s / 36525) - p t) ∧ σ * (p (t + s / 36525) - p t) < N := by
    intro s s0 s1
    obtain ⟨a, b⟩ := h s s0.le (by linarith)
    exact ⟨lt_of_lt_of_le (mul_pos L0 s0) a, by nlinarith⟩
  refine ⟨?_, ?_, ?_⟩
  · have hc : ContinuousOn (fun s => σ * (p (t + s / 36525) - p t)) (Set.Icc P Q) := by fun_prop
    obtain ⟨s, ⟨s1, s2⟩, e⟩ := intermediate_value_Icc PQ.le hc (show N ∈ Set.Icc _ _ from
      ⟨(small P P0 le_rfl).2.le, by have := (h Q (by linarith) le_rfl).1; linarith⟩)
    have e' : σ * (p (t + s / 36525) - p t) = N := e
    refine ⟨s, lt_of_le_of_ne s1 ?_, lt_of_le_of_ne s2 ?_, ?_⟩
    · rintro rfl
      linarith [(small P P0 le_rfl).2]
    · rintro rfl
      linarith [(h s (by linarith) le_rfl).1]
    · obtain ⟨k, hk⟩ := hg t
      obtain ⟨k', hk'⟩ := hg (t + s / 36525)
      rcases hσ with rfl | rfl
      · refine ⟨1 + k - k', ?_⟩
        rw [hk, hk']; push_cast
        linear_combination A * e'
      · refine ⟨-1 + k - k', ?_⟩
        rw [hk, hk']; push_cast
        linear_combination (-A) * e'
  · intro s s0 s1 m hm
    obtain ⟨k, hk⟩ := hg t
    obtain ⟨k', hk'⟩ := hg (t + s / 36525)
    obtain ⟨a, b⟩ := small s s0 s1
    rw [hk, hk'] at hm
    have e : p (t + s / 36525) - p t = ((m + k' - k : ℤ) : ℝ) * N := by
      push_cast
      exact mul_right_cancel₀ hA.ne' (by linear_combination hm)
    rw [e] at a b
    have a' : (0 : ℝ) < σ * ((m + k' - k : ℤ) : ℝ) := by
      by_contra hn
      push Not at hn
      nlinarith
    have b' : σ * ((m + k' - k : ℤ) : ℝ) < 1 := by
      by_contra hn
      push Not at hn
      nlinarith
    rcases hσ with rfl | rfl
    · rw [one_mul] at a' b'
      have a2 : 0 < m + k' - k := by exact_mod_cast a'
      have b2 : m + k' - k < 1 := by exact_mod_cast b'
      omega
    · have a2 : (0 : ℝ) < ((-(m + k' - k) : ℤ) : ℝ) := by push_cast at a' ⊢; linarith
      have b2 : ((-(m + k' - k) : ℤ) : ℝ) < 1 := by push_cast at b' ⊢; linarith
      have a3 : 0 < -(m + k' - k) := by exact_mod_cast a2
      have b3 : -(m + k' - k) < 1 := by exact_mod_cast b2
      omega
  · intro s s0 s1
    obtain ⟨k, hk⟩ := hg t
    obtain ⟨k', hk'⟩ := hg (t + s / 36525)
    have a := (small s s0 (by linarith)).1
    have b := (h s s0.le (by linarith)).2
    have e : g (t + s / 36525) - g t - ((k - k' : ℤ) : ℝ) * (N * A) = (p (t + s / 36525) - p t) * A := by
      rw [hk, hk']; push_cast; ring
    refine ⟨k - k', ?_, ?_⟩ <;> rw [e, ← mul_assoc]
    · exact mul_pos a hA
    · have : σ * (p (t + s / 36525) - p t) < N / 2 := by nlinarith
      nlinarith

theorem poly4_cont (c0 c1 c2 c3 c4 : ℝ) : Continuous (poly4 c0 c1 c2 c3 c4) := by unfold poly4; fun_prop

theorem poly4_step (c0 c1 c2 c3 c4 σ t s E : ℝ) (hσ : σ = 1 ∨ σ = -1) (ht : |t| ≤ 1) (s0 : 0 ≤ s) (s1 : s ≤ 7300)
    (hE : |c2| * 2.2 + |c3| * 3.64 + |c4| * 5.4 ≤ E) :
    (σ * c1 - E) / 36525 * s ≤ σ * (poly4 c0 c1 c2 c3 c4 (t + s / 36525) - poly4 c0 c1 c2 c3 c4 t) ∧
    σ * (poly4 c0 c1 c2 c3 c4 (t + s / 36525) - poly4 c0 c1 c2 c3 c4 t) ≤ (σ * c1 + E) / 36525 * s := by
  obtain ⟨u, hu⟩ : ∃ u, u = s / 36525 := ⟨_, rfl⟩
  have u0 : 0 ≤ u := by rw [hu]; positivity
  have u1 : u ≤ 0.2 := by rw [hu, div_le_iff₀ (by norm_num)]; linarith
  have hs : s = 36525 * u := by rw [hu]; ring
  rw [← hu, hs]
  have ua : |u| ≤ 0.2 := by rw [abs_of_nonneg u0]; exact u1
  have t2 : |t ^ 2| ≤ 1 := by rw [abs_pow]; exact pow_le_one₀ (abs_nonneg t) ht
  have t3 : |t ^ 3| ≤ 1 := by rw [abs_pow]; exact pow_le_one₀ (abs_nonneg t) ht
  have b1 : |2 * t + u| ≤ 2.2 := by
    rw [abs_le] at ht ua ⊢; constructor <;> linarith [ht.1, ht.2, ua.1, ua.2]
  have tu : |t * u| ≤ 0.2 := by rw [abs_mul]; nlinarith [abs_nonneg t, abs_nonneg u]
  have uu : |u ^ 2| ≤ 0.04 := by rw [abs_pow]; nlinarith [abs_nonneg u]
  have b2 : |3 * t ^ 2 + 3 * (t * u) + u ^ 2| ≤ 3.64 := by
    rw [abs_le] at t2 tu uu ⊢; constructor <;> linarith [t2.1, t2.2, tu.1, tu.2, uu.1, uu.2]
  have ttu : |t ^ 2 * u| ≤ 0.2 := by rw [abs_mul]; nlinarith [abs_nonneg (t ^ 2), abs_nonneg u]
  have tuu : |t * u ^ 2| ≤ 0.04 := by rw [abs_mul]; nlinarith [abs_nonneg t, abs_nonneg (u ^ 2)]
  have uuu : |u ^ 3| ≤ 0.008 := by
    rw [show u ^ 3 = u * u ^ 2 by ring, abs_mul]; nlinarith [abs_nonneg u, abs_nonneg (u ^ 2)]
  have b3 : |4 * t ^ 3 + 6 * (t ^ 2 * u) + 4 * (t * u ^ 2) + u ^ 3| ≤ 5.4 := by
    rw [abs_le] at t3 ttu tuu uuu ⊢
    constructor <;> linarith [t3.1, t3.2, ttu.1, ttu.2, tuu.1, tuu.2, uuu.1, uuu.2]
  obtain ⟨G, hG⟩ : ∃ G, G = c2 * (2 * t + u) + c3 * (3 * t ^ 2 + 3 * (t * u) + u ^ 2) +
      c4 * (4 * t ^ 3 + 6 * (t ^ 2 * u) + 4 * (t * u ^ 2) + u ^ 3) := ⟨_, rfl⟩
  have bG : |G| ≤ E := by
    rw [hG]
    refine (abs_add_three _ _ _).trans (le_trans ?_ hE)
    rw [abs_mul, abs_mul, abs_mul]
    gcongr
  have eG : poly4 c0 c1 c2 c3 c4 (t + u) - poly4 c0 c1 c2 c3 c4 t = (c1 + G) * u := by
    rw [hG]; unfold poly4; ring
  rw [eG]
  rw [abs_le] at bG
  rcases hσ with rfl | rfl
  · constructor <;> nlinarith [bG.1, bG.2]
  · constructor <;> nlinarith [bG.1, bG.2]

/-- **C128.** In exact arithmetic, from every date within a century of J2000.0 on, the mean anomaly of the Moon comes back to its value
after the anomalistic month of 27.55455 days, that of the Sun after the anomalistic year of 365.25964 days, the argument of latitude of
the Moon after the draconic month of 27.21222 days, its elongation from the Sun after the synodic month of 29.53059 days, and the
node after 6798.38 days, backwards. -/
theorem C128_months (t : ℝ) (ht : |t| ≤ 1) :
    FirstReturn l03 (1296000 * AS2R) 1 t 27.554548 27.554552 ∧ FirstReturn lp03 (1296000 * AS2R) 1 t 365.25963 365.25964 ∧
    FirstReturn f03 (1296000 * AS2R) 1 t 27.212220 27.212222 ∧ FirstReturn d03 (1296000 * AS2R) 1 t 29.530588 29.530590 ∧
    FirstReturn om03 (1296000 * AS2R) (-1) t 6798.36 6798.40 := by
  have key := C31_fundamental_arguments
  refine ⟨?_, ?_, ?_, ?_, ?_⟩
  · exact first_return _ _ AS2R 1296000 1 t _ _ _ _ as2r_pos (.inl rfl) (by norm_num) (fun u => (key u).1) (poly4_cont _ _ _ _ _)
      (by norm_num) (by norm_num) (by norm_num) (by norm_num) (by norm_num)
      (fun s s0 s1 => poly4_step _ _ _ _ _ 1 t s 70.4 (.inl rfl) ht s0 (by linarith) (by norm_num [abs_of_pos]))
  · exact first_return _ _ AS2R 1296000 1 t _ _ _ _ as2r_pos (.inl rfl) (by norm_num) (fun u => (key u).2.1) (poly4_cont _ _ _ _ _)
      (by norm_num) (by norm_num) (by norm_num) (by norm_num) (by norm_num)
      (fun s s0 s1 => poly4_step _ _ _ _ _ 1 t s 1.22 (.inl rfl) ht s0 (by linarith) (by norm_num [abs_of_pos]))
  · exact first_return _ _ AS2R 1296000 1 t _ _ _ _ as2r_pos (.inl rfl) (by norm_num) (fun u => (key u).2.2.1) (poly4_cont _ _ _ _ _)
      (by norm_num) (by norm_num) (by norm_num) (by norm_num) (by norm_num)
      (fun s s0 s1 => poly4_step _ _ _ _ _ 1 t s 28.1 (.inl rfl) ht s0 (by linarith) (by norm_num [abs_of_pos]))
  · exact first_return _ _ AS2R 1296000 1 t _ _ _ _ as2r_pos (.inl rfl) (by norm_num) (fun u => (key u).2.2.2.1) (poly4_cont _ _ _ _ _)
      (by norm_num) (by norm_num) (by norm_num) (by norm_num) (by norm_num)
      (fun s s0 s1 => poly4_step _ _ _ _ _ 1 t s 14.1 (.inl rfl) ht s0 (by linarith) (by norm_num [abs_of_pos]))
  · exact first_return _ _ AS2R 1296000 (-1) t _ _ _ _ as2r_pos (.inr rfl) (by norm_num) (fun u => (key u).2.2.2.2) (poly4_cont _ _ _ _ _)
      (by norm_num) (by norm_num) (by norm_num) (by norm_num) (by norm_num)
      (fun s s0 s1 => poly4_step _ _ _ _ _ (-1) t s 16.5 (.inr rfl) ht s0 (by linarith) (by norm_num [abs_of_pos]))

/-- **C128.** From every date on, the mean longitudes of the Earth and of Venus come back after the sidereal years of these planets, of
365.256363 and 224.700800 days. -/
theorem C128_years (t : ℝ) :
    FirstReturn e03 TWO_PI 1 t 365.256363 365.2563631 ∧ FirstReturn ve03 TWO_PI 1 t 224.7008 224.7008001 := by
  have key := C31_planet_longitudes
  have hT : (TWO_PI : ℝ) = 6.283185307179586476925287 := by unfold TWO_PI; simp only [lit_real]; norm_num
  rw [show (TWO_PI : ℝ) = TWO_PI * 1 by ring]
  constructor
  · refine first_return _ (fun t => 1.753470314 + 628.3075849991 * t) 1 TWO_PI 1 t _ _ (628.3075849991 / 36525) (628.3075849991 / 36525)
      one_pos (.inl rfl) two_pi_pos (fun u => ?_) (by fun_prop) (by norm_num) (by norm_num) (by norm_num) (by rw [hT]; norm_num)
      (by rw [hT]; norm_num) (fun s _ _ => ?_)
    · obtain ⟨k, h⟩ := (key u).2.2
      exact ⟨k, by rw [h]; ring⟩
    · constructor <;> apply le_of_eq <;> ring
  · refine first_return _ (fun t => 3.176146697 + 1021.3285546211 * t) 1 TWO_PI 1 t _ _ (1021.3285546211 / 36525) (1021.3285546211 / 36525)
      one_pos (.inl rfl) two_pi_pos (fun u => ?_) (by fun_prop) (by norm_num) (by norm_num) (by norm_num) (by rw [hT]; norm_num)
      (by rw [hT]; norm_num) (fun s _ _ => ?_)
    · obtain ⟨k, h⟩ := (key u).1.2
      exact ⟨k, by rw [h]; ring⟩
    · constructor <;> apply le_of_eq <;> ring

/-- Such dates. -/
example : |(0 : ℝ)| ≤ 1 ∧ |(-1 : ℝ)| ≤ 1 := by norm_num

end Verif
