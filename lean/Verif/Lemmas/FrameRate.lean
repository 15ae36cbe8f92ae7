import Verif.Lemmas.SeriesLip
import Verif.Lemmas.MatAcc

/-!
# Rates of change of the nutation angles, the locator and products of rotations

Sharper than `SeriesLip`: each term is weighted with the speed of its own argument.
-/

namespace Verif
open Spec Matrix

/-- Speed of an argument in units of 1e-4 seconds of arc per century. -/
def argSpeed (r : NutRow) : ℕ :=
  (r.l * 17179159232178 + r.lp * 1295965810481 + r.f * 17395272628478 + r.d * 16029616012090 - r.om * 69628905431).natAbs

theorem nutArg_speed (r : NutRow) : Rate r.arg (argSpeed r * 4.8482e-10) := by
  intro s t _ _
  have e : r.arg s - r.arg t = ((r.l * 17179159232178 + r.lp * 1295965810481 + r.f * 17395272628478 +
      r.d * 16029616012090 - r.om * 69628905431) * (arcsec / 10 ^ 4)) * (s - t) := by unfold NutRow.arg; ring
  rw [e, abs_mul]
  refine mul_le_mul_of_nonneg_right ?_ (abs_nonneg _)
  rw [abs_mul, abs_of_pos (arcsec_div_pos 4)]
  have h : (argSpeed r : ℝ) = |(r.l : ℝ) * 17179159232178 + r.lp * 1295965810481 + r.f * 17395272628478 +
      r.d * 16029616012090 - r.om * 69628905431| := by
    unfold argSpeed
    rw [Nat.cast_natAbs]
    push_cast
    rfl
  rw [h]
  refine mul_le_mul_of_nonneg_left ?_ (abs_nonneg _)
  have := arcsec_le
  norm_num at this ⊢
  linarith

/-- Rate of a sum of terms `(x + y t) trig + z trig`, in terms of the speeds of the arguments. -/
theorem nut_speed (T : ℝ → ℝ) (U : ℝ → ℝ) (hT : T = Real.sin ∧ U = Real.cos ∨ T = Real.cos ∧ U = Real.sin)
    (x y z : NutRow → ℤ) (N : ℕ)
    (hN : (nut00b.map fun r => ((x r).natAbs + (y r).natAbs + (z r).natAbs) * argSpeed r * 48482 + (y r).natAbs * 10 ^ 14).sum ≤ N) :
    Rate (fun t => (nut00b.map fun r => ((x r : ℝ) + y r * t) * T (r.arg t) + z r * U (r.arg t)).sum) (1 / 10 ^ 14 * N) := by
  have key : ∀ r ∈ nut00b, Lip (fun t => ((x r : ℝ) + y r * t) * T (r.arg t) + z r * U (r.arg t))
      (1 / 10 ^ 14 * ((((x r).natAbs + (y r).natAbs + (z r).natAbs) * argSpeed r * 48482 + (y r).natAbs * 10 ^ 14 : ℕ) : ℝ))
      (|(x r : ℝ)| + |(y r : ℝ)| + |(z r : ℝ)|) := by
    intro r hr
    have hA := nutArg_speed r
    have h1 := (Lip.const (x r)).add ((Lip.const (y r)).mul Lip.id)
    have hTL : Lip (fun t => T (r.arg t)) (argSpeed r * 4.8482e-10) 1 ∧ Lip (fun t => U (r.arg t)) (argSpeed r * 4.8482e-10) 1 := by
      rcases hT with ⟨rfl, rfl⟩ | ⟨rfl, rfl⟩
      · exact ⟨.sin hA, .cos hA⟩
      · exact ⟨.cos hA, .sin hA⟩
    have := (h1.mul hTL.1).add ((Lip.const (z r)).mul hTL.2)
    refine this.mono (le_of_eq ?_) (le_of_eq ?_)
    · push_cast
      simp only [Nat.cast_natAbs, Int.cast_abs]
      ring
    · ring
  refine (Lip.sum nut00b key).rate.mono ?_
  exact sum_le_of_nat _ _ (fun r => ((x r).natAbs + (y r).natAbs + (z r).natAbs) * argSpeed r * 48482 + (y r).natAbs * 10 ^ 14)
    (1 / 10 ^ 14) (by norm_num) (fun _ _ => le_rfl) N hN

/-- The nutation in longitude changes by at most 9690 seconds of arc per century (0.2653 per day). -/
theorem nutPsi_speed : Rate nut00bPsi (9690 * arcsec) := by
  have h := nut_speed Real.sin Real.cos (.inl ⟨rfl, rfl⟩) NutRow.ps NutRow.pst NutRow.pc 9690000000000000000000000 (by decide +kernel)
  intro s t hs ht
  have h1 := h s t hs ht
  have e : nut00bPsi s - nut00bPsi t = ((nut00b.map fun r => ((r.ps : ℝ) + r.pst * s) * Real.sin (r.arg s) + r.pc * Real.cos (r.arg s)).sum
    - (nut00b.map fun r => ((r.ps : ℝ) + r.pst * t) * Real.sin (r.arg t) + r.pc * Real.cos (r.arg t)).sum) * (arcsec / 10 ^ 7) := by
    unfold nut00bPsi; ring
  rw [e, abs_mul, abs_of_pos (arcsec_div_pos _)]
  refine (mul_le_mul_of_nonneg_right h1 (arcsec_div_pos _).le).trans (le_of_eq ?_)
  push_cast
  ring

/-- The nutation in obliquity changes by at most 3892 seconds of arc per century (0.1066 per day). -/
theorem nutEps_speed : Rate nut00bEps (3892 * arcsec) := by
  have h := nut_speed Real.cos Real.sin (.inr ⟨rfl, rfl⟩) NutRow.ec NutRow.ect NutRow.es 3892000000000000000000000 (by decide +kernel)
  intro s t hs ht
  have h1 := h s t hs ht
  have e : nut00bEps s - nut00bEps t = ((nut00b.map fun r => ((r.ec : ℝ) + r.ect * s) * Real.cos (r.arg s) + r.es * Real.sin (r.arg s)).sum
    - (nut00b.map fun r => ((r.ec : ℝ) + r.ect * t) * Real.cos (r.arg t) + r.es * Real.sin (r.arg t)).sum) * (arcsec / 10 ^ 7) := by
    unfold nut00bEps; ring
  rw [e, abs_mul, abs_of_pos (arcsec_div_pos _)]
  refine (mul_le_mul_of_nonneg_right h1 (arcsec_div_pos _).le).trans (le_of_eq ?_)
  push_cast
  ring

/-! ## The locator -/

/-- Bound on the speed of an argument of the locator, radians per century. -/
def sSpeed (r : S00Row) : ℕ := r.l.natAbs * 8330 + r.lp.natAbs * 629 + r.f.natAbs * 8434 + r.d.natAbs * 7772 + r.om.natAbs * 34 +
  r.ve.natAbs * 1022 + r.e.natAbs * 629 + r.pa.natAbs

theorem s00Row_speed (r : S00Row) : Rate r.arg (sSpeed r) := by
  have hl := (poly_rate 485868.249036 1717915923.2178 31.8792 0.051635 (-0.00024470)).mono
    (show _ ≤ (1717916000 : ℝ) by norm_num [abs_of_pos, abs_of_neg])
  have hlp := (poly_rate 1287104.793048 129596581.0481 (-0.5532) 0.000136 (-0.00001149)).mono
    (show _ ≤ (129596600 : ℝ) by norm_num [abs_of_pos, abs_of_neg])
  have hf := (poly_rate 335779.526232 1739527262.8478 (-12.7512) (-0.001037) 0.00000417).mono
    (show _ ≤ (1739527300 : ℝ) by norm_num [abs_of_pos, abs_of_neg])
  have hd := (poly_rate 1072260.703692 1602961601.2090 (-6.3706) 0.006593 (-0.00003169)).mono
    (show _ ≤ (1602961700 : ℝ) by norm_num [abs_of_pos, abs_of_neg])
  have ho := (poly_rate 450160.398036 (-6962890.5431) 7.4722 0.007702 (-0.00005939)).mono
    (show _ ≤ (6963000 : ℝ) by norm_num [abs_of_pos, abs_of_neg])
  have hv := (poly_rate 3.176146697 1021.3285546211 0 0 0).mono (show _ ≤ (1022 : ℝ) by norm_num [abs_of_pos])
  have he := (poly_rate 1.753470314 628.3075849991 0 0 0).mono (show _ ≤ (629 : ℝ) by norm_num [abs_of_pos])
  have hp := (poly_rate 0 0.024381750 0.00000538691 0 0).mono (show _ ≤ (1 : ℝ) by norm_num [abs_of_pos])
  have h := (((((((hl.smul r.l).add (hlp.smul r.lp)).add (hf.smul r.f)).add (hd.smul r.d)).add (ho.smul r.om)).smul arcsec).add
    (hv.smul r.ve)).add ((he.smul r.e).add (hp.smul r.pa))
  refine (h.congr (f := r.arg) fun t => ?_).mono ?_
  · unfold S00Row.arg; ring
  rw [abs_of_pos arcsec_pos]
  have k : ∀ c d : ℝ, 0 ≤ c → c * 4.8482e-6 ≤ d → ∀ x : ℤ, arcsec * (|(x : ℝ)| * c) ≤ |(x : ℝ)| * d := fun c d c0 hcd x => by
    have h1 : arcsec * c ≤ d := by
      have := mul_le_mul_of_nonneg_left arcsec_le c0
      linarith
    have := mul_le_mul_of_nonneg_left h1 (abs_nonneg (x : ℝ))
    linarith
  have k1 := k 1717916000 8330 (by norm_num) (by norm_num) r.l
  have k2 := k 129596600 629 (by norm_num) (by norm_num) r.lp
  have k3 := k 1739527300 8434 (by norm_num) (by norm_num) r.f
  have k4 := k 1602961700 7772 (by norm_num) (by norm_num) r.d
  have k5 := k 6963000 34 (by norm_num) (by norm_num) r.om
  unfold sSpeed
  push_cast
  simp only [Nat.cast_natAbs, Int.cast_abs]
  linarith

theorem s00_sum_speed (L : List S00Row) (N M : ℕ) (hN : (L.map fun r => (r.s.natAbs + r.c.natAbs) * sSpeed r).sum ≤ N)
    (hM : (L.map fun r => r.s.natAbs + r.c.natAbs).sum ≤ M) : Lip (s00Sum L) (0.01 * N) (0.01 * M) := by
  have key : ∀ r ∈ L, Lip (fun t => (r.s * Real.sin (r.arg t) + r.c * Real.cos (r.arg t)) / 100)
      (0.01 * (((r.s.natAbs + r.c.natAbs) * sSpeed r : ℕ) : ℝ)) (0.01 * ((r.s.natAbs + r.c.natAbs : ℕ) : ℝ)) := by
    intro r _
    have hA := s00Row_speed r
    have := (((Lip.const r.s).mul (Lip.sin hA)).add ((Lip.const r.c).mul (Lip.cos hA))).mul (Lip.const (1 / 100))
    simp only [mul_one_div] at this
    refine this.mono (le_of_eq ?_) (le_of_eq ?_) <;> push_cast <;> simp only [Nat.cast_natAbs, Int.cast_abs] <;>
      norm_num [abs_of_pos] <;> ring
  have h := Lip.sum L key
  exact h.mono (sum_le_of_nat _ _ (fun r : S00Row => (r.s.natAbs + r.c.natAbs) * sSpeed r) 0.01 (by norm_num) (fun _ _ => le_rfl) N hN)
    (sum_le_of_nat _ _ (fun r : S00Row => r.s.natAbs + r.c.natAbs) 0.01 (by norm_num) (fun _ _ => le_rfl) M hM)

/-- The locator plus `XY/2` changes by at most four seconds of arc per century. -/
theorem s00_speed : Rate s00 (4 * arcsec) := by
  have h0 := s00_sum_speed s00_0 121320000 275000 (by decide +kernel) (by decide +kernel)
  have h1 := s00_sum_speed s00_1 1600000 600 (by decide +kernel) (by decide +kernel)
  have h2 := s00_sum_speed s00_2 234300000 84000 (by decide +kernel) (by decide +kernel)
  have h3 := s00_sum_speed s00_3 5120000 2600 (by decide +kernel) (by decide +kernel)
  have h4 := s00_sum_speed s00_4 1000 30 (by decide +kernel) (by decide +kernel)
  have h := ((((((Lip.const 94.00).add h0).add (((Lip.const 3808.35).add h1).mul Lip.id)).add
    (((Lip.const (-119.94)).add h2).mul (Lip.pow 2))).add (((Lip.const (-72574.09)).add h3).mul (Lip.pow 3))).add
    (((Lip.const 27.70).add h4).mul (Lip.pow 4))).add ((Lip.const 15.61).mul (Lip.pow 5))
  have hr := h.rate.smul (arcsec / 10 ^ 6)
  refine (hr.congr fun t => ?_ : Rate s00 _).mono ?_
  · unfold s00
    rw [div_mul_eq_mul_div, mul_comm _ arcsec, mul_div_right_comm]
  rw [abs_of_pos (arcsec_div_pos _)]
  have a0 := arcsec_pos
  rw [abs_of_pos (by norm_num : (0 : ℝ) < 3808.35), abs_of_neg (by norm_num : (-119.94 : ℝ) < 0),
    abs_of_neg (by norm_num : (-72574.09 : ℝ) < 0), abs_of_pos (by norm_num : (0 : ℝ) < 27.70), abs_of_pos (by norm_num : (0 : ℝ) < 15.61)]
  push_cast
  norm_num
  linarith

/-! ## Products of rotations -/

/-- The difference of two products of matrices of norm at most one. -/
theorem MB.mul_diff_one {A B A' B' : M3} {e e' : ℝ} (hA : MB A 1) (hB : MB B' 1) (h : MB (A' - A) e) (h' : MB (B' - B) e') :
    MB (A' * B' - A * B) (e + e') := by
  have : A' * B' - A * B = (A' - A) * B' + A * (B' - B) := by noncomm_ring
  rw [this]
  exact ((h.mul hB).add (hA.mul h')).mono (by linarith)

end Verif
