import Verif.Spec.S00
import Mathlib.Analysis.Real.Pi.Bounds
import Mathlib.Algebra.Order.BigOperators.Group.List

/-!
# Rate of change of the nutation and locator series within a century
-/

namespace Verif
open Spec

/-- On `[-1, 1]`: rate of change at most `K`. -/
def Rate (f : ℝ → ℝ) (K : ℝ) : Prop := ∀ s t, |s| ≤ 1 → |t| ≤ 1 → |f s - f t| ≤ K * |s - t|

/-- On `[-1, 1]`: rate of change at most `K`, magnitude at most `M`. -/
structure Lip (f : ℝ → ℝ) (K M : ℝ) : Prop where
  rate : Rate f K
  bound : ∀ t, |t| ≤ 1 → |f t| ≤ M

namespace Rate
variable {f g : ℝ → ℝ} {K L : ℝ}

theorem mono (h : Rate f K) (hK : K ≤ L) : Rate f L := fun s t hs ht =>
  (h s t hs ht).trans (mul_le_mul_of_nonneg_right hK (abs_nonneg _))

theorem add (h : Rate f K) (h' : Rate g L) : Rate (fun t => f t + g t) (K + L) := fun s t hs ht => by
  have e : f s + g s - (f t + g t) = (f s - f t) + (g s - g t) := by ring
  rw [e, add_mul]
  exact (abs_add_le _ _).trans (add_le_add (h s t hs ht) (h' s t hs ht))

theorem smul (c : ℝ) (h : Rate f K) : Rate (fun t => c * f t) (|c| * K) := fun s t hs ht => by
  rw [← mul_sub, abs_mul, mul_assoc]
  exact mul_le_mul_of_nonneg_left (h s t hs ht) (abs_nonneg _)

theorem const (c : ℝ) : Rate (fun _ => c) 0 := fun s t _ _ => by simp

theorem id : Rate (fun t => t) 1 := fun s t _ _ => by simp

theorem neg (h : Rate f K) : Rate (fun t => -f t) K := fun s t hs ht => by
  rw [show -f s - -f t = -(f s - f t) by ring, abs_neg]; exact h s t hs ht

theorem sub (h : Rate f K) (h' : Rate g L) : Rate (fun t => f t - g t) (K + L) := by
  have := h.add h'.neg
  simpa only [← sub_eq_add_neg] using this

theorem congr (h : Rate g K) (e : ∀ t, f t = g t) : Rate f K := by
  rwa [show f = g from funext e]

theorem nonneg (h : Rate f K) : 0 ≤ K := by
  have h1 := h 1 0 (by norm_num) (by norm_num)
  have := abs_nonneg (f 1 - f 0)
  norm_num at h1
  linarith

end Rate

theorem abs_sin_sub (a b : ℝ) : |Real.sin a - Real.sin b| ≤ |a - b| := by
  rw [Real.sin_sub_sin, abs_mul, abs_mul, abs_two]
  have h1 := Real.abs_cos_le_one ((a + b) / 2)
  have h2 : |Real.sin ((a - b) / 2)| ≤ |(a - b) / 2| := Real.abs_sin_le_abs
  rw [abs_div, abs_two] at h2
  have := abs_nonneg (Real.sin ((a - b) / 2))
  nlinarith [abs_nonneg (Real.cos ((a + b) / 2))]

theorem abs_cos_sub (a b : ℝ) : |Real.cos a - Real.cos b| ≤ |a - b| := by
  have := abs_sin_sub (Real.pi / 2 - a) (Real.pi / 2 - b)
  rw [Real.sin_pi_div_two_sub, Real.sin_pi_div_two_sub] at this
  rwa [show Real.pi / 2 - a - (Real.pi / 2 - b) = -(a - b) by ring, abs_neg] at this

namespace Lip
variable {f g : ℝ → ℝ} {K L M N : ℝ}

theorem const (c : ℝ) : Lip (fun _ => c) 0 |c| := ⟨.const c, fun _ _ => le_rfl⟩

theorem id : Lip (fun t => t) 1 1 := ⟨.id, fun _ h => h⟩

theorem add (h : Lip f K M) (h' : Lip g L N) : Lip (fun t => f t + g t) (K + L) (M + N) :=
  ⟨h.rate.add h'.rate, fun t ht => (abs_add_le _ _).trans (add_le_add (h.bound t ht) (h'.bound t ht))⟩

theorem mul (h : Lip f K M) (h' : Lip g L N) : Lip (fun t => f t * g t) (K * N + M * L) (M * N) := by
  have M0 : 0 ≤ M := (abs_nonneg _).trans (h.bound 0 (by norm_num))
  refine ⟨fun s t hs ht => ?_, fun t ht => ?_⟩
  · have e : f s * g s - f t * g t = (f s - f t) * g s + f t * (g s - g t) := by ring
    rw [e]
    refine (abs_add_le _ _).trans ?_
    rw [abs_mul, abs_mul]
    have k1 := mul_le_mul (h.rate s t hs ht) (h'.bound s hs) (abs_nonneg _)
      (mul_nonneg h.rate.nonneg (abs_nonneg _))
    have k2 := mul_le_mul (h.bound t ht) (h'.rate s t hs ht) (abs_nonneg _) M0
    linarith
  · rw [abs_mul]; exact mul_le_mul (h.bound t ht) (h'.bound t ht) (abs_nonneg _) M0

theorem mono {K' M' : ℝ} (h : Lip f K M) (hK : K ≤ K') (hM : M ≤ M') : Lip f K' M' :=
  ⟨h.rate.mono hK, fun t ht => (h.bound t ht).trans hM⟩

theorem sin (h : Rate f K) : Lip (fun t => Real.sin (f t)) K 1 :=
  ⟨fun s t hs ht => (abs_sin_sub _ _).trans (h s t hs ht), fun _ _ => Real.abs_sin_le_one _⟩

theorem cos (h : Rate f K) : Lip (fun t => Real.cos (f t)) K 1 :=
  ⟨fun s t hs ht => (abs_cos_sub _ _).trans (h s t hs ht), fun _ _ => Real.abs_cos_le_one _⟩

theorem pow (n : ℕ) : Lip (fun t : ℝ => t ^ n) n 1 := by
  induction n with
  | zero => simpa using Lip.const 1
  | succ n ih =>
    have := ih.mul Lip.id
    simp only [← pow_succ] at this
    exact this.mono (by push_cast; linarith) (by norm_num)

theorem sum {ι : Type} {F : ι → ℝ → ℝ} {a b : ι → ℝ} (l : List ι) (h : ∀ i ∈ l, Lip (F i) (a i) (b i)) :
    Lip (fun t => (l.map fun i => F i t).sum) (l.map a).sum (l.map b).sum := by
  induction l with
  | nil => simpa using Lip.const 0
  | cons i l ih =>
    simp only [List.map_cons, List.sum_cons]
    exact (h i List.mem_cons_self).add (ih fun j hj => h j (List.mem_cons_of_mem _ hj))

end Lip

theorem arcsec_le : arcsec ≤ 4.8482e-6 := by
  have := Real.pi_lt_d6
  unfold arcsec
  norm_num at this ⊢
  linarith

theorem arcsec_pos : 0 < arcsec := by unfold arcsec; positivity

theorem arcsec_div_pos (n : ℕ) : 0 < arcsec / 10 ^ n := div_pos arcsec_pos (by positivity)

/-- Rate of an argument: sum of multipliers times the fastest fundamental argument. -/
theorem nutRow_rate (r : NutRow) :
    Rate r.arg ((|(r.l : ℝ)| + |(r.lp : ℝ)| + |(r.f : ℝ)| + |(r.d : ℝ)| + |(r.om : ℝ)|) * 8434) := by
  intro s t _ _
  have e : r.arg s - r.arg t = ((r.l * 1717915923.2178 + r.lp * 129596581.0481 + r.f * 1739527262.8478 +
      r.d * 1602961601.2090 - r.om * 6962890.5431) * arcsec) * (s - t) := by unfold NutRow.arg; ring
  rw [e, abs_mul]
  refine mul_le_mul_of_nonneg_right ?_ (abs_nonneg _)
  rw [abs_mul, abs_of_pos arcsec_pos]
  have h1 : |(r.l : ℝ) * 1717915923.2178 + r.lp * 129596581.0481 + r.f * 1739527262.8478 +
      r.d * 1602961601.2090 - r.om * 6962890.5431| ≤
      (|(r.l : ℝ)| + |(r.lp : ℝ)| + |(r.f : ℝ)| + |(r.d : ℝ)| + |(r.om : ℝ)|) * 1739527263 := by
    refine (abs_sub _ _).trans ?_
    refine (add_le_add_left ((abs_add_le _ _).trans (add_le_add_left ((abs_add_le _ _).trans
      (add_le_add_left (abs_add_le _ _) _)) _)) _).trans ?_
    simp only [abs_mul]
    norm_num [abs_of_pos]
    have := abs_nonneg (r.l : ℝ)
    have := abs_nonneg (r.lp : ℝ)
    have := abs_nonneg (r.f : ℝ)
    have := abs_nonneg (r.d : ℝ)
    have := abs_nonneg (r.om : ℝ)
    linarith
  refine (mul_le_mul h1 arcsec_le arcsec_pos.le (by positivity)).trans ?_
  rw [mul_assoc]
  exact mul_le_mul_of_nonneg_left (by norm_num) (by positivity)

theorem nut_mult : ∀ r ∈ nut00b, r.l.natAbs + r.lp.natAbs + r.f.natAbs + r.d.natAbs + r.om.natAbs ≤ 9 := by decide +kernel

theorem nut_arg_rate (r : NutRow) (h : r ∈ nut00b) : Rate r.arg 75906 := by
  refine (nutRow_rate r).mono ?_
  have h1 := nut_mult r h
  have h2 : (r.l.natAbs + r.lp.natAbs + r.f.natAbs + r.d.natAbs + r.om.natAbs : ℝ) ≤ 9 := by exact_mod_cast h1
  simp only [Nat.cast_natAbs, Int.cast_abs] at h2
  linarith

def psiWt (r : NutRow) : ℕ := r.ps.natAbs + r.pst.natAbs + r.pc.natAbs
def epsWt (r : NutRow) : ℕ := r.ec.natAbs + r.ect.natAbs + r.es.natAbs

theorem sum_le_of_nat {ι : Type} (l : List ι) (a : ι → ℝ) (w : ι → ℕ) (c : ℝ) (hc : 0 ≤ c) (h : ∀ i ∈ l, a i ≤ c * w i)
    (N : ℕ) (hN : (l.map w).sum ≤ N) : (l.map a).sum ≤ c * N := by
  have : (l.map a).sum ≤ c * ((l.map w).sum : ℕ) := by
    clear hN
    induction l with
    | nil => simp
    | cons i l ih =>
      simp only [List.map_cons, List.sum_cons]
      push_cast
      have h1 := h i List.mem_cons_self
      have h2 := ih fun j hj => h j (List.mem_cons_of_mem _ hj)
      push_cast at h2
      linarith
  refine this.trans (mul_le_mul_of_nonneg_left ?_ hc)
  exact_mod_cast hN

/-- Rate of a sum of terms `(x + y t) trig + z trig`. -/
theorem nut_rate (T : ℝ → ℝ) (U : ℝ → ℝ) (hT : T = Real.sin ∧ U = Real.cos ∨ T = Real.cos ∧ U = Real.sin)
    (x y z : NutRow → ℤ) (N : ℕ) (hN : (nut00b.map fun r => (x r).natAbs + (y r).natAbs + (z r).natAbs).sum ≤ N) :
    Rate (fun t => (nut00b.map fun r => ((x r : ℝ) + y r * t) * T (r.arg t) + z r * U (r.arg t)).sum) (75907 * N) := by
  have key : ∀ r ∈ nut00b, Lip (fun t => ((x r : ℝ) + y r * t) * T (r.arg t) + z r * U (r.arg t))
      (75907 * (((x r).natAbs + (y r).natAbs + (z r).natAbs : ℕ) : ℝ)) (2 * (|(x r : ℝ)| + |(y r : ℝ)| + |(z r : ℝ)|)) := by
    intro r hr
    have hA := nut_arg_rate r hr
    have h1 := (Lip.const (x r)).add ((Lip.const (y r)).mul Lip.id)
    have hTL : Lip (fun t => T (r.arg t)) 75906 1 ∧ Lip (fun t => U (r.arg t)) 75906 1 := by
      rcases hT with ⟨rfl, rfl⟩ | ⟨rfl, rfl⟩
      · exact ⟨.sin hA, .cos hA⟩
      · exact ⟨.cos hA, .sin hA⟩
    have := (h1.mul hTL.1).add ((Lip.const (z r)).mul hTL.2)
    refine this.mono ?_ ?_
    · push_cast
      simp only [Nat.cast_natAbs, Int.cast_abs]
      have := abs_nonneg (x r : ℝ)
      have := abs_nonneg (y r : ℝ)
      have := abs_nonneg (z r : ℝ)
      linarith
    · have := abs_nonneg (x r : ℝ)
      have := abs_nonneg (y r : ℝ)
      have := abs_nonneg (z r : ℝ)
      linarith
  refine (Lip.sum nut00b key).rate.mono ?_
  exact sum_le_of_nat _ _ (fun r => (x r).natAbs + (y r).natAbs + (z r).natAbs) 75907 (by norm_num) (fun _ _ => le_rfl) N hN

theorem nutPsi_rate : Rate nut00bPsi 8 := by
  have h := nut_rate Real.sin Real.cos (.inl ⟨rfl, rfl⟩) NutRow.ps NutRow.pst NutRow.pc 200000000 (by decide +kernel)
  intro s t hs ht
  have h1 := h s t hs ht
  have e : nut00bPsi s - nut00bPsi t = ((nut00b.map fun r => ((r.ps : ℝ) + r.pst * s) * Real.sin (r.arg s) + r.pc * Real.cos (r.arg s)).sum
    - (nut00b.map fun r => ((r.ps : ℝ) + r.pst * t) * Real.sin (r.arg t) + r.pc * Real.cos (r.arg t)).sum) * (arcsec / 10 ^ 7) := by
    unfold nut00bPsi; ring
  rw [e, abs_mul, abs_of_pos (arcsec_div_pos _)]
  refine (mul_le_mul h1 (div_le_div_of_nonneg_right arcsec_le (by positivity)) (arcsec_div_pos _).le (by positivity)).trans ?_
  rw [mul_right_comm]
  refine mul_le_mul_of_nonneg_right ?_ (abs_nonneg _)
  norm_num

theorem nutEps_rate : Rate nut00bEps 5 := by
  have h := nut_rate Real.cos Real.sin (.inr ⟨rfl, rfl⟩) NutRow.ec NutRow.ect NutRow.es 110000000 (by decide +kernel)
  intro s t hs ht
  have h1 := h s t hs ht
  have e : nut00bEps s - nut00bEps t = ((nut00b.map fun r => ((r.ec : ℝ) + r.ect * s) * Real.cos (r.arg s) + r.es * Real.sin (r.arg s)).sum
    - (nut00b.map fun r => ((r.ec : ℝ) + r.ect * t) * Real.cos (r.arg t) + r.es * Real.sin (r.arg t)).sum) * (arcsec / 10 ^ 7) := by
    unfold nut00bEps; ring
  rw [e, abs_mul, abs_of_pos (arcsec_div_pos _)]
  refine (mul_le_mul h1 (div_le_div_of_nonneg_right arcsec_le (by positivity)) (arcsec_div_pos _).le (by positivity)).trans ?_
  rw [mul_right_comm]
  refine mul_le_mul_of_nonneg_right ?_ (abs_nonneg _)
  norm_num

/-! ## The locator -/

theorem poly_rate (a b c d e : ℝ) : Rate (fun t => a + b * t + c * t ^ 2 + d * t ^ 3 + e * t ^ 4)
    (|b| + 2 * |c| + 3 * |d| + 4 * |e|) := by
  have h := ((((Rate.const a).add (Rate.id.smul b)).add ((Lip.pow 2).rate.smul c)).add ((Lip.pow 3).rate.smul d)).add
    ((Lip.pow 4).rate.smul e)
  exact h.mono (by push_cast; linarith)

theorem s00Row_rate (r : S00Row) :
    Rate r.arg ((|(r.l : ℝ)| + |(r.lp : ℝ)| + |(r.f : ℝ)| + |(r.d : ℝ)| + |(r.om : ℝ)| + |(r.ve : ℝ)| + |(r.e : ℝ)| + |(r.pa : ℝ)|) * 8435) := by
  have hl := (poly_rate 485868.249036 1717915923.2178 31.8792 0.051635 (-0.00024470)).mono
    (show _ ≤ (1739527400 : ℝ) by norm_num [abs_of_pos, abs_of_neg])
  have hlp := (poly_rate 1287104.793048 129596581.0481 (-0.5532) 0.000136 (-0.00001149)).mono
    (show _ ≤ (1739527400 : ℝ) by norm_num [abs_of_pos, abs_of_neg])
  have hf := (poly_rate 335779.526232 1739527262.8478 (-12.7512) (-0.001037) 0.00000417).mono
    (show _ ≤ (1739527400 : ℝ) by norm_num [abs_of_pos, abs_of_neg])
  have hd := (poly_rate 1072260.703692 1602961601.2090 (-6.3706) 0.006593 (-0.00003169)).mono
    (show _ ≤ (1739527400 : ℝ) by norm_num [abs_of_pos, abs_of_neg])
  have ho := (poly_rate 450160.398036 (-6962890.5431) 7.4722 0.007702 (-0.00005939)).mono
    (show _ ≤ (1739527400 : ℝ) by norm_num [abs_of_pos, abs_of_neg])
  have hv := (poly_rate 3.176146697 1021.3285546211 0 0 0).mono (show _ ≤ (8435 : ℝ) by norm_num [abs_of_pos])
  have he := (poly_rate 1.753470314 628.3075849991 0 0 0).mono (show _ ≤ (8435 : ℝ) by norm_num [abs_of_pos])
  have hp := (poly_rate 0 0.024381750 0.00000538691 0 0).mono (show _ ≤ (8435 : ℝ) by norm_num [abs_of_pos])
  have h := (((((((hl.smul r.l).add (hlp.smul r.lp)).add (hf.smul r.f)).add (hd.smul r.d)).add (ho.smul r.om)).smul arcsec).add
    (hv.smul r.ve)).add ((he.smul r.e).add (hp.smul r.pa))
  refine (h.congr (f := r.arg) fun t => ?_).mono ?_
  · unfold S00Row.arg; ring
  rw [abs_of_pos arcsec_pos]
  have k : arcsec * 1739527400 ≤ 8435 :=
    (mul_le_mul_of_nonneg_right arcsec_le (by norm_num)).trans (by norm_num)
  have k' := mul_le_mul_of_nonneg_right k (show 0 ≤ |(r.l : ℝ)| + |(r.lp : ℝ)| + |(r.f : ℝ)| + |(r.d : ℝ)| + |(r.om : ℝ)| by positivity)
  linarith

theorem s00_mult : ∀ r ∈ s00_0 ++ s00_1 ++ s00_2 ++ s00_3 ++ s00_4, r.l.natAbs + r.lp.natAbs + r.f.natAbs + r.d.natAbs +
    r.om.natAbs + r.ve.natAbs + r.e.natAbs + r.pa.natAbs ≤ 40 := by decide +kernel

theorem s00_sum (L : List S00Row) (hL : ∀ r ∈ L, r ∈ s00_0 ++ s00_1 ++ s00_2 ++ s00_3 ++ s00_4) (N : ℕ)
    (hN : (L.map fun r => r.s.natAbs + r.c.natAbs).sum ≤ N) : Lip (s00Sum L) (3374 * N) (0.01 * N) := by
  have key : ∀ r ∈ L, Lip (fun t => (r.s * Real.sin (r.arg t) + r.c * Real.cos (r.arg t)) / 100)
      (3374 * ((r.s.natAbs + r.c.natAbs : ℕ) : ℝ)) (0.01 * ((r.s.natAbs + r.c.natAbs : ℕ) : ℝ)) := by
    intro r hr
    have hA : Rate r.arg 337400 := by
      refine (s00Row_rate r).mono ?_
      have h2 : (r.l.natAbs + r.lp.natAbs + r.f.natAbs + r.d.natAbs + r.om.natAbs + r.ve.natAbs + r.e.natAbs + r.pa.natAbs : ℝ) ≤ 40 := by
        exact_mod_cast s00_mult r (hL r hr)
      simp only [Nat.cast_natAbs, Int.cast_abs] at h2
      linarith
    have := (((Lip.const r.s).mul (Lip.sin hA)).add ((Lip.const r.c).mul (Lip.cos hA))).mul (Lip.const (1 / 100))
    simp only [mul_one_div] at this
    refine this.mono ?_ ?_ <;> push_cast <;> simp only [Nat.cast_natAbs, Int.cast_abs] <;> norm_num [abs_of_pos] <;> linarith
  have h := Lip.sum L key
  exact h.mono (sum_le_of_nat _ _ (fun r : S00Row => r.s.natAbs + r.c.natAbs) 3374 (by norm_num) (fun _ _ => le_rfl) N hN)
    (sum_le_of_nat _ _ (fun r : S00Row => r.s.natAbs + r.c.natAbs) 0.01 (by norm_num) (fun _ _ => le_rfl) N hN)

theorem s00_rate : Rate s00 1 := by
  have h0 := s00_sum s00_0 (fun r hr => by simp [hr]) 300000 (by decide +kernel)
  have h1 := s00_sum s00_1 (fun r hr => by simp [hr]) 1000 (by decide +kernel)
  have h2 := s00_sum s00_2 (fun r hr => by simp [hr]) 100000 (by decide +kernel)
  have h3 := s00_sum s00_3 (fun r hr => by simp [hr]) 10000 (by decide +kernel)
  have h4 := s00_sum s00_4 (fun r hr => by simp [hr]) 1000 (by decide +kernel)
  have h := ((((((Lip.const 94.00).add h0).add (((Lip.const 3808.35).add h1).mul Lip.id)).add
    (((Lip.const (-119.94)).add h2).mul (Lip.pow 2))).add (((Lip.const (-72574.09)).add h3).mul (Lip.pow 3))).add
    (((Lip.const 27.70).add h4).mul (Lip.pow 4))).add ((Lip.const 15.61).mul (Lip.pow 5))
  have hr := h.rate.smul (arcsec / 10 ^ 6)
  refine (hr.congr fun t => ?_ : Rate s00 _).mono ?_
  · unfold s00
    rw [div_mul_eq_mul_div, mul_comm _ arcsec, mul_div_right_comm]
  rw [abs_of_pos (arcsec_div_pos _)]
  have hq : arcsec / 10 ^ 6 ≤ 4.8482e-12 := (div_le_div_of_nonneg_right arcsec_le (by positivity)).trans (by norm_num)
  refine (mul_le_mul_of_nonneg_right hq (by positivity)).trans ?_
  rw [abs_of_pos (by norm_num : (0 : ℝ) < 3808.35), abs_of_neg (by norm_num : (-119.94 : ℝ) < 0),
    abs_of_neg (by norm_num : (-72574.09 : ℝ) < 0), abs_of_pos (by norm_num : (0 : ℝ) < 27.70), abs_of_pos (by norm_num : (0 : ℝ) < 15.61)]
  push_cast
  norm_num

end Verif
