import Verif.Lemmas.FrameAcc

/-!
# The CIO locator in binary64
-/

namespace Verif
open Arith F64 Spec

namespace Ang
variable {x y : F64} {θ φ e e' A B : ℝ}

theorem smul13 (hx : Ang x θ e A) (hA : A ≤ 13) (n : ℤ) (hn : |(n : ℝ)| ≤ 100) :
    Ang (Arith.ofInt n *. x) (n * θ) (|(n : ℝ)| * (e + 2 / 10 ^ 15) + 1 / 2 ^ 100) (|(n : ℝ)| * 13.001 + 1 / 2 ^ 100) := by
  have n0 := abs_nonneg (n : ℝ)
  have A0 := hx.M_nonneg
  have h1 : |(n : ℝ)| * A ≤ |(n : ℝ)| * 13 := by gcongr
  refine hx.smul n le_rfl (hn.trans (by norm_num)) ⟨?_, ?_, ?_⟩
  · norm_num; linarith
  · norm_num; linarith
  · norm_num; linarith

theorem add500 (hx : Ang x θ e A) (hy : Ang y φ e' B) (h : A + B ≤ 500) :
    Ang (x +. y) (θ + φ) (e + e' + 6 / 10 ^ 14) (A + B + 6 / 10 ^ 14) := by
  refine hx.add hy ⟨?_, ?_, ?_⟩
  · norm_num; linarith
  · norm_num; linarith
  · norm_num; linarith

end Ang

/-- `(c0 + x % TURNAS) * AS2R` for a computed number of arcseconds `x`. -/
theorem ang_fund {x : F64} {q e A E : ℝ} (h : NB x q e A) (c0 : ℚ) (hc0 : |(c0 : ℝ)| ≤ 1300000)
    (hE : e * 4.8482e-6 + 1 / 10 ^ 14 ≤ E) : Ang ((lit c0 +. x %. TURNAS) *. AS2R) ((c0 + q) * arcsec) E 12.6 := by
  obtain ⟨r, h1, h2, -⟩ := h.exists_is
  have hb := rem_bound r 1296000 (by norm_num)
  set k := truncQ (r / 1296000) with hk
  have h3 : Is (x %. TURNAS) (r - 1296000 * k) := h1.rem turnas_is (by norm_num)
  have e0 := h.e_nonneg
  have n1 : NB (x %. TURNAS) (((r - 1296000 * k : ℚ) : ℝ)) 0 1296000 := NB.of_is h3 (by
    have : |r - 1296000 * (k : ℚ)| ≤ 1296000 := by rw [abs_of_pos (show (0 : ℚ) < 1296000 by norm_num)] at hb; exact hb.le
    exact_mod_cast this)
  have n2 := (NB.lit c0 (M := 1300000) (E := 2 / 10 ^ 10) ⟨hc0, by norm_num, by norm_num⟩).add n1
    (E := 5 / 10 ^ 10) (M := 2596000) (by norm_num)
  have n3 := n2.mul as2r_nb (E := 8 / 10 ^ 15) (M := 12.59) (by norm_num)
  obtain ⟨s, s1, s2, s3⟩ := n3.exists_is
  have ha := arcsec_bounds
  refine ⟨s, s1, ⟨k, ?_⟩, s3.trans (by norm_num)⟩
  have e1 : (s : ℝ) - ((c0 + q) * arcsec - k * (2 * Real.pi)) =
      (s - (c0 + ((r - 1296000 * k : ℚ) : ℝ)) * arcsec) + (r - q) * arcsec := by
    push_cast
    unfold arcsec; ring
  rw [e1]
  refine (abs_add_le _ _).trans ?_
  have g2 : |((r : ℝ) - q) * arcsec| ≤ e * 4.8482e-6 := by
    rw [abs_mul]
    refine mul_le_mul h2 ?_ (abs_nonneg _) e0
    rw [abs_of_nonneg (by norm_num at *; linarith)]; exact ha.2
  norm_num at hE s2 g2 ⊢
  linarith

section
variable {T : F64} {t : ℝ}

theorem fundarg_ang (hT : NB T t (3 / 10 ^ 14) 1) (c0 c1 c2 c3 c4 : ℚ) (h0 : |(c0 : ℝ)| ≤ 1300000)
    (h1 : |(c1 : ℝ)| ≤ 1740000000) (h2 : |(c2 : ℝ)| ≤ 32) (h3 : |(c3 : ℝ)| ≤ 32) (h4 : |(c4 : ℝ)| ≤ 32) :
    Ang (fundarg c0 c1 c2 c3 c4 T) ((c0 + c1 * t + c2 * t ^ 2 + c3 * t ^ 3 + c4 * t ^ 4) * arcsec) (26 / 10 ^ 11) 12.6 := by
  have a4 := hT.mul (NB.lit c4 (M := 32) (E := 1 / 10 ^ 14) ⟨h4, by norm_num, by norm_num⟩) (E := 2 / 10 ^ 12) (M := 32) (by norm_num)
  have a3 := (NB.lit c3 (M := 32) (E := 1 / 10 ^ 14) ⟨h3, by norm_num, by norm_num⟩).add a4 (E := 3 / 10 ^ 12) (M := 64) (by norm_num)
  have b3 := hT.mul a3 (E := 6 / 10 ^ 12) (M := 64) (by norm_num)
  have a2 := (NB.lit c2 (M := 32) (E := 1 / 10 ^ 14) ⟨h2, by norm_num, by norm_num⟩).add b3 (E := 7 / 10 ^ 12) (M := 96) (by norm_num)
  have b2 := hT.mul a2 (E := 2 / 10 ^ 11) (M := 96) (by norm_num)
  have a1 := (NB.lit c1 (M := 1740000000) (E := 2 / 10 ^ 7) ⟨h1, by norm_num, by norm_num⟩).add b2 (E := 4 / 10 ^ 7) (M := 1740000096) (by norm_num)
  have b1 := hT.mul a1 (E := 53 / 10 ^ 6) (M := 1740000096) (by norm_num)
  have c := ang_fund b1 c0 h0 (E := 26 / 10 ^ 11) (by norm_num)
  unfold fundarg
  exact c.congr (by ring)

theorem linear_ang (hT : NB T t (3 / 10 ^ 14) 1) (c0 c1 : ℚ) (h0 : |(c0 : ℝ)| ≤ 10) (h1 : |(c1 : ℝ)| ≤ 1100) :
    Ang ((lit c0 +. lit c1 *. T) %. TWO_PI) (c0 + c1 * t) (26 / 10 ^ 11) 12.6 := by
  have a := (NB.lit c1 (M := 1100) (E := 2 / 10 ^ 13) ⟨h1, by norm_num, by norm_num⟩).mul hT (E := 4 / 10 ^ 11) (M := 1100) (by norm_num)
  have b := (NB.lit c0 (M := 10) (E := 2 / 10 ^ 13) ⟨h0, by norm_num, by norm_num⟩).add a (E := 5 / 10 ^ 11) (M := 1110) (by norm_num)
  exact ((Ang.of_nb b (M := 1111) (by norm_num)).rem (E := 26 / 10 ^ 11) (by norm_num)).mono ⟨le_rfl, by norm_num⟩

theorem pa_ang (hT : NB T t (3 / 10 ^ 14) 1) : Ang (pa03 T) (0.024381750 * t + 0.00000538691 * t ^ 2) (26 / 10 ^ 11) 12.6 := by
  have a := (NB.lit 0.00000538691 (M := 1) (E := 1 / 10 ^ 15) (by norm_num [abs_le])).mul hT (E := 1 / 10 ^ 13) (M := 1) (by norm_num)
  have b := (NB.lit 0.024381750 (M := 1) (E := 1 / 10 ^ 15) (by norm_num [abs_le])).add a (E := 2 / 10 ^ 13) (M := 2) (by norm_num)
  have c := b.mul hT (E := 26 / 10 ^ 11) (M := 2) (by norm_num)
  exact (Ang.of_nb c (M := 12.6) (by norm_num)).congr (by push_cast; ring)

theorem argument_eight_f {α : Type} [Arith α] (k0 k1 k2 k3 k4 k5 k6 k7 : ℤ) (x0 x1 x2 x3 x4 x5 x6 x7 : α) :
    argument [k0, k1, k2, k3, k4, k5, k6, k7] [x0, x1, x2, x3, x4, x5, x6, x7] =
      (((((((lit 0 +. Arith.ofInt k0 *. x0) +. Arith.ofInt k1 *. x1) +. Arith.ofInt k2 *. x2) +. Arith.ofInt k3 *. x3) +.
        Arith.ofInt k4 *. x4) +. Arith.ofInt k5 *. x5) +. Arith.ofInt k6 *. x6) +. Arith.ofInt k7 *. x7 := rfl

theorem s00_arg_f (hT : NB T t (3 / 10 ^ 14) 1) (p : List ℤ × (ℤ × ℤ))
    (hp : p ∈ KS0.zip SS0 ++ KS1.zip SS1 ++ KS2.zip SS2 ++ KS3.zip SS3 ++ KS4.zip SS4) :
    Ang (argument p.1 (fundArgs T)) ((mkS p).arg t) (79 / 10 ^ 10) 400 := by
  obtain ⟨hl, hs⟩ := s00_small p hp
  clear hp
  obtain ⟨ks, sc⟩ := p
  obtain ⟨k0, k1, k2, k3, k4, k5, k6, k7, rfl⟩ : ∃ k0 k1 k2 k3 k4 k5 k6 k7, ks = [k0, k1, k2, k3, k4, k5, k6, k7] := by
    match ks, hl with
    | [k0, k1, k2, k3, k4, k5, k6, k7], _ => exact ⟨k0, k1, k2, k3, k4, k5, k6, k7, rfl⟩
  simp only [List.getD_cons_zero, List.getD_cons_succ] at hs
  have hs' : |(k0 : ℝ)| + |(k1 : ℝ)| + |(k2 : ℝ)| + |(k3 : ℝ)| + |(k4 : ℝ)| + |(k5 : ℝ)| + |(k6 : ℝ)| + |(k7 : ℝ)| ≤ 30 := by
    exact_mod_cast hs
  have n0 := abs_nonneg (k0 : ℝ)
  have n1 := abs_nonneg (k1 : ℝ)
  have n2 := abs_nonneg (k2 : ℝ)
  have n3 := abs_nonneg (k3 : ℝ)
  have n4 := abs_nonneg (k4 : ℝ)
  have n5 := abs_nonneg (k5 : ℝ)
  have n6 := abs_nonneg (k6 : ℝ)
  have n7 := abs_nonneg (k7 : ℝ)
  have c0 := (fundarg_ang hT 485868.249036 1717915923.2178 31.8792 0.051635 (-0.00024470) (by norm_num [abs_le])
    (by norm_num [abs_le]) (by norm_num [abs_le]) (by norm_num [abs_le]) (by norm_num [abs_le])).smul13 (by norm_num) k0 (by linarith)
  have c1 := (fundarg_ang hT 1287104.793048 129596581.0481 (-0.5532) 0.000136 (-0.00001149) (by norm_num [abs_le])
    (by norm_num [abs_le]) (by norm_num [abs_le]) (by norm_num [abs_le]) (by norm_num [abs_le])).smul13 (by norm_num) k1 (by linarith)
  have c2 := (fundarg_ang hT 335779.526232 1739527262.8478 (-12.7512) (-0.001037) 0.00000417 (by norm_num [abs_le])
    (by norm_num [abs_le]) (by norm_num [abs_le]) (by norm_num [abs_le]) (by norm_num [abs_le])).smul13 (by norm_num) k2 (by linarith)
  have c3 := (fundarg_ang hT 1072260.703692 1602961601.2090 (-6.3706) 0.006593 (-0.00003169) (by norm_num [abs_le])
    (by norm_num [abs_le]) (by norm_num [abs_le]) (by norm_num [abs_le]) (by norm_num [abs_le])).smul13 (by norm_num) k3 (by linarith)
  have c4 := (fundarg_ang hT 450160.398036 (-6962890.5431) 7.4722 0.007702 (-0.00005939) (by norm_num [abs_le])
    (by norm_num [abs_le]) (by norm_num [abs_le]) (by norm_num [abs_le]) (by norm_num [abs_le])).smul13 (by norm_num) k4 (by linarith)
  have c5 := (linear_ang hT 3.176146697 1021.3285546211 (by norm_num [abs_le]) (by norm_num [abs_le])).smul13 (by norm_num) k5 (by linarith)
  have c6 := (linear_ang hT 1.753470314 628.3075849991 (by norm_num [abs_le]) (by norm_num [abs_le])).smul13 (by norm_num) k6 (by linarith)
  have c7 := (pa_ang hT).smul13 (by norm_num) k7 (by linarith)
  have z : Ang (lit 0 : F64) 0 0 0 := Ang.of_nb zero_nb (by norm_num)
  have s0 := z.add500 c0 (by norm_num; linarith)
  have s1 := s0.add500 c1 (by norm_num; linarith)
  have s2 := s1.add500 c2 (by norm_num; linarith)
  have s3 := s2.add500 c3 (by norm_num; linarith)
  have s4 := s3.add500 c4 (by norm_num; linarith)
  have s5 := s4.add500 c5 (by norm_num; linarith)
  have s6 := s5.add500 c6 (by norm_num; linarith)
  have s7 := s6.add500 c7 (by norm_num; linarith)
  show Ang (argument [k0, k1, k2, k3, k4, k5, k6, k7] [l03 T, lp03 T, f03 T, d03 T, om03 T, ve03 T, e03 T, pa03 T]) _ _ _
  rw [argument_eight_f]
  refine ((s7.mono (E := 79 / 10 ^ 10) (M := 400) ⟨by norm_num; linarith, by norm_num; linarith⟩)).congr ?_
  unfold S00Row.arg mkS
  simp only [List.getD_cons_zero, List.getD_cons_succ]
  push_cast
  ring

theorem micro_nb (c : ℤ) (hc : |(c : ℝ)| ≤ 10 ^ 8) : NB (micro c : F64) (c / 10 ^ 8) (|(c : ℝ)| / 10 ^ 8 / 2 ^ 53 + 1 / 2 ^ 100)
    (|(c : ℝ)| / 10 ^ 8) := by
  have h : |((c / 100000000 : ℚ) : ℝ)| ≤ |(c : ℝ)| / 10 ^ 8 := by
    push_cast
    rw [abs_div]; norm_num
  exact (NB.lit (c / 100000000) (M := |(c : ℝ)| / 10 ^ 8) (E := |(c : ℝ)| / 10 ^ 8 / 2 ^ 53 + 1 / 2 ^ 100)
    ⟨h, le_rfl, by norm_num at *; linarith⟩).congr (by push_cast; norm_num)

theorem s_term_nb [Libm F64] {s k : F64} {σ κ : ℝ} (hs : NB s σ (8 / 10 ^ 9) 1) (hk : NB k κ (8 / 10 ^ 9) 1) (c d : ℤ)
    (hc : |(c : ℝ)| ≤ 10 ^ 8) (hd : |(d : ℝ)| ≤ 10 ^ 8) :
    NB (micro c *. s +. micro d *. k) ((c * σ + d * κ) / 10 ^ 8) ((|(c : ℝ)| + |(d : ℝ)|) * (81 / 10 ^ 18) + 1 / 2 ^ 90)
      ((|(c : ℝ)| + |(d : ℝ)|) * (1 / 10 ^ 8) + 0) := by
  have n0 := abs_nonneg (c : ℝ)
  have n1 := abs_nonneg (d : ℝ)
  have a0 := micro_nb c hc
  have a1 := micro_nb d hd
  generalize |(c : ℝ)| = w0 at *
  generalize |(d : ℝ)| = w1 at *
  have b1 := a0.mul hs (E := w0 * (801 / 10 ^ 19) + 1 / 2 ^ 98) (M := w0 / 10 ^ 8)
    ⟨by norm_num; linarith, by norm_num, by norm_num at *; linarith⟩
  have b2 := a1.mul hk (E := w1 * (801 / 10 ^ 19) + 1 / 2 ^ 98) (M := w1 / 10 ^ 8)
    ⟨by norm_num; linarith, by norm_num, by norm_num at *; linarith⟩
  refine (b1.add b2 ⟨?_, ?_, ?_⟩).congr (by ring)
  · norm_num; linarith
  · norm_num; linarith
  · norm_num at *; linarith

theorem ssSum_sums (L : List (List ℤ × (ℤ × ℤ))) (K c : ℝ) :
    (L.map fun p => (|(p.2.1 : ℝ)| + |(p.2.2 : ℝ)|) * K + c).sum = ssSum L * K + L.length * c := by
  induction L with
  | nil => simp [ssSum]
  | cons p L ih =>
    simp only [List.map_cons, List.sum_cons, List.length_cons, ssSum]
    rw [ih]
    push_cast
    ring

theorem ss_small : ∀ p ∈ KS0.zip SS0 ++ KS1.zip SS1 ++ KS2.zip SS2 ++ KS3.zip SS3 ++ KS4.zip SS4,
    |p.2.1| ≤ 10 ^ 8 ∧ |p.2.2| ≤ 10 ^ 8 := by decide +kernel

theorem ssSum_reverse (L : List (List ℤ × (ℤ × ℤ))) : ssSum L.reverse = ssSum L := by
  have key : ∀ M : List (List ℤ × (ℤ × ℤ)), ssSum M = (M.map fun p => |p.2.1| + |p.2.2|).sum := fun M => by
    induction M with
    | nil => rfl
    | cons p M ih => simp [ssSum, ih]
  rw [key, key, List.map_reverse, List.sum_reverse]

variable [Libm F64] (hL : LibmAcc)
include hL

theorem sCoef_acc (hT : NB T t (3 / 10 ^ 14) 1) (sp : ℤ) (ks : List (List ℤ)) (ss : List (ℤ × ℤ)) (N : ℤ)
    (hN : ssSum (ks.zip ss) ≤ N) (hN' : N ≤ 300000) (hs : |sp| + N ≤ 8000000) (hl : (ks.zip ss).length ≤ 100)
    (h : ∀ p ∈ ks.zip ss, p ∈ KS0.zip SS0 ++ KS1.zip SS1 ++ KS2.zip SS2 ++ KS3.zip SS3 ++ KS4.zip SS4) :
    NB (sCoef (fundArgs T) sp ks ss) ((sp / 100 + s00Sum ((ks.zip ss).map mkS) t) / 10 ^ 6) (25 / 10 ^ 12) (8 / 100) := by
  have hN1 : ((ssSum (ks.zip ss) : ℤ) : ℝ) ≤ N := by exact_mod_cast hN
  have hN2 : (N : ℝ) ≤ 300000 := by exact_mod_cast hN'
  have hs' : |(sp : ℝ)| + N ≤ 8000000 := by exact_mod_cast hs
  have hl' : ((ks.zip ss).length : ℝ) ≤ 100 := by exact_mod_cast hl
  have l0 : (0 : ℝ) ≤ (ks.zip ss).length := by positivity
  have s0 : (0 : ℝ) ≤ (ssSum (ks.zip ss) : ℤ) := by
    have := ssSum_sums (ks.zip ss) 1 0
    rw [mul_one, mul_zero, add_zero] at this
    rw [← this]
    refine List.sum_nonneg ?_
    intro z hz; obtain ⟨c, hc, rfl⟩ := List.mem_map.mp hz; positivity
  have sp0 := abs_nonneg (sp : ℝ)
  have hsp := micro_nb sp (by norm_num; linarith)
  have hr : ∀ p ∈ (ks.zip ss).reverse, p ∈ ks.zip ss := fun p hp => List.mem_reverse.mp hp
  have F := fold_near (fun p : List ℤ × (ℤ × ℤ) => micro p.2.1 *. Libm.sin (argument p.1 (fundArgs T)) +.
      micro p.2.2 *. Libm.cos (argument p.1 (fundArgs T)))
    (fun p => (p.2.1 * Real.sin ((mkS p).arg t) + p.2.2 * Real.cos ((mkS p).arg t)) / 10 ^ 8) _ _
    (ks.zip ss).reverse (1 / 10) _ rfl (by norm_num) (by norm_num)
    (fun p hp => by
      have ha := s00_arg_f hT p (h p (hr p hp))
      have hb := ss_small p (h p (hr p hp))
      exact s_term_nb (ha.nbSin hL (by norm_num)) (ha.nbCos hL (by norm_num)) p.2.1 p.2.2 (by exact_mod_cast hb.1) (by exact_mod_cast hb.2))
    (micro sp) _ _ _ hsp (by
      rw [ssSum_sums, ssSum_sums, List.length_reverse, ssSum_reverse]
      clear hl h hr hN hN' hs
      generalize ((ks.zip ss).length : ℝ) = l at *
      generalize ((ssSum (ks.zip ss) : ℤ) : ℝ) = S at *
      generalize |(sp : ℝ)| = P at *
      norm_num
      linarith)
  rw [ssSum_sums, ssSum_sums, List.length_reverse, ssSum_reverse, map_reverse_sum] at F
  unfold sCoef
  refine (F.mono ⟨?_, ?_⟩).congr ?_
  · clear F hl h hr hN hN' hs
    generalize ((ks.zip ss).length : ℝ) = l at *
    generalize ((ssSum (ks.zip ss) : ℤ) : ℝ) = S at *
    generalize |(sp : ℝ)| = P at *
    norm_num
    linarith
  · clear F hl h hr hN hN' hs
    generalize ((ks.zip ss).length : ℝ) = l at *
    generalize ((ssSum (ks.zip ss) : ℤ) : ℝ) = S at *
    generalize |(sp : ℝ)| = P at *
    norm_num
    linarith
  · unfold s00Sum
    rw [List.map_map, add_div, div_div]
    norm_num
    rw [div_eq_mul_inv, ← List.sum_map_mul_right]
    congr 1
    refine List.map_congr_left fun p _ => ?_
    show _ = ((mkS p).s * Real.sin ((mkS p).arg t) + (mkS p).c * Real.cos ((mkS p).arg t)) / 100 * 1000000⁻¹
    have e1 : (mkS p).s = p.2.1 := rfl
    have e2 : (mkS p).c = p.2.2 := rfl
    rw [e1, e2]
    ring

theorem cio_acc {tt : F64 × F64} (hT : NB (centuries tt) t (3 / 10 ^ 14) 1) {x y : F64} {X Y e : ℝ} (hx : NB x X e (1 / 40))
    (hy : NB y Y e (1 / 40)) (he : e ≤ 1 / 10 ^ 10) :
    NB (cio tt x y) (s00 t - X * Y / 2) (e / 20 + 2 / 10 ^ 15) (1 / 1000) := by
  have e0 := hx.e_nonneg
  obtain ⟨T0, T1, T2, T3, T4⟩ := s00_tables
  have d0 := sCoef_acc hL hT 9400 KS0 SS0 274655 (by decide +kernel) (by norm_num) (by norm_num) (by decide)
    (fun p hp => by simp only [List.mem_append]; tauto)
  have d1 := sCoef_acc hL hT 380835 KS1 SS1 586 (by decide +kernel) (by norm_num) (by norm_num) (by decide)
    (fun p hp => by simp only [List.mem_append]; tauto)
  have d2 := sCoef_acc hL hT (-11994) KS2 SS2 83911 (by decide +kernel) (by norm_num) (by norm_num) (by decide)
    (fun p hp => by simp only [List.mem_append]; tauto)
  have d3 := sCoef_acc hL hT (-7257409) KS3 SS3 2570 (by decide +kernel) (by norm_num) (by norm_num) (by decide)
    (fun p hp => by simp only [List.mem_append]; tauto)
  have d4 := sCoef_acc hL hT 2770 KS4 SS4 27 (by decide +kernel) (by norm_num) (by norm_num) (by decide)
    (fun p hp => by simp only [List.mem_append]; tauto)
  have d5 := (micro_nb 1561 (by norm_num)).mono (E := 1 / 10 ^ 15) (M := 8 / 100) ⟨by norm_num, by norm_num⟩
  have a5 := d5.mul hT (E := 1 / 10 ^ 14) (M := 8 / 100) (by norm_num)
  have a4 := d4.add a5 (E := 26 / 10 ^ 12) (M := 16 / 100) (by norm_num)
  have b4 := a4.mul hT (E := 27 / 10 ^ 12) (M := 16 / 100) (by norm_num)
  have a3 := d3.add b4 (E := 53 / 10 ^ 12) (M := 24 / 100) (by norm_num)
  have b3 := a3.mul hT (E := 54 / 10 ^ 12) (M := 24 / 100) (by norm_num)
  have a2 := d2.add b3 (E := 80 / 10 ^ 12) (M := 32 / 100) (by norm_num)
  have b2 := a2.mul hT (E := 81 / 10 ^ 12) (M := 32 / 100) (by norm_num)
  have a1 := d1.add b2 (E := 107 / 10 ^ 12) (M := 40 / 100) (by norm_num)
  have b1 := a1.mul hT (E := 108 / 10 ^ 12) (M := 40 / 100) (by norm_num)
  have a0 := d0.add b1 (E := 134 / 10 ^ 12) (M := 48 / 100) (by norm_num)
  have g := a0.mul as2r_nb (E := 1 / 10 ^ 15) (M := 3 / 10 ^ 6) (by norm_num)
  have h2 : Is (Arith.lit 2 : F64) 2 := by
    have := Is.lit_int 2 (by norm_num)
    push_cast at this
    exact this
  have he2 : e * e ≤ e * (1 / 10 ^ 10) := mul_le_mul_of_nonneg_left he e0
  have m := hx.mul hy (E := e * (51 / 1000) + 2 / 10 ^ 19) (M := 1 / 1600) ⟨by norm_num at *; linarith, by norm_num, by norm_num at *; linarith⟩
  have q := m.div (NB.of_is h2 (M := 2) (by norm_num)) (β := 2) (by norm_num) (by norm_num) (E := e * (26 / 1000) + 2 / 10 ^ 19) (M := 1 / 3200)
    ⟨by norm_num at *; linarith, by norm_num, by norm_num at *; linarith⟩
  have r := g.sub q (E := e / 20 + 2 / 10 ^ 15) (M := 1 / 1000) ⟨by norm_num at *; linarith, by norm_num, by norm_num at *; linarith⟩
  unfold s00
  rw [T0, T1, T2, T3, T4]
  unfold cio
  refine r.congr ?_
  push_cast
  norm_num
  left
  ring

end
end Verif
