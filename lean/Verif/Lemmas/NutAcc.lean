import Verif.Lemmas.LibmAcc

/-!
# Nutation in binary64

Everything is stated for a computed number of centuries `T` within `3 * 10^-14` of an exact `t` with `|t| ≤ 1`.
-/

namespace Verif
open Arith F64 Spec

/-- The number of Julian centuries since J2000.0 of a date given as two floats whose values are `a` and `b`, compared
with the exact number. -/
theorem centuries_near {x y : F64} {a b : ℚ} (hx : Is x a) (hy : Is y b) (ha : |(a : ℝ)| ≤ 4000000)
    (hd : |(a : ℝ) + b - 2451545| ≤ 36525) :
    NB (centuries (x, y)) (((a : ℝ) + b - 2451545) / 36525) (21 / 10 ^ 15) 1 := by
  have h0 : Is (DJ00 : F64) 2451545 := by
    have := Is.lit_int 2451545 (by norm_num)
    push_cast at this
    have e : (DJ00 : F64) = Arith.lit 2451545 := by unfold DJ00; norm_num
    rw [e]; exact this
  have h1 : Is (DJC : F64) 36525 := by
    have := Is.lit_int 36525 (by norm_num)
    push_cast at this
    have e : (DJC : F64) = Arith.lit 36525 := by unfold DJC; norm_num
    rw [e]; exact this
  have h2 := (Near.of_is hx).sub (Near.of_is h0) (M := 6451545) (by
    rw [add_zero, add_zero]
    refine (abs_sub _ _).trans ?_
    norm_num
    linarith) (by norm_num)
  have e3 : |((a : ℝ) - (2451545 : ℚ)) + b| ≤ 36525 := by
    refine le_trans (le_of_eq (congrArg _ ?_)) hd
    push_cast; ring
  have h3 := h2.add (Near.of_is hy) (M := 36526) (by
    refine le_trans (add_le_add_left (add_le_add_left e3 _) _) ?_
    norm_num) (by norm_num)
  have h4 := h3.div_exact h1 (by norm_num) (C := 1 / 36525) (M := 1.1) (by norm_num [abs_le]) (by
    refine le_trans (mul_le_mul_of_nonneg_right (add_le_add_left e3 _) (by norm_num)) ?_
    norm_num) (by norm_num)
  refine ⟨(h4.congr ?_).mono ?_, ?_⟩
  · push_cast; ring
  · norm_num
  · rw [abs_div, abs_of_pos (show (0 : ℝ) < 36525 by norm_num), div_le_one (by norm_num)]
    exact hd

namespace Ang
variable {x y : F64} {θ φ e e' A B : ℝ}

theorem smul' (hx : Ang x θ e 6.2833) (n : ℤ) (hn : |(n : ℝ)| ≤ 100) :
    Ang (Arith.ofInt n *. x) (n * θ) (|(n : ℝ)| * (e + 1 / 10 ^ 15) + 1 / 2 ^ 100) (|(n : ℝ)| * 6.284 + 1 / 2 ^ 100) := by
  have n0 := abs_nonneg (n : ℝ)
  refine hx.smul n le_rfl (hn.trans (by norm_num)) ⟨?_, ?_, ?_⟩
  · norm_num; linarith
  · norm_num; linarith
  · norm_num; linarith

theorem add' (hx : Ang x θ e A) (hy : Ang y φ e' B) (h : A + B ≤ 250) :
    Ang (x +. y) (θ + φ) (e + e' + 3 / 10 ^ 14) (A + B + 3 / 10 ^ 14) := by
  refine hx.add hy ⟨?_, ?_, ?_⟩
  · norm_num; linarith
  · norm_num; linarith
  · norm_num; linarith

end Ang

section
variable {T : F64} {t : ℝ}

/-- A linear function of the time, in arcseconds. -/
theorem lin_nb (hT : NB T t (3 / 10 ^ 14) 1) (c0 c1 : ℚ) (h0 : |(c0 : ℝ)| ≤ 1300000) (h1 : |(c1 : ℝ)| ≤ 1740000000) :
    NB (lit c0 +. lit c1 *. T) (c0 + c1 * t) (53 / 10 ^ 6) 1742000000 := by
  have a := NB.lit c0 (M := 1300000) (E := 1 / 10 ^ 9) ⟨h0, by norm_num, by norm_num⟩
  have b := NB.lit c1 (M := 1740000000) (E := 2 / 10 ^ 7) ⟨h1, by norm_num, by norm_num⟩
  have c := b.mul hT (E := 526 / 10 ^ 7) (M := 1740000000) (by norm_num)
  exact a.add c (by norm_num)

theorem lin_arg (hT : NB T t (3 / 10 ^ 14) 1) (c0 c1 : ℚ) (h0 : |(c0 : ℝ)| ≤ 1300000) (h1 : |(c1 : ℝ)| ≤ 1740000000) :
    Ang (((lit c0 +. lit c1 *. T) %. TURNAS) *. AS2R) ((c0 + c1 * t) * arcsec) (26 / 10 ^ 11) 6.2833 :=
  ang_turn (lin_nb hT c0 c1 h0 h1) (by norm_num)

theorem lin_arg' (hT : NB T t (3 / 10 ^ 14) 1) (c0 c1 : ℚ) (h0 : |(c0 : ℝ)| ≤ 1300000) (h1 : |(c1 : ℝ)| ≤ 1740000000) :
    Ang (((lit c0 -. lit c1 *. T) %. TURNAS) *. AS2R) ((c0 - c1 * t) * arcsec) (26 / 10 ^ 11) 6.2833 := by
  have a := NB.lit c0 (M := 1300000) (E := 1 / 10 ^ 9) ⟨h0, by norm_num, by norm_num⟩
  have b := NB.lit c1 (M := 1740000000) (E := 2 / 10 ^ 7) ⟨h1, by norm_num, by norm_num⟩
  have c := b.mul hT (E := 526 / 10 ^ 7) (M := 1740000000) (by norm_num)
  have d := a.sub c (E := 53 / 10 ^ 6) (M := 1742000000) (by norm_num)
  exact ang_turn d (by norm_num)

/-- The arguments of the program. -/
def nutArgsF (T : F64) : Nal → F64 := nutArg
      (((lit 485868.249036 +. lit 1717915923.2178 *. T) %. TURNAS) *. AS2R)
      (((lit 1287104.79305 +. lit 129596581.0481 *. T) %. TURNAS) *. AS2R)
      (((lit 335779.526232 +. lit 1739527262.8478 *. T) %. TURNAS) *. AS2R)
      (((lit 1072260.70369 +. lit 1602961601.2090 *. T) %. TURNAS) *. AS2R)
      (((lit 450160.398036 -. lit 6962890.5431 *. T) %. TURNAS) *. AS2R)

theorem nut_arg_f (hT : NB T t (3 / 10 ^ 14) 1) (p : Nal × Cls) (hp : p ∈ NALS.zip CLS) :
    Ang (nutArgsF T p.1) ((mkRow p).arg t) (27 / 10 ^ 10) 6.2832 := by
  unfold nutArgsF
  have hn := nal_small p hp
  have hn' : |(p.1.l : ℝ)| + |(p.1.lp : ℝ)| + |(p.1.f : ℝ)| + |(p.1.d : ℝ)| + |(p.1.om : ℝ)| ≤ 10 := by exact_mod_cast hn
  have n1 := abs_nonneg (p.1.l : ℝ)
  have n2 := abs_nonneg (p.1.lp : ℝ)
  have n3 := abs_nonneg (p.1.f : ℝ)
  have n4 := abs_nonneg (p.1.d : ℝ)
  have n5 := abs_nonneg (p.1.om : ℝ)
  have a1 := (lin_arg hT 485868.249036 1717915923.2178 (by norm_num [abs_le]) (by norm_num [abs_le])).smul' p.1.l (by linarith)
  have a2 := (lin_arg hT 1287104.79305 129596581.0481 (by norm_num [abs_le]) (by norm_num [abs_le])).smul' p.1.lp (by linarith)
  have a3 := (lin_arg hT 335779.526232 1739527262.8478 (by norm_num [abs_le]) (by norm_num [abs_le])).smul' p.1.f (by linarith)
  have a4 := (lin_arg hT 1072260.70369 1602961601.2090 (by norm_num [abs_le]) (by norm_num [abs_le])).smul' p.1.d (by linarith)
  have a5 := (lin_arg' hT 450160.398036 6962890.5431 (by norm_num [abs_le]) (by norm_num [abs_le])).smul' p.1.om (by linarith)
  generalize ((lit 485868.249036 +. lit 1717915923.2178 *. T) %. TURNAS) *. AS2R = x1 at *
  generalize ((lit 1287104.79305 +. lit 129596581.0481 *. T) %. TURNAS) *. AS2R = x2 at *
  generalize ((lit 335779.526232 +. lit 1739527262.8478 *. T) %. TURNAS) *. AS2R = x3 at *
  generalize ((lit 1072260.70369 +. lit 1602961601.2090 *. T) %. TURNAS) *. AS2R = x4 at *
  generalize ((lit 450160.398036 -. lit 6962890.5431 *. T) %. TURNAS) *. AS2R = x5 at *
  have b1 := a1.add' a2 (by norm_num; linarith)
  have b2 := b1.add' a3 (by norm_num; linarith)
  have b3 := b2.add' a4 (by norm_num; linarith)
  have b4 := b3.add' a5 (by norm_num; linarith)
  have b5 := (b4.mono (E := 261 / 10 ^ 11) (M := 63) ⟨by norm_num; linarith, by norm_num; linarith⟩).rem
    (E := 27 / 10 ^ 10) (by norm_num)
  unfold nutArg
  refine b5.congr ?_
  unfold NutRow.arg mkRow
  push_cast
  ring

theorem flt_nb (z : ℤ) (hz : |(z : ℝ)| ≤ 2 ^ 53) : NB (flt z : F64) z 0 |(z : ℝ)| := by
  have h : Is (flt z : F64) z := Is.lit_int z (by exact_mod_cast hz)
  have := NB.of_is h (M := |(z : ℝ)|) (by push_cast; exact le_rfl)
  push_cast at this
  exact this

/-- One term of the series. -/
theorem term_nb [Libm F64] (hT : NB T t (3 / 10 ^ 14) 1) {s k : F64} {σ κ : ℝ} (hs : NB s σ (28 / 10 ^ 10) 1)
    (hk : NB k κ (28 / 10 ^ 10) 1) (c0 c1 c2 : ℤ) (h0 : |(c0 : ℝ)| ≤ 10 ^ 9) (h1 : |(c1 : ℝ)| ≤ 10 ^ 9)
    (h2 : |(c2 : ℝ)| ≤ 10 ^ 9) :
    NB ((flt c0 +. flt c1 *. T) *. s +. flt c2 *. k) ((c0 + c1 * t) * σ + c2 * κ)
      ((|(c0 : ℝ)| + |(c1 : ℝ)| + |(c2 : ℝ)|) * (281 / 10 ^ 11) + 1 / 2 ^ 90) (|(c0 : ℝ)| + |(c1 : ℝ)| + |(c2 : ℝ)|) := by
  have n0 := abs_nonneg (c0 : ℝ)
  have n1 := abs_nonneg (c1 : ℝ)
  have n2 := abs_nonneg (c2 : ℝ)
  have a0 := flt_nb c0 (h0.trans (by norm_num))
  have a1 := flt_nb c1 (h1.trans (by norm_num))
  have a2 := flt_nb c2 (h2.trans (by norm_num))
  generalize |(c0 : ℝ)| = w0 at *
  generalize |(c1 : ℝ)| = w1 at *
  generalize |(c2 : ℝ)| = w2 at *
  have b1 := a1.mul hT (E := w1 * (4 / 10 ^ 14) + 1 / 2 ^ 99) (M := w1)
    ⟨by norm_num; linarith, by norm_num, by norm_num; linarith⟩
  have b2 := a0.add b1 (E := (w0 + w1) * (5 / 10 ^ 14) + 1 / 2 ^ 97) (M := w0 + w1)
    ⟨by norm_num; linarith, by norm_num, by norm_num; linarith⟩
  have b3 := b2.mul hs (E := (w0 + w1) * (2805 / 10 ^ 12) + 1 / 2 ^ 95) (M := w0 + w1)
    ⟨by norm_num; linarith, by norm_num, by norm_num; linarith⟩
  have b4 := a2.mul hk (E := w2 * (2805 / 10 ^ 12) + 1 / 2 ^ 95) (M := w2)
    ⟨by norm_num; linarith, by norm_num, by norm_num; linarith⟩
  exact b3.add b4 ⟨by norm_num; linarith, by norm_num, by norm_num; linarith⟩

/-- The two sums of a fold over pairs are two folds. -/
theorem fold_pair {β : Type} (f g : β → F64) (L : List β) (acc : F64 × F64) :
    L.foldl (fun (s : F64 × F64) b => (s.1 +. f b, s.2 +. g b)) acc =
      (L.foldl (fun s b => s +. f b) acc.1, L.foldl (fun s b => s +. g b) acc.2) := by
  induction L generalizing acc with
  | nil => rfl
  | cons b L ih => rw [List.foldl_cons, ih]; rfl

theorem clsSum_sums (L : List (Nal × Cls)) (K c : ℝ) :
    (L.map fun p => (|(p.2.c0 : ℝ)| + |(p.2.c1 : ℝ)| + |(p.2.c2 : ℝ)|) * K + c).sum = (clsSum L).1 * K + L.length * c ∧
    (L.map fun p => (|(p.2.c3 : ℝ)| + |(p.2.c4 : ℝ)| + |(p.2.c5 : ℝ)|) * K + c).sum = (clsSum L).2 * K + L.length * c := by
  induction L with
  | nil => simp [clsSum]
  | cons p L ih =>
    simp only [List.map_cons, List.sum_cons, List.length_cons, clsSum]
    rw [ih.1, ih.2]
    push_cast
    constructor <;> ring

theorem cls_small : ∀ p ∈ NALS.zip CLS, |p.2.c0| ≤ 10 ^ 9 ∧ |p.2.c1| ≤ 10 ^ 9 ∧ |p.2.c2| ≤ 10 ^ 9 ∧ |p.2.c3| ≤ 10 ^ 9 ∧
    |p.2.c4| ≤ 10 ^ 9 ∧ |p.2.c5| ≤ 10 ^ 9 := by decide +kernel

theorem arcsec_bounds : 4.8481e-6 ≤ arcsec ∧ arcsec ≤ 4.8482e-6 := by
  unfold arcsec
  have := Real.pi_gt_d6
  have := Real.pi_lt_d6
  constructor
  · rw [le_div_iff₀ (by norm_num)]; norm_num at *; linarith
  · rw [div_le_iff₀ (by norm_num)]; norm_num at *; linarith

theorem as2r_nb : NB (AS2R : F64) arcsec (1 / 10 ^ 21) 4.8482e-6 := by
  obtain ⟨c, h1, h2, h3⟩ := as2r_is
  have := arcsec_bounds
  refine ⟨⟨c, h1, h2⟩, ?_⟩
  rw [abs_of_nonneg (by norm_num at *; linarith)]
  exact this.2

theorem u2r_nb : NB (U2R : F64) (arcsec / 10 ^ 7) (2 / 10 ^ 28) 4.8482e-13 := by
  have h7 : Is (Arith.lit 1e7 : F64) 10000000 := by
    have := Is.lit_int 10000000 (by norm_num)
    push_cast at this
    have e : (1e7 : ℚ) = 10000000 := by norm_num
    rw [e]; exact this
  have h := as2r_nb.near.div_exact h7 (by norm_num) (C := 1 / 10 ^ 7) (M := 4.8483e-13) (by norm_num [abs_le]) (by
    have := as2r_nb.mag
    norm_num at *
    linarith) (by norm_num)
  refine ⟨(h.congr (by norm_num)).mono (by norm_num), ?_⟩
  rw [abs_div, abs_of_pos (show (0 : ℝ) < 10 ^ 7 by norm_num), div_le_iff₀ (by norm_num)]
  refine as2r_nb.mag.trans (by norm_num)

theorem mas2r_nb : NB (MAS2R : F64) (arcsec / 1000) (2 / 10 ^ 24) 4.8482e-9 := by
  have h7 : Is (Arith.lit 1e3 : F64) 1000 := by
    have := Is.lit_int 1000 (by norm_num)
    push_cast at this
    have e : (1e3 : ℚ) = 1000 := by norm_num
    rw [e]; exact this
  have h := as2r_nb.near.div_exact h7 (by norm_num) (C := 1 / 1000) (M := 4.8483e-9) (by norm_num [abs_le]) (by
    have := as2r_nb.mag
    norm_num at *
    linarith) (by norm_num)
  refine ⟨(h.congr (by norm_num)).mono (by norm_num), ?_⟩
  rw [abs_div, abs_of_pos (show (0 : ℝ) < 1000 by norm_num), div_le_iff₀ (by norm_num)]
  refine as2r_nb.mag.trans (by norm_num)

/-- Nutation computed in binary64: each angle within `4 * 10^-13` radian of the series. -/
theorem nut_acc [Libm F64] (hL : LibmAcc) {tt : F64 × F64} (hT : NB (centuries tt) t (3 / 10 ^ 14) 1) :
    NB (nutation tt).1 (nut00bPsi t) (3 / 10 ^ 13) (1 / 10 ^ 4) ∧
    NB (nutation tt).2 (nut00bEps t) (3 / 10 ^ 13) (1 / 10 ^ 4) := by
  have e : nutation tt = (((NALS.zip CLS).reverse.foldl (fun (acc : F64 × F64) p =>
      (acc.1 +. ((flt p.2.c0 +. flt p.2.c1 *. centuries tt) *. Libm.sin (nutArgsF (centuries tt) p.1) +.
          flt p.2.c2 *. Libm.cos (nutArgsF (centuries tt) p.1)),
       acc.2 +. ((flt p.2.c3 +. flt p.2.c4 *. centuries tt) *. Libm.cos (nutArgsF (centuries tt) p.1) +.
          flt p.2.c5 *. Libm.sin (nutArgsF (centuries tt) p.1)))) (lit 0, lit 0)).1 *. U2R +. DPPLAN,
      ((NALS.zip CLS).reverse.foldl (fun (acc : F64 × F64) p =>
      (acc.1 +. ((flt p.2.c0 +. flt p.2.c1 *. centuries tt) *. Libm.sin (nutArgsF (centuries tt) p.1) +.
          flt p.2.c2 *. Libm.cos (nutArgsF (centuries tt) p.1)),
       acc.2 +. ((flt p.2.c3 +. flt p.2.c4 *. centuries tt) *. Libm.cos (nutArgsF (centuries tt) p.1) +.
          flt p.2.c5 *. Libm.sin (nutArgsF (centuries tt) p.1)))) (lit 0, lit 0)).2 *. U2R +. DEPLAN) := rfl
  rw [e, fold_pair]
  simp only
  clear e
  generalize centuries tt = T at hT
  have hz : NB (lit 0 : F64) 0 0 0 := by
    have := NB.of_is (Is.lit_int 0 (by norm_num)) (M := 0) (by norm_num)
    norm_num at this
    exact this
  have hs : ∀ p ∈ (NALS.zip CLS).reverse, NB (Libm.sin (nutArgsF T p.1)) (Real.sin ((mkRow p).arg t)) (28 / 10 ^ 10) 1 ∧
      NB (Libm.cos (nutArgsF T p.1)) (Real.cos ((mkRow p).arg t)) (28 / 10 ^ 10) 1 := fun p hp => by
    have h := nut_arg_f hT p (List.mem_reverse.mp hp)
    exact ⟨h.nbSin hL (by norm_num), h.nbCos hL (by norm_num)⟩
  have hsm : ∀ p ∈ (NALS.zip CLS).reverse, |(p.2.c0 : ℝ)| ≤ 10 ^ 9 ∧ |(p.2.c1 : ℝ)| ≤ 10 ^ 9 ∧ |(p.2.c2 : ℝ)| ≤ 10 ^ 9 ∧
      |(p.2.c3 : ℝ)| ≤ 10 ^ 9 ∧ |(p.2.c4 : ℝ)| ≤ 10 ^ 9 ∧ |(p.2.c5 : ℝ)| ≤ 10 ^ 9 := fun p hp => by
    have h := cls_small p (List.mem_reverse.mp hp)
    exact_mod_cast h
  have hlen : ((NALS.zip CLS).reverse.length : ℝ) = 77 := by
    have : (NALS.zip CLS).reverse.length = 77 := by decide
    exact_mod_cast this
  have hw := clsSum_sums (NALS.zip CLS).reverse
  rw [cls_sums, hlen] at hw
  have w1 := hw 1 0
  simp only [mul_one, add_zero] at w1
  have w2 := hw (281 / 10 ^ 11) (1 / 2 ^ 90)
  have F1 := fold_near (fun p : Nal × Cls => (flt p.2.c0 +. flt p.2.c1 *. T) *. Libm.sin (nutArgsF T p.1) +.
          flt p.2.c2 *. Libm.cos (nutArgsF T p.1))
    (fun p => (((mkRow p).ps : ℝ) + (mkRow p).pst * t) * Real.sin ((mkRow p).arg t) + (mkRow p).pc * Real.cos ((mkRow p).arg t))
    _ _ (NALS.zip CLS).reverse (2 * 10 ^ 8) _ rfl (by norm_num) (by norm_num)
    (fun p hp => term_nb hT (hs p hp).1 (hs p hp).2 p.2.c0 p.2.c1 p.2.c2 (hsm p hp).1 (hsm p hp).2.1 (hsm p hp).2.2.1)
    (lit 0) 0 0 0 hz (by
      rw [w1.1, w2.1, hlen]; norm_num)
  have F2 := fold_near (fun p : Nal × Cls => (flt p.2.c3 +. flt p.2.c4 *. T) *. Libm.cos (nutArgsF T p.1) +.
          flt p.2.c5 *. Libm.sin (nutArgsF T p.1))
    (fun p => (((mkRow p).ec : ℝ) + (mkRow p).ect * t) * Real.cos ((mkRow p).arg t) + (mkRow p).es * Real.sin ((mkRow p).arg t))
    _ _ (NALS.zip CLS).reverse (2 * 10 ^ 8) _ rfl (by norm_num) (by norm_num)
    (fun p hp => term_nb hT (hs p hp).2 (hs p hp).1 p.2.c3 p.2.c4 p.2.c5 (hsm p hp).2.2.2.1 (hsm p hp).2.2.2.2.1 (hsm p hp).2.2.2.2.2)
    (lit 0) 0 0 0 hz (by
      rw [w1.2, w2.2, hlen]; norm_num)
  rw [w1.1, w2.1, hlen, map_reverse_sum] at F1
  rw [w1.2, w2.2, hlen, map_reverse_sum] at F2
  have E1 : ((NALS.zip CLS).map fun p => (((mkRow p).ps : ℝ) + (mkRow p).pst * t) * Real.sin ((mkRow p).arg t) +
      (mkRow p).pc * Real.cos ((mkRow p).arg t)).sum =
      (nut00b.map fun r => (r.ps + r.pst * t) * Real.sin (r.arg t) + r.pc * Real.cos (r.arg t)).sum := by
    rw [nut_table, List.map_map]; rfl
  have E2 : ((NALS.zip CLS).map fun p => (((mkRow p).ec : ℝ) + (mkRow p).ect * t) * Real.cos ((mkRow p).arg t) +
      (mkRow p).es * Real.sin ((mkRow p).arg t)).sum =
      (nut00b.map fun r => (r.ec + r.ect * t) * Real.cos (r.arg t) + r.es * Real.sin (r.arg t)).sum := by
    rw [nut_table, List.map_map]; rfl
  rw [E1, zero_add, zero_add, zero_add] at F1
  rw [E2, zero_add, zero_add, zero_add] at F2
  unfold nut00bPsi nut00bEps
  generalize (nut00b.map fun r => (r.ps + r.pst * t) * Real.sin (r.arg t) + r.pc * Real.cos (r.arg t)).sum = S1 at *
  generalize (nut00b.map fun r => (r.ec + r.ect * t) * Real.cos (r.arg t) + r.es * Real.sin (r.arg t)).sum = S2 at *
  have G1 := F1.mul u2r_nb (E := 28 / 10 ^ 14) (M := 9.5e-5) (by norm_num)
  have G2 := F2.mul u2r_nb (E := 28 / 10 ^ 14) (M := 9.5e-5) (by norm_num)
  have P1 : NB (DPPLAN : F64) (-0.000135 * arcsec) (1 / 10 ^ 20) (1 / 10 ^ 6) := by
    have := ((NB.lit 0.135 (M := 0.135) (E := 1 / 10 ^ 15) (by norm_num [abs_le])).neg.mul mas2r_nb (E := 1 / 10 ^ 20) (M := 1 / 10 ^ 6)
      (by norm_num)).congr (b := -0.000135 * arcsec) (by push_cast; norm_num; ring)
    exact this
  have P2 : NB (DEPLAN : F64) (0.000388 * arcsec) (1 / 10 ^ 20) (1 / 10 ^ 6) := by
    have := ((NB.lit 0.388 (M := 0.388) (E := 1 / 10 ^ 15) (by norm_num [abs_le])).mul mas2r_nb (E := 1 / 10 ^ 20) (M := 1 / 10 ^ 6)
      (by norm_num)).congr (b := 0.000388 * arcsec) (by push_cast; norm_num; ring)
    exact this
  constructor
  · exact (G1.add P1 (E := 3 / 10 ^ 13) (M := 1 / 10 ^ 4) (by norm_num)).congr (by ring)
  · exact (G2.add P2 (E := 3 / 10 ^ 13) (M := 1 / 10 ^ 4) (by norm_num)).congr (by ring)

end
end Verif
