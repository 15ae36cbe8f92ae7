import Verif.Props.Frames
import Verif.Props.Constants
import Verif.Spec.Nut00b
import Verif.Spec.S00
import Mathlib.Analysis.SpecialFunctions.Trigonometric.Bounds

/-!
# C65, C66: the nutation and the CIO locator are the published series
-/

namespace Verif
open Arith Spec

theorem as2r_close : |(AS2R : ℝ) - arcsec| ≤ 2 / 10 ^ 26 := by
  have h := abs_le.mp pi_close
  have e2 : (AS2R : ℝ) = 4.848136811095359935899141e-6 := by unfold AS2R; norm_num
  rw [e2, arcsec, abs_le]
  constructor <;> norm_num at * <;> linarith

theorem two_pi_close : |(TWO_PI : ℝ) - 2 * Real.pi| ≤ 3 / 10 ^ 20 := by
  have h := abs_le.mp pi_close
  have e1 : (TWO_PI : ℝ) = 6.283185307179586476925287 := by unfold TWO_PI; norm_num
  rw [e1, abs_le]
  constructor <;> norm_num at * <;> linarith

/-- `x` equals `y` up to whole turns and an error of at most `e`. -/
def Cong (e x y : ℝ) : Prop := ∃ k : ℤ, |x - (y - k * (2 * Real.pi))| ≤ e

theorem Cong.sin {e x y : ℝ} (h : Cong e x y) : |Real.sin x - Real.sin y| ≤ e := by
  obtain ⟨k, hk⟩ := h
  have := Real.abs_sin_sub_sin_le x (y - k * (2 * Real.pi))
  rw [Real.sin_sub_int_mul_two_pi] at this
  exact this.trans hk

theorem Cong.cos {e x y : ℝ} (h : Cong e x y) : |Real.cos x - Real.cos y| ≤ e := by
  obtain ⟨k, hk⟩ := h
  have := Real.abs_cos_sub_cos_le x (y - k * (2 * Real.pi))
  rw [Real.cos_sub_int_mul_two_pi] at this
  exact this.trans hk

theorem Cong.add {e e' x y x' y' : ℝ} (h : Cong e x y) (h' : Cong e' x' y') : Cong (e + e') (x + x') (y + y') := by
  obtain ⟨k, hk⟩ := h
  obtain ⟨k', hk'⟩ := h'
  refine ⟨k + k', ?_⟩
  have : x + x' - (y + y' - ((k + k' : ℤ) : ℝ) * (2 * Real.pi)) =
    (x - (y - k * (2 * Real.pi))) + (x' - (y' - k' * (2 * Real.pi))) := by push_cast; ring
  rw [this]
  exact (abs_add_le _ _).trans (add_le_add hk hk')

theorem Cong.smul {e x y : ℝ} (h : Cong e x y) (n : ℤ) : Cong (|(n : ℝ)| * e) (n * x) (n * y) := by
  obtain ⟨k, hk⟩ := h
  refine ⟨n * k, ?_⟩
  have : n * x - (n * y - ((n * k : ℤ) : ℝ) * (2 * Real.pi)) = n * (x - (y - k * (2 * Real.pi))) := by push_cast; ring
  rw [this, abs_mul]
  exact mul_le_mul_of_nonneg_left hk (abs_nonneg _)

theorem Cong.mono {e e' x y : ℝ} (h : Cong e x y) (he : e ≤ e') : Cong e' x y := by
  obtain ⟨k, hk⟩ := h
  exact ⟨k, hk.trans he⟩

theorem Cong.refl (x : ℝ) : Cong 0 x x := ⟨0, by simp⟩

/-- Reduction modulo one turn in arcseconds, then conversion to radians. -/
theorem cong_turn (x : ℝ) : Cong (3 / 10 ^ 20) ((x %. TURNAS) *. AS2R) (x * arcsec) ∧
    |(x %. TURNAS) *. AS2R| ≤ 6.2833 := by
  have hT : (TURNAS : ℝ) = 1296000 := by unfold TURNAS; norm_num
  have hb := (rem_real_bound x TURNAS (by rw [hT]; norm_num)).1
  have e : x %. TURNAS = x - TURNAS * truncR (x / TURNAS) := rem_real _ _
  rw [mul_real]
  rw [hT] at *
  constructor
  · refine ⟨truncR (x / 1296000), ?_⟩
    have : (x %. (1296000 : ℝ)) * AS2R - (x * arcsec - truncR (x / 1296000) * (2 * Real.pi)) =
        (x %. (1296000 : ℝ)) * (AS2R - arcsec) := by
      rw [e]; unfold arcsec; ring
    rw [this, abs_mul]
    calc _ ≤ 1296000 * (2 / 10 ^ 26) := mul_le_mul hb.le as2r_close (abs_nonneg _) (by norm_num)
      _ ≤ _ := by norm_num
  · rw [abs_mul]
    have h1 : |(AS2R : ℝ)| ≤ 4.8482e-6 := by unfold AS2R; norm_num [abs_le]
    have hb' : |x %. (1296000 : ℝ)| ≤ 1296000 := hb.le
    calc _ ≤ 1296000 * 4.8482e-6 := mul_le_mul hb' h1 (abs_nonneg _) (by norm_num)
      _ ≤ _ := by norm_num

/-- Reduction modulo `TWO_PI`. -/
theorem cong_two_pi (x M : ℝ) (hM : |x| ≤ M) : Cong ((M / 6) * (3 / 10 ^ 20)) (x %. TWO_PI) x := by
  have hp : (6 : ℝ) < TWO_PI := by unfold TWO_PI; norm_num
  refine ⟨truncR (x / TWO_PI), ?_⟩
  rw [rem_real]
  have : x - TWO_PI * truncR (x / TWO_PI) - (x - truncR (x / TWO_PI) * (2 * Real.pi)) =
    -((truncR (x / TWO_PI) : ℝ) * (TWO_PI - 2 * Real.pi)) := by ring
  rw [this, abs_neg, abs_mul]
  have hk : |(truncR (x / TWO_PI) : ℝ)| ≤ M / 6 := by
    have h1 : |(truncR (x / TWO_PI) : ℝ)| ≤ |x / TWO_PI| := by
      unfold truncR
      split
      · rename_i h
        have h0 : (0 : ℝ) ≤ (⌊x / TWO_PI⌋ : ℤ) := by exact_mod_cast Int.floor_nonneg.mpr h
        rw [abs_of_nonneg h0, abs_of_nonneg h]
        exact Int.floor_le _
      · rename_i h
        push Not at h
        have h0 : ((⌈x / TWO_PI⌉ : ℤ) : ℝ) ≤ 0 := by
          have : ⌈x / TWO_PI⌉ ≤ 0 := Int.ceil_le.mpr (by exact_mod_cast h.le)
          exact_mod_cast this
        rw [abs_of_nonpos h0, abs_of_neg h]
        have := Int.le_ceil (x / TWO_PI)
        linarith
    refine h1.trans ?_
    rw [abs_div, abs_of_pos (show (0 : ℝ) < TWO_PI by linarith)]
    have : 0 ≤ |x| := abs_nonneg x
    exact div_le_div₀ (by linarith) hM (by norm_num) hp.le
  exact mul_le_mul hk two_pi_close (abs_nonneg _) ((abs_nonneg _).trans hk)

/-! ## C65 -/

/-- The reference row made of a row of each of the two tables of the program. -/
def mkRow (p : Nal × Cls) : NutRow :=
  ⟨p.1.l, p.1.lp, p.1.f, p.1.d, p.1.om, p.2.c0, p.2.c1, p.2.c2, p.2.c3, p.2.c4, p.2.c5⟩

theorem nut_table : nut00b = (NALS.zip CLS).map mkRow := by decide +kernel

theorem nal_small : ∀ p ∈ NALS.zip CLS, |p.1.l| + |p.1.lp| + |p.1.f| + |p.1.d| + |p.1.om| ≤ 10 := by decide +kernel

/-- The arguments of the program. -/
noncomputable def nutArgs (t : ℝ) : Nal → ℝ := nutArg
      (((lit 485868.249036 +. lit 1717915923.2178 *. t) %. TURNAS) *. AS2R)
      (((lit 1287104.79305 +. lit 129596581.0481 *. t) %. TURNAS) *. AS2R)
      (((lit 335779.526232 +. lit 1739527262.8478 *. t) %. TURNAS) *. AS2R)
      (((lit 1072260.70369 +. lit 1602961601.2090 *. t) %. TURNAS) *. AS2R)
      (((lit 450160.398036 -. lit 6962890.5431 *. t) %. TURNAS) *. AS2R)

theorem nut_arg (t : ℝ) (p : Nal × Cls) (hp : p ∈ NALS.zip CLS) :
    Cong (1 / 10 ^ 18) (nutArgs t p.1) ((mkRow p).arg t) := by
  unfold nutArgs
  have hn := nal_small p hp
  obtain ⟨c1, b1⟩ := cong_turn (lit 485868.249036 +. lit 1717915923.2178 *. t)
  obtain ⟨c2, b2⟩ := cong_turn (lit 1287104.79305 +. lit 129596581.0481 *. t)
  obtain ⟨c3, b3⟩ := cong_turn (lit 335779.526232 +. lit 1739527262.8478 *. t)
  obtain ⟨c4, b4⟩ := cong_turn (lit 1072260.70369 +. lit 1602961601.2090 *. t)
  obtain ⟨c5, b5⟩ := cong_turn (lit 450160.398036 -. lit 6962890.5431 *. t)
  generalize ((lit 485868.249036 +. lit 1717915923.2178 *. t) %. TURNAS) *. AS2R = x1 at *
  generalize ((lit 1287104.79305 +. lit 129596581.0481 *. t) %. TURNAS) *. AS2R = x2 at *
  generalize ((lit 335779.526232 +. lit 1739527262.8478 *. t) %. TURNAS) *. AS2R = x3 at *
  generalize ((lit 1072260.70369 +. lit 1602961601.2090 *. t) %. TURNAS) *. AS2R = x4 at *
  generalize ((lit 450160.398036 -. lit 6962890.5431 *. t) %. TURNAS) *. AS2R = x5 at *
  unfold nutArg NutRow.arg mkRow
  simp only [ofInt_real, mul_real, add_real]
  have hn' : |(p.1.l : ℝ)| + |(p.1.lp : ℝ)| + |(p.1.f : ℝ)| + |(p.1.d : ℝ)| + |(p.1.om : ℝ)| ≤ 10 := by exact_mod_cast hn
  have hS := ((((c1.smul p.1.l).add (c2.smul p.1.lp)).add (c3.smul p.1.f)).add (c4.smul p.1.d)).add (c5.smul p.1.om)
  have hM : |(p.1.l : ℝ) * x1 + p.1.lp * x2 + p.1.f * x3 + p.1.d * x4 + p.1.om * x5| ≤ 63 := by
    have g : ∀ (n x : ℝ), |x| ≤ 6.2833 → |n * x| ≤ |n| * 6.2833 := fun n x h => by
      rw [abs_mul]; exact mul_le_mul_of_nonneg_left h (abs_nonneg _)
    have g1 := g p.1.l x1 b1
    have g2 := g p.1.lp x2 b2
    have g3 := g p.1.f x3 b3
    have g4 := g p.1.d x4 b4
    have g5 := g p.1.om x5 b5
    have := abs_add_le ((p.1.l : ℝ) * x1 + p.1.lp * x2 + p.1.f * x3 + p.1.d * x4) (p.1.om * x5)
    have := abs_add_le ((p.1.l : ℝ) * x1 + p.1.lp * x2 + p.1.f * x3) (p.1.d * x4)
    have := abs_add_le ((p.1.l : ℝ) * x1 + p.1.lp * x2) (p.1.f * x3)
    have := abs_add_le ((p.1.l : ℝ) * x1) (p.1.lp * x2)
    norm_num at *
    linarith
  have h2 := cong_two_pi _ 63 hM
  have key : ∀ {e e' x y z : ℝ}, Cong e x y → Cong e' y z → Cong (e + e') x z := by
    rintro e e' x y z ⟨k, hk⟩ ⟨k', hk'⟩
    refine ⟨k + k', ?_⟩
    have : x - (z - ((k + k' : ℤ) : ℝ) * (2 * Real.pi)) = (x - (y - k * (2 * Real.pi))) + (y - (z - k' * (2 * Real.pi))) := by
      push_cast; ring
    rw [this]
    exact (abs_add_le _ _).trans (add_le_add hk hk')
  have h3 := key h2 hS
  refine Cong.mono ?_ (show (63 / 6 * (3 / 10 ^ 20) + (|(p.1.l : ℝ)| * (3 / 10 ^ 20) + |(p.1.lp : ℝ)| * (3 / 10 ^ 20) +
      |(p.1.f : ℝ)| * (3 / 10 ^ 20) + |(p.1.d : ℝ)| * (3 / 10 ^ 20) + |(p.1.om : ℝ)| * (3 / 10 ^ 20)) : ℝ) ≤ _ from ?_)
  · convert h3 using 1
    simp only [lit_real, add_real, sub_real, mul_real]
    push_cast
    ring
  · norm_num
    linarith

theorem term_diff {a b c t s s' k k' d : ℝ} (hs : |s - s'| ≤ d) (hk : |k - k'| ≤ d) :
    |((a + b * t) * s + c * k) - ((a + b * t) * s' + c * k')| ≤ d * (1 + |t|) * (|a| + |b| + |c|) := by
  have d0 : 0 ≤ d := (abs_nonneg _).trans hs
  have e : ((a + b * t) * s + c * k) - ((a + b * t) * s' + c * k') = (a + b * t) * (s - s') + c * (k - k') := by ring
  rw [e]
  refine (abs_add_le _ _).trans ?_
  rw [abs_mul, abs_mul]
  have h1 : |a + b * t| ≤ (|a| + |b|) * (1 + |t|) := by
    refine (abs_add_le _ _).trans ?_
    rw [abs_mul]
    nlinarith [abs_nonneg a, abs_nonneg b, abs_nonneg t, mul_nonneg (abs_nonneg a) (abs_nonneg t)]
  have h2 : |a + b * t| * |s - s'| ≤ (|a| + |b|) * (1 + |t|) * d :=
    mul_le_mul h1 hs (abs_nonneg _) ((abs_nonneg _).trans h1)
  have h3 : |c| * |k - k'| ≤ |c| * d := mul_le_mul_of_nonneg_left hk (abs_nonneg _)
  have h4 : 0 ≤ |c| * d * |t| := by positivity
  nlinarith

theorem comb {F a x y S E E' : ℝ} (h : |F - (a + x + S)| ≤ E) (g : |x - y| ≤ E') : |F - (a + (y + S))| ≤ E' + E := by
  have : F - (a + (y + S)) = (x - y) + (F - (a + x + S)) := by ring
  rw [this]
  exact (abs_add_le _ _).trans (add_le_add g h)

theorem nut_fold_diff (arg : Nal → ℝ) (t d : ℝ) (L : List (Nal × Cls))
    (h : ∀ p ∈ L, Cong d (arg p.1) ((mkRow p).arg t)) (acc : ℝ × ℝ) :
    |(L.foldl (nutStep arg t) acc).1 - (acc.1 + ((L.map mkRow).map fun r => (r.ps + r.pst * t) * Real.sin (r.arg t)
      + r.pc * Real.cos (r.arg t)).sum)| ≤ d * (1 + |t|) * (clsSum L).1 ∧
    |(L.foldl (nutStep arg t) acc).2 - (acc.2 + ((L.map mkRow).map fun r => (r.ec + r.ect * t) * Real.cos (r.arg t)
      + r.es * Real.sin (r.arg t)).sum)| ≤ d * (1 + |t|) * (clsSum L).2 := by
  induction L generalizing acc with
  | nil => simp [clsSum]
  | cons p L ih =>
    have hp := h p List.mem_cons_self
    obtain ⟨h1, h2⟩ := ih (fun q hq => h q (List.mem_cons_of_mem _ hq)) (nutStep arg t acc p)
    simp only [List.foldl_cons, List.map_cons, List.sum_cons, clsSum]
    push_cast
    have g1 := term_diff (a := (p.2.c0 : ℝ)) (b := p.2.c1) (c := p.2.c2) (t := t) hp.sin hp.cos
    have g2 := term_diff (a := (p.2.c3 : ℝ)) (b := p.2.c4) (c := p.2.c5) (t := t) hp.cos hp.sin
    have e1 : (nutStep arg t acc p).1 = acc.1 + (((p.2.c0 : ℝ) + p.2.c1 * t) * Real.sin (arg p.1)
        + p.2.c2 * Real.cos (arg p.1)) := by
      simp only [nutStep, flt, lit_real, add_real, mul_real, sin_real, cos_real]; push_cast; rfl
    have e2 : (nutStep arg t acc p).2 = acc.2 + (((p.2.c3 : ℝ) + p.2.c4 * t) * Real.cos (arg p.1)
        + p.2.c5 * Real.sin (arg p.1)) := by
      simp only [nutStep, flt, lit_real, add_real, mul_real, sin_real, cos_real]; push_cast; rfl
    rw [e1] at h1
    rw [e2] at h2
    have m1 : ((mkRow p).ps : ℝ) = p.2.c0 ∧ ((mkRow p).pst : ℝ) = p.2.c1 ∧ ((mkRow p).pc : ℝ) = p.2.c2 ∧
      ((mkRow p).ec : ℝ) = p.2.c3 ∧ ((mkRow p).ect : ℝ) = p.2.c4 ∧ ((mkRow p).es : ℝ) = p.2.c5 :=
      ⟨rfl, rfl, rfl, rfl, rfl, rfl⟩
    obtain ⟨n0, n1, n2, n3, n4, n5⟩ := m1
    rw [n0, n1, n2, n3, n4, n5]
    exact ⟨(comb h1 g1).trans (le_of_eq (by ring)), (comb h2 g2).trans (le_of_eq (by ring))⟩

theorem nut_sum_bound (t : ℝ) (L : List (Nal × Cls)) :
    |((L.map mkRow).map fun r => (r.ps + r.pst * t) * Real.sin (r.arg t) + r.pc * Real.cos (r.arg t)).sum| ≤
      (1 + |t|) * (clsSum L).1 ∧
    |((L.map mkRow).map fun r => (r.ec + r.ect * t) * Real.cos (r.arg t) + r.es * Real.sin (r.arg t)).sum| ≤
      (1 + |t|) * (clsSum L).2 := by
  induction L with
  | nil => simp [clsSum]
  | cons p L ih =>
    simp only [List.map_cons, List.sum_cons, clsSum]
    push_cast
    have hs := Real.abs_sin_le_one ((mkRow p).arg t)
    have hc := Real.abs_cos_le_one ((mkRow p).arg t)
    have g1 := term_diff (a := ((mkRow p).ps : ℝ)) (b := (mkRow p).pst) (c := (mkRow p).pc) (t := t) (s' := 0) (k' := 0)
      (d := 1) (by simpa using hs) (by simpa using hc)
    have g2 := term_diff (a := ((mkRow p).ec : ℝ)) (b := (mkRow p).ect) (c := (mkRow p).es) (t := t) (s' := 0) (k' := 0)
      (d := 1) (by simpa using hc) (by simpa using hs)
    rw [mul_zero, mul_zero, add_zero, sub_zero, one_mul] at g1 g2
    constructor
    · refine (abs_add_le _ _).trans ((add_le_add g1 ih.1).trans (le_of_eq ?_))
      simp only [mkRow]; ring
    · refine (abs_add_le _ _).trans ((add_le_add g2 ih.2).trans (le_of_eq ?_))
      simp only [mkRow]; ring

theorem map_reverse_sum {β : Type} (L : List β) (f : β → ℝ) : (L.reverse.map f).sum = (L.map f).sum := by
  rw [List.map_reverse, List.sum_reverse]

/-- Change of the value of the arcsecond. -/
theorem unit_diff {P S D t A c : ℝ} (h1 : |P - S| ≤ 1 / 10 ^ 18 * (1 + |t|) * D) (h2 : |S| ≤ (1 + |t|) * D)
    (hD : D ≤ 2 * 10 ^ 8) (hA : |A| ≤ 5 / 10 ^ 6) (hu : |A - arcsec| ≤ 2 / 10 ^ 26) (hc : |c| ≤ 1 / 1000) :
    |(P / 10 ^ 7 + c) * A - (S / 10 ^ 7 + c) * arcsec| ≤ 1 / 10 ^ 21 * (1 + |t|) := by
  have t0 : 0 ≤ |t| := abs_nonneg t
  have e : (P / 10 ^ 7 + c) * A - (S / 10 ^ 7 + c) * arcsec = (P - S) / 10 ^ 7 * A + (S / 10 ^ 7 + c) * (A - arcsec) := by ring
  rw [e]
  refine (abs_add_le _ _).trans ?_
  rw [abs_mul, abs_mul, abs_div, abs_of_pos (show (0 : ℝ) < 10 ^ 7 by norm_num)]
  have h3 : (1 + |t|) * D ≤ (1 + |t|) * (2 * 10 ^ 8) := by gcongr
  have g1 : |P - S| / 10 ^ 7 * |A| ≤ (1 / 10 ^ 18 * ((1 + |t|) * (2 * 10 ^ 8))) / 10 ^ 7 * (5 / 10 ^ 6) := by
    gcongr
    refine h1.trans ?_
    rw [mul_assoc]
    gcongr
  have g2 : |S / 10 ^ 7 + c| ≤ 21 * (1 + |t|) := by
    refine (abs_add_le _ _).trans ?_
    rw [abs_div, abs_of_pos (show (0 : ℝ) < 10 ^ 7 by norm_num)]
    have : |S| / 10 ^ 7 ≤ (1 + |t|) * (2 * 10 ^ 8) / 10 ^ 7 := by gcongr; linarith
    norm_num at this hc
    linarith
  have g3 : |S / 10 ^ 7 + c| * |A - arcsec| ≤ 21 * (1 + |t|) * (2 / 10 ^ 26) :=
    mul_le_mul g2 hu (abs_nonneg _) (by positivity)
  norm_num at g1 g3 ⊢
  linarith

/-- **C65.** For every date, the nutation returned by the program is the IAU 2000B series (77 terms plus the planetary
offsets) at the number of Julian centuries since J2000.0, up to `10^-21 * (1 + |t|)` radian. -/
theorem C65_nutation_series (a b : ℝ) :
    let t := (a + b - 2451545) / 36525
    |(nutation (a, b)).1 - nut00bPsi t| ≤ 1 / 10 ^ 21 * (1 + |t|) ∧
    |(nutation (a, b)).2 - nut00bEps t| ≤ 1 / 10 ^ 21 * (1 + |t|) := by
  intro t
  have ht : centuries (a, b) = t := centuries_real (a, b)
  clear_value t
  have hU : (U2R : ℝ) = AS2R / 10 ^ 7 := by
    unfold U2R; simp only [lit_real, div_real]; norm_num
  have hP : (DPPLAN : ℝ) = -0.000135 * AS2R := by
    unfold DPPLAN MAS2R; simp only [lit_real, div_real, mul_real, neg_real]; norm_num; ring
  have hE : (DEPLAN : ℝ) = 0.000388 * AS2R := by
    unfold DEPLAN MAS2R; simp only [lit_real, div_real, mul_real]; norm_num; ring
  have hA : |(AS2R : ℝ)| ≤ 5 / 10 ^ 6 := by unfold AS2R; norm_num [abs_le]
  have key := nut_fold_diff (nutArgs t) t (1 / 10 ^ 18) (NALS.zip CLS).reverse
      (fun p hp => nut_arg t p (List.mem_reverse.mp hp)) (lit 0, lit 0)
  have hb := nut_sum_bound t (NALS.zip CLS).reverse
  rw [cls_sums] at key hb
  rw [List.map_reverse, map_reverse_sum, map_reverse_sum, ← nut_table] at key hb
  simp only [lit_real, Rat.cast_zero, zero_add] at key
  unfold nut00bPsi nut00bEps
  have e : nutation (a, b) = (((NALS.zip CLS).reverse.foldl (nutStep (nutArgs (centuries (a, b))) (centuries (a, b)))
      (lit 0, lit 0)).1 *. U2R +. DPPLAN, ((NALS.zip CLS).reverse.foldl (nutStep (nutArgs (centuries (a, b))) (centuries (a, b)))
      (lit 0, lit 0)).2 *. U2R +. DEPLAN) := rfl
  rw [ht] at e
  simp only [lit_real, Rat.cast_zero] at e
  rw [e]
  simp only [add_real, mul_real, hU, hP, hE]
  have f1 := unit_diff (A := AS2R) (c := -0.000135) key.1 hb.1 (by norm_num) hA as2r_close (by norm_num [abs_le])
  have f2 := unit_diff (A := AS2R) (c := 0.000388) key.2 hb.2 (by norm_num) hA as2r_close (by norm_num [abs_le])
  constructor
  · refine le_trans (le_of_eq (congrArg _ ?_)) f1
    ring
  · refine le_trans (le_of_eq (congrArg _ ?_)) f2
    ring

/-! ## C66 -/

/-- The reference row made of a row of each of the two tables of the program. -/
def mkS (p : List ℤ × (ℤ × ℤ)) : S00Row :=
  ⟨p.1.getD 0 0, p.1.getD 1 0, p.1.getD 2 0, p.1.getD 3 0, p.1.getD 4 0, p.1.getD 5 0, p.1.getD 6 0, p.1.getD 7 0,
    p.2.1, p.2.2⟩

theorem s00_tables : s00_0 = (KS0.zip SS0).map mkS ∧ s00_1 = (KS1.zip SS1).map mkS ∧
    s00_2 = (KS2.zip SS2).map mkS ∧ s00_3 = (KS3.zip SS3).map mkS ∧ s00_4 = (KS4.zip SS4).map mkS := by decide +kernel

theorem s00_small : ∀ p ∈ KS0.zip SS0 ++ KS1.zip SS1 ++ KS2.zip SS2 ++ KS3.zip SS3 ++ KS4.zip SS4,
    p.1.length = 8 ∧ |p.1.getD 0 0| + |p.1.getD 1 0| + |p.1.getD 2 0| + |p.1.getD 3 0| + |p.1.getD 4 0| +
      |p.1.getD 5 0| + |p.1.getD 6 0| + |p.1.getD 7 0| ≤ 30 := by decide +kernel

theorem cong_fundarg (c0 c1 c2 c3 c4 : ℚ) (t : ℝ) (h : |(c0 : ℝ)| ≤ 1300000) :
    Cong (6 / 10 ^ 18 * (1 + |t|)) (fundarg c0 c1 c2 c3 c4 t)
      ((c0 + c1 * t + c2 * t ^ 2 + c3 * t ^ 3 + c4 * t ^ 4) * arcsec) := by
  have h1 := (cong_turn (t *. (lit c1 +. t *. (lit c2 +. t *. (lit c3 +. t *. lit c4))))).1
  have h2 : Cong (3 / 10 ^ 20) ((c0 : ℝ) * AS2R) (c0 * arcsec) := by
    refine ⟨0, ?_⟩
    have : (c0 : ℝ) * AS2R - (c0 * arcsec - ((0 : ℤ) : ℝ) * (2 * Real.pi)) = c0 * (AS2R - arcsec) := by
      push_cast; ring
    rw [this, abs_mul]
    calc _ ≤ 1300000 * (2 / 10 ^ 26) := mul_le_mul h as2r_close (abs_nonneg _) (by norm_num)
      _ ≤ _ := by norm_num
  have h3 := h2.add h1
  unfold fundarg
  have e1 : (lit c0 +. (t *. (lit c1 +. t *. (lit c2 +. t *. (lit c3 +. t *. lit c4)))) %. TURNAS) *. AS2R =
      (c0 : ℝ) * AS2R + (t *. (lit c1 +. t *. (lit c2 +. t *. (lit c3 +. t *. lit c4)))) %. TURNAS *. AS2R := by
    generalize (t *. (lit c1 +. t *. (lit c2 +. t *. (lit c3 +. t *. lit c4)))) %. TURNAS = z
    rw [mul_real, mul_real, add_real, lit_real]; ring
  have e2 : ((c0 : ℝ) + c1 * t + c2 * t ^ 2 + c3 * t ^ 3 + c4 * t ^ 4) * arcsec =
      c0 * arcsec + (t *. (lit c1 +. t *. (lit c2 +. t *. (lit c3 +. t *. lit c4)))) * arcsec := by
    simp only [lit_real, add_real, mul_real]; ring
  rw [e1, e2]
  refine h3.mono ?_
  have := abs_nonneg t
  norm_num
  linarith

theorem cong_linear (c0 c1 : ℚ) (t : ℝ) (h0 : |(c0 : ℝ)| ≤ 10) (h1 : |(c1 : ℝ)| ≤ 1100) :
    Cong (6 / 10 ^ 18 * (1 + |t|)) ((lit c0 +. lit c1 *. t) %. TWO_PI) (c0 + c1 * t) := by
  have hM : |(c0 : ℝ) + c1 * t| ≤ 1100 * (1 + |t|) := by
    refine (abs_add_le _ _).trans ?_
    rw [abs_mul]
    nlinarith [abs_nonneg t]
  have := cong_two_pi _ _ hM
  simp only [lit_real, mul_real, add_real]
  refine this.mono ?_
  have := abs_nonneg t
  norm_num
  linarith

theorem argument_eight (k0 k1 k2 k3 k4 k5 k6 k7 : ℤ) (x0 x1 x2 x3 x4 x5 x6 x7 : ℝ) :
    argument [k0, k1, k2, k3, k4, k5, k6, k7] [x0, x1, x2, x3, x4, x5, x6, x7] =
      k0 * x0 + k1 * x1 + k2 * x2 + k3 * x3 + k4 * x4 + k5 * x5 + k6 * x6 + k7 * x7 := by
  unfold argument
  simp only [List.zip_cons_cons, List.zip_nil_right, List.foldl_cons, List.foldl_nil, lit_real, ofInt_real, add_real,
    mul_real]
  push_cast
  ring

theorem s00_arg (t : ℝ) (p : List ℤ × (ℤ × ℤ))
    (hp : p ∈ KS0.zip SS0 ++ KS1.zip SS1 ++ KS2.zip SS2 ++ KS3.zip SS3 ++ KS4.zip SS4) :
    Cong (2 / 10 ^ 16 * (1 + |t|)) (argument p.1 (fundArgs t)) ((mkS p).arg t) := by
  obtain ⟨hl, hs⟩ := s00_small p hp
  clear hp
  obtain ⟨ks, sc⟩ := p
  obtain ⟨k0, k1, k2, k3, k4, k5, k6, k7, rfl⟩ : ∃ k0 k1 k2 k3 k4 k5 k6 k7, ks = [k0, k1, k2, k3, k4, k5, k6, k7] := by
    match ks, hl with
    | [k0, k1, k2, k3, k4, k5, k6, k7], _ => exact ⟨k0, k1, k2, k3, k4, k5, k6, k7, rfl⟩
  simp only [List.getD_cons_zero, List.getD_cons_succ] at hs
  have hs' : |(k0 : ℝ)| + |(k1 : ℝ)| + |(k2 : ℝ)| + |(k3 : ℝ)| + |(k4 : ℝ)| + |(k5 : ℝ)| + |(k6 : ℝ)| + |(k7 : ℝ)| ≤ 30 := by
    exact_mod_cast hs
  have c0 := cong_fundarg 485868.249036 1717915923.2178 31.8792 0.051635 (-0.00024470) t (by norm_num [abs_le])
  have c1 := cong_fundarg 1287104.793048 129596581.0481 (-0.5532) 0.000136 (-0.00001149) t (by norm_num [abs_le])
  have c2 := cong_fundarg 335779.526232 1739527262.8478 (-12.7512) (-0.001037) 0.00000417 t (by norm_num [abs_le])
  have c3 := cong_fundarg 1072260.703692 1602961601.2090 (-6.3706) 0.006593 (-0.00003169) t (by norm_num [abs_le])
  have c4 := cong_fundarg 450160.398036 (-6962890.5431) 7.4722 0.007702 (-0.00005939) t (by norm_num [abs_le])
  have c5 := cong_linear 3.176146697 1021.3285546211 t (by norm_num [abs_le]) (by norm_num [abs_le])
  have c6 := cong_linear 1.753470314 628.3075849991 t (by norm_num [abs_le]) (by norm_num [abs_le])
  have c7 : Cong (6 / 10 ^ 18 * (1 + |t|)) (pa03 t) (0.024381750 * t + 0.00000538691 * t ^ 2) := by
    refine Cong.mono (e := 0) ?_ (by positivity)
    have : pa03 t = 0.024381750 * t + 0.00000538691 * t ^ 2 := by
      unfold pa03; simp only [lit_real, add_real, mul_real]; push_cast; ring
    rw [this]; exact Cong.refl _
  have h := (((((((c0.smul k0).add (c1.smul k1)).add (c2.smul k2)).add (c3.smul k3)).add (c4.smul k4)).add
    (c5.smul k5)).add (c6.smul k6)).add (c7.smul k7)
  have e : argument [k0, k1, k2, k3, k4, k5, k6, k7] (fundArgs t) = _ :=
    argument_eight k0 k1 k2 k3 k4 k5 k6 k7 (l03 t) (lp03 t) (f03 t) (d03 t) (om03 t) (ve03 t) (e03 t) (pa03 t)
  show Cong _ (argument [k0, k1, k2, k3, k4, k5, k6, k7] (fundArgs t)) _
  rw [e]
  refine Cong.mono ?_ (show |(k0 : ℝ)| * (6 / 10 ^ 18 * (1 + |t|)) + |(k1 : ℝ)| * (6 / 10 ^ 18 * (1 + |t|)) +
    |(k2 : ℝ)| * (6 / 10 ^ 18 * (1 + |t|)) + |(k3 : ℝ)| * (6 / 10 ^ 18 * (1 + |t|)) +
    |(k4 : ℝ)| * (6 / 10 ^ 18 * (1 + |t|)) + |(k5 : ℝ)| * (6 / 10 ^ 18 * (1 + |t|)) +
    |(k6 : ℝ)| * (6 / 10 ^ 18 * (1 + |t|)) + |(k7 : ℝ)| * (6 / 10 ^ 18 * (1 + |t|)) ≤ _ from ?_)
  · have c : ∀ {e x y z : ℝ}, Cong e x y → y = z → Cong e x z := by rintro e x y z h rfl; exact h
    refine c h ?_
    unfold S00Row.arg mkS
    simp only [List.getD_cons_zero, List.getD_cons_succ]
    push_cast
    ring
  · have h0 : (0 : ℝ) ≤ 1 + |t| := by positivity
    nlinarith

/-- One term of the program. -/
noncomputable def sTerm (fa : List ℝ) (p : List ℤ × (ℤ × ℤ)) : ℝ :=
  (p.2.1 * Real.sin (argument p.1 fa) + p.2.2 * Real.cos (argument p.1 fa)) / 10 ^ 8

theorem s_fold (fa : List ℝ) (L : List (List ℤ × (ℤ × ℤ))) (acc : ℝ) :
    L.foldl (fun s p =>
      let a := argument p.1 fa
      s +. (micro p.2.1 *. Libm.sin a +. micro p.2.2 *. Libm.cos a)) acc = acc + (L.map (sTerm fa)).sum := by
  induction L generalizing acc with
  | nil => simp
  | cons p L ih =>
    rw [List.foldl_cons, ih, List.map_cons, List.sum_cons, ← add_assoc]
    congr 1
    simp only [sTerm, micro, lit_real, add_real, mul_real, sin_real, cos_real]
    push_cast
    ring

theorem s_sum_diff (t d : ℝ) (L : List (List ℤ × (ℤ × ℤ)))
    (h : ∀ p ∈ L, Cong d (argument p.1 (fundArgs t)) ((mkS p).arg t)) :
    |(L.map (sTerm (fundArgs t))).sum - s00Sum (L.map mkS) t / 10 ^ 6| ≤ d * ssSum L / 10 ^ 8 ∧
      |s00Sum (L.map mkS) t / 10 ^ 6| ≤ (ssSum L : ℝ) / 10 ^ 8 := by
  induction L with
  | nil => simp [s00Sum, ssSum]
  | cons p L ih =>
    have hp := h p List.mem_cons_self
    obtain ⟨h1, h2⟩ := ih (fun q hq => h q (List.mem_cons_of_mem _ hq))
    have e : s00Sum ((p :: L).map mkS) t = (p.2.1 * Real.sin ((mkS p).arg t) + p.2.2 * Real.cos ((mkS p).arg t)) / 100 +
        s00Sum (L.map mkS) t := by
      unfold s00Sum; simp only [List.map_cons, List.sum_cons]; rfl
    have hc : ((ssSum (p :: L) : ℤ) : ℝ) = |(p.2.1 : ℝ)| + |(p.2.2 : ℝ)| + ssSum L := by
      simp only [ssSum]; push_cast; ring
    rw [e, hc, List.map_cons, List.sum_cons]
    have g1 := term_diff (a := (p.2.1 : ℝ)) (b := 0) (c := p.2.2) (t := 0) hp.sin hp.cos
    have g2 := term_diff (a := (p.2.1 : ℝ)) (b := 0) (c := p.2.2) (t := 0) (s' := 0) (k' := 0) (d := 1)
      (by simpa using Real.abs_sin_le_one ((mkS p).arg t)) (by simpa using Real.abs_cos_le_one ((mkS p).arg t))
    simp only [mul_zero, add_zero, abs_zero, sub_zero, mul_one, one_mul] at g1 g2
    constructor
    · have : sTerm (fundArgs t) p + (L.map (sTerm (fundArgs t))).sum -
          ((p.2.1 * Real.sin ((mkS p).arg t) + p.2.2 * Real.cos ((mkS p).arg t)) / 100 + s00Sum (L.map mkS) t) / 10 ^ 6 =
          (p.2.1 * Real.sin (argument p.1 (fundArgs t)) + p.2.2 * Real.cos (argument p.1 (fundArgs t)) -
            (p.2.1 * Real.sin ((mkS p).arg t) + p.2.2 * Real.cos ((mkS p).arg t))) / 10 ^ 8 +
          ((L.map (sTerm (fundArgs t))).sum - s00Sum (L.map mkS) t / 10 ^ 6) := by
        unfold sTerm; ring
      rw [this]
      refine (abs_add_le _ _).trans ?_
      rw [abs_div, abs_of_pos (show (0 : ℝ) < 10 ^ 8 by norm_num)]
      refine (add_le_add (div_le_div_of_nonneg_right g1 (by norm_num)) h1).trans (le_of_eq ?_)
      ring
    · have : ((p.2.1 * Real.sin ((mkS p).arg t) + p.2.2 * Real.cos ((mkS p).arg t)) / 100 + s00Sum (L.map mkS) t) / 10 ^ 6 =
          (p.2.1 * Real.sin ((mkS p).arg t) + p.2.2 * Real.cos ((mkS p).arg t)) / 10 ^ 8 + s00Sum (L.map mkS) t / 10 ^ 6 := by
        ring
      rw [this]
      refine (abs_add_le _ _).trans ?_
      rw [abs_div, abs_of_pos (show (0 : ℝ) < 10 ^ 8 by norm_num)]
      refine (add_le_add (div_le_div_of_nonneg_right g2 (by norm_num)) h2).trans (le_of_eq ?_)
      ring

/-- The coefficient of a power of `t` in the program and in the reference series. -/
theorem sCoef_diff (t : ℝ) (sp : ℤ) (ks : List (List ℤ)) (ss : List (ℤ × ℤ)) (N : ℤ)
    (hN : ssSum (ks.zip ss) ≤ N) (hN' : N ≤ 300000) (hs : |sp| + N ≤ 8000000)
    (h : ∀ p ∈ ks.zip ss, p ∈ KS0.zip SS0 ++ KS1.zip SS1 ++ KS2.zip SS2 ++ KS3.zip SS3 ++ KS4.zip SS4) :
    |sCoef (fundArgs t) sp ks ss - (sp / 100 + s00Sum ((ks.zip ss).map mkS) t) / 10 ^ 6| ≤ 6 / 10 ^ 19 * (1 + |t|) ∧
      |(sp / 100 + s00Sum ((ks.zip ss).map mkS) t) / 10 ^ 6| ≤ 8 / 100 := by
  obtain ⟨h1, h2⟩ := s_sum_diff t (2 / 10 ^ 16 * (1 + |t|)) (ks.zip ss) (fun p hp => s00_arg t p (h p hp))
  have hN1 : ((ssSum (ks.zip ss) : ℤ) : ℝ) ≤ N := by exact_mod_cast hN
  have hN2 : (N : ℝ) ≤ 300000 := by exact_mod_cast hN'
  have hs' : |(sp : ℝ)| + N ≤ 8000000 := by exact_mod_cast hs
  have e : sCoef (fundArgs t) sp ks ss = sp / 10 ^ 8 + ((ks.zip ss).map (sTerm (fundArgs t))).sum := by
    unfold sCoef
    rw [s_fold, map_reverse_sum]
    congr 1
    unfold micro; simp only [lit_real]; push_cast; norm_num
  constructor
  · have : sCoef (fundArgs t) sp ks ss - (sp / 100 + s00Sum ((ks.zip ss).map mkS) t) / 10 ^ 6 =
        ((ks.zip ss).map (sTerm (fundArgs t))).sum - s00Sum ((ks.zip ss).map mkS) t / 10 ^ 6 := by rw [e]; ring
    rw [this]
    refine h1.trans ?_
    calc _ ≤ 2 / 10 ^ 16 * (1 + |t|) * 300000 / 10 ^ 8 := by gcongr; exact hN1.trans hN2
      _ = _ := by ring
  · have : (sp / 100 + s00Sum ((ks.zip ss).map mkS) t) / 10 ^ 6 = sp / 10 ^ 8 + s00Sum ((ks.zip ss).map mkS) t / 10 ^ 6 := by
      ring
    rw [this]
    refine (abs_add_le _ _).trans ?_
    rw [abs_div, abs_of_pos (show (0 : ℝ) < 10 ^ 8 by norm_num)]
    have : |(sp : ℝ)| / 10 ^ 8 + ssSum (ks.zip ss) / 10 ^ 8 ≤ 8000000 / 10 ^ 8 := by
      rw [← add_div]; gcongr; linarith
    norm_num at this h2 ⊢
    linarith

theorem poly5 {c0 c1 c2 c3 c4 c5 t E : ℝ} (h0 : |c0| ≤ E) (h1 : |c1| ≤ E) (h2 : |c2| ≤ E) (h3 : |c3| ≤ E)
    (h4 : |c4| ≤ E) (h5 : |c5| ≤ E) :
    |c0 + c1 * t + c2 * t ^ 2 + c3 * t ^ 3 + c4 * t ^ 4 + c5 * t ^ 5| ≤ E * (1 + |t|) ^ 5 := by
  have t0 := abs_nonneg t
  have E0 : 0 ≤ E := (abs_nonneg _).trans h0
  have g : ∀ (c : ℝ) (n : ℕ), |c| ≤ E → |c * t ^ n| ≤ E * |t| ^ n := fun c n h => by
    rw [abs_mul, abs_pow]; exact mul_le_mul_of_nonneg_right h (by positivity)
  have g1 := g c1 1 h1
  have g2 := g c2 2 h2
  have g3 := g c3 3 h3
  have g4 := g c4 4 h4
  have g5 := g c5 5 h5
  rw [pow_one, pow_one] at g1
  have a1 := abs_add_le c0 (c1 * t)
  have a2 := abs_add_le (c0 + c1 * t) (c2 * t ^ 2)
  have a3 := abs_add_le (c0 + c1 * t + c2 * t ^ 2) (c3 * t ^ 3)
  have a4 := abs_add_le (c0 + c1 * t + c2 * t ^ 2 + c3 * t ^ 3) (c4 * t ^ 4)
  have a5 := abs_add_le (c0 + c1 * t + c2 * t ^ 2 + c3 * t ^ 3 + c4 * t ^ 4) (c5 * t ^ 5)
  have e : E * (1 + |t|) ^ 5 = E + E * |t| + E * |t| ^ 2 + E * |t| ^ 3 + E * |t| ^ 4 + E * |t| ^ 5 +
      E * (4 * |t| + 9 * |t| ^ 2 + 9 * |t| ^ 3 + 4 * |t| ^ 4) := by ring
  have : 0 ≤ E * (4 * |t| + 9 * |t| ^ 2 + 9 * |t| ^ 3 + 4 * |t| ^ 4) := by positivity
  rw [e]
  linarith

/-- **C66.** For every date and every pole coordinates, the locator returned by the program plus `xy/2` is the series
of table 5.2c of the IERS Conventions (2003) at the number of Julian centuries since J2000.0, up to
`10^-23 * (1 + |t|)^6` radian. -/
theorem C66_locator_series (a b x y : ℝ) :
    let t := (a + b - 2451545) / 36525
    |cio (a, b) x y + x * y / 2 - s00 t| ≤ 1 / 10 ^ 23 * (1 + |t|) ^ 6 := by
  intro t
  have ht : ((a -. DJ00) +. b) /. DJC = t := centuries_real (a, b)
  clear_value t
  unfold cio
  simp only
  rw [ht]
  obtain ⟨T0, T1, T2, T3, T4⟩ := s00_tables
  unfold s00
  rw [T0, T1, T2, T3, T4]
  obtain ⟨d0, m0⟩ := sCoef_diff t 9400 KS0 SS0 274655 (by decide +kernel) (by norm_num) (by norm_num)
    (fun p hp => by simp only [List.mem_append]; tauto)
  obtain ⟨d1, m1⟩ := sCoef_diff t 380835 KS1 SS1 586 (by decide +kernel) (by norm_num) (by norm_num)
    (fun p hp => by simp only [List.mem_append]; tauto)
  obtain ⟨d2, m2⟩ := sCoef_diff t (-11994) KS2 SS2 83911 (by decide +kernel) (by norm_num) (by norm_num)
    (fun p hp => by simp only [List.mem_append]; tauto)
  obtain ⟨d3, m3⟩ := sCoef_diff t (-7257409) KS3 SS3 2570 (by decide +kernel) (by norm_num) (by norm_num)
    (fun p hp => by simp only [List.mem_append]; tauto)
  obtain ⟨d4, m4⟩ := sCoef_diff t 2770 KS4 SS4 27 (by decide +kernel) (by norm_num) (by norm_num)
    (fun p hp => by simp only [List.mem_append]; tauto)
  have q5 : (micro 1561 : ℝ) = 15.61 / 10 ^ 6 := by unfold micro; simp only [lit_real]; push_cast; norm_num
  have hA : |(AS2R : ℝ)| ≤ 5 / 10 ^ 6 := by unfold AS2R; norm_num [abs_le]
  have hu := as2r_close
  have d5 : |(micro 1561 : ℝ) - 15.61 / 10 ^ 6| ≤ 6 / 10 ^ 19 * (1 + |t|) := by
    rw [q5, sub_self, abs_zero]; positivity
  have m5 : |(15.61 / 10 ^ 6 : ℝ)| ≤ 8 / 100 := by norm_num [abs_le]
  push_cast at d0 d1 d2 d3 d4 m0 m1 m2 m3 m4
  have H1 := poly5 (t := t) d0 d1 d2 d3 d4 d5
  have H2 := poly5 (t := t) m0 m1 m2 m3 m4 m5
  generalize sCoef (fundArgs t) 9400 KS0 SS0 = P0 at *
  generalize sCoef (fundArgs t) 380835 KS1 SS1 = P1 at *
  generalize sCoef (fundArgs t) (-11994) KS2 SS2 = P2 at *
  generalize sCoef (fundArgs t) (-7257409) KS3 SS3 = P3 at *
  generalize sCoef (fundArgs t) 2770 KS4 SS4 = P4 at *
  generalize s00Sum ((KS0.zip SS0).map mkS) t = S0 at *
  generalize s00Sum ((KS1.zip SS1).map mkS) t = S1 at *
  generalize s00Sum ((KS2.zip SS2).map mkS) t = S2 at *
  generalize s00Sum ((KS3.zip SS3).map mkS) t = S3 at *
  generalize s00Sum ((KS4.zip SS4).map mkS) t = S4 at *
  generalize (micro 1561 : ℝ) = P5 at *
  generalize (AS2R : ℝ) = A at *
  simp only [lit_real, add_real, sub_real, mul_real, div_real]
  push_cast
  generalize hD : P0 - (9400 / 100 + S0) / 10 ^ 6 + (P1 - (380835 / 100 + S1) / 10 ^ 6) * t +
    (P2 - (-11994 / 100 + S2) / 10 ^ 6) * t ^ 2 + (P3 - (-7257409 / 100 + S3) / 10 ^ 6) * t ^ 3 +
    (P4 - (2770 / 100 + S4) / 10 ^ 6) * t ^ 4 + (P5 - 15.61 / 10 ^ 6) * t ^ 5 = D at H1
  generalize hS : (9400 / 100 + S0) / 10 ^ 6 + (380835 / 100 + S1) / 10 ^ 6 * t + (-11994 / 100 + S2) / 10 ^ 6 * t ^ 2 +
    (-7257409 / 100 + S3) / 10 ^ 6 * t ^ 3 + (2770 / 100 + S4) / 10 ^ 6 * t ^ 4 + 15.61 / 10 ^ 6 * t ^ 5 = S at H2
  have e : (P0 + (P1 + (P2 + (P3 + (P4 + P5 * t) * t) * t) * t) * t) * A - x * y / 2 + x * y / 2 -
      ((94.00 + S0) + (3808.35 + S1) * t + (-119.94 + S2) * t ^ 2 + (-72574.09 + S3) * t ^ 3 + (27.70 + S4) * t ^ 4 +
        15.61 * t ^ 5) / 10 ^ 6 * arcsec = D * A + S * (A - arcsec) := by
    rw [← hD, ← hS]; norm_num; ring
  rw [e]
  refine (abs_add_le _ _).trans ?_
  rw [abs_mul, abs_mul]
  have t0 := abs_nonneg t
  have k1 : |D| * |A| ≤ 6 / 10 ^ 19 * (1 + |t|) * (1 + |t|) ^ 5 * (5 / 10 ^ 6) :=
    mul_le_mul H1 hA (abs_nonneg _) (by positivity)
  have k2 : |S| * |A - arcsec| ≤ 8 / 100 * (1 + |t|) ^ 5 * (2 / 10 ^ 26) :=
    mul_le_mul H2 hu (abs_nonneg _) (by positivity)
  have k3 : (1 + |t|) ^ 5 ≤ (1 + |t|) ^ 6 := pow_le_pow_right₀ (by linarith) (by norm_num)
  have k4 : 6 / 10 ^ 19 * (1 + |t|) * (1 + |t|) ^ 5 * (5 / 10 ^ 6) = 3 / 10 ^ 24 * (1 + |t|) ^ 6 := by ring
  have k5 : 0 ≤ (1 + |t|) ^ 6 := by positivity
  rw [k4] at k1
  generalize (1 + |t|) ^ 6 = w at *
  generalize (1 + |t|) ^ 5 = v at *
  norm_num at k1 k2 ⊢
  linarith

end Verif
