import Verif.Lemmas.FrameAcc
import Verif.Lemmas.C2iAcc

/-!
# Finite results and matrices that are nearly rotations

`FBd x B`: `x` is finite with magnitude at most `B`. No comparison with exact arithmetic is made, so the dates may be far away.
-/

namespace Verif
open Arith F64 Matrix Spec

/-- `x` is finite with magnitude at most `B`. -/
def FBd (x : F64) (B : ℚ) : Prop := ∃ r : ℚ, Is x r ∧ |r| ≤ B

namespace FBd
variable {x y : F64} {A B : ℚ}

theorem mono (h : FBd x A) (hB : A ≤ B) : FBd x B := by
  obtain ⟨r, h1, h2⟩ := h
  exact ⟨r, h1, h2.trans hB⟩

theorem neg (h : FBd x A) : FBd (Arith.neg x) A := by
  obtain ⟨r, h1, h2⟩ := h
  exact ⟨-r, h1.neg, by rwa [abs_neg]⟩

theorem abs_RN {q C : ℚ} (hC : RepQ C) (h : |q| ≤ C) : |RN q| ≤ C := by
  rw [← RN_abs]; exact RN_le_of_le hC h

theorem lit' (q C : ℚ) (hC : RepQ C) (h : |q| ≤ C) (h1 : C ≤ 1) : FBd (Arith.lit q) C :=
  ⟨_, Is.lit q (le_HUGE (k := 0) (by simpa using h.trans h1) (by norm_num)), abs_RN hC h⟩

theorem lit (q : ℚ) (k : ℕ) (h : |q| ≤ 2 ^ k) (hk : k ≤ 1023) : FBd (Arith.lit q) (2 ^ k) :=
  ⟨_, Is.lit q (le_HUGE h hk), abs_RN (RepQ.two_pow k) h⟩

theorem add (hx : FBd x A) (hy : FBd y B) (k : ℕ) (h : A + B ≤ 2 ^ k) (hk : k ≤ 1023) : FBd (x +. y) (2 ^ k) := by
  obtain ⟨a, ha, ha'⟩ := hx
  obtain ⟨b, hb, hb'⟩ := hy
  have h : |a + b| ≤ 2 ^ k := (abs_add_le _ _).trans (by linarith)
  exact ⟨_, ha.add hb (le_HUGE h hk), abs_RN (RepQ.two_pow k) h⟩

theorem sub (hx : FBd x A) (hy : FBd y B) (k : ℕ) (h : A + B ≤ 2 ^ k) (hk : k ≤ 1023) : FBd (x -. y) (2 ^ k) := by
  obtain ⟨a, ha, ha'⟩ := hx
  obtain ⟨b, hb, hb'⟩ := hy
  have h : |a - b| ≤ 2 ^ k := (abs_sub _ _).trans (by linarith)
  exact ⟨_, ha.sub hb (le_HUGE h hk), abs_RN (RepQ.two_pow k) h⟩

theorem mul (hx : FBd x A) (hy : FBd y B) (k : ℕ) (h : A * B ≤ 2 ^ k) (hk : k ≤ 1023) : FBd (x *. y) (2 ^ k) := by
  obtain ⟨a, ha, ha'⟩ := hx
  obtain ⟨b, hb, hb'⟩ := hy
  have h : |a * b| ≤ 2 ^ k := by
    rw [abs_mul]; exact (mul_le_mul ha' hb' (abs_nonneg _) ((abs_nonneg _).trans ha')).trans h
  exact ⟨_, ha.mul hb (le_HUGE h hk), abs_RN (RepQ.two_pow k) h⟩

theorem rem (hx : FBd x A) {b : ℚ} (hy : Is y b) (b0 : 0 < b) : FBd (x %. y) b := by
  obtain ⟨a, ha, -⟩ := hx
  exact ⟨_, ha.rem hy b0.ne', (remQ_bound a b b0).1.le⟩

theorem of_near {q e : ℝ} (h : Near x q e) (hB : |q| + e ≤ B) : FBd x B := by
  obtain ⟨r, h1, h2⟩ := h
  refine ⟨r, h1, ?_⟩
  have : |(r : ℝ)| ≤ B := by
    have e1 : (r : ℝ) = q + (r - q) := by ring
    rw [e1]
    exact (abs_add_le _ _).trans (by linarith)
  exact_mod_cast this

theorem sin [Libm F64] (hL : LibmAcc) (h : FBd x (2 ^ 30)) : FBd (Libm.sin x) 2 := by
  obtain ⟨r, h1, h2⟩ := h
  refine of_near (hL.sin x r h1 h2) ?_
  have := Real.abs_sin_le_one (r : ℝ)
  norm_num; linarith

theorem cos [Libm F64] (hL : LibmAcc) (h : FBd x (2 ^ 30)) : FBd (Libm.cos x) 2 := by
  obtain ⟨r, h1, h2⟩ := h
  refine of_near (hL.cos x r h1 h2) ?_
  have := Real.abs_cos_le_one (r : ℝ)
  norm_num; linarith

/-- A sum of terms of magnitude at most `2 ^ k`. -/
theorem fold {β : Type} (f : β → F64) (k : ℕ) (hk : k ≤ 900) (L : List β) (h : ∀ b ∈ L, FBd (f b) (2 ^ k)) (n : ℕ) (acc : F64)
    (ha : FBd acc (n * 2 ^ k)) (hn : n + L.length ≤ 1000) :
    FBd (L.foldl (fun s b => s +. f b) acc) ((n + L.length : ℕ) * 2 ^ k) := by
  induction L generalizing n acc with
  | nil => simpa using ha
  | cons b L ih =>
    simp only [List.foldl_cons, List.length_cons] at *
    have hb := h b (by simp)
    have step : FBd (acc +. f b) ((n + 1 : ℕ) * 2 ^ k) := by
      obtain ⟨u, hu, hu'⟩ := ha
      obtain ⟨v, hv, hv'⟩ := hb
      have h1 : |u + v| ≤ (n + 1 : ℕ) * 2 ^ k := (abs_add_le _ _).trans (by push_cast; linarith)
      have hr : RepQ (((n + 1 : ℕ) : ℚ) * 2 ^ k) := RepQ.of_zpow (n + 1 : ℕ) k (by push_cast; rw [abs_le]; omega) (by omega) (by push_cast; simp)
      refine ⟨_, hu.add hv (le_HUGE (k := k + 10) (h1.trans ?_) (by omega)), abs_RN hr h1⟩
      rw [pow_add, mul_comm]
      have : ((n + 1 : ℕ) : ℚ) ≤ 2 ^ 10 := by
        have : n + 1 ≤ 2 ^ 10 := by omega
        exact_mod_cast this
      gcongr
    have := ih (fun c hc => h c (by simp [hc])) (n + 1) (acc +. f b) step (by omega)
    rw [show n + 1 + L.length = n + (L.length + 1) by ring] at this
    exact this

end FBd

theorem as2r_bd : FBd (AS2R : F64) (1 / 2 ^ 17) :=
  FBd.lit' _ _ (RepQ.of_zpow 1 (-17) (by norm_num) (by norm_num) (by norm_num)) (by norm_num [abs_of_pos]) (by norm_num)

theorem u2r_bd : FBd (U2R : F64) (1 / 2 ^ 40) := by
  refine FBd.of_near u2r_nb.near ?_
  have := u2r_nb.mag
  norm_num at this ⊢
  linarith

/-- Dates of parts up to `2 ^ 27` days. -/
theorem centuries_bd {x y : F64} (hx : FBd x (2 ^ 27)) (hy : FBd y (2 ^ 27)) : FBd (centuries (x, y)) (2 ^ 14) := by
  have h0 : FBd (DJ00 : F64) (2 ^ 22) := FBd.lit _ 22 (by norm_num) (by norm_num)
  obtain ⟨r, h1, h2⟩ := (hx.sub h0 28 (by norm_num) (by norm_num)).add hy 29 (by norm_num) (by norm_num)
  have hc : Is (DJC : F64) 36525 := by
    have := Is.lit_int 36525 (by norm_num)
    push_cast at this
    exact this
  have h3 : |r / 36525| ≤ 2 ^ 14 := by
    rw [abs_div, abs_of_pos (show (0 : ℚ) < 36525 by norm_num), div_le_iff₀ (by norm_num)]
    exact h2.trans (by norm_num)
  exact ⟨_, h1.div hc (by norm_num) (le_HUGE h3 (by norm_num)), FBd.abs_RN (RepQ.two_pow 14) h3⟩

theorem nal_bd : ∀ p ∈ NALS.zip CLS, |p.1.l| ≤ 16 ∧ |p.1.lp| ≤ 16 ∧ |p.1.f| ≤ 16 ∧ |p.1.d| ≤ 16 ∧ |p.1.om| ≤ 16 := by decide +kernel

theorem ofInt_bd (n : ℤ) (h : |n| ≤ 16) : FBd (Arith.ofInt n : F64) 16 :=
  ⟨n, Is.ofInt n (h.trans (by norm_num)), by exact_mod_cast h⟩

/-- One fundamental argument. -/
theorem turn_bd {z : F64} {B : ℚ} (h : FBd z B) : FBd ((z %. TURNAS) *. AS2R) (2 ^ 4) := by
  exact (h.rem turnas_is (by norm_num)).mul as2r_bd 4 (by norm_num) (by norm_num)

theorem nutArg_bd {T : F64} (hT : FBd T (2 ^ 14)) (p : Nal × Cls) (hp : p ∈ NALS.zip CLS) : FBd (nutArgsF T p.1) (2 ^ 3) := by
  obtain ⟨n1, n2, n3, n4, n5⟩ := nal_bd p hp
  have lin : ∀ c d : ℚ, |c| ≤ 2 ^ 31 → |d| ≤ 2 ^ 31 → FBd (lit c +. lit d *. T) (2 ^ 47) := fun c d hc hd =>
    (FBd.lit c 31 hc (by norm_num)).add ((FBd.lit d 31 hd (by norm_num)).mul hT 46 (by norm_num) (by norm_num)) 47 (by norm_num) (by norm_num)
  have lin' : ∀ c d : ℚ, |c| ≤ 2 ^ 31 → |d| ≤ 2 ^ 31 → FBd (lit c -. lit d *. T) (2 ^ 47) := fun c d hc hd =>
    (FBd.lit c 31 hc (by norm_num)).sub ((FBd.lit d 31 hd (by norm_num)).mul hT 46 (by norm_num) (by norm_num)) 47 (by norm_num) (by norm_num)
  have a1 := turn_bd (lin 485868.249036 1717915923.2178 (by norm_num [abs_of_pos]) (by norm_num [abs_of_pos]))
  have a2 := turn_bd (lin 1287104.79305 129596581.0481 (by norm_num [abs_of_pos]) (by norm_num [abs_of_pos]))
  have a3 := turn_bd (lin 335779.526232 1739527262.8478 (by norm_num [abs_of_pos]) (by norm_num [abs_of_pos]))
  have a4 := turn_bd (lin 1072260.70369 1602961601.2090 (by norm_num [abs_of_pos]) (by norm_num [abs_of_pos]))
  have a5 := turn_bd (lin' 450160.398036 6962890.5431 (by norm_num [abs_of_pos]) (by norm_num [abs_of_pos]))
  have b1 := (ofInt_bd _ n1).mul a1 8 (by norm_num) (by norm_num)
  have b2 := (ofInt_bd _ n2).mul a2 8 (by norm_num) (by norm_num)
  have b3 := (ofInt_bd _ n3).mul a3 8 (by norm_num) (by norm_num)
  have b4 := (ofInt_bd _ n4).mul a4 8 (by norm_num) (by norm_num)
  have b5 := (ofInt_bd _ n5).mul a5 8 (by norm_num) (by norm_num)
  have s := (((b1.add b2 9 (by norm_num) (by norm_num)).add b3 10 (by norm_num) (by norm_num)).add b4 11 (by norm_num) (by norm_num)).add b5 12
    (by norm_num) (by norm_num)
  have ht : Is (TWO_PI : F64) (RN 6.283185307179586476925287) := Is.lit _ (le_HUGE (k := 3) (by norm_num [abs_of_pos]) (by norm_num))
  have t0 : (4 : ℚ) ≤ RN 6.283185307179586476925287 := le_RN_of_le (by
    have := RepQ.two_pow 2
    norm_num at this
    exact this) (by norm_num)
  have t1 : RN 6.283185307179586476925287 ≤ 2 ^ 3 := RN_le_of_le (RepQ.two_pow 3) (by norm_num)
  exact (s.rem ht (by linarith)).mono t1

theorem nutation_bd [Libm F64] (hL : LibmAcc) {tt : F64 × F64} (hT : FBd (centuries tt) (2 ^ 14)) :
    FBd (nutation tt).1 (2 ^ 18) ∧ FBd (nutation tt).2 (2 ^ 18) := by
  have e : nutation tt = (((NALS.zip CLS).reverse.foldl (fun (acc : F64 × F64) p =>
      (acc.1 +. ((flt p.2.c0 +. flt p.2.c1 *. centuries tt) *. Libm.sin (nutArgsF (centuries tt) p.1) +.
          flt p.2.c2 *. Libm.cos (nutArgsF (centuries tt) p.1)),
       acc.2 +. ((flt p.2.c3 +. flt p.2.c4 *. centuries tt) *. Libm.cos (nutArgsF (centuries tt) p.1) +.
          flt p.2.c5 *. Libm.sin (nutArgsF (centuries tt) p.1)))) (lit 0, lit 0)).1 *. U2R +. DPPLAN,
      ((NALS.zip CLS).reverse.foldl (fun (acc : F64 × F64) p =>
      (acc.1 +. ((flt p.2.c0 +. flt p.2.c1 *. centuries tt) *. Libm.sin (nutArgsF (centuries tt) p.1) +.
          flt p.2.c2 *. Libm.cos (nutArgsF (centuries tt) p.1)),
       acc.2 +. ((flt p.2.c3 +. flt p.2.c4 *. centuries tt) *. Libm.cos (nutArgsF (centuries tt) p.1) +.
          flt p.2.c5 *. Libm.sin (nutArgsF (centuries tt) p.1)))) (lit 0, lit 0)).2 *. U2R +. DEPLAN) := rfl
  rw [e, fold_pair]
  simp only
  clear e
  generalize centuries tt = T at hT
  have term : ∀ (c0 c1 c2 : ℤ) (s k : F64), |c0| ≤ 10 ^ 9 → |c1| ≤ 10 ^ 9 → |c2| ≤ 10 ^ 9 → FBd s 2 → FBd k 2 →
      FBd ((flt c0 +. flt c1 *. T) *. s +. flt c2 *. k) (2 ^ 48) := fun c0 c1 c2 s k h0 h1 h2 hs hk => by
    have f : ∀ z : ℤ, |z| ≤ 10 ^ 9 → FBd (flt z : F64) (2 ^ 30) := fun z hz => FBd.lit _ 30 (by
      have : |(z : ℚ)| ≤ 10 ^ 9 := by exact_mod_cast hz
      exact this.trans (by norm_num)) (by norm_num)
    exact (((f c0 h0).add ((f c1 h1).mul hT 45 (by norm_num) (by norm_num)) 46 (by norm_num) (by norm_num)).mul hs 47 (by norm_num)
      (by norm_num)).add ((f c2 h2).mul hk 31 (by norm_num) (by norm_num)) 48 (by norm_num) (by norm_num)
  have sc : ∀ p ∈ (NALS.zip CLS).reverse, FBd (Libm.sin (nutArgsF T p.1)) 2 ∧ FBd (Libm.cos (nutArgsF T p.1)) 2 := fun p hp => by
    have h := (nutArg_bd hT p (List.mem_reverse.mp hp)).mono (B := 2 ^ 30) (by norm_num)
    exact ⟨h.sin hL, h.cos hL⟩
  have z : FBd (lit 0 : F64) ((0 : ℕ) * 2 ^ 48) := ⟨0, zero_is, by simp⟩
  have len : (NALS.zip CLS).reverse.length = 77 := by decide
  have F1 := FBd.fold (fun p : Nal × Cls => (flt p.2.c0 +. flt p.2.c1 *. T) *. Libm.sin (nutArgsF T p.1) +.
          flt p.2.c2 *. Libm.cos (nutArgsF T p.1)) 48 (by norm_num) (NALS.zip CLS).reverse
    (fun p hp => by
      obtain ⟨k0, k1, k2, -⟩ := cls_small p (List.mem_reverse.mp hp)
      exact term _ _ _ _ _ k0 k1 k2 (sc p hp).1 (sc p hp).2) 0 (lit 0) z (by rw [len]; norm_num)
  have F2 := FBd.fold (fun p : Nal × Cls => (flt p.2.c3 +. flt p.2.c4 *. T) *. Libm.cos (nutArgsF T p.1) +.
          flt p.2.c5 *. Libm.sin (nutArgsF T p.1)) 48 (by norm_num) (NALS.zip CLS).reverse
    (fun p hp => by
      obtain ⟨-, -, -, k0, k1, k2⟩ := cls_small p (List.mem_reverse.mp hp)
      exact term _ _ _ _ _ k0 k1 k2 (sc p hp).2 (sc p hp).1) 0 (lit 0) z (by rw [len]; norm_num)
  rw [len] at F1 F2
  have mas : FBd (MAS2R : F64) (2 ^ 0) := by
    refine FBd.of_near mas2r_nb.near ?_
    have := mas2r_nb.mag
    norm_num at this ⊢
    linarith
  have p1 : FBd (DPPLAN : F64) (2 ^ 0) := by
    unfold DPPLAN
    exact (FBd.lit _ 0 (by norm_num [abs_of_pos]) (by norm_num)).neg.mul mas 0 (by norm_num) (by norm_num)
  have p2 : FBd (DEPLAN : F64) (2 ^ 0) := by
    unfold DEPLAN
    exact (FBd.lit _ 0 (by norm_num [abs_of_pos]) (by norm_num)).mul mas 0 (by norm_num) (by norm_num)
  exact ⟨(F1.mul u2r_bd 16 (by norm_num) (by norm_num)).add p1 18 (by norm_num) (by norm_num),
    (F2.mul u2r_bd 16 (by norm_num) (by norm_num)).add p2 18 (by norm_num) (by norm_num)⟩

/-- A finite matrix within `e` of a rotation. -/
def NearRot (m : Mat3 F64) (e : ℝ) : Prop := ∃ R : Mat3 ℝ, IsRotation R ∧ MN m R e

namespace NearRot

theorem mono {m : Mat3 F64} {e E : ℝ} (h : NearRot m e) (he : e ≤ E) : NearRot m E := by
  obtain ⟨R, h1, h2⟩ := h
  exact ⟨R, h1, h2.mono he⟩

theorem identity : NearRot Mat3.identity 0 := ⟨_, .identity, MN.identity⟩

theorem rotation [Libm F64] (hL : LibmAcc) {x : F64} (h : FBd x (2 ^ 30)) (axis : Fin 3) :
    NearRot (Mat3.rotation axis x) (3 / 10 ^ 15) := by
  obtain ⟨r, h1, h2⟩ := h
  have h3 : |(r : ℝ)| ≤ 2 ^ 30 := by exact_mod_cast h2
  exact ⟨_, .rotation axis (r : ℝ), MN.rot hL (NB.of_is h1 h3) axis (by norm_num)⟩

theorem compose {m n : Mat3 F64} {e e' : ℝ} (h : NearRot m e) (h' : NearRot n e') (E : ℝ) (he : e ≤ 1 / 1000 ∧ e' ≤ 1 / 1000)
    (hE : e + e' + e * e' + 4 / 10 ^ 15 ≤ E) : NearRot (m.compose n) E := by
  obtain ⟨R, r1, r2⟩ := h
  obtain ⟨S, s1, s2⟩ := h'
  exact ⟨_, r1.compose s1, r2.compose s2 r1 s1 he.1 he.2 hE⟩

/-- Three rotations after the identity, as most of the frame functions write them. -/
theorem three [Libm F64] (hL : LibmAcc) {x y z : F64} (hx : FBd x (2 ^ 30)) (hy : FBd y (2 ^ 30)) (hz : FBd z (2 ^ 30)) (i j k : Fin 3) :
    NearRot (((Mat3.identity.compose (Mat3.rotation i x)).compose (Mat3.rotation j y)).compose (Mat3.rotation k z)) (22 / 10 ^ 15) :=
  (((identity.compose (rotation hL hx i) (7 / 10 ^ 15) (by norm_num) (by norm_num)).compose (rotation hL hy j) (14.1 / 10 ^ 15)
    (by norm_num) (by norm_num)).compose (rotation hL hz k) (22 / 10 ^ 15) (by norm_num) (by norm_num))

end NearRot

theorem eps0_bd : FBd (EPS0 : F64) (2 ^ 0) :=
  (FBd.lit 84381.448 17 (by norm_num [abs_of_pos]) (by norm_num)).mul as2r_bd 0 (by norm_num) (by norm_num)

theorem frameBias_bd : FBd (frameBias : F64 × F64 × F64).1 (2 ^ 0) ∧ FBd (frameBias : F64 × F64 × F64).2.1 (2 ^ 0) ∧
    FBd (frameBias : F64 × F64 × F64).2.2 (2 ^ 0) :=
  ⟨(FBd.lit (-0.041775) 0 (by norm_num [abs_le]) (by norm_num)).mul as2r_bd 0 (by norm_num) (by norm_num),
    (FBd.lit (-0.0068192) 0 (by norm_num [abs_le]) (by norm_num)).mul as2r_bd 0 (by norm_num) (by norm_num),
    (FBd.lit (-0.0146) 0 (by norm_num [abs_le]) (by norm_num)).mul as2r_bd 0 (by norm_num) (by norm_num)⟩

/-- A cubic without constant term, in arcseconds. -/
theorem cubic_bd {T : F64} (h : FBd T (2 ^ 14)) (c d e : ℚ) (hc : |c| ≤ 2 ^ 13) (hd : |d| ≤ 2 ^ 6) (he : |e| ≤ 1) :
    FBd ((lit c +. (lit d +. lit e *. T) *. T) *. T) (2 ^ 44) :=
  (((FBd.lit c 13 hc (by norm_num)).add (((FBd.lit d 6 hd (by norm_num)).add ((FBd.lit e 0 (by simpa using he) (by norm_num)).mul h 14
    (by norm_num) (by norm_num)) 15 (by norm_num) (by norm_num)).mul h 29 (by norm_num) (by norm_num)) 30 (by norm_num) (by norm_num)).mul h 44
    (by norm_num) (by norm_num))

theorem precessionRate_bd {tt : F64 × F64} (h : FBd (centuries tt) (2 ^ 14)) :
    FBd (precessionRate tt).1 (2 ^ 0) ∧ FBd (precessionRate tt).2 (2 ^ 0) := by
  have a : ∀ c : ℚ, |c| ≤ 1 → FBd ((lit c *. AS2R) *. centuries tt) (2 ^ 0) := fun c hc => by
    have l : FBd (lit c : F64) 1 := by simpa using FBd.lit c 0 (by simpa using hc) (by norm_num)
    obtain ⟨u, hu, hu'⟩ := l
    obtain ⟨w, hw, hw'⟩ := as2r_bd
    have h1 : |u * w| ≤ 1 / 2 ^ 17 := by
      rw [abs_mul]; exact (mul_le_mul hu' hw' (abs_nonneg _) (by norm_num)).trans (by norm_num)
    have m : FBd (lit c *. AS2R : F64) (1 / 2 ^ 17) := ⟨_, hu.mul hw (le_HUGE (k := 0) (h1.trans (by norm_num)) (by norm_num)),
      FBd.abs_RN (RepQ.of_zpow 1 (-17) (by norm_num) (by norm_num) (by norm_num)) h1⟩
    exact m.mul h 0 (by norm_num) (by norm_num)
  exact ⟨a _ (by norm_num [abs_le]), a _ (by norm_num [abs_le])⟩

theorem obliquity_bd {tt : F64 × F64} (h : FBd (centuries tt) (2 ^ 14)) : FBd (meanObliquity tt) (2 ^ 28) :=
  as2r_bd.mul ((FBd.lit 84381.448 17 (by norm_num [abs_of_pos]) (by norm_num)).add
    (cubic_bd h (-46.8150) (-0.00059) 0.001813 (by norm_num [abs_le]) (by norm_num [abs_le]) (by norm_num [abs_le])) 45 (by norm_num)
    (by norm_num)) 28 (by norm_num) (by norm_num)

section
variable [Libm F64] (hL : LibmAcc)
include hL

/-- The bias, precession and combined matrices. -/
theorem bp_nearRot {tt : F64 × F64} (h : FBd (centuries tt) (2 ^ 14)) :
    NearRot (biasAndPrecession tt).1 (22 / 10 ^ 15) ∧ NearRot (biasAndPrecession tt).2.1 (30 / 10 ^ 15) ∧
      NearRot (biasAndPrecession tt).2.2 (57 / 10 ^ 15) := by
  obtain ⟨f1, f2, f3⟩ := frameBias_bd
  obtain ⟨r1, r2⟩ := precessionRate_bd h
  have up : ∀ {x : F64} {k : ℕ}, FBd x (2 ^ k) → k ≤ 30 → FBd x (2 ^ 30) := fun hx hk => hx.mono (pow_le_pow_right₀ (by norm_num) hk)
  have s := (up eps0_bd (by norm_num)).sin hL
  have b : NearRot (biasAndPrecession tt).1 (22 / 10 ^ 15) :=
    NearRot.three hL (up f2.neg (by norm_num)) (up (f1.mul s 1 (by norm_num) (by norm_num)) (by norm_num)) (up f3 (by norm_num)) 0 1 2
  have psi := ((cubic_bd h 5038.7784 (-1.07259) (-0.001147) (by norm_num [abs_le]) (by norm_num [abs_le]) (by norm_num [abs_le])).mul as2r_bd 27
    (by norm_num) (by norm_num)).add r1 28 (by norm_num) (by norm_num)
  have chi := (cubic_bd h 10.5526 (-2.38064) (-0.001125) (by norm_num [abs_le]) (by norm_num [abs_le]) (by norm_num [abs_le])).mul as2r_bd 27
    (by norm_num) (by norm_num)
  have q : FBd (((lit 0.05127 +. lit (-0.007726) *. centuries tt) *. centuries tt) *. centuries tt) (2 ^ 43) :=
    (((FBd.lit 0.05127 0 (by norm_num [abs_le]) (by norm_num)).add ((FBd.lit (-0.007726) 0 (by norm_num [abs_le]) (by norm_num)).mul h 14
      (by norm_num) (by norm_num)) 15 (by norm_num) (by norm_num)).mul h 29 (by norm_num) (by norm_num)).mul h 43 (by norm_num) (by norm_num)
  have om := (eps0_bd.add (q.mul as2r_bd 26 (by norm_num) (by norm_num)) 27 (by norm_num) (by norm_num)).add r2 28 (by norm_num) (by norm_num)
  have p : NearRot (biasAndPrecession tt).2.1 (30 / 10 ^ 15) :=
    (NearRot.three hL (up chi (by norm_num)) (up om.neg (by norm_num)) (up psi.neg (by norm_num)) 2 0 2).compose
      (NearRot.rotation hL (up eps0_bd (by norm_num)) 0) _ (by norm_num) (by norm_num)
  exact ⟨b, p, p.compose b _ (by norm_num) (by norm_num)⟩

theorem nutationMatrix_nearRot {e p d : F64} (he : FBd e (2 ^ 29)) (hp : FBd p (2 ^ 30)) (hd : FBd d (2 ^ 29)) :
    NearRot (nutationMatrix e p d) (22 / 10 ^ 15) :=
  NearRot.three hL (he.add hd 30 (by norm_num) (by norm_num)).neg hp.neg (he.mono (by norm_num)) 0 2 0

theorem bpn_nearRot {tt : F64 × F64} (h : FBd (centuries tt) (2 ^ 14)) : NearRot (precessionNutation tt) (84 / 10 ^ 15) := by
  obtain ⟨n1, n2⟩ := nutation_bd hL h
  have e : FBd (meanObliquity tt +. (precessionRate tt).2) (2 ^ 29) := (obliquity_bd h).add (precessionRate_bd h).2 29 (by norm_num) (by norm_num)
  exact (nutationMatrix_nearRot hL e (n1.mono (by norm_num)) (n2.mono (by norm_num))).compose (bp_nearRot hL h).2.2 _ (by norm_num) (by norm_num)

theorem polar_nearRot {x y s : F64} (hx : FBd x (2 ^ 30)) (hy : FBd y (2 ^ 30)) (hs : FBd s (2 ^ 30)) :
    NearRot (polarMotionMatrix x y s) (22 / 10 ^ 15) :=
  NearRot.three hL hy.neg hx.neg hs 0 1 2

/-- The intermediate frame from the pole and the locator, for a pole inside the unit disc. -/
theorem xys_nearRot {x y s : F64} {X Y : ℚ} (hx : Is x X) (hy : Is y Y) (hs : FBd s (2 ^ 29)) (hw : X ^ 2 + Y ^ 2 ≤ 1 - 1 / 2 ^ 50) :
    NearRot (celestialToIntermediateFromXys x y s) (22 / 10 ^ 15) := by
  have r0 : ∀ q : ℚ, 0 ≤ q → 0 ≤ RN q := fun q h => RN_nonneg h
  have bx : |X * X| ≤ 1 := by rw [abs_of_nonneg (mul_self_nonneg _)]; norm_num at hw; nlinarith [sq_nonneg Y]
  have bY : |Y * Y| ≤ 1 := by rw [abs_of_nonneg (mul_self_nonneg _)]; norm_num at hw; nlinarith [sq_nonneg X]
  have ix := hx.mul hx (le_HUGE (k := 0) (bx.trans (by norm_num)) (by norm_num))
  have iy := hy.mul hy (le_HUGE (k := 0) (bY.trans (by norm_num)) (by norm_num))
  have ex := RN_err' (X * X)
  have ey := RN_err' (Y * Y)
  have sum : RN (X * X) + RN (Y * Y) ≤ 1 - 1 / 2 ^ 51 := by
    rw [abs_of_nonneg (mul_self_nonneg X)] at ex
    rw [abs_of_nonneg (mul_self_nonneg Y)] at ey
    rw [abs_le] at ex ey
    have : X * X + Y * Y = X ^ 2 + Y ^ 2 := by ring
    norm_num at ex ey hw ⊢
    linarith
  have p0 := r0 _ (mul_self_nonneg X)
  have p1 := r0 _ (mul_self_nonneg Y)
  have repA : RepQ (1 - 1 / 2 ^ 51) := RepQ.of_zpow (2 ^ 51 - 1) (-51) (by norm_num) (by norm_num) (by norm_num)
  have repB : RepQ (1 / 2 ^ 51) := RepQ.of_zpow 1 (-51) (by norm_num) (by norm_num) (by norm_num)
  have ir := ix.add iy (le_HUGE (k := 0) (by rw [abs_of_nonneg (add_nonneg p0 p1)]; norm_num at sum ⊢; linarith) (by norm_num))
  have hr1 : RN (RN (X * X) + RN (Y * Y)) ≤ 1 - 1 / 2 ^ 51 := RN_le_of_le repA sum
  have hr0 := r0 _ (add_nonneg p0 p1)
  have hne : RN (RN (X * X) + RN (Y * Y)) ≠ 0 → X ≠ 0 ∨ Y ≠ 0 := fun hne => by
    by_contra hc
    push Not at hc
    obtain ⟨rfl, rfl⟩ := hc
    exact hne (by norm_num [RN_zero])
  unfold celestialToIntermediateFromXys
  simp only
  generalize RN (RN (X * X) + RN (Y * Y)) = r at *
  generalize x *. x +. y *. y = r2 at *
  have i1 := one_is.sub ir (le_HUGE (k := 0) (by rw [abs_le]; norm_num at hr1 ⊢; constructor <;> linarith) (by norm_num))
  have hd1 : 1 / 2 ^ 51 ≤ RN (1 - r) := le_RN_of_le repB (by linarith)
  have d0 : 0 < RN (1 - r) := lt_of_lt_of_le (by positivity) hd1
  have hq : r / RN (1 - r) ≤ 2 ^ 52 := by
    rw [div_le_iff₀ d0]; norm_num at hd1 hr1 ⊢; linarith
  have hq0 : 0 ≤ r / RN (1 - r) := div_nonneg hr0 d0.le
  have iq := ir.div i1 d0.ne' (le_HUGE (k := 52) (by rw [abs_of_nonneg hq0]; exact hq) (by norm_num))
  have hq1 : RN (r / RN (1 - r)) ≤ 2 ^ 52 := RN_le_of_le (RepQ.two_pow 52) hq
  have hq2 := r0 _ hq0
  obtain ⟨z, iz, hz0, hz1⟩ : ∃ z : ℚ, Is (Arith.sqrt (r2 /. (lit 1 -. r2))) z ∧ 0 ≤ z ∧ z ≤ 2 ^ 27 := by
    obtain ⟨z, iz, z0, hz⟩ := iq.sqrt hq2
    refine ⟨z, iz, z0, ?_⟩
    have h1 : Real.sqrt (RN (r / RN (1 - r)) : ℚ) ≤ 2 ^ 26 := by
      rw [Real.sqrt_le_iff]
      refine ⟨by norm_num, ?_⟩
      have : ((RN (r / RN (1 - r)) : ℚ) : ℝ) ≤ 2 ^ 52 := by exact_mod_cast hq1
      exact this.trans (by norm_num)
    have h2 : (z : ℝ) ≤ 2 ^ 27 := by
      rw [abs_le] at hz
      norm_num at hz h1 ⊢
      linarith
    exact_mod_cast h2
  have d : FBd (Libm.atan (Arith.sqrt (r2 /. (lit 1 -. r2)))) (2 ^ 30) := by
    refine FBd.of_near (hL.atan _ z iz (by rw [abs_of_nonneg hz0]; norm_num at hz1 ⊢; linarith)) ?_
    have h1 : |Real.arctan z| ≤ 2 := by
      have := Real.pi_lt_four
      rw [abs_le]
      constructor <;> linarith [Real.neg_pi_div_two_lt_arctan (z : ℝ), Real.arctan_lt_pi_div_two (z : ℝ)]
    norm_num; linarith
  have e : FBd (if lit 0 <. r2 then Libm.atan2 y x else lit 0) (2 ^ 29) := by
    rw [zero_is.lt ir]
    by_cases h : 0 < r
    · simp only [h, decide_true, if_true]
      obtain ⟨k, hk, n⟩ := hL.atan2 y x Y X hy hx (hne h.ne')
      refine FBd.of_near n ?_
      have p1 := Real.pi_lt_four
      have p0 := Real.pi_pos
      have ha := Complex.abs_arg_le_pi ⟨X, Y⟩
      have hk' : |(k : ℝ) * (2 * Real.pi)| ≤ 2 * Real.pi := by
        rw [abs_mul, abs_of_pos (by positivity : 0 < 2 * Real.pi)]
        have : |(k : ℝ)| ≤ 1 := by exact_mod_cast hk
        nlinarith
      have := abs_add_le (Complex.arg ⟨X, Y⟩) (k * (2 * Real.pi))
      norm_num at p1 ⊢
      linarith
    · simp only [h, decide_false, Bool.false_eq_true, if_false]
      exact ⟨0, zero_is, by norm_num⟩
  exact NearRot.three hL (e.add hs 30 (by norm_num) (by norm_num)).neg d (e.mono (by norm_num)) 2 1 2

end

end Verif
