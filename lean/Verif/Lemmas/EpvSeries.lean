import Verif.Lemmas.EpvAcc

/-!
# The Earth ephemeris in binary64: sums of terms
-/

namespace Verif
open Arith F64 Epv

abbrev Triple := Dec × Dec × Dec

/-- Bounds on the coefficients of one term. -/
def Good (d : Triple) : Prop := |(d.1.q : ℝ)| ≤ 2 ∧ |(d.2.1.q : ℝ)| ≤ 7 ∧ |(d.2.2.q : ℝ)| ≤ 500

/-- `|a| |c|^i` for one term. -/
noncomputable def wt (i : ℕ) (d : Triple) : ℝ := |(d.1.q : ℝ)| * |(d.2.2.q : ℝ)| ^ i

/-- Bounds on a series: number of terms, sums of `|a|`, `|a c|`, `|a c^2|`. -/
structure Bd (L : List Triple) (n s0 s1 s2 : ℝ) : Prop where
  good : ∀ d ∈ L, Good d
  len : (L.length : ℝ) ≤ n
  b0 : (L.map (wt 0)).sum ≤ s0
  b1 : (L.map (wt 1)).sum ≤ s1
  b2 : (L.map (wt 2)).sum ≤ s2

/-! ## Evaluation -/

def Epv.Dec.absLe (d : Dec) (n : ℕ) : Bool := d.m.natAbs ≤ n * 10 ^ d.e

theorem Epv.Dec.absLe_q {d : Dec} {n : ℕ} (h : d.absLe n = true) : |(d.q : ℝ)| ≤ n := by
  unfold Dec.absLe at h
  rw [decide_eq_true_eq] at h
  unfold Dec.q
  push_cast
  rw [abs_div, abs_of_pos (show (0 : ℝ) < 10 ^ d.e by positivity), div_le_iff₀ (by positivity)]
  have : ((d.m.natAbs : ℕ) : ℝ) ≤ n * 10 ^ d.e := by exact_mod_cast h
  rwa [Nat.cast_natAbs, Int.cast_abs] at this

def wNat (i : ℕ) (d : Triple) : ℕ := d.1.m.natAbs * d.2.2.m.natAbs ^ i * 10 ^ (60 - (d.1.e + d.2.2.e * i))

theorem wt_eq (i : ℕ) (d : Triple) (h : d.1.e + d.2.2.e * i ≤ 60) : wt i d = wNat i d / 10 ^ 60 := by
  unfold wt wNat Dec.q
  push_cast
  rw [abs_div, abs_div, abs_of_pos (show (0 : ℝ) < 10 ^ d.1.e by positivity),
    abs_of_pos (show (0 : ℝ) < 10 ^ d.2.2.e by positivity), div_pow, div_mul_div_comm, ← pow_mul, ← pow_add,
    div_eq_div_iff (by positivity) (by positivity)]
  rw [mul_assoc _ (10 ^ (60 - _)) (10 ^ _), ← pow_add, Nat.sub_add_cancel h]
  simp [Nat.cast_natAbs]

def sumNat (i : ℕ) : List Triple → ℕ
  | [] => 0
  | d :: L => wNat i d + sumNat i L

def chk (L : List Triple) (n N0 N1 N2 : ℕ) : Bool :=
  (L.all fun d => d.1.absLe 2 && d.2.1.absLe 7 && d.2.2.absLe 500 && decide (d.1.e + d.2.2.e * 2 ≤ 60)) &&
  decide (L.length ≤ n) && decide (sumNat 0 L ≤ N0 * 10 ^ 44) && decide (sumNat 1 L ≤ N1 * 10 ^ 44) &&
  decide (sumNat 2 L ≤ N2 * 10 ^ 44)

theorem sumNat_eq (i : ℕ) (hi : i ≤ 2) (L : List Triple) (h : ∀ d ∈ L, d.1.e + d.2.2.e * 2 ≤ 60) :
    (L.map (wt i)).sum = sumNat i L / 10 ^ 60 := by
  induction L with
  | nil => simp [sumNat]
  | cons d L ih =>
    have hd := h d List.mem_cons_self
    have : d.2.2.e * i ≤ d.2.2.e * 2 := Nat.mul_le_mul_left _ hi
    rw [List.map_cons, List.sum_cons, ih (fun c hc => h c (List.mem_cons_of_mem _ hc)), wt_eq i d (by omega), sumNat]
    push_cast
    ring

theorem Bd.of_chk {L : List Triple} {n N0 N1 N2 : ℕ} (h : chk L n N0 N1 N2 = true) :
    Bd L n (N0 / 10 ^ 16) (N1 / 10 ^ 16) (N2 / 10 ^ 16) := by
  unfold chk at h
  simp only [Bool.and_eq_true, List.all_eq_true, decide_eq_true_eq] at h
  obtain ⟨⟨⟨⟨h1, h2⟩, h3⟩, h4⟩, h5⟩ := h
  have he : ∀ d ∈ L, d.1.e + d.2.2.e * 2 ≤ 60 := fun d hd => (h1 d hd).2
  have key : ∀ i ≤ 2, ∀ N : ℕ, sumNat i L ≤ N * 10 ^ 44 → (L.map (wt i)).sum ≤ N / 10 ^ 16 := by
    intro i hi N hN
    rw [sumNat_eq i hi L he, div_le_div_iff₀ (by positivity) (by positivity)]
    have : (sumNat i L : ℝ) ≤ N * 10 ^ 44 := by exact_mod_cast hN
    calc (sumNat i L : ℝ) * 10 ^ 16 ≤ (N * 10 ^ 44) * 10 ^ 16 := by gcongr
      _ = _ := by ring
  refine ⟨fun d hd => ?_, by exact_mod_cast h2, key 0 (by norm_num) _ h3, key 1 (by norm_num) _ h4, key 2 (by norm_num) _ h5⟩
  obtain ⟨⟨⟨g1, g2⟩, g3⟩, -⟩ := h1 d hd
  exact ⟨by exact_mod_cast Dec.absLe_q g1, by exact_mod_cast Dec.absLe_q g2, by exact_mod_cast Dec.absLe_q g3⟩

theorem bd_E0 (k : Fin 3) : Bd (EpvRef.E0 k) 501 1.04 6.4 41.2 := by
  have h : ∀ k, chk (EpvRef.E0 k) 501 10400000000000000 64000000000000000 412000000000000000 = true := by decide +kernel
  have := Bd.of_chk (h k); norm_num at this ⊢; exact this

theorem bd_E1 (k : Fin 3) : Bd (EpvRef.E1 k) 80 (2.4 / 10 ^ 6) (1.5 / 10 ^ 5) (9.4 / 10 ^ 5) := by
  have h : ∀ k, chk (EpvRef.E1 k) 80 24000000000 150000000000 940000000000 = true := by decide +kernel
  have := Bd.of_chk (h k); norm_num at this ⊢; exact this

theorem bd_E2 (k : Fin 3) : Bd (EpvRef.E2 k) 5 (1.1 / 10 ^ 10) (6.2 / 10 ^ 10) (4.9 / 10 ^ 9) := by
  have h : ∀ k, chk (EpvRef.E2 k) 5 1100000 6200000 49000000 = true := by decide +kernel
  have := Bd.of_chk (h k); norm_num at this ⊢; exact this

theorem bd_S0 (k : Fin 3) : Bd (EpvRef.S0 k) 213 0.011 0.0036 0.0021 := by
  have h : ∀ k, chk (EpvRef.S0 k) 213 110000000000000 36000000000000 21000000000000 = true := by decide +kernel
  have := Bd.of_chk (h k); norm_num at this ⊢; exact this

theorem bd_S1 (k : Fin 3) : Bd (EpvRef.S1 k) 50 (6.3 / 10 ^ 8) (2.4 / 10 ^ 8) (1.6 / 10 ^ 8) := by
  have h : ∀ k, chk (EpvRef.S1 k) 50 630000000 240000000 160000000 = true := by decide +kernel
  have := Bd.of_chk (h k); norm_num at this ⊢; exact this

theorem bd_S2 (k : Fin 3) : Bd (EpvRef.S2 k) 9 (9 / 10 ^ 12) (3.3 / 10 ^ 12) (1.7 / 10 ^ 12) := by
  have h : ∀ k, chk (EpvRef.S2 k) 9 90000 33000 17000 = true := by decide +kernel
  have := Bd.of_chk (h k); norm_num at this ⊢; exact this

/-! ## Sums -/

theorem sum_lin (L : List Triple) (x y z w : ℝ) :
    (L.map fun d => wt 0 d * x + wt 1 d * y + wt 2 d * z + w).sum
      = (L.map (wt 0)).sum * x + (L.map (wt 1)).sum * y + (L.map (wt 2)).sum * z + L.length * w := by
  induction L with
  | nil => simp
  | cons d L ih =>
    simp only [List.map_cons, List.sum_cons, List.length_cons]
    rw [ih]; push_cast; ring

theorem wt_nonneg (i : ℕ) (d : Triple) : 0 ≤ wt i d := by unfold wt; positivity

theorem wt_zero (d : Triple) : wt 0 d = |(d.1.q : ℝ)| := by simp [wt]
theorem wt_one (d : Triple) : wt 1 d = |(d.1.q : ℝ)| * |(d.2.2.q : ℝ)| := by simp [wt]

/-- One component of a series. -/
theorem series_comp {L : List Triple} {n s0 s1 s2 : ℝ} (hB : Bd L n s0 s1 s2) (g : F64 → Triple → F64) (q : Triple → ℝ)
    (x y z w u v : ℝ) (hx : 0 ≤ x ∧ 0 ≤ y ∧ 0 ≤ z ∧ 0 ≤ w ∧ 0 ≤ u ∧ 0 ≤ v) {R η : ℝ} (η0 : 0 ≤ η)
    (hs : ∀ d, Good d → ∀ s r es Ms, NB s r es Ms →
      Ms + (wt 0 d * u + wt 1 d * v) + es + (wt 0 d * x + wt 1 d * y + wt 2 d * z + w) ≤ R →
      NB (g s d) (r + q d) (es + (wt 0 d * x + wt 1 d * y + wt 2 d * z + w) + η) (Ms + (wt 0 d * u + wt 1 d * v)))
    {acc : F64} {a ea A E M : ℝ} (ha : NB acc a ea A)
    (hE : ea + (s0 * x + s1 * y + s2 * z + n * w) + n * η ≤ E ∧ A + (s0 * u + s1 * v) ≤ M ∧ M + E ≤ R) :
    NB (L.foldl g acc) (a + (L.map q).sum) E M := by
  obtain ⟨x0, y0, z0, w0, u0, v0⟩ := hx
  have e1 := sum_lin L x y z w
  have e2 : (L.map fun d => wt 0 d * u + wt 1 d * v).sum = (L.map (wt 0)).sum * u + (L.map (wt 1)).sum * v := by
    have := sum_lin L u v 0 0
    simpa using this
  have f0 := mul_le_mul_of_nonneg_right hB.b0 x0
  have f1 := mul_le_mul_of_nonneg_right hB.b1 y0
  have f2 := mul_le_mul_of_nonneg_right hB.b2 z0
  have f3 := mul_le_mul_of_nonneg_right hB.len w0
  have f4 := mul_le_mul_of_nonneg_right hB.b0 u0
  have f5 := mul_le_mul_of_nonneg_right hB.b1 v0
  have f6 := mul_le_mul_of_nonneg_right hB.len η0
  have := fold_acc g q (fun d => wt 0 d * x + wt 1 d * y + wt 2 d * z + w) (fun d => wt 0 d * u + wt 1 d * v) R η η0 L
    (fun d hd => ⟨by have := wt_nonneg 0 d; have := wt_nonneg 1 d; have := wt_nonneg 2 d; positivity,
      by have := wt_nonneg 0 d; have := wt_nonneg 1 d; positivity, hs d (hB.good d hd)⟩) acc a ea A ha
      (by rw [e1, e2]; linarith [hE.1, hE.2.1, hE.2.2])
  rw [e1, e2] at this
  exact this.mono ⟨by linarith [hE.1], by linarith [hE.2.1]⟩

theorem step_add {f : F64} {q e m : ℝ} {R : ℝ} (hR : R ≤ 2 ^ 100) (hf : NB f q e m) {s : F64} {r es Ms : ℝ} (h : NB s r es Ms)
    (hb : Ms + m + es + e ≤ R) : NB (s +. f) (r + q) (es + e + (R / 2 ^ 53 + 1 / 2 ^ 100)) (Ms + m) := by
  refine h.add hf ⟨?_, le_rfl, hb.trans (hR.trans (by norm_num))⟩
  have : (Ms + m + es + e) / 2 ^ 53 ≤ R / 2 ^ 53 := by gcongr
  linarith

theorem step_sub {f : F64} {q e m : ℝ} {R : ℝ} (hR : R ≤ 2 ^ 100) (hf : NB f q e m) {s : F64} {r es Ms : ℝ} (h : NB s r es Ms)
    (hb : Ms + m + es + e ≤ R) : NB (s -. f) (r + -q) (es + e + (R / 2 ^ 53 + 1 / 2 ^ 100)) (Ms + m) := by
  rw [← sub_eq_add_neg]
  refine h.sub hf ⟨?_, le_rfl, hb.trans (hR.trans (by norm_num))⟩
  have : (Ms + m + es + e) / 2 ^ 53 ≤ R / 2 ^ 53 := by gcongr
  linarith

section
variable {α : Type} [Arith α] [Libm α]

theorem fold0_f (L : List Triple) (t : α) (acc : α × α) : foldTerms L (term0 t) acc =
    (L.foldl (fun s d => s +. lit d.1.q *. Libm.cos (lit d.2.1.q +. lit d.2.2.q *. t)) acc.1,
     L.foldl (fun s d => s -. (lit d.1.q *. lit d.2.2.q) *. Libm.sin (lit d.2.1.q +. lit d.2.2.q *. t)) acc.2) := by
  unfold foldTerms
  rw [List.foldl_map]
  induction L generalizing acc with
  | nil => rfl
  | cons d L ih => rw [List.foldl_cons, ih]; rfl

theorem fold1_f (L : List Triple) (t : α) (acc : α × α) : foldTerms L (term1 t) acc =
    (L.foldl (fun s d => s +. (lit d.1.q *. t) *. Libm.cos (lit d.2.1.q +. lit d.2.2.q *. t)) acc.1,
     L.foldl (fun s d => s +. lit d.1.q *. (Libm.cos (lit d.2.1.q +. lit d.2.2.q *. t) -.
       (lit d.2.2.q *. t) *. Libm.sin (lit d.2.1.q +. lit d.2.2.q *. t))) acc.2) := by
  unfold foldTerms
  rw [List.foldl_map]
  induction L generalizing acc with
  | nil => rfl
  | cons d L ih => rw [List.foldl_cons, ih]; rfl

theorem fold2_f (L : List Triple) (t t2 : α) (acc : α × α) : foldTerms L (term2 t t2) acc =
    (L.foldl (fun s d => s +. (lit d.1.q *. t2) *. Libm.cos (lit d.2.1.q +. lit d.2.2.q *. t)) acc.1,
     L.foldl (fun s d => s +. (lit d.1.q *. t) *. (lit 2 *. Libm.cos (lit d.2.1.q +. lit d.2.2.q *. t) -.
       (lit d.2.2.q *. t) *. Libm.sin (lit d.2.1.q +. lit d.2.2.q *. t))) acc.2) := by
  unfold foldTerms
  rw [List.foldl_map]
  induction L generalizing acc with
  | nil => rfl
  | cons d L ih => rw [List.foldl_cons, ih]; rfl
end

section
variable [Libm F64] (hL : LibmAcc) {t : F64} {τ : ℝ} (ht : NB t τ (3 / 10 ^ 12) 100) {L : List Triple} {n s0 s1 s2 : ℝ}
  (hB : Bd L n s0 s1 s2) {acc : F64 × F64} {a a' e e' A A' E E' M M' : ℝ} (h : NB acc.1 a e A) (h' : NB acc.2 a' e' A')
include hL ht hB h h'

theorem ser0_f (hE : e + (s0 * (4 / 10 ^ 15) + s1 * (3.3 / 10 ^ 12) + s2 * 0 + n * (1 / 10 ^ 24)) + n * (2 / 2 ^ 53 + 1 / 2 ^ 100) ≤ E ∧
      A + (s0 * 1 + s1 * 0) ≤ M ∧ M + E ≤ 2)
    (hE' : e' + (s0 * 0 + s1 * (4 / 10 ^ 15) + s2 * (3.3 / 10 ^ 12) + n * (1 / 10 ^ 24)) + n * (7 / 2 ^ 53 + 1 / 2 ^ 100) ≤ E' ∧
      A' + (s0 * 0 + s1 * 1) ≤ M' ∧ M' + E' ≤ 7) :
    NB (foldTerms L (term0 t) acc).1 (a + ser0 L τ) E M ∧ NB (foldTerms L (term0 t) acc).2 (a' + ser0' L τ) E' M' := by
  rw [fold0_f]
  constructor
  · refine series_comp hB _ _ (4 / 10 ^ 15) (3.3 / 10 ^ 12) 0 (1 / 10 ^ 24) 1 0 (by norm_num) (by positivity) ?_ h hE
    intro d ⟨g1, g2, g3⟩ s r es Ms hs hb
    refine step_add (by norm_num) ((t0_pos hL ht rfl rfl g2 g1 g3).mono ?_) hs hb
    rw [wt_zero, wt_one]
    exact ⟨by linarith, by linarith⟩
  · refine series_comp hB _ _ 0 (4 / 10 ^ 15) (3.3 / 10 ^ 12) (1 / 10 ^ 24) 0 1 (by norm_num) (by positivity) ?_ h' hE'
    intro d ⟨g1, g2, g3⟩ s r es Ms hs hb
    refine step_sub (by norm_num) ((t0_vel hL ht rfl rfl g2 g1 g3).mono ?_) hs hb
    rw [wt_zero, wt_one]; unfold wt
    exact ⟨by linarith, by linarith⟩

theorem ser1_f (hE : e + (s0 * (4 / 10 ^ 12) + s1 * (3.3 / 10 ^ 10) + s2 * 0 + n * (1 / 10 ^ 24)) + n * (2 / 2 ^ 53 + 1 / 2 ^ 100) ≤ E ∧
      A + (s0 * 100 + s1 * 0) ≤ M ∧ M + E ≤ 2)
    (hE' : e' + (s0 * (9 / 10 ^ 15) + s1 * (12 / 10 ^ 12) + s2 * (3.4 / 10 ^ 10) + n * (1 / 10 ^ 24)) + n * (7 / 2 ^ 53 + 1 / 2 ^ 100) ≤ E' ∧
      A' + (s0 * 1 + s1 * 100) ≤ M' ∧ M' + E' ≤ 7) :
    NB (foldTerms L (term1 t) acc).1 (a + τ * ser0 L τ) E M ∧
    NB (foldTerms L (term1 t) acc).2 (a' + (ser0 L τ + τ * ser0' L τ)) E' M' := by
  rw [fold1_f]
  have e1 : τ * ser0 L τ = (L.map fun d => (d.1.q : ℝ) * τ * Real.cos (d.2.1.q + d.2.2.q * τ)).sum := by
    unfold ser0; rw [← List.sum_map_mul_left]; congr 1; exact List.map_congr_left fun d _ => by ring
  have e2 : ser0 L τ + τ * ser0' L τ = (L.map fun d => (d.1.q : ℝ) * (Real.cos (d.2.1.q + d.2.2.q * τ)
      - d.2.2.q * τ * Real.sin (d.2.1.q + d.2.2.q * τ))).sum := by
    unfold ser0 ser0'; rw [← List.sum_map_mul_left, ← List.sum_map_add]; congr 1; exact List.map_congr_left fun d _ => by ring
  rw [e1, e2]
  constructor
  · refine series_comp hB _ _ (4 / 10 ^ 12) (3.3 / 10 ^ 10) 0 (1 / 10 ^ 24) 100 0 (by norm_num) (by positivity) ?_ h hE
    intro d ⟨g1, g2, g3⟩ s r es Ms hs hb
    refine step_add (by norm_num) ((t1_pos hL ht rfl rfl g2 g1 g3).mono ?_) hs hb
    rw [wt_zero, wt_one]
    exact ⟨by linarith, by linarith⟩
  · refine series_comp hB _ _ (9 / 10 ^ 15) (12 / 10 ^ 12) (3.4 / 10 ^ 10) (1 / 10 ^ 24) 1 100 (by norm_num) (by positivity) ?_ h' hE'
    intro d ⟨g1, g2, g3⟩ s r es Ms hs hb
    refine step_add (by norm_num) ((t1_vel hL ht rfl rfl g2 g1 g3).mono ?_) hs hb
    rw [wt_zero, wt_one]; unfold wt
    exact ⟨by linarith, by linarith⟩

theorem ser2_f (hE : e + (s0 * (7 / 10 ^ 10) + s1 * (3.3 / 10 ^ 8) + s2 * 0 + n * (1 / 10 ^ 22)) + n * (2 / 2 ^ 53 + 1 / 2 ^ 100) ≤ E ∧
      A + (s0 * 10000 + s1 * 0) ≤ M ∧ M + E ≤ 2)
    (hE' : e' + (s0 * (9 / 10 ^ 12) + s1 * (16 / 10 ^ 10) + s2 * (3.4 / 10 ^ 8) + n * (1 / 10 ^ 22)) + n * (7 / 2 ^ 53 + 1 / 2 ^ 100) ≤ E' ∧
      A' + (s0 * 200 + s1 * 10000) ≤ M' ∧ M' + E' ≤ 7) :
    NB (foldTerms L (term2 t (t *. t)) acc).1 (a + τ ^ 2 * ser0 L τ) E M ∧
    NB (foldTerms L (term2 t (t *. t)) acc).2 (a' + (2 * τ * ser0 L τ + τ ^ 2 * ser0' L τ)) E' M' := by
  rw [fold2_f]
  have e1 : τ ^ 2 * ser0 L τ = (L.map fun d => (d.1.q : ℝ) * (τ * τ) * Real.cos (d.2.1.q + d.2.2.q * τ)).sum := by
    unfold ser0; rw [← List.sum_map_mul_left]; congr 1; exact List.map_congr_left fun d _ => by ring
  have e2 : 2 * τ * ser0 L τ + τ ^ 2 * ser0' L τ = (L.map fun d => (d.1.q : ℝ) * τ * (2 * Real.cos (d.2.1.q + d.2.2.q * τ)
      - d.2.2.q * τ * Real.sin (d.2.1.q + d.2.2.q * τ))).sum := by
    unfold ser0 ser0'; rw [← List.sum_map_mul_left, ← List.sum_map_mul_left, ← List.sum_map_add]; congr 1
    exact List.map_congr_left fun d _ => by ring
  rw [e1, e2]
  constructor
  · refine series_comp hB _ _ (7 / 10 ^ 10) (3.3 / 10 ^ 8) 0 (1 / 10 ^ 22) 10000 0 (by norm_num) (by positivity) ?_ h hE
    intro d ⟨g1, g2, g3⟩ s r es Ms hs hb
    refine step_add (by norm_num) ((t2_pos hL ht rfl rfl g2 g1 g3).mono ?_) hs hb
    rw [wt_zero, wt_one]
    exact ⟨by linarith, by linarith⟩
  · refine series_comp hB _ _ (9 / 10 ^ 12) (16 / 10 ^ 10) (3.4 / 10 ^ 8) (1 / 10 ^ 22) 200 10000 (by norm_num) (by positivity) ?_ h' hE'
    intro d ⟨g1, g2, g3⟩ s r es Ms hs hb
    refine step_add (by norm_num) ((t2_vel hL ht rfl rfl g2 g1 g3).mono ?_) hs hb
    rw [wt_zero, wt_one]; unfold wt
    exact ⟨by linarith, by linarith⟩
end

section
variable [Libm F64] (hL : LibmAcc) {t : F64} {τ : ℝ} (ht : NB t τ (3 / 10 ^ 12) 100) (k : Fin 3)
include hL ht

/-- The heliocentric sums. -/
theorem helio_f : NB (helioFold t (t *. t) k).1 (helioEcl k τ) (2.2 / 10 ^ 11) 1.05 ∧
    NB (helioFold t (t *. t) k).2 (helioEcl' k τ) (1.4 / 10 ^ 10) 6.42 := by
  have h0 := ser0_f hL ht (bd_E0 k) (acc := (lit 0, lit 0)) zero_nb zero_nb (E := 2.14 / 10 ^ 11) (M := 1.04)
    (E' := 1.37 / 10 ^ 10) (M' := 6.4) (by norm_num) (by norm_num)
  have h1 := ser1_f hL ht (bd_E1 k) h0.1 h0.2 (E := 2.15 / 10 ^ 11) (M := 1.041)
    (E' := 1.38 / 10 ^ 10) (M' := 6.41) (by norm_num) (by norm_num)
  have h2 := ser2_f hL ht (bd_E2 k) h1.1 h1.2 (E := 2.2 / 10 ^ 11) (M := 1.05)
    (E' := 1.4 / 10 ^ 10) (M' := 6.42) (by norm_num) (by norm_num)
  rw [zero_add, zero_add] at h2
  exact h2

/-- The barycentric sums. -/
theorem bary_f : NB (baryFold t (t *. t) k (helioFold t (t *. t) k)).1 (helioEcl k τ + sunEcl k τ) (2.3 / 10 ^ 11) 1.07 ∧
    NB (baryFold t (t *. t) k (helioFold t (t *. t) k)).2 (helioEcl' k τ + sunEcl' k τ) (1.5 / 10 ^ 10) 6.43 := by
  have hh := helio_f hL ht k
  have h0 := ser0_f hL ht (bd_S0 k) hh.1 hh.2 (E := 2.24 / 10 ^ 11) (M := 1.062)
    (E' := 1.43 / 10 ^ 10) (M' := 6.425) (by norm_num) (by norm_num)
  have h1 := ser1_f hL ht (bd_S1 k) h0.1 h0.2 (E := 2.25 / 10 ^ 11) (M := 1.063)
    (E' := 1.44 / 10 ^ 10) (M' := 6.426) (by norm_num) (by norm_num)
  have h2 := ser2_f hL ht (bd_S2 k) h1.1 h1.2 (E := 2.3 / 10 ^ 11) (M := 1.07)
    (E' := 1.5 / 10 ^ 10) (M' := 6.43) (by norm_num) (by norm_num)
  exact ⟨h2.1.congr (by unfold sunEcl; ring), h2.2.congr (by unfold sunEcl'; ring)⟩

end
end Verif
