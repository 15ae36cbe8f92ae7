import Verif.Props.SunAngle
import Verif.Props.Geodetic360

/-!
# C55: the scan loop of `sun_angle_tool`
-/

namespace Verif
open Arith F64 Spec

section
variable {α β : Type} [Arith α] (body : α → Rust β) (delta1 step : α)

theorem while_stop (scan : Bool) (n : ℕ) (d : α) (h : (d <=. delta1) = false) :
    whileLoop body delta1 step scan (n + 1) d = some (.ok []) := by
  unfold whileLoop; simp [h]

theorem while_once (n : ℕ) (d : α) (r : β) (h : (d <=. delta1) = true) (hr : body d = .ok r) :
    whileLoop body delta1 step false (n + 1) d = some (.ok [r]) := by
  unfold whileLoop; simp [h, hr]

theorem while_next (n : ℕ) (d : α) (r : β) (h : (d <=. delta1) = true) (hr : body d = .ok r) :
    whileLoop body delta1 step true (n + 1) d =
      (whileLoop body delta1 step true n (d +. step)).map fun l => l.map (r :: ·) := by
  conv_lhs => unfold whileLoop
  simp [h, hr]

/-- The loop keeps running as long as the condition holds. -/
theorem while_forever (hb : ∀ d, ∃ r, body d = .ok r) (P : α → Prop) (hP : ∀ d, P d → (d <=. delta1) = true)
    (hs : ∀ d, P d → P (d +. step)) (n : ℕ) : ∀ d, P d → whileLoop body delta1 step true n d = none := by
  induction n with
  | zero => intro d _; rfl
  | succ n ih =>
    intro d hd
    obtain ⟨r, hr⟩ := hb d
    rw [while_next _ _ _ n d r (hP d hd) hr, ih _ (hs d hd)]
    rfl

/-- More fuel does not change an outcome. -/
theorem while_mono (scan : Bool) (n : ℕ) : ∀ (d : α) (x : Rust (List β)),
    whileLoop body delta1 step scan n d = some x → whileLoop body delta1 step scan (n + 1) d = some x := by
  induction n with
  | zero => intro d x h; cases h
  | succ n ih =>
    intro d x h
    unfold whileLoop at h ⊢
    split at h
    · rename_i hc
      rw [if_pos hc]
      cases hb : body d with
      | error e => rw [hb] at h; exact h
      | ok r =>
        rw [hb] at h
        simp only at h ⊢
        cases scan with
        | false => exact h
        | true =>
          simp only [Bool.not_true, Bool.false_eq_true, if_false] at h ⊢
          cases hw : whileLoop body delta1 step true n (d +. step) with
          | none => rw [hw] at h; cases h
          | some y => rw [hw] at h; rw [ih _ _ hw]; exact h
    · rename_i hc
      rw [if_neg hc]; exact h

theorem while_mono_le (scan : Bool) {n m : ℕ} (hnm : n ≤ m) (d : α) (x : Rust (List β))
    (h : whileLoop body delta1 step scan n d = some x) : whileLoop body delta1 step scan m d = some x := by
  obtain ⟨k, rfl⟩ := Nat.exists_eq_add_of_le hnm
  clear hnm
  induction k with
  | zero => exact h
  | succ k ih => exact while_mono _ _ _ _ _ _ _ ih

/-- If the condition holds for the first `k + 1` values and fails at the next, those values are evaluated. -/
theorem while_run (f : ℕ → α) (g : α → β) (hb : ∀ d, body d = .ok (g d)) (hf : ∀ i, f (i + 1) = f i +. step) (k : ℕ) :
    ∀ i, (∀ j < k, (f (i + j) <=. delta1) = true) → (f (i + k) <=. delta1) = false →
      whileLoop body delta1 step true (k + 1) (f i) = some (.ok ((List.range k).map fun j => g (f (i + j)))) := by
  induction k with
  | zero => intro i _ h; exact while_stop _ _ _ _ _ _ h
  | succ k ih =>
    intro i h1 h2
    rw [while_next _ _ _ _ (f i) _ (h1 0 (by omega)) (hb _), ← hf]
    rw [ih (i + 1) (fun j hj => by have := h1 (j + 1) (by omega); rwa [show i + (j + 1) = i + 1 + j by ring] at this)
      (by rwa [show i + (k + 1) = i + 1 + k by ring] at h2)]
    simp only [Option.map_some, Except.map]
    rw [List.range_succ_eq_map, List.map_cons, List.map_map]
    simp only [Function.comp_def, Nat.add_zero]
    congr 4
    ext j
    rw [show i + 1 + j = i + (j + 1) by ring]
end

/-! ## Exact arithmetic -/

section real
variable (p : Profile) (a : ToolArgs ℝ)

/-- `compute` never panics. -/
theorem compute_total {α : Type} [Arith α] [Libm α] (c : SunAngleCalculator α) (d : α) : ∃ r, c.compute d = .ok r := by
  unfold SunAngleCalculator.compute
  obtain ⟨e, he⟩ := C37_no_panic (TDB.fromTT (TT.fromTAI (TAI.fromUTC (c.jd0, c.jd1_date +.
    (c.fr +. d /. lit 86400)) c.dat)) c.dtr)
  simp only [he, ok_bind]
  exact ⟨_, rfl⟩

/-- The calculator the tool builds from its arguments. -/
def toolCalc {α : Type} [Arith α] [Libm α] (p : Profile) (a : ToolArgs α) : Option (SunAngleCalculator α) :=
  match GregorianDate.new (a.year.getD 2007) (a.month.getD 4) (a.day.getD 5) with
  | .error _ => none
  | .ok date =>
    match SunAngleCalculator.new p ⟨date, ⟨a.hour.getD 0, a.minute.getD 0, a.second.getD (lit 0)⟩,
        { lat := a.lat.getD (lit 0), lon := a.lon.getD (lit (-120)), height := a.height.getD (lit 0) }⟩ with
    | .error _ => none
    | .ok c => some c

theorem tool_loop {α : Type} [Arith α] [Libm α] (p : Profile) (a : ToolArgs α) (c : SunAngleCalculator α)
    (h : toolCalc p a = some c) (n : ℕ) : sunAngleTool p a n =
      (whileLoop c.compute (a.delta1.getD (lit 600)) (a.delta_step.getD (lit 60)) a.scan n
        (a.delta0.getD (lit (-600)))).map fun l => l.map .results := by
  unfold toolCalc at h
  unfold sunAngleTool
  split at h
  · cases h
  · rename_i date hd
    simp only [hd]
    split at h
    · cases h
    · rename_i c' hc
      simp only [hc]
      obtain rfl := Option.some.inj h
      rfl


/-- **C55** (exact). With `--scan` and a positive step the tool stops, having evaluated exactly the offsets
`delta0 + j * step` that are at most `delta1`, in increasing order, each with `compute`. -/
theorem C55_scan_exact (c : SunAngleCalculator ℝ) (hc : toolCalc p a = some c) (hs : a.scan = true)
    (h : 0 < a.delta_step.getD 60) :
    ∃ (n k : ℕ) (l : List (SunAngleResult ℝ)), sunAngleTool p a n = some (.ok (.results l)) ∧
      (∀ j : ℕ, j < k ↔ a.delta0.getD (-600) + j * a.delta_step.getD 60 ≤ a.delta1.getD 600) ∧
      l.map (·.delta_s) = (List.range k).map (fun j : ℕ => a.delta0.getD (-600) + j * a.delta_step.getD 60) ∧
      ∀ r ∈ l, c.compute r.delta_s = .ok r := by
  have e1 : (lit 60 : ℝ) = 60 := by simp
  have e2 : (lit 600 : ℝ) = 600 := by simp
  have e3 : (lit (-600) : ℝ) = -600 := by simp
  simp only [tool_loop p a c hc, e1, e2, e3, hs]
  generalize a.delta_step.getD 60 = s at *
  generalize a.delta1.getD 600 = d1 at *
  generalize a.delta0.getD (-600) = d0 at *
  choose g hg using compute_real c
  obtain ⟨k, hk⟩ : ∃ k : ℕ, ∀ j : ℕ, j < k ↔ d0 + j * s ≤ d1 := by
    by_cases h0 : d0 ≤ d1
    · refine ⟨⌊(d1 - d0) / s⌋₊ + 1, fun j => ?_⟩
      rw [Nat.lt_succ_iff, Nat.le_floor_iff (div_nonneg (by linarith) h.le), le_div_iff₀ h]
      constructor <;> intro <;> linarith
    · refine ⟨0, fun j => ⟨fun h => absurd h (by omega), fun hj => ?_⟩⟩
      have : 0 ≤ (j : ℝ) * s := by positivity
      linarith
  have hrun := while_run c.compute d1 s (fun j : ℕ => d0 + j * s) g (fun d => (hg d).1)
    (fun i => by simp only [add_real]; push_cast; ring) k 0
    (fun j hj => by rw [le_real, Nat.zero_add]; exact (hk j).mp hj)
    (by rw [le_real_false, Nat.zero_add]
        by_contra hn
        exact absurd ((hk k).mpr (not_lt.mp hn)) (lt_irrefl k))
  simp only [Nat.cast_zero, zero_mul, add_zero] at hrun
  refine ⟨k + 1, k, _, by rw [hrun]; rfl, hk, ?_, ?_⟩
  · rw [List.map_map]
    apply List.map_congr_left
    intro j _
    simp only [Function.comp_def, Nat.zero_add]
    exact (hg _).2.2.2.1
  · intro r hr
    obtain ⟨j, -, rfl⟩ := List.mem_map.mp hr
    rw [(hg _).2.2.2.1]
    exact (hg _).1

/-- **C55** (exact). With `--scan`, a step of zero or less and `delta0 <= delta1` the loop never ends. -/
theorem C55_scan_never_stops (c : SunAngleCalculator ℝ) (hc : toolCalc p a = some c) (hs : a.scan = true)
    (h : a.delta_step.getD 60 ≤ 0) (h0 : a.delta0.getD (-600) ≤ a.delta1.getD 600) (n : ℕ) :
    sunAngleTool p a n = none := by
  have e1 : (lit 60 : ℝ) = 60 := by simp
  have e2 : (lit 600 : ℝ) = 600 := by simp
  have e3 : (lit (-600) : ℝ) = -600 := by simp
  simp only [tool_loop p a c hc, e1, e2, e3, hs]
  rw [while_forever c.compute _ _ (compute_total c) (fun d => d ≤ a.delta1.getD 600)
    (fun d hd => by rw [le_real]; exact hd) (fun d hd => by rw [add_real]; linarith) n _ h0]
  rfl

/-- **C55.** Without `--scan` the tool evaluates once, at `delta0` (by default ten minutes before the time given), or
not at all when `delta0` is not at most `delta1`; in any arithmetic and with any step. -/
theorem C55_no_scan {α : Type} [Arith α] [Libm α] (p : Profile) (a : ToolArgs α) (c : SunAngleCalculator α)
    (hc : toolCalc p a = some c) (hs : a.scan = false) (n : ℕ) (hn : 0 < n) :
    ((a.delta0.getD (lit (-600)) <=. a.delta1.getD (lit 600)) = true →
      ∃ r, c.compute (a.delta0.getD (lit (-600))) = .ok r ∧ sunAngleTool p a n = some (.ok (.results [r]))) ∧
    ((a.delta0.getD (lit (-600)) <=. a.delta1.getD (lit 600)) = false →
      sunAngleTool p a n = some (.ok (.results []))) := by
  obtain ⟨m, rfl⟩ : ∃ m, n = m + 1 := ⟨n - 1, by omega⟩
  rw [tool_loop p a c hc, hs]
  refine ⟨fun h => ?_, fun h => ?_⟩
  · obtain ⟨r, hr⟩ := compute_total c (a.delta0.getD (lit (-600)))
    exact ⟨r, hr, by rw [while_once _ _ _ _ _ r h hr]; rfl⟩
  · rw [while_stop _ _ _ _ _ _ h]; rfl

end real

/-! ## Binary64 -/

/-- Adding a positive number: the sum is rounded and not below the first operand, or it is `+inf`. -/
theorem add_pos_cases {x y : F64} {a b : ℚ} (hx : Is x a) (hy : Is y b) (hb : 0 < b) :
    (Is (x +. y) (RN (a + b)) ∧ a ≤ RN (a + b)) ∨ x +. y = .inf false := by
  have hge : a ≤ RN (a + b) := le_RN_of_le hx.rep (by linarith)
  by_cases h : |RN (a + b)| < OVQ
  · exact .inl ⟨hx.add' hy h, hge⟩
  · right
    push Not at h
    have hlt := (abs_lt.mp hx.lt_OVQ).1
    have hO : 0 < OVQ := HUGE_pos.trans HUGE_lt_OVQ
    have hbig : OVQ ≤ RN (a + b) := by
      rcases le_abs.mp h with h | h
      · exact h
      · linarith
    have hpos : 0 < a + b := by
      by_contra hn
      have := RN_nonpos (not_lt.mp hn)
      linarith
    obtain ⟨hx1, rfl⟩ := hx
    obtain ⟨hy1, rfl⟩ := hy
    match x, y, hx1, hy1 with
    | fin s m hm, fin t k hk, _, _ =>
      have hU := U_pos
      have e : v (fin s m hm) + v (fin t k hk) = ((sval s m + sval t k : ℤ) : ℚ) / U := by
        simp only [v]; push_cast; ring
      rw [e] at hpos hbig
      generalize hz : sval s m + sval t k = z at *
      have z0 : 0 < z := by
        have := (div_pos_iff_of_pos_right hU).mp hpos
        exact_mod_cast this
      show F64.add _ _ = _
      simp only [F64.add, hz]
      rw [if_neg z0.ne', decide_eq_false (not_lt.mpr z0.le)]
      unfold ofQuot mkFin
      rw [dif_neg]
      intro hlt
      have r := RN_quot z.natAbs 1 one_pos
      have e2 : ((z.natAbs : ℕ) : ℚ) / (1 : ℕ) / U = (z : ℚ) / U := by
        rw [Nat.cast_natAbs, abs_of_pos z0]; simp
      rw [e2] at r
      rw [r] at hbig
      unfold OVQ at hbig
      have := (div_le_div_iff_of_pos_right hU).mp hbig
      have : OVN ≤ rndMag z.natAbs 1 := by exact_mod_cast this
      omega

/-- Distinct finite numbers differ by at least one unit `2^-1074`. -/
theorem unit_gap {x y : F64} (hx : isFin x = true) (hy : isFin y = true) (h : v x < v y) : v x + 1 / U ≤ v y := by
  match x, y, hx, hy with
  | fin s m hm, fin t k hk, _, _ =>
    have hU := U_pos
    simp only [v] at h ⊢
    rw [div_lt_div_iff_of_pos_right hU] at h
    rw [← add_div, div_le_div_iff_of_pos_right hU]
    have : sval s m + 1 ≤ sval t k := by
      have : sval s m < sval t k := by exact_mod_cast h
      omega
    exact_mod_cast this

/-- The loop ends if no value in the range is left unchanged by the addition. -/
theorem while_stops_f64 {β : Type} (body : F64 → Rust β) (hb : ∀ d, ∃ r, body d = .ok r) (d1 s : F64)
    (h1 : isFin d1 = true) (hs : isFin s = true) (hs0 : 0 < v s) (N : ℕ) :
    ∀ d0 : F64, isFin d0 = true → (v d1 - v d0) * U < N →
      (¬ ∃ M : F64, isFin M = true ∧ v d0 ≤ v M ∧ v M ≤ v d1 ∧ Is (M +. s) (v M)) →
      ∃ n x, whileLoop body d1 s true n d0 = some x := by
  have hU := U_pos
  induction N with
  | zero =>
    intro d0 h0 hlt _
    refine ⟨1, _, while_stop _ _ _ _ 0 _ ?_⟩
    rw [(Is.self h0).le (Is.self h1), decide_eq_false_iff_not, not_le]
    have : (v d1 - v d0) * U < 0 := by exact_mod_cast hlt
    have := (neg_iff_pos_of_mul_neg this).mpr hU
    linarith
  | succ N ih =>
    intro d0 h0 hlt hM
    by_cases hle : v d0 ≤ v d1
    · obtain ⟨r, hr⟩ := hb d0
      have hc : (d0 <=. d1) = true := by
        rw [(Is.self h0).le (Is.self h1), decide_eq_true_iff]; exact hle
      suffices ∃ n x, whileLoop body d1 s true n (d0 +. s) = some x by
        obtain ⟨n, x, hx⟩ := this
        exact ⟨n + 1, _, by rw [while_next _ _ _ _ _ _ hc hr, hx]; rfl⟩
      rcases add_pos_cases (Is.self h0) (Is.self hs) hs0 with ⟨i, hge⟩ | hinf
      · have hne : v (d0 +. s) ≠ v d0 := by
          intro he
          exact hM ⟨d0, h0, le_refl _, hle, i.1, he⟩
        have hgt : v d0 < v (d0 +. s) := lt_of_le_of_ne (by rw [i.2]; exact hge) (Ne.symm hne)
        have hg := unit_gap h0 i.1 hgt
        refine ih _ i.1 ?_ ?_
        · have : (v d1 - v (d0 +. s)) * U ≤ (v d1 - v d0 - 1 / U) * U :=
            mul_le_mul_of_nonneg_right (by linarith) hU.le
          have e : (v d1 - v d0 - 1 / U) * U = (v d1 - v d0) * U - 1 := by field_simp
          rw [e] at this
          push_cast at hlt
          linarith
        · rintro ⟨M, m1, m2, m3, m4⟩
          exact hM ⟨M, m1, by linarith, m3, m4⟩
      · rw [hinf]
        refine ⟨1, _, while_stop _ _ _ _ 0 _ ?_⟩
        match d1, h1 with
        | fin _ _ _, _ => rfl
    · refine ⟨1, _, while_stop _ _ _ _ 0 _ ?_⟩
      rw [(Is.self h0).le (Is.self h1), decide_eq_false_iff_not]
      exact hle

/-- **C55** (f64). With `--scan`, finite bounds and a positive step the loop ends if and only if there is no
`f64` number between `delta0` and `delta1` that the rounded addition of the step leaves unchanged. -/
theorem C55_scan_f64_stops_iff [Libm F64] (p : Profile) (a : ToolArgs F64) (c : SunAngleCalculator F64)
    (hc : toolCalc p a = some c) (hs : a.scan = true) (d0 d1 s : ℚ)
    (h0 : Is (a.delta0.getD (lit (-600))) d0) (h1 : Is (a.delta1.getD (lit 600)) d1)
    (h2 : Is (a.delta_step.getD (lit 60)) s) (hpos : 0 < s) :
    (∃ n x, sunAngleTool p a n = some x) ↔
      ¬ ∃ M : F64, ∃ m : ℚ, Is M m ∧ d0 ≤ m ∧ m ≤ d1 ∧ Is (M +. a.delta_step.getD (lit 60)) m := by
  simp only [tool_loop p a c hc, hs]
  generalize a.delta_step.getD (lit 60) = S at *
  generalize a.delta1.getD (lit 600) = D1 at *
  generalize a.delta0.getD (lit (-600)) = D0 at *
  constructor
  · rintro ⟨n, x, hx⟩ ⟨M, m, hM, m0, m1, hfix⟩
    have := while_forever c.compute D1 S (compute_total c) (fun d => ∃ q, Is d q ∧ q ≤ m)
      (fun d ⟨q, hq, hle⟩ => by rw [hq.le h1, decide_eq_true_iff]; linarith)
      (fun d ⟨q, hq, hle⟩ => by
        have hm : RN (m + s) = m := by
          rcases add_pos_cases hM h2 hpos with ⟨i, -⟩ | hinf
          · exact i.unique hfix
          · rw [hinf] at hfix; exact absurd hfix.1 (by simp [isFin])
        have hle2 : RN (q + s) ≤ m := by rw [← hm]; exact RN_mono (by linarith)
        have hge : q ≤ RN (q + s) := le_RN_of_le hq.rep (by linarith)
        refine ⟨RN (q + s), hq.add' h2 ?_, hle2⟩
        have b1 := abs_lt.mp hq.lt_OVQ
        have b2 := abs_lt.mp hM.lt_OVQ
        rw [abs_lt]
        exact ⟨by linarith, by linarith⟩) n D0 ⟨d0, h0, m0⟩
    rw [this] at hx
    cases hx
  · intro hM
    obtain ⟨N, hN⟩ := exists_nat_gt ((d1 - d0) * U)
    obtain ⟨n, x, hx⟩ := while_stops_f64 c.compute (compute_total c) D1 S h1.1 h2.1 (by rw [h2.2]; exact hpos) N D0
      h0.1 (by rw [h1.2, h0.2]; exact hN) (by
        rintro ⟨M, m1, m2, m3, m4⟩
        exact hM ⟨M, v M, Is.self m1, by rwa [h0.2] at m2, by rwa [h1.2] at m3, m4⟩)
    exact ⟨n, _, by rw [hx]; rfl⟩

/-- **C55** (f64). In particular a scan by one second from 0 to any `delta1` of at least `2^53` never ends,
although the step is positive and both bounds are finite. -/
theorem C55_scan_f64_stuck [Libm F64] (p : Profile) (a : ToolArgs F64) (c : SunAngleCalculator F64)
    (hc : toolCalc p a = some c) (hs : a.scan = true) (h0 : a.delta0 = some (lit 0))
    (h2 : a.delta_step = some (lit 1)) (d1 : ℚ) (h1 : Is (a.delta1.getD (lit 600)) d1) (hd : 2 ^ 53 ≤ d1) (n : ℕ) :
    sunAngleTool p a n = none := by
  have z : Is (lit 0 : F64) 0 := by
    have := Is.lit_int 0 (by norm_num); push_cast at this; exact this
  have o : Is (lit 1 : F64) 1 := by
    have := Is.lit_int 1 (by norm_num); push_cast at this; exact this
  have big : Is (lit (2 ^ 53) : F64) (2 ^ 53) := by
    have := Is.lit_int (2 ^ 53) (by norm_num); push_cast at this; exact this
  have k := (C55_scan_f64_stops_iff p a c hc hs 0 d1 1 (by rw [h0]; exact z) h1 (by rw [h2]; exact o) one_pos)
  by_contra hn
  obtain ⟨x, hx⟩ := Option.ne_none_iff_exists'.mp hn
  refine k.mp ⟨n, x, hx⟩ ⟨lit (2 ^ 53), 2 ^ 53, big, by positivity, hd, ?_⟩
  rw [h2]
  have : ((lit (2 ^ 53) : F64) +. (some (lit 1 : F64)).getD (lit 60)) = lit (2 ^ 53) := by decide +kernel
  rw [this]
  exact big

example : Is (lit (2 ^ 53) : F64) (2 ^ 53) ∧ (2 : ℚ) ^ 53 ≤ 2 ^ 53 := by
  refine ⟨?_, le_rfl⟩
  have := Is.lit_int (2 ^ 53) (by norm_num)
  push_cast at this; exact this

/-- **C55** (f64). When `delta0` and the step are multiples of a power of two `2^-k`, `k ≤ 30`, and the offsets
stay below `2^52` units, the binary64 scan is exact: it evaluates exactly the offsets `delta0 + j step ≤ delta1`.
The default bounds and step are such multiples. -/
theorem C55_scan_f64_exact [Libm F64] (p : Profile) (a : ToolArgs F64) (c : SunAngleCalculator F64)
    (hc : toolCalc p a = some c) (hs : a.scan = true) (k : ℕ) (hk : k ≤ 30) (i s : ℤ) (d1 : ℚ)
    (h0 : Is (a.delta0.getD (lit (-600))) ((i : ℚ) / 2 ^ k)) (h1 : Is (a.delta1.getD (lit 600)) d1)
    (h2 : Is (a.delta_step.getD (lit 60)) ((s : ℚ) / 2 ^ k)) (hpos : 0 < s) (hs2 : s ≤ 2 ^ 52) (hi : |i| ≤ 2 ^ 52)
    (hd : d1 * 2 ^ k ≤ 2 ^ 52) :
    ∃ (n m : ℕ) (l : List (SunAngleResult F64)), sunAngleTool p a n = some (.ok (.results l)) ∧
      (∀ j : ℕ, j < m ↔ ((i + j * s : ℤ) : ℚ) / 2 ^ k ≤ d1) ∧ l.length = m ∧
      ∀ (j : ℕ) (hj : j < l.length), Is l[j].delta_s (((i + j * s : ℤ) : ℚ) / 2 ^ k) ∧
        c.compute l[j].delta_s = .ok l[j] := by
  simp only [tool_loop p a c hc, hs]
  generalize a.delta_step.getD (lit 60) = S at *
  generalize a.delta1.getD (lit 600) = D1 at *
  generalize a.delta0.getD (lit (-600)) = D0 at *
  have hds : ∀ d, ∃ r, c.compute d = .ok r ∧ r.delta_s = d := by
    intro d
    unfold SunAngleCalculator.compute
    obtain ⟨e, he⟩ := C37_no_panic (TDB.fromTT (TT.fromTAI (TAI.fromUTC (c.jd0, c.jd1_date +.
      (c.fr +. d /. lit 86400)) c.dat)) c.dtr)
    simp only [he, ok_bind]
    exact ⟨_, rfl, rfl⟩
  choose g hg hgd using hds
  have pk : (0 : ℚ) < 2 ^ k := by positivity
  have pk1 : (1 : ℚ) ≤ 2 ^ k := one_le_pow₀ (by norm_num)
  have sq : (0 : ℚ) < s := by exact_mod_cast hpos
  obtain ⟨m, hm⟩ : ∃ m : ℕ, ∀ j : ℕ, j < m ↔ ((i + j * s : ℤ) : ℚ) / 2 ^ k ≤ d1 := by
    by_cases h : (i : ℚ) ≤ d1 * 2 ^ k
    · refine ⟨⌊(d1 * 2 ^ k - i) / s⌋₊ + 1, fun j => ?_⟩
      rw [Nat.lt_succ_iff, Nat.le_floor_iff (div_nonneg (by linarith) sq.le), le_div_iff₀ sq, div_le_iff₀ pk]
      push_cast
      constructor <;> intro <;> linarith
    · refine ⟨0, fun j => ⟨fun h => absurd h (by omega), fun hj => ?_⟩⟩
      rw [div_le_iff₀ pk] at hj
      push_cast at hj
      have : 0 ≤ (j : ℚ) * s := by positivity
      linarith
  let f : ℕ → F64 := fun j => Nat.rec D0 (fun _ d => d +. S) j
  have hf : ∀ j ≤ m, Is (f j) (((i + j * s : ℤ) : ℚ) / 2 ^ k) := by
    intro j
    induction j with
    | zero => intro _; exact h0.congr (by push_cast; ring)
    | succ j ih =>
      intro hj
      have hle := (hm j).mp (by omega)
      rw [div_le_iff₀ pk] at hle
      have hz : |i + (j + 1 : ℕ) * s| ≤ 2 ^ 53 := by
        have u : i + j * s ≤ 2 ^ 52 := by
          have : ((i + j * s : ℤ) : ℚ) ≤ ((2 ^ 52 : ℤ) : ℚ) := by push_cast at hle ⊢; linarith
          exact_mod_cast this
        have l := (abs_le.mp hi).1
        have js : 0 ≤ (j : ℤ) * s := by positivity
        rw [abs_le]; push_cast
        constructor <;> nlinarith
      have e : ((i + j * s : ℤ) : ℚ) / 2 ^ k + (s : ℚ) / 2 ^ k = ((i + (j + 1 : ℕ) * s : ℤ) : ℚ) / 2 ^ k := by
        push_cast; ring
      have := (ih (by omega)).add_exact h2 (by rw [e]; exact RepQ.dyadic _ k hz (by omega))
        (by
          rw [e]
          apply small_lt_OVQ
          rw [abs_div, abs_of_pos pk]
          refine (div_le_self (abs_nonneg _) pk1).trans ?_
          have : |((i + (j + 1 : ℕ) * s : ℤ) : ℚ)| ≤ 2 ^ 53 := by exact_mod_cast hz
          exact this.trans (by norm_num))
      exact this.congr e
  have hrun := while_run c.compute D1 S f g hg (fun _ => rfl) m 0
    (fun j hj => by rw [Nat.zero_add, (hf j hj.le).le h1, decide_eq_true_iff]; exact (hm j).mp hj)
    (by rw [Nat.zero_add, (hf m le_rfl).le h1, decide_eq_false_iff_not, ← hm m]; exact lt_irrefl m)
  refine ⟨m + 1, m, (List.range m).map fun j => g (f (0 + j)), ?_, hm, by simp, ?_⟩
  · show Option.map _ (whileLoop c.compute D1 S true (m + 1) (f 0)) = _
    rw [hrun]; rfl
  · intro j hj
    have hj' : j < m := by simpa using hj
    simp only [List.getElem_map, List.getElem_range, Nat.zero_add, hgd]
    exact ⟨hf j hj'.le, hg _⟩

-- the default command line with `--scan` in exact arithmetic
example : ∃ c, toolCalc .checked (⟨none, none, none, none, none, none, none, none, none, none, none, none, true⟩ :
    ToolArgs ℝ) = some c := by
  obtain ⟨c, hc⟩ := ((C52_new_exact .checked (SunAngleParameters.default (α := ℝ))
    ⟨by decide, by decide, by decide⟩).1).mpr (by
      unfold SunAngleParameters.default HMS.toFractionOfDay
      norm_num)
  refine ⟨c, ?_⟩
  unfold toolCalc
  have : GregorianDate.new 2007 4 5 = .ok ⟨2007, 4, 5⟩ := by decide
  simp only [Option.getD_none, this]
  unfold SunAngleParameters.default at hc
  rw [hc]

-- the default bounds and step meet the conditions of the exact binary64 scan, with 21 offsets
example : Is (lit (-600) : F64) (((-600 : ℤ) : ℚ) / 2 ^ 0) ∧ Is (lit 60 : F64) (((60 : ℤ) : ℚ) / 2 ^ 0) ∧
    ∀ j : ℕ, j < 21 ↔ ((-600 + j * 60 : ℤ) : ℚ) / 2 ^ 0 ≤ 600 := by
  refine ⟨?_, ?_, fun j => ?_⟩
  · have := Is.lit_int (-600) (by norm_num)
    simpa using this
  · have := Is.lit_int 60 (by norm_num)
    simpa using this
  · rw [pow_zero, div_one]
    constructor
    · intro h
      have : (-600 + j * 60 : ℤ) ≤ 600 := by omega
      exact_mod_cast this
    · intro h
      have : (-600 + j * 60 : ℤ) ≤ 600 := by exact_mod_cast h
      omega

end Verif
