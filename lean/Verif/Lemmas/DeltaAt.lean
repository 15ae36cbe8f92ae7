import Verif.Model.DeltaAt
import Verif.Spec.DeltaAt

/-!
# The row of the delta AT table used for a month
-/

namespace Verif
open Spec

/-- The table row as a published step. -/
def DatData.step (e : DatData) : Step :=
  ⟨e.year, e.month, e.dat, (e.drift.getD (0, 0)).1, (e.drift.getD (0, 0)).2⟩

theorem steps_eq : DAT_DATA.map DatData.step = steps := by decide +kernel

/-- The last row. -/
def lastRow : DatData := ⟨2017, 1, 37.0, none⟩

/-- Everything after January 2017 uses the last row. -/
theorem datRow_late (m : ℤ) (h : 24205 < m) : datRow m = lastRow := by
  have hall : ∀ e ∈ DAT_DATA, 12 * e.year + e.month ≤ 24205 := by decide +kernel
  have hr : (List.range DAT_DATA.length).reverse = 41 :: (List.range 41).reverse := by decide
  have h41 : DAT_DATA[41]? = some lastRow := by decide +kernel
  have hp : decide (12 * lastRow.year + lastRow.month < m) = true := by
    have : 12 * lastRow.year + lastRow.month = 24205 := by decide
    rw [this]; simpa using h
  have : rposition (fun e : DatData => decide (12 * e.year + e.month < m)) DAT_DATA = some 41 := by
    unfold rposition
    rw [hr, List.find?_cons, h41]
    simp only [Option.any_some, hp]
  unfold datRow
  rw [this]
  decide +kernel

/-- The months of the table, one by one. -/
theorem datRow_table (P : ℤ → DatData → Prop) [∀ m r, Decidable (P m r)] (a : ℤ) (n : ℕ)
    (h : ∀ k < n, P (a + k) (datRow (a + k))) (m : ℤ) (h1 : a ≤ m) (h2 : m < a + n) :
    P m (datRow m) := by
  have := h (m - a).toNat (by omega)
  have e : a + ((m - a).toNat : ℤ) = m := by omega
  rwa [e] at this

/-- A month number is that of a unique year and month. -/
theorem monthNo_split (m : ℤ) : ∃ y k, 1 ≤ k ∧ k ≤ 12 ∧ m = monthNo y k :=
  ⟨(m - 1) / 12, (m - 1) % 12 + 1, by omega, by omega, by unfold monthNo; omega⟩

/-- `InForce` by month number. -/
def InForceNo (e : Step) (m : ℤ) : Prop :=
  e ∈ steps ∧ monthNo e.year e.month ≤ m ∧
    ∀ e' ∈ steps, monthNo e'.year e'.month ≤ m → monthNo e'.year e'.month ≤ monthNo e.year e.month

instance (e : Step) (m : ℤ) : Decidable (InForceNo e m) := by unfold InForceNo; infer_instance

theorem inForceNo_iff (e : Step) (y m : ℤ) : InForce e y m ↔ InForceNo e (monthNo y m) := Iff.rfl

/-- The row used for month number `m` is the step in force in the *previous* month. -/
theorem datRow_prev (m : ℤ) (h : 23521 < m) : InForceNo (datRow m).step (m - 1) := by
  by_cases hl : 24205 < m
  · rw [datRow_late m hl]
    have h1 : lastRow.step ∈ steps := by decide +kernel
    have h2 : monthNo lastRow.step.year lastRow.step.month = 24205 := by decide +kernel
    have h3 : ∀ e ∈ steps, monthNo e.year e.month ≤ 24205 := by decide +kernel
    exact ⟨h1, by omega, fun e' he' _ => by rw [h2]; exact h3 e' he'⟩
  · have := datRow_table (fun m r => InForceNo r.step (m - 1)) 23522 684 (by decide +kernel) m
      (by omega) (by omega)
    exact this

/-- In the first month the first row is used. -/
theorem datRow_first : datRow 23521 = ⟨1960, 1, 1.417818, some (37300.0, 0.001296)⟩ := by
  decide +kernel

/-- After January 1972 the row has no drift and an integer offset between 10 and 37. -/
theorem datRow_integer (m : ℤ) (h : 23665 < m) :
    (datRow m).drift = none ∧ ∃ n : ℕ, 10 ≤ n ∧ n ≤ 37 ∧ (datRow m).dat = n := by
  by_cases hl : 24205 < m
  · rw [datRow_late m hl]
    exact ⟨rfl, 37, by norm_num, by norm_num, by unfold lastRow; norm_num⟩
  · have := datRow_table (fun _ r => r.drift = none ∧ 10 ≤ r.dat ∧ r.dat ≤ 37 ∧ r.dat.den = 1)
      23666 540 (by decide +kernel) m (by omega) (by omega)
    obtain ⟨h1, h2, h3, h4⟩ := this
    have e : (datRow m).dat = ((datRow m).dat.num : ℚ) := ((Rat.den_eq_one_iff _).mp h4).symm
    generalize (datRow m).dat.num = z at e
    rw [e] at h2 h3 ⊢
    have z1 : 10 ≤ z := by exact_mod_cast h2
    have z2 : z ≤ 37 := by exact_mod_cast h3
    refine ⟨h1, z.toNat, by omega, by omega, ?_⟩
    have : ((z.toNat : ℤ) : ℚ) = z := by rw [Int.toNat_of_nonneg (by omega)]
    rw [← this]; norm_cast

/-- After January 1972 the offset never decreases from one month to the next. -/
theorem datRow_step_mono (m : ℤ) (h : 23665 < m) : (datRow m).dat ≤ (datRow (m + 1)).dat := by
  by_cases hl : 24205 < m
  · rw [datRow_late m hl, datRow_late (m + 1) (by omega)]
  · have := datRow_table (fun m r => r.dat ≤ (datRow (m + 1)).dat) 23666 540
      (by decide +kernel) m (by omega) (by omega)
    exact this

theorem datRow_mono (m m' : ℤ) (h : 23665 < m) (hle : m ≤ m') :
    (datRow m).dat ≤ (datRow m').dat := by
  obtain ⟨n, rfl⟩ : ∃ n : ℕ, m' = m + n := ⟨(m' - m).toNat, by omega⟩
  clear hle
  induction n with
  | zero => simp
  | succ n ih =>
    refine ih.trans ?_
    have := datRow_step_mono (m + n) (by omega)
    have e : m + (n : ℤ) + 1 = m + ((n + 1 : ℕ) : ℤ) := by push_cast; ring
    rwa [e] at this

/-- Up to January 1972 the row has a drift; bounds on its numbers. -/
theorem datRow_drift (m : ℤ) (h1 : 23521 ≤ m) (h2 : m ≤ 23665) :
    ∃ o r, (datRow m).drift = some (o, r) ∧ (o = 37300 ∨ o = 37665 ∨ o = 38761 ∨ o = 39126) ∧
      0 ≤ r ∧ r ≤ 26 / 10000 ∧ 0 ≤ (datRow m).dat ∧ (datRow m).dat ≤ 5 := by
  have := datRow_table (fun _ r => r.drift.isSome = true ∧
    (((r.drift.getD (0, 0)).1 = 37300 ∨ (r.drift.getD (0, 0)).1 = 37665 ∨
      (r.drift.getD (0, 0)).1 = 38761 ∨ (r.drift.getD (0, 0)).1 = 39126) ∧
      0 ≤ (r.drift.getD (0, 0)).2 ∧ (r.drift.getD (0, 0)).2 ≤ 26 / 10000 ∧
      0 ≤ r.dat ∧ r.dat ≤ 5)) 23521 145 (by decide +kernel) m h1 (by omega)
  obtain ⟨h, h'⟩ := this
  obtain ⟨q, hq⟩ := Option.isSome_iff_exists.mp h
  rw [hq] at h'
  exact ⟨q.1, q.2, hq, h'⟩

end Verif
