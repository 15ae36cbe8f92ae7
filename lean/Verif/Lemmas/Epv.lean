import Verif.Model.Earth
import Verif.Spec.EpvRef

/-!
# The summation loops of the Earth ephemeris

Every table access is in bounds and the entries are those of the reference data, so each loop is a fold over
the reference list.
-/

namespace Verif
open Arith Epv

namespace EpvRef
def E0 (k : Fin 3) : List (Dec × Dec × Dec) := match k with | 0 => E0X | 1 => E0Y | 2 => E0Z
def E1 (k : Fin 3) : List (Dec × Dec × Dec) := match k with | 0 => E1X | 1 => E1Y | 2 => E1Z
def E2 (k : Fin 3) : List (Dec × Dec × Dec) := match k with | 0 => E2X | 1 => E2Y | 2 => E2Z
def S0 (k : Fin 3) : List (Dec × Dec × Dec) := match k with | 0 => S0X | 1 => S0Y | 2 => S0Z
def S1 (k : Fin 3) : List (Dec × Dec × Dec) := match k with | 0 => S1X | 1 => S1Y | 2 => S1Z
def S2 (k : Fin 3) : List (Dec × Dec × Dec) := match k with | 0 => S2X | 1 => S2Y | 2 => S2Z
end EpvRef

/-- The values of a triple. -/
def q3 (d : Dec × Dec × Dec) : ℚ × ℚ × ℚ := (d.1.q, d.2.1.q, d.2.2.q)

/-- Equality of the values of two decimals, by cross multiplication. -/
def Epv.Dec.eqv (a b : Dec) : Bool := a.m * 10 ^ b.e == b.m * 10 ^ a.e

theorem Epv.Dec.eqv_q {a b : Dec} (h : a.eqv b = true) : a.q = b.q := by
  unfold Dec.eqv at h
  have h' : a.m * 10 ^ b.e = b.m * 10 ^ a.e := by simpa using h
  unfold Dec.q
  rw [div_eq_div_iff (by positivity) (by positivity)]
  exact_mod_cast h'

def sameTerms : List (Dec × Dec × Dec) → List (Dec × Dec × Dec) → Bool
  | [], [] => true
  | a :: l, b :: l' => (a.1.eqv b.1 && a.2.1.eqv b.2.1 && a.2.2.eqv b.2.2) && sameTerms l l'
  | _, _ => false

theorem sameTerms_q3 : ∀ {l l' : List (Dec × Dec × Dec)}, sameTerms l l' = true → l.map q3 = l'.map q3
  | [], [], _ => rfl
  | [], _ :: _, h => by cases h
  | _ :: _, [], h => by cases h
  | a :: l, b :: l', h => by
    simp only [sameTerms, Bool.and_eq_true] at h
    obtain ⟨⟨⟨h1, h2⟩, h3⟩, h4⟩ := h
    simp only [List.map_cons, q3, Dec.eqv_q h1, Dec.eqv_q h2, Dec.eqv_q h3, sameTerms_q3 h4]

/-- Column `k` of the three sub-tables, zipped. -/
def column (A B C : List Row) (k : Fin 3) : List (Dec × Dec × Dec) :=
  List.zipWith (fun a bc => (a.get k, bc)) A (List.zipWith (fun b c => (b.get k, c.get k)) B C)

theorem entry_column (A B C : List Row) (k : Fin 3) (j : ℕ) :
    entry? [A, B, C] k j = (column A B C k)[j]? := by
  unfold entry? column
  simp only [List.getElem?_zipWith, List.getElem?_cons_zero, List.getElem?_cons_succ, bind, Option.bind_some,
    pure]
  rcases A[j]? with _ | a <;> rcases B[j]? with _ | b <;> rcases C[j]? with _ | c <;> rfl

theorem foldlM_ok {β σ : Type} (f : σ → β → σ) (g : σ → ℕ → Rust σ) (L : List β)
    (h : ∀ s j, g s j = match L[j]? with | some b => .ok (f s b) | none => .error .index) :
    ∀ (n : ℕ) (s : σ), n ≤ L.length → (List.range n).foldlM g s = .ok ((L.take n).foldl f s)
  | 0, s, _ => rfl
  | n + 1, s, hn => by
    rw [List.range_succ, List.foldlM_append, foldlM_ok f g L h n s (by omega), List.take_add_one,
      List.foldl_append, List.getElem?_eq_getElem (by omega)]
    show (do let s' ← List.foldlM g (List.foldl f s (L.take n)) [n]; pure s') = _
    simp only [List.foldlM_cons, List.foldlM_nil, h, List.getElem?_eq_getElem (show n < L.length by omega)]
    rfl

section
variable {α : Type} [Arith α]

/-- A series as a fold over a list of triples. -/
def foldTerms (L : List (Dec × Dec × Dec)) (f : α × α → α → α → α → α × α) (acc : α × α) : α × α :=
  (L.map q3).foldl (fun acc d => f acc (lit d.1) (lit d.2.1) (lit d.2.2)) acc

theorem sumSeries_eq (A B C : List Row) (k : Fin 3) (n : ℕ) (R : List (Dec × Dec × Dec))
    (hn : n ≤ (column A B C k).length) (hR : sameTerms ((column A B C k).take n) R = true)
    (f : α × α → α → α → α → α × α) (acc : α × α) :
    sumSeries [A, B, C] k n f acc = .ok (foldTerms R f acc) := by
  unfold sumSeries
  rw [foldlM_ok (β := Dec × Dec × Dec) (fun acc d => f acc (lit d.1.q) (lit d.2.1.q) (lit d.2.2.q)) _
    (column A B C k) (fun s j => by
      rw [entry_column]
      rcases (column A B C k)[j]? with _ | ⟨a, b, c⟩ <;> rfl) n acc hn]
  unfold foldTerms
  rw [← sameTerms_q3 hR, List.foldl_map]
  rfl
end

theorem E0_check : ∀ k : Fin 3, NE0 k ≤ (column E0_0 E0_1 E0_2 k).length ∧
    sameTerms ((column E0_0 E0_1 E0_2 k).take (NE0 k)) (EpvRef.E0 k) = true := by decide +kernel
theorem E1_check : ∀ k : Fin 3, NE1 k ≤ (column E1_0 E1_1 E1_2 k).length ∧
    sameTerms ((column E1_0 E1_1 E1_2 k).take (NE1 k)) (EpvRef.E1 k) = true := by decide +kernel
theorem E2_check : ∀ k : Fin 3, NE2 k ≤ (column E2_0 E2_1 E2_2 k).length ∧
    sameTerms ((column E2_0 E2_1 E2_2 k).take (NE2 k)) (EpvRef.E2 k) = true := by decide +kernel
theorem S0_check : ∀ k : Fin 3, NS0 k ≤ (column S0_0 S0_1 S0_2 k).length ∧
    sameTerms ((column S0_0 S0_1 S0_2 k).take (NS0 k)) (EpvRef.S0 k) = true := by decide +kernel
theorem S1_check : ∀ k : Fin 3, NS1 k ≤ (column S1_0 S1_1 S1_2 k).length ∧
    sameTerms ((column S1_0 S1_1 S1_2 k).take (NS1 k)) (EpvRef.S1 k) = true := by decide +kernel
theorem S2_check : ∀ k : Fin 3, NS2 k ≤ (column S2_0 S2_1 S2_2 k).length ∧
    sameTerms ((column S2_0 S2_1 S2_2 k).take (NS2 k)) (EpvRef.S2 k) = true := by decide +kernel

section
variable {α : Type} [Arith α] [Libm α]

/-- The heliocentric sums as folds over the reference data. -/
def helioFold (t t2 : α) (k : Fin 3) : α × α :=
  foldTerms (EpvRef.E2 k) (term2 t t2) (foldTerms (EpvRef.E1 k) (term1 t)
    (foldTerms (EpvRef.E0 k) (term0 t) (lit 0, lit 0)))

/-- The barycentric sums as folds over the reference data. -/
def baryFold (t t2 : α) (k : Fin 3) (acc : α × α) : α × α :=
  foldTerms (EpvRef.S2 k) (term2 t t2) (foldTerms (EpvRef.S1 k) (term1 t)
    (foldTerms (EpvRef.S0 k) (term0 t) acc))

theorem helioAxis_ok (t t2 : α) (k : Fin 3) : helioAxis t t2 k = .ok (helioFold t t2 k) := by
  unfold helioAxis helioFold
  rw [show E0 = [E0_0, E0_1, E0_2] from rfl, show E1 = [E1_0, E1_1, E1_2] from rfl,
    show E2 = [E2_0, E2_1, E2_2] from rfl, sumSeries_eq _ _ _ k _ _ (E0_check k).1 (E0_check k).2]
  simp only [ok_bind]
  rw [sumSeries_eq _ _ _ k _ _ (E1_check k).1 (E1_check k).2]
  simp only [ok_bind]
  rw [sumSeries_eq _ _ _ k _ _ (E2_check k).1 (E2_check k).2]

theorem baryAxis_ok (t t2 : α) (k : Fin 3) (acc : α × α) :
    baryAxis t t2 k acc = .ok (baryFold t t2 k acc) := by
  unfold baryAxis baryFold
  rw [show S0 = [S0_0, S0_1, S0_2] from rfl, show S1 = [S1_0, S1_1, S1_2] from rfl,
    show S2 = [S2_0, S2_1, S2_2] from rfl, sumSeries_eq _ _ _ k _ _ (S0_check k).1 (S0_check k).2]
  simp only [ok_bind]
  rw [sumSeries_eq _ _ _ k _ _ (S1_check k).1 (S1_check k).2]
  simp only [ok_bind]
  rw [sumSeries_eq _ _ _ k _ _ (S2_check k).1 (S2_check k).2]

/-- All four outputs for one axis. -/
def axisFold (t t2 : α) (k : Fin 3) : α × α × α × α :=
  let h := helioFold t t2 k
  let b := baryFold t t2 k h
  (h.1, h.2 /. DJY, b.1, b.2 /. DJY)

theorem axisPosVel_ok (t t2 : α) (k : Fin 3) : axisPosVel t t2 k = .ok (axisFold t t2 k) := by
  unfold axisPosVel axisFold
  rw [helioAxis_ok]
  simp only [ok_bind]
  rw [baryAxis_ok]
  rfl

end
end Verif
