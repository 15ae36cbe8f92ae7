import Verif.Lemmas.Display
import Verif.Props.Calendar

/-!
# C17, C56: `Display` of dates and times
-/

namespace Verif
open Spec F64

/-- The ISO-8601 text of a date: four, two and two decimal digits separated by `-` (specification). -/
def isoText (y m d : ℕ) : List Char :=
  let g := Nat.digitChar
  [g (y / 1000), g (y / 100 % 10), g (y / 10 % 10), g (y % 10), '-', g (m / 10), g (m % 10), '-',
    g (d / 10), g (d % 10)]

theorem display_fixed (d : GregorianDate) (h : IsDate d.civil) (y0 : 0 ≤ d.year) (y1 : d.year ≤ 9999) :
    d.display = fixedD 4 d.year.toNat ++ '-' :: (fixedD 2 d.month.toNat ++ '-' :: fixedD 2 d.day.toNat) := by
  obtain ⟨h1, h2, h3, h4⟩ := h
  have h5 := monthLen_le d.civil.1 d.civil.2.1
  simp only [GregorianDate.civil] at h1 h2 h3 h4 h5
  unfold GregorianDate.display
  rw [fmtInt_fixed 3 _ y0 (by norm_num; omega), fmtInt_fixed 1 _ (by omega) (by norm_num; omega),
    fmtInt_fixed 1 _ (by omega) (by norm_num; omega)]

/-- **C17**, form: for years 0..=9999 the text is the ten-character ISO-8601 form. -/
theorem C17_display_iso (d : GregorianDate)
    (hd : GregorianDate.new d.year d.month d.day = .ok d) (y0 : 0 ≤ d.year) (y1 : d.year ≤ 9999) :
    d.display = isoText d.year.toNat d.month.toNat d.day.toNat ∧ d.display.length = 10 := by
  obtain ⟨-, h⟩ := (accepted_iff d).mp hd
  have e := display_fixed d h y0 y1
  obtain ⟨h1, h2, h3, h4⟩ := h
  have h5 := monthLen_le d.civil.1 d.civil.2.1
  simp only [GregorianDate.civil] at h1 h2 h3 h4 h5
  constructor
  · rw [e]
    have a1 : d.year.toNat / 10 / 10 / 10 % 10 = d.year.toNat / 1000 := by omega
    have a2 : d.year.toNat / 10 / 10 % 10 = d.year.toNat / 100 % 10 := by omega
    have a3 : d.month.toNat / 10 % 10 = d.month.toNat / 10 := by omega
    have a4 : d.day.toNat / 10 % 10 = d.day.toNat / 10 := by omega
    simp [fixedD, isoText, a1, a2, a3, a4]
  · rw [e]; simp [fixedD_length]

/-- **C17**, order: for years 0..=9999 string order is calendar order. -/
theorem C17_display_sortable (d d' : GregorianDate)
    (hd : GregorianDate.new d.year d.month d.day = .ok d)
    (hd' : GregorianDate.new d'.year d'.month d'.day = .ok d')
    (y0 : 0 ≤ d.year) (y1 : d.year ≤ 9999) (y0' : 0 ≤ d'.year) (y1' : d'.year ≤ 9999) :
    d.display < d'.display ↔ Before d.civil d'.civil := by
  obtain ⟨-, h⟩ := (accepted_iff d).mp hd
  obtain ⟨-, h'⟩ := (accepted_iff d').mp hd'
  rw [display_fixed d h y0 y1, display_fixed d' h' y0' y1']
  obtain ⟨h1, h2, h3, h4⟩ := h
  have h5 := monthLen_le d.civil.1 d.civil.2.1
  obtain ⟨h1', h2', h3', h4'⟩ := h'
  have h5' := monthLen_le d'.civil.1 d'.civil.2.1
  simp only [GregorianDate.civil] at h1 h2 h3 h4 h5 h1' h2' h3' h4' h5'
  have k1 : d.year.toNat < 10 ^ 4 := by norm_num; omega
  have k1' : d'.year.toNat < 10 ^ 4 := by norm_num; omega
  have k2 : d.month.toNat < 10 ^ 2 := by norm_num; omega
  have k2' : d'.month.toNat < 10 ^ 2 := by norm_num; omega
  have k3 : d.day.toNat < 10 ^ 2 := by norm_num; omega
  have k3' : d'.day.toNat < 10 ^ 2 := by norm_num; omega
  have ell : ∀ r r' : List Char, ('-' :: r < '-' :: r' ↔ r < r') := by
    intro r r'
    rw [List.cons_lt_cons_iff]
    simp
  rw [lt_append_iff (by rw [fixedD_length, fixedD_length]), fixedD_lt 4 _ _ k1 k1', ell,
    lt_append_iff (by rw [fixedD_length, fixedD_length]), fixedD_lt 2 _ _ k2 k2', ell,
    fixedD_lt 2 _ _ k3 k3']
  have i1 : fixedD 4 d.year.toNat = fixedD 4 d'.year.toNat ↔ d.year = d'.year := by
    refine ⟨fun e => ?_, fun e => by rw [e]⟩
    have := fixedD_inj 4 _ _ k1 k1' e
    omega
  have i2 : fixedD 2 d.month.toNat = fixedD 2 d'.month.toNat ↔ d.month = d'.month := by
    refine ⟨fun e => ?_, fun e => by rw [e]⟩
    have := fixedD_inj 2 _ _ k2 k2' e
    omega
  rw [i1, i2]
  unfold Before GregorianDate.civil
  simp only
  omega

/-- **C17**, injectivity: different dates have different texts. -/
theorem C17_display_injective (d d' : GregorianDate)
    (hd : GregorianDate.new d.year d.month d.day = .ok d)
    (hd' : GregorianDate.new d'.year d'.month d'.day = .ok d')
    (y0 : 0 ≤ d.year) (y1 : d.year ≤ 9999) (y0' : 0 ≤ d'.year) (y1' : d'.year ≤ 9999)
    (h : d.display = d'.display) : d = d' := by
  have s1 := C17_display_sortable d d' hd hd' y0 y1 y0' y1'
  have s2 := C17_display_sortable d' d hd' hd y0' y1' y0 y1
  rw [h] at s1 s2
  have n1 : ¬ Before d.civil d'.civil := fun hb => List.lt_irrefl _ (s1.mpr hb)
  have n2 : ¬ Before d'.civil d.civil := fun hb => List.lt_irrefl _ (s2.mpr hb)
  rcases before_trichotomy d.civil d'.civil with hb | hb | hb
  · exact absurd hb n1
  · cases d; cases d'
    simp only [GregorianDate.civil, Prod.mk.injEq] at hb
    simp only [GregorianDate.mk.injEq]
    exact hb
  · exact absurd hb n2

example : (GregorianDate.mk 2024 2 29).display = "2024-02-29".toList := by decide
example : GregorianDate.new 33 4 3 = .ok ⟨33, 4, 3⟩ ∧ (GregorianDate.mk 33 4 3).display = "0033-04-03".toList := by
  decide
-- outside that range the order is lost: 10000-01-01 sorts before 9999-12-31
example : (GregorianDate.mk 10000 1 1).display < (GregorianDate.mk 9999 12 31).display := by decide

/-- Half-up characterisation of the rounding at an odd boundary. -/
theorem rhe_eq_iff_of_odd (p k a : ℕ) (hk : 0 < k) (ha : a % 2 = 1) (hp : p ≤ (a + 1) * k) :
    rhe p k = a + 1 ↔ (2 * a + 1) * k ≤ 2 * p := by
  have e := rhe_err p k hk
  constructor
  · intro h
    rw [h] at e
    have : 2 * ((a + 1) * k) = (2 * a + 1) * k + k := by ring
    omega
  · intro h
    have h1 := rhe_le_of p k (a + 1) hk hp
    have hlt : p / k = a ∨ p / k = a + 1 := by
      have u1 : p / k ≤ a + 1 := by
        calc p / k ≤ ((a + 1) * k) / k := Nat.div_le_div_right hp
          _ = a + 1 := Nat.mul_div_cancel _ hk
      have u2 : a ≤ p / k := by
        rw [Nat.le_div_iff_mul_le hk]
        have : (2 * a + 1) * k = 2 * (a * k) + k := by ring
        omega
      omega
    have hd := Nat.div_add_mod p k
    rcases hlt with h2 | h2
    · unfold rhe
      rw [h2] at hd ⊢
      have : (2 * a + 1) * k = 2 * (k * a) + k := by ring
      split
      · omega
      · split
        · rfl
        · rw [ha]
    · exact le_antisymm h1 (le_rhe_of p k (a + 1) hk (by rw [← h2]; exact Nat.div_mul_le_self p k))

/-- **C56.** For every time of day with hour and minute at most 99 (any valid one) and a non-negative `f64`
second below 60, the text is `HH:MM:SS.ffffff` (always 15 characters) where `SS.ffffff` is the second
rounded to the nearest microsecond; the text shows `60.000000` exactly when the second is at least
`59.9999995`. -/
theorem C56_hms_display (h m : ℤ) (n : ℕ) (hn : RepNat n ∧ n < OVN) (h0 : 0 ≤ h) (h1 : h ≤ 99)
    (m0 : 0 ≤ m) (m1 : m ≤ 99) (hs : v (.fin false n hn) < 60) :
    ∃ k : ℕ, HMS.display ⟨h, m, .fin false n hn⟩ =
        fixedD 2 h.toNat ++ ':' :: (fixedD 2 m.toNat ++ ':' ::
          (fixedD 2 (k / 10 ^ 6) ++ '.' :: fixedD 6 (k % 10 ^ 6))) ∧
      (HMS.display ⟨h, m, .fin false n hn⟩).length = 15 ∧
      |(k : ℚ) / 10 ^ 6 - v (.fin false n hn)| ≤ 1 / 2 / 10 ^ 6 ∧ k ≤ 60 * 10 ^ 6 ∧
      (k = 60 * 10 ^ 6 ↔ 59.9999995 ≤ v (.fin false n hn)) := by
  have hU := U_pos
  have hUN : (UN : ℚ) = U := rfl
  have hv : v (.fin false n hn) = n / U := by simp [v, sval]
  rw [hv] at hs ⊢
  rw [div_lt_iff₀ hU] at hs
  have hn60 : n * 10 ^ 6 ≤ (60 * 10 ^ 6) * UN := by
    have : n ≤ 60 * UN := by
      have : (n : ℚ) ≤ ((60 * UN : ℕ) : ℚ) := by push_cast; rw [hUN]; exact hs.le
      exact_mod_cast this
    calc n * 10 ^ 6 ≤ 60 * UN * 10 ^ 6 := Nat.mul_le_mul_right _ this
      _ = 60 * 10 ^ 6 * UN := by ring
  have hk := rhe_le_of (n * 10 ^ 6) UN (60 * 10 ^ 6) UN_pos hn60
  have herr := rhe_err (n * 10 ^ 6) UN UN_pos
  obtain ⟨a, ha⟩ : ∃ a : ℕ, a = 59999999 := ⟨_, rfl⟩
  have e60 : 60 * 10 ^ 6 = a + 1 := by rw [ha]; norm_num
  have hodd := rhe_eq_iff_of_odd (n * 10 ^ 6) UN a UN_pos (by omega) (by rw [← e60]; exact hn60)
  obtain ⟨k, hkdef⟩ : ∃ k, k = rhe (n * 10 ^ 6) UN := ⟨_, rfl⟩
  have hsec : fmtFill 9 6 (.fin false n hn) =
      fixedD 2 (k / 10 ^ 6) ++ '.' :: fixedD 6 (k % 10 ^ 6) := by
    rw [fmtFill_fin, fixedMag_eq, ← hkdef, padLeft_dec 5 (k % 10 ^ 6) (by norm_num; omega)]
    have hl : ('.' :: fixedD (5 + 1) (k % 10 ^ 6)).length = 7 := by simp [fixedD_length]
    have := padLeft_append 2 (dec (k / 10 ^ 6)) ('.' :: fixedD (5 + 1) (k % 10 ^ 6))
    rw [hl] at this
    rw [this, padLeft_dec 1 (k / 10 ^ 6) (by norm_num; omega)]
  have hd : HMS.display ⟨h, m, .fin false n hn⟩ =
        fixedD 2 h.toNat ++ ':' :: (fixedD 2 m.toNat ++ ':' ::
          (fixedD 2 (k / 10 ^ 6) ++ '.' :: fixedD 6 (k % 10 ^ 6))) := by
    unfold HMS.display
    simp only
    rw [fmtInt_fixed 1 h h0 (by norm_num; omega), fmtInt_fixed 1 m m0 (by norm_num; omega), hsec]
  refine ⟨k, hd, by rw [hd]; simp [fixedD_length], ?_, by rw [hkdef]; exact hk, ?_⟩
  · rw [← hkdef] at herr
    have e1 : (2 * (k * U) : ℚ) ≤ 2 * (n * 10 ^ 6) + U := by
      rw [← hUN]; exact_mod_cast herr.1
    have e2 : (2 * (n * 10 ^ 6) : ℚ) ≤ 2 * (k * U) + U := by
      rw [← hUN]; exact_mod_cast herr.2
    have : (k : ℚ) / 10 ^ 6 - n / U = (k * U - n * 10 ^ 6) / (10 ^ 6 * U) := by
      field_simp
    rw [this, abs_div, abs_of_pos (show (0 : ℚ) < 10 ^ 6 * U by positivity), div_le_iff₀ (by positivity)]
    have : (1 / 2 / 10 ^ 6 * (10 ^ 6 * U) : ℚ) = U / 2 := by field_simp
    rw [this, abs_le]
    constructor <;> linarith
  · rw [hkdef]
    rw [e60, hodd, le_div_iff₀ hU]
    have haq : (a : ℚ) = 59999999 := by rw [ha]; norm_num
    have : (2 * a + 1) * UN ≤ 2 * (n * 10 ^ 6) ↔
        (((2 * a + 1) * UN : ℕ) : ℚ) ≤ ((2 * (n * 10 ^ 6) : ℕ) : ℚ) := Nat.cast_le.symm
    rw [this]
    push_cast
    rw [hUN, haq]
    constructor
    · intro hh; norm_num at hh ⊢; linarith
    · intro hh; norm_num at hh ⊢; linarith

example : HMS.display ⟨6, 5, Arith.lit 4.25⟩ = "06:05:04.250000".toList := by decide +kernel
-- a valid second just below 60 is shown as 60.000000
example : HMS.display ⟨23, 59, Arith.lit 59.9999999⟩ = "23:59:60.000000".toList := by decide +kernel

end Verif
