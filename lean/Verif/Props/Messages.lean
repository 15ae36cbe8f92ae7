import Verif.Props.Process
import Verif.Props.ToolRuns

/-!
# C104: the messages for refused dates
-/

namespace Verif
open F64 Arith Spec

/-- **C104.** An unreal date given to `julian_tool gregorian` is refused without output, with status 1 and a line that names the first
of year, month and day that is wrong. -/
theorem C104_unreal_date (pt : Panic → List Char) (p : Profile) (y m d : ℤ) (hour minute : Option ℤ) (second : Option F64)
    (h : ¬ (-4799 ≤ y ∧ IsDate (y, m, d))) :
    ((julianToolGregorian p y m d hour minute second).outcome pt).stdout = [] ∧
    ((julianToolGregorian p y m d hour minute second).outcome pt).status = 1 ∧
    (y < -4799 → ((julianToolGregorian p y m d hour minute second).outcome pt).stderr = "Error: bad year\n".toList) ∧
    (-4799 ≤ y → ¬ (1 ≤ m ∧ m ≤ 12) →
      ((julianToolGregorian p y m d hour minute second).outcome pt).stderr = "Error: bad month\n".toList) ∧
    (-4799 ≤ y → 1 ≤ m ∧ m ≤ 12 →
      ((julianToolGregorian p y m d hour minute second).outcome pt).stderr = "Error: bad day\n".toList) := by
  obtain ⟨-, n1, n2, n3, -, -⟩ := C01_new_accepts_exactly_real_dates y m d
  have g := fun e => (C76_gregorian_stops y m d hour minute second).1 p e
  by_cases h1 : y < -4799
  · rw [g _ (n1.mpr h1)]
    exact ⟨rfl, rfl, fun _ => (by decide : errorLine _ = _), fun h2 => absurd h2 (not_le.mpr h1), fun h2 => absurd h2 (not_le.mpr h1)⟩
  · have h1' := not_lt.mp h1
    by_cases h2 : 1 ≤ m ∧ m ≤ 12
    · rw [g _ (n3.mpr ⟨h1', h2, fun h3 => h ⟨h1', h2.1, h2.2, h3⟩⟩)]
      exact ⟨rfl, rfl, fun h3 => absurd h3 h1, fun _ h3 => absurd h2 h3, fun _ _ => (by decide : errorLine _ = _)⟩
    · rw [g _ (n2.mpr ⟨h1', h2⟩)]
      exact ⟨rfl, rfl, fun h3 => absurd h3 h1, fun _ _ => (by decide : errorLine _ = _), fun _ h3 => absurd h3 h2⟩

/-- **C104.** `julian_tool julian` has one message for a refused date, whatever the two numbers (infinite and NaN included). -/
theorem C104_refused_julian (pt : Panic → List Char) (p : Profile) (x : F64) (y : Option F64)
    (h : ((julianToolJulian shortest p x y).outcome pt).status = 1) :
    ((julianToolJulian shortest p x y).outcome pt).stderr = "Error: bad Julian day\n".toList := by
  rcases C77_outcomes p x y with ⟨d, f, t, e, -⟩ | e | ⟨-, e', e⟩
  · rw [e] at h; cases h
  · rw [e]; show errorLine _ = _; decide
  · rw [e] at h; cases h

theorem parse_line (l : List Char) (e : ParseFail) (m : String) (h : "': ".toList ++ e.text ++ ['\n'] = m.toList) :
    errorLine (OsError.parseFailed l e).text = "Error: failed to parse '".toList ++ l ++ m.toList := by
  have h1 : "Error: failed to parse '".toList = "Error: ".toList ++ "failed to parse '".toList := by decide
  unfold errorLine OsError.text
  rw [← h, h1]
  simp only [List.append_assoc]

/-- **C104.** What is written about a text that is no `i32`, a sign or none, digits and a rest: the text and the reason in full. -/
theorem C104_i32_messages (s d r : List Char) (hs : SignText s) (hd : Digits d) (hr : ∀ c, r.head? = some c → digit? c = none)
    (h0 : s = [] → d = [] → r.head? ≠ some '+' ∧ r.head? ≠ some '-') (n : ℕ) (hn : (readNat d).getD 0 = n) (e : ParseFail)
    (he : fromStrI32 (s ++ (d ++ r)) = .error e) :
    errorLine (OsError.parseFailed (s ++ (d ++ r)) e).text = "Error: failed to parse '".toList ++ (s ++ (d ++ r)) ++
      (if s ++ (d ++ r) = [] then "': cannot parse integer from empty string\n"
        else if s ≠ ['-'] ∧ 2 ^ 31 ≤ n then "': number too large to fit in target type\n"
        else if s = ['-'] ∧ 2 ^ 31 < n then "': number too small to fit in target type\n"
        else "': invalid digit found in string\n").toList := by
  rw [C104_i32_reason s d r hs hd hr h0 n hn] at he
  generalize s ++ (d ++ r) = l at *
  split_ifs at he ⊢ <;> cases he <;> exact parse_line _ _ _ (by decide)

/-- **C104.** The same for a text that is no `u8`. -/
theorem C104_u8_messages (s d r : List Char) (hs : SignText s) (hd : Digits d) (hr : ∀ c, r.head? = some c → digit? c = none)
    (h0 : s = [] → d = [] → r.head? ≠ some '+' ∧ r.head? ≠ some '-') (n : ℕ) (hn : (readNat d).getD 0 = n) (e : ParseFail)
    (he : fromStrU8 (s ++ (d ++ r)) = .error e) :
    errorLine (OsError.parseFailed (s ++ (d ++ r)) e).text = "Error: failed to parse '".toList ++ (s ++ (d ++ r)) ++
      (if s ++ (d ++ r) = [] then "': cannot parse integer from empty string\n"
        else if s ≠ ['-'] ∧ 256 ≤ n then "': number too large to fit in target type\n"
        else "': invalid digit found in string\n").toList := by
  rw [C104_u8_reason s d r hs hd hr h0 n hn] at he
  generalize s ++ (d ++ r) = l at *
  split_ifs at he ⊢ <;> cases he <;> exact parse_line _ _ _ (by decide)

/-- **C104.** The same for a text that is no `f64`. -/
theorem C104_f64_messages (l : List Char) (e : ParseFail) (he : fromStrF64 l = .error e) :
    errorLine (OsError.parseFailed l e).text = "Error: failed to parse '".toList ++ l ++
      (if l = [] then "': cannot parse float from empty string\n" else "': invalid float literal\n").toList := by
  unfold fromStrF64 at he
  split_ifs at he ⊢
  · cases he; exact parse_line _ _ _ (by decide)
  · split at he <;> cases he
    exact parse_line _ _ _ (by decide)

/-- **C104.** What is written about an option that is missing, has no value or is no text. -/
theorem C104_option_messages (key : List Char) :
    errorLine (OsError.missing key).text = "Error: the '".toList ++ key ++ "' option must be set\n".toList ∧
    errorLine (OsError.noValue key).text = "Error: the '".toList ++ key ++ "' option doesn't have an associated value\n".toList ∧
    errorLine OsError.nonUtf8.text = "Error: argument is not a UTF-8 string\n".toList := by
  have h1 : "Error: the '".toList = "Error: ".toList ++ "the '".toList := by decide
  have h2 : "' option must be set\n".toList = "' option must be set".toList ++ ['\n'] := by decide
  have h3 : "' option doesn't have an associated value\n".toList = "' option doesn't have an associated value".toList ++ ['\n'] := by decide
  refine ⟨?_, ?_, by decide⟩ <;> unfold errorLine OsError.text
  · rw [h1, h2]; simp only [List.append_assoc]
  · rw [h1, h3]; simp only [List.append_assoc]

/-- A year out of range, an hour out of range, a text that is no number and an empty one. -/
example : fromStrI32 ("-".toList ++ ("2147483649".toList ++ [])) = .error .tooSmall ∧ fromStrU8 ([] ++ ("256".toList ++ [])) = .error .tooLarge ∧
    fromStrF64 "1e".toList = .error .invalidFloat ∧ fromStrF64 [] = .error .emptyFloat := by decide +kernel

/-- The 29th of February 2023, the 13th month, and a date before the first year. -/
example : ¬ (-4799 ≤ (2023 : ℤ) ∧ IsDate (2023, 2, 29)) ∧ ¬ (-4799 ≤ (2023 : ℤ) ∧ IsDate (2023, 13, 1)) ∧
    ¬ (-4799 ≤ (-4800 : ℤ) ∧ IsDate (-4800, 1, 1)) := by decide

example (pt : Panic → List Char) : ((julianToolJulian shortest .checked (lit (-40000)) none).outcome pt).status = 1 := by
  rw [(C77_julian_stops shortest (lit (-40000)) none).1 .checked (by decide +kernel)]; rfl

end Verif
