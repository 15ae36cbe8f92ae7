import Verif.Props.TestSun

/-!
# C101: the labels of the report of the Fortran program
-/

namespace Verif
open F64 Arith

/-- `text` has a line consisting of a blank, the label and the number `x`, as read by `f64::from_str`, among blanks. -/
def HasField (text label : List Char) (x : F64) : Prop :=
  ∃ pre b t c post : List Char, text = pre ++ ' ' :: (label ++ b ++ t ++ c ++ '\n' :: post) ∧ (pre = [] ∨ pre.getLast? = some '\n') ∧
    (∀ d ∈ b, d = ' ') ∧ (∀ d ∈ c, d = ' ') ∧ parseF64 t = some x

theorem field_of {text pre : List Char} {s : String} {x : F64} (hx : isFin x = true) (h : pre = [] ∨ pre.getLast? = some '\n')
    (e : ∃ post, text = pre ++ (ldWrite [.str s, .real x] ++ post)) : HasField text s.toList x := by
  obtain ⟨post, e⟩ := e
  obtain ⟨b, t, c, hb, hc, er, -, -, hp⟩ := C95_list_directed hx
  refine ⟨pre, ' ' :: b, t, c, post, ?_, h, ?_, hc, hp⟩
  · rw [e]; unfold ldWrite; simp [ldItems, er]
  · intro d hd
    rcases List.mem_cons.mp hd with rfl | hd
    exacts [rfl, hb d hd]

/-- **C101.** In the report of the Fortran program the times are found by their labels: for finite numbers a line `TT=`, one
`TUT=` and one `UT1=` have them, to the bit. -/
theorem C101_labels (t : TestSunTimes F64) (m : FMat) (a : ℕ → F64) (h1 : isFin t.tt = true) (h2 : isFin t.tut = true)
    (h3 : isFin t.ut1 = true) : HasField (testSunText t m a) "TT=".toList t.tt ∧ HasField (testSunText t m a) "TUT=".toList t.tut ∧
      HasField (testSunText t m a) "UT1=".toList t.ut1 := by
  have nl : ∀ l : List LdItem, (ldWrite l).getLast? = some '\n' := fun l => by
    unfold ldWrite; rw [List.getLast?_cons]; simp
  refine ⟨field_of (pre := []) h1 (.inl rfl) ?_, field_of (pre := ldWrite [.str "TT=", .real t.tt]) h2 (.inr (nl _)) ?_,
    field_of (pre := ldWrite [.str "TT=", .real t.tt] ++ ldWrite [.str "TUT=", .real t.tut]) h3 (.inr ?_) ?_⟩
  rotate_left 2
  · rw [List.getLast?_append, nl]; rfl
  all_goals
    unfold testSunText
    simp only [List.nil_append, List.append_assoc]
    exact ⟨_, rfl⟩

/-- **C101.** The matrix and the position are announced by lines of their own: the report has the line `RC2T=` and its last line is
`PH=` and numbers. -/
theorem C101_headings (t : TestSunTimes F64) (m : FMat) (a : ℕ → F64) :
    (∃ pre post : List Char, testSunText t m a = pre ++ " RC2T=\n".toList ++ post ∧ pre.getLast? = some '\n') ∧
    ∃ pre rest : List Char, testSunText t m a = pre ++ " PH=".toList ++ rest ++ ['\n'] ∧ pre.getLast? = some '\n' := by
  have nl : ∀ l : List LdItem, (ldWrite l).getLast? = some '\n' := fun l => by
    unfold ldWrite; rw [List.getLast?_cons]; simp
  constructor
  · have e : ldWrite [.str "RC2T="] = " RC2T=\n".toList := by decide +kernel
    unfold testSunText
    rw [e]
    refine ⟨_, _ ++ _, by rw [← List.append_assoc], ?_⟩
    simp [List.getLast?_append, nl]
  · obtain ⟨r, hr⟩ : ∃ r, ldWrite [.str "PH=", .real (a 0), .real (a 1), .real (a 2)] = " PH=".toList ++ r ++ ['\n'] :=
      ⟨_, by unfold ldWrite; simp only [ldItems]; rfl⟩
    refine ⟨_, r, by unfold testSunText; rw [hr, ← List.append_assoc, ← List.append_assoc], ?_⟩
    simp [List.range_succ, List.getLast?_append, nl]

/-- Finite numbers. -/
example : isFin (lit 54195.5 : F64) = true := by decide +kernel

end Verif
