import Verif.Spec.FloatText
import Verif.Lemmas.Shortest

/-!
# Which texts `f64::from_str` accepts
-/

namespace Verif
open F64 Arith Spec

theorem digits_iff (l : List Char) : Digits l ↔ l.all isDigit = true := by
  unfold Digits
  rw [List.all_eq_true]
  refine forall₂_congr fun c _ => ?_
  rw [isDigit_iff, Option.isSome_iff_exists]

theorem takeWhile_all (p : Char → Bool) (l : List Char) : (l.takeWhile p).all p = true :=
  List.all_takeWhile

theorem takeSign_split (l : List Char) : ∃ s, SignText s ∧ l = s ++ (takeSign l).2 := by
  cases l with
  | nil => exact ⟨[], .inl rfl, rfl⟩
  | cons c r =>
    by_cases h1 : c = '-'
    · subst h1; exact ⟨['-'], .inr (.inr rfl), rfl⟩
    · by_cases h2 : c = '+'
      · subst h2; exact ⟨['+'], .inr (.inl rfl), rfl⟩
      · rw [takeSign_of_ne r h1 h2]; exact ⟨[], .inl rfl, rfl⟩

theorem takeSign_append {s r : List Char} (hs : SignText s) (h1 : r.head? ≠ some '-') (h2 : r.head? ≠ some '+') :
    (takeSign (s ++ r)).2 = r := by
  rcases hs with rfl | rfl | rfl
  · cases r with
    | nil => rfl
    | cons c t =>
      rw [List.nil_append, takeSign_of_ne t (by simpa using h1) (by simpa using h2)]
  · rfl
  · rfl

theorem parseExp_iff (l : List Char) : (parseExp l).isSome = true ↔ ∃ s d, l = s ++ d ∧ SignText s ∧ d ≠ [] ∧ Digits d := by
  have hu : (parseExp l).isSome = true ↔ (takeSign l).2 ≠ [] ∧ (takeSign l).2.all isDigit = true := by
    unfold parseExp
    simp only
    split <;> simp_all
  rw [hu]
  constructor
  · rintro ⟨h1, h2⟩
    obtain ⟨s, hs, e⟩ := takeSign_split l
    exact ⟨s, _, e, hs, h1, (digits_iff _).mpr h2⟩
  · rintro ⟨s, d, rfl, hs, hd, hdd⟩
    rw [digits_iff] at hdd
    have hh : ∀ c, isDigit c = false → d.head? ≠ some c := by
      intro c hc h
      cases d with
      | nil => cases h
      | cons a t =>
        have : a = c := by simpa using h
        subst this
        simp [hc] at hdd
    rw [takeSign_append hs (hh _ (by decide)) (hh _ (by decide))]
    exact ⟨hd, hdd⟩

/-- What follows the digits and the point. -/
def expPart (v : ℕ) (k : ℤ) : List Char → Option (ℕ × ℤ)
  | [] => some (v, k)
  | c :: t => if c = 'e' ∨ c = 'E' then (parseExp t).map fun j => (v, j + k) else none

theorem expPart_iff (v : ℕ) (k : ℤ) (r : List Char) : (expPart v k r).isSome = true ↔ ExpText r := by
  cases r with
  | nil => simp [expPart, ExpText]
  | cons c t =>
    unfold expPart ExpText
    by_cases hc : c = 'e' ∨ c = 'E'
    · simp only [if_pos hc, Option.isSome_map, parseExp_iff]
      constructor
      · rintro ⟨s, d, h1, h2⟩
        exact .inr ⟨c, s, d, by rw [h1], hc, h2⟩
      · rintro (h | ⟨c', s, d, h1, -, h2⟩)
        · cases h
        · exact ⟨s, d, (List.cons.inj h1).2, h2⟩
    · simp only [if_neg hc, Option.isSome_none, Bool.false_eq_true, false_iff]
      rintro (h | ⟨c', s, d, h1, h2, -⟩)
      · cases h
      · rw [(List.cons.inj h1).1] at hc; exact hc h2

theorem expText_head {r : List Char} (h : ExpText r) : ∀ c ∈ r.head?, c = 'e' ∨ c = 'E' := by
  rcases h with rfl | ⟨c, s, d, rfl, h, -⟩
  · simp
  · intro c' hc'
    have : c = c' := by simpa using hc'
    rw [← this]; exact h

theorem parseNumber_nodot (i r : List Char) (hi : i.all isDigit = true) (hr : ∀ c ∈ r.head?, isDigit c = false ∧ c ≠ '.') :
    parseNumber (i ++ r) = if i = [] then none else expPart (digitsVal i) 0 r := by
  obtain ⟨t1, t2⟩ := takeWhile_isDigit (r := r) hi (fun c hc => (hr c hc).1)
  unfold parseNumber
  simp only [t1, t2]
  cases r with
  | nil => simp [expPart]
  | cons c t =>
    have : c ≠ '.' := (hr c (by simp)).2
    split
    · rename_i h'; exact absurd (List.cons.inj h').1 this
    · simp [expPart]

theorem parseNumber_dot (i f r : List Char) (hi : i.all isDigit = true) (hf : f.all isDigit = true)
    (hr : ∀ c ∈ r.head?, isDigit c = false) :
    parseNumber (i ++ '.' :: f ++ r) = if i = [] ∧ f = [] then none else expPart (digitsVal (i ++ f)) (-(f.length : ℤ)) r := by
  obtain ⟨t1, t2⟩ := takeWhile_isDigit (r := '.' :: (f ++ r)) hi (by simp; decide)
  obtain ⟨t3, t4⟩ := takeWhile_isDigit (r := r) hf hr
  unfold parseNumber
  simp only [List.append_assoc, List.cons_append, t1, t2, t3, t4]
  cases r with
  | nil => simp [expPart]
  | cons c t => simp [expPart, sub_eq_add_neg]

theorem parseNumber_isSome (l : List Char) : (parseNumber l).isSome = true ↔ NumberText l := by
  constructor
  · intro h
    have hs : l = l.takeWhile isDigit ++ l.dropWhile isDigit := List.takeWhile_append_dropWhile.symm
    have ha := takeWhile_all isDigit l
    generalize l.takeWhile isDigit = i at *
    have hd : ∀ c ∈ (l.dropWhile isDigit).head?, isDigit c = false := by
      intro c hc
      have := List.head?_dropWhile_not isDigit l
      rw [Option.mem_def.mp hc] at this
      simpa using this
    generalize l.dropWhile isDigit = r at *
    by_cases hdot : r.head? = some '.'
    · cases r with
      | nil => cases hdot
      | cons c t =>
        have : c = '.' := by simpa using hdot
        subst this
        have hs' : t = t.takeWhile isDigit ++ t.dropWhile isDigit := List.takeWhile_append_dropWhile.symm
        have ha' := takeWhile_all isDigit t
        have hd' : ∀ c ∈ (t.dropWhile isDigit).head?, isDigit c = false := by
          intro c hc
          have := List.head?_dropWhile_not isDigit t
          rw [Option.mem_def.mp hc] at this
          simpa using this
        generalize t.takeWhile isDigit = f at *
        generalize t.dropWhile isDigit = e at *
        have hl : l = i ++ '.' :: f ++ e := by rw [hs, hs']; simp
        rw [hl, parseNumber_dot i f e ha ha' hd'] at h
        split at h
        · cases h
        · rename_i hne
          rw [expPart_iff] at h
          exact ⟨i, f, e, (digits_iff _).mpr ha, (digits_iff _).mpr ha', h, .inr ⟨by tauto, hl⟩⟩
    · rw [hs, parseNumber_nodot i r ha (fun c hc => ⟨hd c hc, fun h0 => hdot (by rw [← h0]; exact hc)⟩)] at h
      split at h
      · cases h
      · rename_i hne
        rw [expPart_iff] at h
        exact ⟨i, [], r, (digits_iff _).mpr ha, by simp [Digits], h, .inl ⟨hne, hs⟩⟩
  · rintro ⟨i, f, e, hi, hf, he, hor⟩
    rw [digits_iff] at hi hf
    have hd : ∀ c ∈ e.head?, isDigit c = false ∧ c ≠ '.' := by
      intro c hc
      rcases expText_head he c hc with rfl | rfl <;> decide
    rcases hor with ⟨hne, rfl⟩ | ⟨hne, rfl⟩
    · rw [parseNumber_nodot i e hi hd, if_neg hne, expPart_iff]; exact he
    · rw [parseNumber_dot i f e hi hf (fun c hc => (hd c hc).1), if_neg (by tauto), expPart_iff]; exact he

theorem numberText_head {l : List Char} (h : NumberText l) : l.head? ≠ some '-' ∧ l.head? ≠ some '+' := by
  have hd : ∀ (i r : List Char) (c : Char), Digits i → isDigit c = false → i ≠ [] → (i ++ r).head? ≠ some c := by
    intro i r c hi hc hne h
    rw [digits_iff] at hi
    cases i with
    | nil => exact hne rfl
    | cons a t =>
      have : a = c := by simpa using h
      subst this
      simp [hc] at hi
  obtain ⟨i, f, e, hi, -, -, ⟨hne, rfl⟩ | ⟨-, rfl⟩⟩ := h
  · exact ⟨hd _ _ _ hi (by decide) hne, hd _ _ _ hi (by decide) hne⟩
  · by_cases hne : i = []
    · subst hne; constructor <;> simp
    · rw [List.append_assoc]; exact ⟨hd _ _ _ hi (by decide) hne, hd _ _ _ hi (by decide) hne⟩

/-- The words do not start with a sign. -/
theorem word_head {l w : List Char} (h : l.map Char.toLower = w) (c : Char) (hc : c.toLower = c) (hw : w.head? ≠ some c) :
    l.head? ≠ some c := by
  intro h'
  cases l with
  | nil => cases h'
  | cons a t =>
    have : a = c := by simpa using h'
    subst this
    rw [← h] at hw
    simp [hc] at hw

theorem parseF64_isSome (l : List Char) : (parseF64 l).isSome = true ↔ FloatText l := by
  have hu : (parseF64 l).isSome = true ↔ ((parseNumber (takeSign l).2).isSome = true ∨
      (takeSign l).2.map Char.toLower = "inf".toList ∨ (takeSign l).2.map Char.toLower = "infinity".toList ∨
      (takeSign l).2.map Char.toLower = "nan".toList) := by
    unfold parseF64
    simp only
    cases parseNumber (takeSign l).2 with
    | some w => simp
    | none =>
      simp only [Option.isSome_none, Bool.false_eq_true, false_or]
      split
      · rename_i h; simp only [Option.isSome_some, true_iff]; tauto
      · rename_i h
        split
        · rename_i h'; simp only [Option.isSome_some, true_iff]; tauto
        · rename_i h'; simp only [Option.isSome_none, Bool.false_eq_true, false_iff]; tauto
  rw [hu, parseNumber_isSome]
  constructor
  · intro h
    obtain ⟨s, hs, e⟩ := takeSign_split l
    exact ⟨s, _, hs, e, h⟩
  · rintro ⟨s, r, hs, rfl, h⟩
    have hh : r.head? ≠ some '-' ∧ r.head? ≠ some '+' := by
      rcases h with h | h | h | h
      · exact numberText_head h
      · exact ⟨word_head h _ (by decide) (by decide), word_head h _ (by decide) (by decide)⟩
      · exact ⟨word_head h _ (by decide) (by decide), word_head h _ (by decide) (by decide)⟩
      · exact ⟨word_head h _ (by decide) (by decide), word_head h _ (by decide) (by decide)⟩
    rw [takeSign_append hs hh.1 hh.2]
    exact h

theorem takeSign_append_neg {s r r' : List Char} (hs : SignText s) (h1 : r.head? ≠ some '-') (h2 : r'.head? ≠ some '-') :
    (takeSign (s ++ r)).1 = (takeSign (s ++ r')).1 := by
  rcases hs with rfl | rfl | rfl
  · rw [List.nil_append, List.nil_append, takeSign_neg, takeSign_neg]; simp [h1, h2]
  · rfl
  · rfl

/-- Only the scan of the number matters. -/
theorem parseF64_congr {s r r' : List Char} (hs : SignText s) (hr : NumberText r) (hr' : NumberText r')
    (h : parseNumber r = parseNumber r') : parseF64 (s ++ r) = parseF64 (s ++ r') := by
  obtain ⟨a1, a2⟩ := numberText_head hr
  obtain ⟨b1, b2⟩ := numberText_head hr'
  obtain ⟨w, hw⟩ := Option.isSome_iff_exists.mp ((parseNumber_isSome r').mpr hr')
  unfold parseF64
  simp only [takeSign_append hs a1 a2, takeSign_append hs b1 b2, takeSign_append_neg hs a1 b1, h, hw]

end Verif
