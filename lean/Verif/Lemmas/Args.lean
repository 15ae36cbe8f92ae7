import Verif.Model.Args
import Verif.Spec.CommandLine
import Mathlib.Data.List.Perm.Basic
import Mathlib.Data.List.Nodup

/-!
# Command lines made of options
-/

namespace Verif
open F64 Arith Spec

theorem bind_ok {β γ : Type} {m : Cli β} {f : β → Cli γ} {a a' : Args} {x : β} (h : m a = .ok (x, a')) :
    (m >>= f) a = f x a' := by
  show Except.bind (m a) _ = _
  rw [h]; rfl

theorem bind_error {β γ : Type} {m : Cli β} {f : β → Cli γ} {a : Args} {e : UsageError} (h : m a = .error e) :
    (m >>= f) a = .error e := by
  show Except.bind (m a) _ = _
  rw [h]; rfl

theorem bind_ok_iff {β γ : Type} {m : Cli β} {f : β → Cli γ} {a : Args} {r : γ × Args} :
    (m >>= f) a = .ok r ↔ ∃ x a', m a = .ok (x, a') ∧ f x a' = .ok r := by
  constructor
  · intro h
    cases hm : m a with
    | error e => rw [bind_error hm] at h; cases h
    | ok s => exact ⟨s.1, s.2, rfl, by rw [← bind_ok (f := f) hm]; exact h⟩
  · rintro ⟨x, a', h1, h2⟩
    rw [bind_ok h1, h2]

theorem flat_append (A B : List Item) : flat (A ++ B) = flat A ++ flat B := by simp [flat]

theorem flat_cons (k : List Char) (o : Option (List Char)) (B : List Item) : flat ((k, o) :: B) = k :: (o.toList ++ flat B) := rfl

theorem splitKey_none {key : List Char} {items : List Item} (hv : ∀ it ∈ items, it.2 ≠ some key)
    (hk : ∀ it ∈ items, it.1 ≠ key) : splitKey key (flat items) = none := by
  induction items with
  | nil => rfl
  | cons it r ih =>
    obtain ⟨k, o⟩ := it
    have h1 : k ≠ key := hk (k, _) List.mem_cons_self
    have h2 : o ≠ some key := hv (k, o) List.mem_cons_self
    have ih := ih (fun it h => hv it (by simp [h])) (fun it h => hk it (by simp [h]))
    rw [flat_cons]
    cases o with
    | none => simp [splitKey, h1, ih]
    | some v =>
      have : v ≠ key := fun h => h2 (by rw [h])
      simp [splitKey, h1, this, ih]

theorem splitKey_some {key : List Char} {A : List Item} (o : Option (List Char)) (B : List Item)
    (hv : ∀ it ∈ A, it.2 ≠ some key) (hk : ∀ it ∈ A, it.1 ≠ key) :
    splitKey key (flat (A ++ (key, o) :: B)) = some (flat A, o.toList ++ flat B) := by
  induction A with
  | nil => simp [splitKey, flat]
  | cons it r ih =>
    obtain ⟨k, o'⟩ := it
    have h1 : k ≠ key := hk (k, _) List.mem_cons_self
    have h2 : o' ≠ some key := hv (k, o') List.mem_cons_self
    have ih := ih (fun it h => hv it (by simp [h])) (fun it h => hk it (by simp [h]))
    rw [List.cons_append, flat_cons, flat_cons]
    cases o' with
    | none => simp [splitKey, h1, ih]
    | some v =>
      have : v ≠ key := fun h => h2 (by rw [h])
      simp [splitKey, h1, this, ih]

/-- Items without those of a key. -/
def without (key : List Char) (items : List Item) : List Item := items.filter fun it => it.1 ≠ key

theorem mem_without {key : List Char} {items : List Item} {it : Item} : it ∈ without key items ↔ it ∈ items ∧ it.1 ≠ key := by
  simp [without]

theorem without_of_absent {key : List Char} {items : List Item} (h : ∀ it ∈ items, it.1 ≠ key) : without key items = items :=
  List.filter_eq_self.mpr (by simpa using h)

theorem without_split {key : List Char} {A B : List Item} {o : Option (List Char)}
    (h : ((A ++ (key, o) :: B).map Prod.fst).Nodup) :
    (∀ it ∈ A, it.1 ≠ key) ∧ without key (A ++ (key, o) :: B) = A ++ B := by
  rw [List.map_append, List.map_cons, List.nodup_append] at h
  obtain ⟨h1, h2, h3⟩ := h
  have hA : ∀ it ∈ A, it.1 ≠ key := fun it hi => h3 _ (List.mem_map_of_mem hi) _ (by simp)
  have hB : ∀ it ∈ B, it.1 ≠ key := by
    intro it hi e
    have := List.mem_map_of_mem (f := Prod.fst) hi
    rw [e] at this
    exact (List.nodup_cons.mp h2).1 this
  refine ⟨hA, ?_⟩
  have e1 := without_of_absent hA
  have e2 := without_of_absent hB
  unfold without at *
  rw [List.filter_append, e1, List.filter_cons_of_neg (by simp), e2]

theorem optValue_gives {β : Type} {K : List (List Char)} {items : List Item} {key : String} {parse : List Char → Option β}
    {o : Option β} (hw : WellFormed K items) (hK : key.toList ∈ K) (h : Gives items key.toList parse o) :
    optValue parse key (flat items) = .ok (o, flat (without key.toList items)) := by
  have hv : ∀ it ∈ items, it.2 ≠ some key.toList := fun it hi e => hw.2 it hi _ e hK
  unfold optValue
  cases o with
  | none =>
    rw [splitKey_none hv h, without_of_absent h]
  | some y =>
    obtain ⟨t, h1, h2⟩ := h
    obtain ⟨A, B, rfl⟩ := List.append_of_mem h1
    obtain ⟨hA, e⟩ := without_split hw.1
    rw [splitKey_some _ _ (fun it hi => hv it (by simp [hi])) hA, e]
    simp [h2, flat_append]

theorem hasFlag_mem {K : List (List Char)} {items : List Item} {key : String} (hw : WellFormed K items) (hK : key.toList ∈ K)
    (hF : ∀ v, (key.toList, some v) ∉ items) :
    hasFlag key (flat items) = .ok (decide ((key.toList, none) ∈ items), flat (without key.toList items)) := by
  have hv : ∀ it ∈ items, it.2 ≠ some key.toList := fun it hi e => hw.2 it hi _ e hK
  unfold hasFlag
  by_cases h : (key.toList, none) ∈ items
  · obtain ⟨A, B, rfl⟩ := List.append_of_mem h
    obtain ⟨hA, e⟩ := without_split hw.1
    rw [splitKey_some _ _ (fun it hi => hv it (by simp [hi])) hA, e]
    simp [flat_append]
  · have ha : ∀ it ∈ items, it.1 ≠ key.toList := by
      rintro ⟨k, o⟩ hi rfl
      cases o with
      | none => exact h hi
      | some v => exact hF v hi
    rw [splitKey_none hv ha, without_of_absent ha]
    simp [h]

/-- A value that does not parse. -/
theorem optValue_bad {β : Type} {K : List (List Char)} {items : List Item} {key : String} {parse : List Char → Option β}
    {t : List Char} (hw : WellFormed K items) (hK : key.toList ∈ K) (h : (key.toList, some t) ∈ items) (hp : parse t = none) :
    optValue parse key (flat items) = .error (.badValue t) := by
  have hv : ∀ it ∈ items, it.2 ≠ some key.toList := fun it hi e => hw.2 it hi _ e hK
  unfold optValue
  obtain ⟨A, B, rfl⟩ := List.append_of_mem h
  obtain ⟨hA, -⟩ := without_split hw.1
  rw [splitKey_some _ _ (fun it hi => hv it (by simp [hi])) hA]
  simp [hp]

/-- Items without those of some keys. -/
def left (read : List (List Char)) (items : List Item) : List Item := items.filter fun it => it.1 ∉ read

theorem mem_left {read : List (List Char)} {items : List Item} {it : Item} : it ∈ left read items ↔ it ∈ items ∧ it.1 ∉ read := by
  simp [left]

theorem left_nil (items : List Item) : left [] items = items := by simp [left]

theorem left_cons (key : List Char) (read : List (List Char)) (items : List Item) :
    without key (left read items) = left (key :: read) items := by
  unfold without left
  rw [List.filter_filter]
  congr 1
  funext it
  simp only [List.mem_cons, not_or, Bool.decide_and]

theorem Spec.WellFormed.left {K : List (List Char)} {items : List Item} (h : WellFormed K items) (read : List (List Char)) :
    WellFormed K (left read items) :=
  ⟨h.1.sublist (List.Sublist.map _ List.filter_sublist), fun it hi => h.2 it (mem_left.mp hi).1⟩

theorem gives_left {β : Type} {items : List Item} {key : List Char} {read : List (List Char)} {parse : List Char → Option β}
    {o : Option β} (hr : key ∉ read) : Gives (left read items) key parse o ↔ Gives items key parse o := by
  cases o with
  | none =>
    refine ⟨fun h it hi e => ?_, fun h it hi => h it (mem_left.mp hi).1⟩
    exact h it (mem_left.mpr ⟨hi, by rw [e]; exact hr⟩) e
  | some y =>
    constructor
    · rintro ⟨t, h1, h2⟩; exact ⟨t, (mem_left.mp h1).1, h2⟩
    · rintro ⟨t, h1, h2⟩; exact ⟨t, mem_left.mpr ⟨h1, hr⟩, h2⟩

/-- Reading one option. -/
theorem optValue_iff {β : Type} {K : List (List Char)} {items : List Item} {parse : List Char → Option β} (hw : WellFormed K items)
    (hn : Valued K items) (key : String) (read : List (List Char)) (hK : key.toList ∈ K) (hr : key.toList ∉ read) (o : Option β)
    (a : Args) : optValue parse key (flat (left read items)) = .ok (o, a) ↔
      Gives items key.toList parse o ∧ a = flat (left (key.toList :: read) items) := by
  have hw' := hw.left read
  constructor
  · intro h
    by_cases ha : ∀ it ∈ left read items, it.1 ≠ key.toList
    · have hg : Gives (left read items) key.toList parse none := ha
      rw [optValue_gives hw' hK hg, left_cons] at h
      cases h
      exact ⟨(gives_left hr).mp hg, rfl⟩
    · push Not at ha
      obtain ⟨⟨k, t⟩, hi, rfl⟩ := ha
      cases t with
      | none => exact absurd rfl (hn _ (mem_left.mp hi).1 hK)
      | some t =>
        cases hp : parse t with
        | none => rw [optValue_bad hw' hK hi hp] at h; cases h
        | some y =>
          have hg : Gives (left read items) key.toList parse (some y) := ⟨t, hi, hp⟩
          rw [optValue_gives hw' hK hg, left_cons] at h
          cases h
          exact ⟨(gives_left hr).mp hg, rfl⟩
  · rintro ⟨hg, rfl⟩
    rw [optValue_gives hw' hK ((gives_left hr).mpr hg), left_cons]

theorem reqValue_iff {β : Type} {K : List (List Char)} {items : List Item} {parse : List Char → Option β} (hw : WellFormed K items)
    (hn : Valued K items) (key : String) (read : List (List Char)) (hK : key.toList ∈ K) (hr : key.toList ∉ read) (y : β)
    (a : Args) : reqValue parse key (flat (left read items)) = .ok (y, a) ↔
      Gives items key.toList parse (some y) ∧ a = flat (left (key.toList :: read) items) := by
  unfold reqValue
  rw [bind_ok_iff]
  constructor
  · rintro ⟨o, a1, h1, h2⟩
    rw [optValue_iff hw hn key read hK hr] at h1
    cases o with
    | none => cases h2
    | some y' => cases h2; exact h1
  · intro h
    exact ⟨some y, a, (optValue_iff hw hn key read hK hr _ _).mpr h, rfl⟩

/-- Looking for a flag. -/
theorem hasFlag_left {K : List (List Char)} {items : List Item} {key : String} (hw : WellFormed K items) (hK : key.toList ∈ K)
    (hF : ∀ v, (key.toList, some v) ∉ items) (read : List (List Char)) (hr : key.toList ∉ read) :
    hasFlag key (flat (left read items)) =
      .ok (decide ((key.toList, none) ∈ items), flat (left (key.toList :: read) items)) := by
  rw [hasFlag_mem (hw.left read) hK (fun v h => hF v (mem_left.mp h).1), left_cons]
  congr 3
  exact propext ⟨fun h => (mem_left.mp h).1, fun h => mem_left.mpr ⟨h, hr⟩⟩

theorem flat_eq_nil {items : List Item} : flat items = [] ↔ items = [] := by
  cases items with
  | nil => simp [flat]
  | cons it r => simp [flat]

theorem map_ok_iff {β γ : Type} {m : Except UsageError β} {f : β → γ} {r : γ} : m.map f = .ok r ↔ ∃ x, m = .ok x ∧ r = f x := by
  cases m with
  | error e => simp [Except.map]
  | ok x => simp [Except.map, eq_comm]

theorem splitKey_eq {key : List Char} {a b r : Args} (h : splitKey key a = some (b, r)) : a = b ++ key :: r ∧ key ∉ b := by
  induction a generalizing b with
  | nil => cases h
  | cons x t ih =>
    unfold splitKey at h
    split at h
    · rename_i e
      cases h
      exact ⟨by rw [e]; rfl, by simp⟩
    · rename_i e
      cases hs : splitKey key t with
      | none => rw [hs] at h; cases h
      | some s =>
        rw [hs] at h
        obtain ⟨s1, s2⟩ := s
        simp only [Option.map_some, Option.some.injEq, Prod.mk.injEq] at h
        obtain ⟨rfl, rfl⟩ := h
        obtain ⟨h1, h2⟩ := ih hs
        exact ⟨by rw [h1]; rfl, by simp [h2, Ne.symm e]⟩

theorem splitKey_eq_none {key : List Char} {a : Args} : splitKey key a = none ↔ key ∉ a := by
  induction a with
  | nil => simp [splitKey]
  | cons x t ih =>
    unfold splitKey
    split
    · rename_i e; simp [e]
    · rename_i e; simp [ih, Ne.symm e]

theorem splitKey_append {key : List Char} {b r : Args} (h : key ∉ b) : splitKey key (b ++ key :: r) = some (b, r) := by
  induction b with
  | nil => simp [splitKey]
  | cons x t ih =>
    have h1 : x ≠ key := fun e => h (by simp [e])
    have h2 : key ∉ t := fun e => h (by simp [e])
    simp [splitKey, h1, ih h2]

theorem optValue_ok_iff {β : Type} {parse : List Char → Option β} {key : String} {a a' : Args} {o : Option β} :
    optValue parse key a = .ok (o, a') ↔ (key.toList ∉ a ∧ o = none ∧ a' = a) ∨
      ∃ b v r y, a = b ++ key.toList :: v :: r ∧ key.toList ∉ b ∧ parse v = some y ∧ o = some y ∧ a' = b ++ r := by
  unfold optValue
  cases hs : splitKey key.toList a with
  | none =>
    have := splitKey_eq_none.mp hs
    simp only [Except.ok.injEq, Prod.mk.injEq]
    constructor
    · rintro ⟨rfl, rfl⟩; exact .inl ⟨this, rfl, rfl⟩
    · rintro (⟨-, rfl, rfl⟩ | ⟨b, v, r, y, rfl, -⟩)
      · exact ⟨rfl, rfl⟩
      · simp at this
  | some s =>
    obtain ⟨b, r⟩ := s
    obtain ⟨h1, h2⟩ := splitKey_eq hs
    cases r with
    | nil =>
      simp only [reduceCtorEq, false_iff]
      rintro (⟨h, -⟩ | ⟨b', v, r, y, h3, h4, -⟩)
      · exact h (by rw [h1]; simp)
      · rw [h3, splitKey_append h4] at hs
        cases hs
    | cons v r =>
      simp only
      cases hp : parse v with
      | none =>
        simp only [reduceCtorEq, false_iff]
        rintro (⟨h, -⟩ | ⟨b', v', r', y, h3, h4, h5, -⟩)
        · exact h (by rw [h1]; simp)
        · rw [h3, splitKey_append h4] at hs
          cases hs
          rw [hp] at h5; cases h5
      | some y =>
        simp only [Except.ok.injEq, Prod.mk.injEq]
        constructor
        · rintro ⟨rfl, rfl⟩; exact .inr ⟨b, v, r, y, h1, h2, hp, rfl, rfl⟩
        · rintro (⟨h, -⟩ | ⟨b', v', r', y', h3, h4, h5, rfl, rfl⟩)
          · exact absurd (by rw [h1]; simp) h
          · rw [h3, splitKey_append h4] at hs
            cases hs
            rw [hp] at h5; cases h5
            exact ⟨rfl, rfl⟩

theorem reqValue_ok_iff {β : Type} {parse : List Char → Option β} {key : String} {a a' : Args} {y : β} :
    reqValue parse key a = .ok (y, a') ↔ ∃ b v r, a = b ++ key.toList :: v :: r ∧ key.toList ∉ b ∧ parse v = some y ∧
      a' = b ++ r := by
  unfold reqValue
  rw [bind_ok_iff]
  constructor
  · rintro ⟨o, a1, h1, h2⟩
    cases o with
    | none => cases h2
    | some y' =>
      cases h2
      rcases optValue_ok_iff.mp h1 with ⟨-, h, -⟩ | ⟨b, v, r, y, e1, e2, e3, e4, e5⟩
      · cases h
      · cases e4; exact ⟨b, v, r, e1, e2, e3, e5⟩
  · rintro ⟨b, v, r, e1, e2, e3, e5⟩
    exact ⟨some y, a', optValue_ok_iff.mpr (.inr ⟨b, v, r, y, e1, e2, e3, rfl, e5⟩), rfl⟩

end Verif
