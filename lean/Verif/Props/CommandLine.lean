import Verif.Lemmas.Args
import Verif.Props.Parse
import Verif.Props.ToolText

/-!
# C87: the command lines of the tools
-/

namespace Verif
open F64 Arith Spec

/-- The options of `julian_tool gregorian`. -/
def gregorianKeys : List (List Char) :=
  ["--year".toList, "--month".toList, "--day".toList, "--hour".toList, "--minute".toList, "--second".toList]

/-- The options of `julian_tool julian`. -/
def julianKeys : List (List Char) := ["--jd".toList, "--jd2".toList]

/-- The options of `sun_angle_tool` that take a value. -/
def sunAngleKeys : List (List Char) :=
  ["--year".toList, "--month".toList, "--day".toList, "--hour".toList, "--min".toList, "--sec".toList, "--lat".toList,
    "--lon".toList, "--height".toList, "--delta0".toList, "--delta1".toList, "--delta_step".toList]

theorem subcommand_some {c : List Char} (h : c.head? ≠ some '-') (r : Args) : subcommand (c :: r) = (some c, r) := by
  show (if c.head? = some '-' then _ else _) = _
  rw [if_neg h]

theorem main_gregorian (p : Profile) (c : List Char) (hc : c = "gregorian".toList ∨ c = "g".toList) (r : Args) :
    julianToolMain p (c :: r) = (gregorianArgs r).map fun s =>
      julianToolGregorian p s.1.year s.1.month s.1.day s.1.hour s.1.minute s.1.second := by
  have h1 : c.head? ≠ some '-' := by rcases hc with rfl | rfl <;> decide
  unfold julianToolMain
  rw [subcommand_some h1]
  simp only
  rw [if_pos hc]
  rfl

theorem main_julian (p : Profile) (c : List Char) (hc : c = "julian".toList ∨ c = "j".toList) (r : Args) :
    julianToolMain p (c :: r) = (julianArgs r).map fun s => julianToolJulian shortest p s.1.1 s.1.2 := by
  have h1 : c.head? ≠ some '-' := by rcases hc with rfl | rfl <;> decide
  have h2 : ¬(c = "gregorian".toList ∨ c = "g".toList) := by rcases hc with rfl | rfl <;> decide
  unfold julianToolMain
  rw [subcommand_some h1]
  simp only
  rw [if_neg h2, if_pos hc]
  rfl

/-- The values given on a command line of `julian_tool gregorian`. -/
structure GregorianGiven (items : List Item) (y m d : ℤ) (hour minute : Option ℤ) (second : Option F64) : Prop where
  year : Gives items "--year".toList parseI32 (some y)
  month : Gives items "--month".toList parseI32 (some m)
  day : Gives items "--day".toList parseI32 (some d)
  hour : Gives items "--hour".toList parseU8 hour
  minute : Gives items "--minute".toList parseU8 minute
  second : Gives items "--second".toList parseF64 second

theorem gregorianArgs_iff (items : List Item) (hw : WellFormed gregorianKeys items) (hn : Valued gregorianKeys items)
    (g : GregorianArgs) : (∃ a, gregorianArgs (flat items) = .ok (g, a)) ↔
      GregorianGiven items g.year g.month g.day g.hour g.minute g.second := by
  constructor
  · rintro ⟨a, h⟩
    unfold gregorianArgs at h
    rw [← left_nil items] at h
    obtain ⟨y, a1, h1, h⟩ := bind_ok_iff.mp h
    obtain ⟨g1, rfl⟩ := (reqValue_iff hw hn _ _ (by decide) (by decide) _ _).mp h1
    obtain ⟨m, a2, h2, h⟩ := bind_ok_iff.mp h
    obtain ⟨g2, rfl⟩ := (reqValue_iff hw hn _ _ (by decide) (by decide) _ _).mp h2
    obtain ⟨d, a3, h3, h⟩ := bind_ok_iff.mp h
    obtain ⟨g3, rfl⟩ := (reqValue_iff hw hn _ _ (by decide) (by decide) _ _).mp h3
    obtain ⟨hh, a4, h4, h⟩ := bind_ok_iff.mp h
    obtain ⟨g4, rfl⟩ := (optValue_iff hw hn _ _ (by decide) (by decide) _ _).mp h4
    obtain ⟨mi, a5, h5, h⟩ := bind_ok_iff.mp h
    obtain ⟨g5, rfl⟩ := (optValue_iff hw hn _ _ (by decide) (by decide) _ _).mp h5
    obtain ⟨s, a6, h6, h⟩ := bind_ok_iff.mp h
    obtain ⟨g6, rfl⟩ := (optValue_iff hw hn _ _ (by decide) (by decide) _ _).mp h6
    cases h
    exact ⟨g1, g2, g3, g4, g5, g6⟩
  · intro h
    refine ⟨flat (left ["--second".toList, "--minute".toList, "--hour".toList, "--day".toList, "--month".toList, "--year".toList]
      items), ?_⟩
    unfold gregorianArgs
    conv_lhs => rw [← left_nil items]
    rw [bind_ok ((reqValue_iff hw hn "--year" _ (by decide) (by decide) _ _).mpr ⟨h.year, rfl⟩),
      bind_ok ((reqValue_iff hw hn "--month" _ (by decide) (by decide) _ _).mpr ⟨h.month, rfl⟩),
      bind_ok ((reqValue_iff hw hn "--day" _ (by decide) (by decide) _ _).mpr ⟨h.day, rfl⟩),
      bind_ok ((optValue_iff hw hn "--hour" _ (by decide) (by decide) _ _).mpr ⟨h.hour, rfl⟩),
      bind_ok ((optValue_iff hw hn "--minute" _ (by decide) (by decide) _ _).mpr ⟨h.minute, rfl⟩),
      bind_ok ((optValue_iff hw hn "--second" _ (by decide) (by decide) _ _).mpr ⟨h.second, rfl⟩)]
    rfl

/-- **C87.** `julian_tool gregorian`, with the options in any order, runs exactly when `--year`, `--month` and `--day` are given and
the texts after these and after `--hour`, `--minute`, `--second` are numbers of the right kind; the run is the one for the
numbers read.  Options it does not know are ignored. -/
theorem C87_gregorian_args (p : Profile) (c : List Char) (hc : c = "gregorian".toList ∨ c = "g".toList) (items : List Item)
    (hw : WellFormed gregorianKeys items) (hn : Valued gregorianKeys items) (r : Run) :
    julianToolMain p (c :: flat items) = .ok r ↔
      ∃ y m d hour minute second, GregorianGiven items y m d hour minute second ∧
        r = julianToolGregorian p y m d hour minute second := by
  rw [main_gregorian p c hc, map_ok_iff]
  constructor
  · rintro ⟨⟨g, a⟩, h, rfl⟩
    exact ⟨_, _, _, _, _, _, (gregorianArgs_iff items hw hn g).mp ⟨a, h⟩, rfl⟩
  · rintro ⟨y, m, d, hour, minute, second, h, rfl⟩
    obtain ⟨a, ha⟩ := (gregorianArgs_iff items hw hn ⟨y, m, d, hour, minute, second⟩).mpr h
    exact ⟨_, ha, rfl⟩

/-- The items of `julian_tool gregorian --year -44 --month 3 --day 15`. -/
example : ∃ items : List Item,
    flat items = ["--year".toList, "-44".toList, "--month".toList, "3".toList, "--day".toList, "15".toList] ∧
    WellFormed gregorianKeys items ∧ Valued gregorianKeys items :=
  ⟨[("--year".toList, some "-44".toList), ("--month".toList, some "3".toList), ("--day".toList, some "15".toList)],
    rfl, ⟨by decide, by decide⟩, by unfold Valued; decide⟩

/-- **C87.** The exact language of `julian_tool julian`: `--jd` with a number, and optionally `--jd2` with one, before or after
it or (by the way the arguments are removed) around it.  Everything else is an error before anything is printed. -/
theorem C87_julian_args (p : Profile) (c : List Char) (hc : c = "julian".toList ∨ c = "j".toList) (args : Args) (r : Run) :
    julianToolMain p (c :: args) = .ok r ↔
      (∃ t x, args = ["--jd".toList, t] ∧ parseF64 t = some x ∧ r = julianToolJulian shortest p x none) ∨
      ∃ t u x y, (args = ["--jd".toList, t, "--jd2".toList, u] ∨ args = ["--jd2".toList, u, "--jd".toList, t] ∨
        args = ["--jd2".toList, "--jd".toList, t, u]) ∧ parseF64 t = some x ∧ parseF64 u = some y ∧
        r = julianToolJulian shortest p x (some y) := by
  have k1 : parseF64 "--jd".toList = none := by decide
  have k2 : parseF64 "--jd2".toList = none := by decide
  have k3 : "--jd".toList ≠ "--jd2".toList := by decide
  rw [main_julian p c hc]
  rw [map_ok_iff]
  have hrun : ∀ x o a, julianArgs args = .ok ((x, o), a) ↔
      ∃ a1, reqValue parseF64 "--jd" args = .ok (x, a1) ∧ optValue parseF64 "--jd2" a1 = .ok (o, []) ∧ a = [] := by
    intro x o a
    unfold julianArgs
    rw [bind_ok_iff]
    constructor
    · rintro ⟨x', a1, h1, h2⟩
      obtain ⟨o', a2, h3, h4⟩ := bind_ok_iff.mp h2
      obtain ⟨_, a3, h5, h6⟩ := bind_ok_iff.mp h4
      unfold finish at h5
      split at h5
      · rename_i h0
        cases h5; cases h6
        subst h0
        exact ⟨a1, h1, h3, rfl⟩
      · cases h5
    · rintro ⟨a1, h1, h2, rfl⟩
      exact ⟨x, a1, h1, by rw [bind_ok h2]; rfl⟩
  constructor
  · rintro ⟨⟨⟨x, o⟩, a⟩, h, rfl⟩
    obtain ⟨a1, h1, h2, -⟩ := (hrun x o a).mp h
    obtain ⟨b, t, s, rfl, hb, ht, rfl⟩ := reqValue_ok_iff.mp h1
    rcases optValue_ok_iff.mp h2 with ⟨-, rfl, he⟩ | ⟨b', u, r', y, he, hb', hu, rfl, he'⟩
    · have hbn := List.append_eq_nil_iff.mp he.symm
      obtain ⟨rfl, rfl⟩ := hbn
      exact .inl ⟨t, x, rfl, ht, rfl⟩
    · obtain ⟨rfl, rfl⟩ := List.append_eq_nil_iff.mp he'.symm
      refine .inr ⟨t, u, x, y, ?_, ht, hu, rfl⟩
      rw [List.nil_append] at he
      cases b with
      | nil =>
        rw [List.nil_append] at he
        subst he
        exact .inl rfl
      | cons b1 b2 =>
        rw [List.cons_append] at he
        obtain ⟨e1, he2⟩ := List.cons.inj he
        rw [e1]
        cases b2 with
        | nil =>
          rw [List.nil_append] at he2
          rw [he2]
          exact .inr (.inr rfl)
        | cons b3 b4 =>
          rw [List.cons_append] at he2
          obtain ⟨e3, he3⟩ := List.cons.inj he2
          obtain ⟨e4, e5⟩ := List.append_eq_nil_iff.mp he3
          rw [e3, e4, e5]
          exact .inr (.inl rfl)
  · rintro (⟨t, x, rfl, ht, rfl⟩ | ⟨t, u, x, y, h, ht, hu, rfl⟩)
    · refine ⟨((x, none), []), (hrun _ _ _).mpr ⟨[], reqValue_ok_iff.mpr ⟨[], t, [], rfl, by simp, ht, rfl⟩,
        optValue_ok_iff.mpr (.inl ⟨by simp, rfl, rfl⟩), rfl⟩, rfl⟩
    · have h2 : optValue parseF64 "--jd2" ["--jd2".toList, u] = .ok (some y, []) :=
        optValue_ok_iff.mpr (.inr ⟨[], u, [], y, rfl, by simp, hu, rfl, rfl⟩)
      refine ⟨((x, some y), []), (hrun _ _ _).mpr ⟨["--jd2".toList, u], reqValue_ok_iff.mpr ?_, h2, rfl⟩, rfl⟩
      rcases h with rfl | rfl | rfl
      · exact ⟨[], t, ["--jd2".toList, u], rfl, by simp, ht, rfl⟩
      · refine ⟨["--jd2".toList, u], t, [], rfl, ?_, ht, rfl⟩
        have : "--jd".toList ≠ u := by rintro rfl; rw [k1] at hu; cases hu
        simp only [List.mem_cons, List.not_mem_nil, or_false, not_or]
        exact ⟨k3, this⟩
      · exact ⟨["--jd2".toList], t, [u], rfl, by simp, ht, rfl⟩

/-- The values given on a command line of `sun_angle_tool`. -/
structure SunAngleGiven (items : List Item) (a : ToolArgs F64) : Prop where
  year : Gives items "--year".toList parseI32 a.year
  month : Gives items "--month".toList parseI32 a.month
  day : Gives items "--day".toList parseI32 a.day
  hour : Gives items "--hour".toList parseU8 a.hour
  minute : Gives items "--min".toList parseU8 a.minute
  second : Gives items "--sec".toList parseF64 a.second
  lat : Gives items "--lat".toList parseF64 a.lat
  lon : Gives items "--lon".toList parseF64 a.lon
  height : Gives items "--height".toList parseF64 a.height
  delta0 : Gives items "--delta0".toList parseF64 a.delta0
  delta1 : Gives items "--delta1".toList parseF64 a.delta1
  delta_step : Gives items "--delta_step".toList parseF64 a.delta_step
  scan : a.scan = true ↔ ("--scan".toList, none) ∈ items

theorem sunAngleArgs_iff (items : List Item) (hw : WellFormed ("--scan".toList :: sunAngleKeys) items)
    (hn : Valued sunAngleKeys items) (hF : ∀ t, ("--scan".toList, some t) ∉ items) (g : ToolArgs F64) :
    (∃ r, sunAngleArgs (flat items) = .ok (g, r)) ↔
      SunAngleGiven items g ∧ ∀ it ∈ items, it.1 ∈ "--scan".toList :: sunAngleKeys := by
  have hw1 : WellFormed sunAngleKeys items := ⟨hw.1, fun it hi v e h => hw.2 it hi v e (List.mem_cons_of_mem _ h)⟩
  have last : ∀ read : List (List Char), (∀ k, k ∈ read ↔ k ∈ "--scan".toList :: sunAngleKeys) →
      (flat (left read items) = [] ↔ ∀ it ∈ items, it.1 ∈ "--scan".toList :: sunAngleKeys) := by
    intro read hr
    rw [flat_eq_nil, List.eq_nil_iff_forall_not_mem]
    constructor
    · intro h it hi
      by_contra hc
      exact h it (mem_left.mpr ⟨hi, fun h' => hc ((hr _).mp h')⟩)
    · intro h it hi
      obtain ⟨h1, h2⟩ := mem_left.mp hi
      exact h2 ((hr _).mpr (h it h1))
  have perm : ∀ k, k ∈ ["--scan".toList, "--delta_step".toList, "--delta1".toList, "--delta0".toList, "--height".toList,
      "--lon".toList, "--lat".toList, "--sec".toList, "--min".toList, "--hour".toList, "--day".toList, "--month".toList,
      "--year".toList] ↔ k ∈ "--scan".toList :: sunAngleKeys := by
    have hp : List.Perm ["--scan".toList, "--delta_step".toList, "--delta1".toList, "--delta0".toList, "--height".toList,
      "--lon".toList, "--lat".toList, "--sec".toList, "--min".toList, "--hour".toList, "--day".toList, "--month".toList,
      "--year".toList] ("--scan".toList :: sunAngleKeys) := by decide
    exact fun k => hp.mem_iff
  constructor
  · rintro ⟨r, h⟩
    unfold sunAngleArgs at h
    rw [← left_nil items] at h
    obtain ⟨x1, a1, h1, h⟩ := bind_ok_iff.mp h
    obtain ⟨g1, rfl⟩ := (optValue_iff hw1 hn _ _ (by decide) (by decide) _ _).mp h1
    obtain ⟨x2, a1, h1, h⟩ := bind_ok_iff.mp h
    obtain ⟨g2, rfl⟩ := (optValue_iff hw1 hn _ _ (by decide) (by decide) _ _).mp h1
    obtain ⟨x3, a1, h1, h⟩ := bind_ok_iff.mp h
    obtain ⟨g3, rfl⟩ := (optValue_iff hw1 hn _ _ (by decide) (by decide) _ _).mp h1
    obtain ⟨x4, a1, h1, h⟩ := bind_ok_iff.mp h
    obtain ⟨g4, rfl⟩ := (optValue_iff hw1 hn _ _ (by decide) (by decide) _ _).mp h1
    obtain ⟨x5, a1, h1, h⟩ := bind_ok_iff.mp h
    obtain ⟨g5, rfl⟩ := (optValue_iff hw1 hn _ _ (by decide) (by decide) _ _).mp h1
    obtain ⟨x6, a1, h1, h⟩ := bind_ok_iff.mp h
    obtain ⟨g6, rfl⟩ := (optValue_iff hw1 hn _ _ (by decide) (by decide) _ _).mp h1
    obtain ⟨x7, a1, h1, h⟩ := bind_ok_iff.mp h
    obtain ⟨g7, rfl⟩ := (optValue_iff hw1 hn _ _ (by decide) (by decide) _ _).mp h1
    obtain ⟨x8, a1, h1, h⟩ := bind_ok_iff.mp h
    obtain ⟨g8, rfl⟩ := (optValue_iff hw1 hn _ _ (by decide) (by decide) _ _).mp h1
    obtain ⟨x9, a1, h1, h⟩ := bind_ok_iff.mp h
    obtain ⟨g9, rfl⟩ := (optValue_iff hw1 hn _ _ (by decide) (by decide) _ _).mp h1
    obtain ⟨x10, a1, h1, h⟩ := bind_ok_iff.mp h
    obtain ⟨g10, rfl⟩ := (optValue_iff hw1 hn _ _ (by decide) (by decide) _ _).mp h1
    obtain ⟨x11, a1, h1, h⟩ := bind_ok_iff.mp h
    obtain ⟨g11, rfl⟩ := (optValue_iff hw1 hn _ _ (by decide) (by decide) _ _).mp h1
    obtain ⟨x12, a1, h1, h⟩ := bind_ok_iff.mp h
    obtain ⟨g12, rfl⟩ := (optValue_iff hw1 hn _ _ (by decide) (by decide) _ _).mp h1
    rw [bind_ok (hasFlag_left hw (List.mem_cons_self ..) hF _ (by decide))] at h
    obtain ⟨_, a1, h1, h⟩ := bind_ok_iff.mp h
    unfold finish at h1
    split at h1
    · rename_i h0
      cases h1; cases h
      exact ⟨⟨g1, g2, g3, g4, g5, g6, g7, g8, g9, g10, g11, g12, by simp⟩, (last _ perm).mp h0⟩
    · cases h1
  · rintro ⟨h, hk⟩
    have h0 := (last _ perm).mpr hk
    refine ⟨[], ?_⟩
    unfold sunAngleArgs
    conv_lhs => rw [← left_nil items]
    rw [bind_ok ((optValue_iff hw1 hn "--year" _ (by decide) (by decide) _ _).mpr ⟨h.year, rfl⟩),
      bind_ok ((optValue_iff hw1 hn "--month" _ (by decide) (by decide) _ _).mpr ⟨h.month, rfl⟩),
      bind_ok ((optValue_iff hw1 hn "--day" _ (by decide) (by decide) _ _).mpr ⟨h.day, rfl⟩),
      bind_ok ((optValue_iff hw1 hn "--hour" _ (by decide) (by decide) _ _).mpr ⟨h.hour, rfl⟩),
      bind_ok ((optValue_iff hw1 hn "--min" _ (by decide) (by decide) _ _).mpr ⟨h.minute, rfl⟩),
      bind_ok ((optValue_iff hw1 hn "--sec" _ (by decide) (by decide) _ _).mpr ⟨h.second, rfl⟩),
      bind_ok ((optValue_iff hw1 hn "--lat" _ (by decide) (by decide) _ _).mpr ⟨h.lat, rfl⟩),
      bind_ok ((optValue_iff hw1 hn "--lon" _ (by decide) (by decide) _ _).mpr ⟨h.lon, rfl⟩),
      bind_ok ((optValue_iff hw1 hn "--height" _ (by decide) (by decide) _ _).mpr ⟨h.height, rfl⟩),
      bind_ok ((optValue_iff hw1 hn "--delta0" _ (by decide) (by decide) _ _).mpr ⟨h.delta0, rfl⟩),
      bind_ok ((optValue_iff hw1 hn "--delta1" _ (by decide) (by decide) _ _).mpr ⟨h.delta1, rfl⟩),
      bind_ok ((optValue_iff hw1 hn "--delta_step" _ (by decide) (by decide) _ _).mpr ⟨h.delta_step, rfl⟩),
      bind_ok (hasFlag_left hw (List.mem_cons_self ..) hF _ (by decide)), h0]
    have hb : decide (("--scan".toList, none) ∈ items) = g.scan := by
      have := h.scan
      cases hs : g.scan <;> rw [hs] at this <;> simpa using this
    rw [hb]
    rfl

/-- **C87.** `sun_angle_tool`, with the options in any order, runs exactly when every option is one it knows and the texts after the
options are numbers of the right kind; the run is the one for the numbers read and for the presence of the flag `--scan`. -/
theorem C87_sun_angle_args [Libm F64] (p : Profile) (items : List Item) (n : ℕ)
    (hw : WellFormed ("--scan".toList :: sunAngleKeys) items) (hn : Valued sunAngleKeys items)
    (hF : ∀ t, ("--scan".toList, some t) ∉ items) (r : Option Run) :
    sunAngleToolMain p (flat items) n = .ok r ↔ (∀ it ∈ items, it.1 ∈ "--scan".toList :: sunAngleKeys) ∧
      ∃ a, SunAngleGiven items a ∧ r = sunAngleToolText p a n := by
  unfold sunAngleToolMain
  rw [map_ok_iff]
  constructor
  · rintro ⟨⟨g, a⟩, h, rfl⟩
    obtain ⟨h1, h2⟩ := (sunAngleArgs_iff items hw hn hF g).mp ⟨a, h⟩
    exact ⟨h2, g, h1, rfl⟩
  · rintro ⟨h2, g, h1, rfl⟩
    obtain ⟨a, ha⟩ := (sunAngleArgs_iff items hw hn hF g).mpr ⟨h1, h2⟩
    exact ⟨(g, a), ha, rfl⟩

theorem Spec.Gives.perm {β : Type} {items items' : List Item} (h : items.Perm items') {key : List Char}
    {parse : List Char → Option β} {o : Option β} : Gives items key parse o ↔ Gives items' key parse o := by
  cases o with
  | none => exact ⟨fun g it hi => g it (h.mem_iff.mpr hi), fun g it hi => g it (h.mem_iff.mp hi)⟩
  | some y =>
    exact ⟨fun ⟨t, g1, g2⟩ => ⟨t, h.mem_iff.mp g1, g2⟩, fun ⟨t, g1, g2⟩ => ⟨t, h.mem_iff.mpr g1, g2⟩⟩

/-- **C87.** The order of the options does not matter. -/
theorem C87_order [Libm F64] (p : Profile) (items items' : List Item) (h : items.Perm items') (n : ℕ) :
    (WellFormed gregorianKeys items → Valued gregorianKeys items → ∀ c, c = "gregorian".toList ∨ c = "g".toList → ∀ r,
      (julianToolMain p (c :: flat items) = .ok r ↔ julianToolMain p (c :: flat items') = .ok r)) ∧
    (WellFormed ("--scan".toList :: sunAngleKeys) items → Valued sunAngleKeys items → (∀ t, ("--scan".toList, some t) ∉ items) → ∀ r,
      (sunAngleToolMain p (flat items) n = .ok r ↔ sunAngleToolMain p (flat items') n = .ok r)) := by
  have wf : ∀ {K}, WellFormed K items → WellFormed K items' := fun hw =>
    ⟨(h.map Prod.fst).nodup hw.1, fun it hi => hw.2 it (h.mem_iff.mpr hi)⟩
  have vl : ∀ {K}, Valued K items → Valued K items' := fun hn it hi => hn it (h.mem_iff.mpr hi)
  constructor
  · intro hw hn c hc r
    rw [C87_gregorian_args p c hc items hw hn, C87_gregorian_args p c hc items' (wf hw) (vl hn)]
    refine exists_congr fun y => exists_congr fun m => exists_congr fun d => exists_congr fun a => exists_congr fun b =>
      exists_congr fun s => and_congr_left fun _ => ⟨fun g => ?_, fun g => ?_⟩
    · exact ⟨(Gives.perm h).mp g.1, (Gives.perm h).mp g.2, (Gives.perm h).mp g.3, (Gives.perm h).mp g.4, (Gives.perm h).mp g.5,
        (Gives.perm h).mp g.6⟩
    · exact ⟨(Gives.perm h).mpr g.1, (Gives.perm h).mpr g.2, (Gives.perm h).mpr g.3, (Gives.perm h).mpr g.4,
        (Gives.perm h).mpr g.5, (Gives.perm h).mpr g.6⟩
  · intro hw hn hF r
    rw [C87_sun_angle_args p items n hw hn hF, C87_sun_angle_args p items' n (wf hw) (vl hn) (fun t ht => hF t (h.mem_iff.mpr ht))]
    refine and_congr ⟨fun g it hi => g it (h.mem_iff.mpr hi), fun g it hi => g it (h.mem_iff.mp hi)⟩
      (exists_congr fun a => and_congr_left fun _ => ⟨fun g => ?_, fun g => ?_⟩)
    · exact ⟨(Gives.perm h).mp g.1, (Gives.perm h).mp g.2, (Gives.perm h).mp g.3, (Gives.perm h).mp g.4, (Gives.perm h).mp g.5,
        (Gives.perm h).mp g.6, (Gives.perm h).mp g.7, (Gives.perm h).mp g.8, (Gives.perm h).mp g.9, (Gives.perm h).mp g.10,
        (Gives.perm h).mp g.11, (Gives.perm h).mp g.12, g.13.trans h.mem_iff⟩
    · exact ⟨(Gives.perm h).mpr g.1, (Gives.perm h).mpr g.2, (Gives.perm h).mpr g.3, (Gives.perm h).mpr g.4,
        (Gives.perm h).mpr g.5, (Gives.perm h).mpr g.6, (Gives.perm h).mpr g.7, (Gives.perm h).mpr g.8, (Gives.perm h).mpr g.9,
        (Gives.perm h).mpr g.10, (Gives.perm h).mpr g.11, (Gives.perm h).mpr g.12, g.13.trans h.mem_iff.symm⟩

/-- **C87.** `julian_tool` without a subcommand, or with another word than the four, is an error before anything is printed; so is
`gregorian` when `--year`, `--month` or `--day` does not occur among the arguments, whatever they are. -/
theorem C87_rejected (p : Profile) :
    julianToolMain p [] = .error .subcommand ∧
    (∀ c args, c ≠ "gregorian".toList → c ≠ "g".toList → c ≠ "julian".toList → c ≠ "j".toList →
      julianToolMain p (c :: args) = .error .subcommand) ∧
    ∀ c args, c = "gregorian".toList ∨ c = "g".toList →
      "--year".toList ∉ args ∨ "--month".toList ∉ args ∨ "--day".toList ∉ args → ∀ r, julianToolMain p (c :: args) ≠ .ok r := by
  refine ⟨rfl, fun c args h1 h2 h3 h4 => ?_, fun c args hc h r hr => ?_⟩
  · by_cases hd : c.head? = some '-'
    · unfold julianToolMain
      have : subcommand (c :: args) = (none, c :: args) := by
        show (if c.head? = some '-' then _ else _) = _
        rw [if_pos hd]
      rw [this]
    · unfold julianToolMain
      rw [subcommand_some hd]
      simp only
      rw [if_neg (by tauto), if_neg (by tauto)]
  · rw [main_gregorian p c hc, map_ok_iff] at hr
    obtain ⟨x, hx, -⟩ := hr
    unfold gregorianArgs at hx
    obtain ⟨_, a1, h1, hx⟩ := bind_ok_iff.mp hx
    obtain ⟨b, v, s, rfl, -, -, rfl⟩ := reqValue_ok_iff.mp h1
    obtain ⟨_, a2, h2, hx⟩ := bind_ok_iff.mp hx
    obtain ⟨b', v', s', e', -, -, rfl⟩ := reqValue_ok_iff.mp h2
    obtain ⟨_, a3, h3, -⟩ := bind_ok_iff.mp hx
    obtain ⟨b3, v3, s3, e3, -⟩ := reqValue_ok_iff.mp h3
    have m2 : "--month".toList ∈ b ++ s := by rw [e']; simp
    have m3 : "--day".toList ∈ b' ++ s' := by rw [e3]; simp
    have m4 : "--day".toList ∈ b ++ s := by
      rw [e']
      rcases List.mem_append.mp m3 with h | h
      · exact List.mem_append_left _ h
      · exact List.mem_append_right _ (List.mem_cons_of_mem _ (List.mem_cons_of_mem _ h))
    have up : ∀ k, k ∈ b ++ s → k ∈ b ++ "--year".toList :: v :: s := by
      intro k hk
      rcases List.mem_append.mp hk with h | h
      · exact List.mem_append_left _ h
      · exact List.mem_append_right _ (List.mem_cons_of_mem _ (List.mem_cons_of_mem _ h))
    rcases h with h | h | h
    · exact h (List.mem_append_right _ List.mem_cons_self)
    · exact h (up _ m2)
    · exact h (up _ m4)

/-- The items of `sun_angle_tool --scan --lat -12.5 --year 2019`, in two orders: the hypotheses of `C87_sun_angle_args` and
`C87_order` hold, and the command line is accepted. -/
example [Libm F64] : ∃ items items' : List Item, items.Perm items' ∧ items ≠ items' ∧
    flat items = ["--scan".toList, "--lat".toList, "-12.5".toList, "--year".toList, "2019".toList] ∧
    WellFormed ("--scan".toList :: sunAngleKeys) items ∧ Valued sunAngleKeys items ∧ (∀ t, ("--scan".toList, some t) ∉ items) ∧
    ∃ a, SunAngleGiven items a ∧ a.lat = some (lit (-12.5)) ∧ a.scan = true ∧ a.lon = none := by
  refine ⟨[("--scan".toList, none), ("--lat".toList, some "-12.5".toList), ("--year".toList, some "2019".toList)],
    [("--lat".toList, some "-12.5".toList), ("--year".toList, some "2019".toList), ("--scan".toList, none)],
    by decide, by decide, rfl, ⟨by decide, by decide⟩, by unfold Valued; decide, by intro t; simp, ?_⟩
  refine ⟨⟨some 2019, none, none, none, none, none, some (lit (-12.5)), none, none, none, none, none, true⟩, ⟨⟨"2019".toList, by decide, by decide⟩,
    ?_, ?_, ?_, ?_, ?_, ⟨"-12.5".toList, by decide, by decide +kernel⟩, ?_, ?_, ?_, ?_, ?_, by simp⟩, rfl, rfl, rfl⟩
  all_goals unfold Gives; decide

/-- Two of the three shapes of `julian` with two numbers, and two command lines that are refused: an option where the subcommand
should be, and a repeated option. -/
example : (julianArgs ["--jd".toList, "1".toList, "--jd2".toList, "-2".toList]).toOption.map Prod.fst =
      some ((lit 1, some (lit (-2))) : F64 × Option F64) ∧
    (julianArgs ["--jd2".toList, "--jd".toList, "1".toList, "-2".toList]).toOption.map Prod.fst =
      some ((lit 1, some (lit (-2))) : F64 × Option F64) ∧
    julianToolMain .checked ["--jd".toList, "1".toList] = .error .subcommand ∧
    (julianToolMain .checked ["j".toList, "--jd".toList, "1".toList, "--jd".toList, "2".toList]).toOption.isNone :=
  ⟨by decide +kernel, by decide +kernel, rfl, by decide +kernel⟩

end Verif
