import Verif.Model.Loops
import Mathlib.Data.List.Forall2

/-!
# C98: the loops of `nutation` and `cio` stay inside their tables
-/

namespace Verif
open Arith

theorem loop_fold {β γ δ : Type} {g : γ → β → Rust γ} {f : γ → δ → γ} {is : List β} {bs : List δ}
    (h : List.Forall₂ (fun i b => ∀ s, g s i = .ok (f s b)) is bs) (s : γ) : is.foldlM g s = .ok (bs.foldl f s) := by
  induction h generalizing s with
  | nil => rfl
  | cons h _ ih =>
    rw [List.foldlM_cons, h s]
    exact ih _

/-- Every position of a list. -/
theorem forall₂_range {δ : Type} (l : List δ) : List.Forall₂ (fun i b => l[i]? = some b) (List.range l.length) l := by
  rw [List.forall₂_iff_get]
  refine ⟨List.length_range, fun i h1 h2 => ?_⟩
  simp [h2]

/-- A loop over the indices of a list. -/
theorem loop_up {γ δ : Type} {g : γ → ℕ → Rust γ} {f : γ → δ → γ} (l : List δ) (n : ℕ) (hn : n = l.length)
    (h : ∀ i b, l[i]? = some b → ∀ s, g s i = .ok (f s b)) (s : γ) : (List.range n).foldlM g s = .ok (l.foldl f s) := by
  subst hn
  exact loop_fold ((forall₂_range l).imp h) s

/-- The same downwards. -/
theorem loop_down {γ δ : Type} {g : γ → ℕ → Rust γ} {f : γ → δ → γ} (l : List δ) (n : ℕ) (hn : n = l.length)
    (h : ∀ i b, l[i]? = some b → ∀ s, g s i = .ok (f s b)) (s : γ) :
    (List.range n).reverse.foldlM g s = .ok (l.reverse.foldl f s) := by
  subst hn
  exact loop_fold (List.forall₂_reverse_iff.mpr ((forall₂_range l).imp h)) s

theorem index_ok {β : Type} {l : List β} {i : ℕ} {b : β} (h : l[i]? = some b) : index l i = .ok b := by
  unfold index; rw [h]

theorem zip_some {β γ : Type} {l : List β} {m : List γ} {i : ℕ} {p : β × γ} (h : (l.zip m)[i]? = some p) :
    l[i]? = some p.1 ∧ m[i]? = some p.2 := by
  rw [List.getElem?_zip_eq_some] at h
  exact h

variable {α : Type} [Arith α]

/-- **C98.** For every date, in exact arithmetic or in f64 and with every mathematical library, the loop of `nutation` reads no row
outside its tables, reads all of them from the last to the first, and its result is the sum of C65. -/
theorem C98_nutation_loop [Libm α] (tt : α × α) : nutationLoop tt = .ok (nutation tt) := by
  unfold nutationLoop nutation
  extract_lets t el elp f d om
  rw [loop_down (NALS.zip CLS) NLS (by decide)
    (f := fun (acc : α × α) p =>
      let arg := nutArg el elp f d om p.1
      let sarg := Libm.sin arg
      let carg := Libm.cos arg
      (acc.1 +. ((flt p.2.c0 +. flt p.2.c1 *. t) *. sarg +. flt p.2.c2 *. carg),
       acc.2 +. ((flt p.2.c3 +. flt p.2.c4 *. t) *. carg +. flt p.2.c5 *. sarg)))
    (fun i p h s => by
      obtain ⟨h1, h2⟩ := zip_some h
      rw [index_ok h1, index_ok h2]
      rfl)]
  rfl

theorem argument_loop (ks : List ℤ) (fa : List α) (h1 : ks.length = 8) (h2 : fa.length = 8) :
    argumentLoop ks fa = .ok (argument ks fa) := by
  unfold argumentLoop argument
  rw [loop_up (ks.zip fa) 8 (by simp [h1, h2]) (f := fun a p => a +. ofInt p.1 *. p.2) (fun i p h s => by
    obtain ⟨k1, k2⟩ := zip_some h
    rw [index_ok k1, index_ok k2]
    rfl)]

theorem sCoef_loop [Libm α] (fa : List α) (h2 : fa.length = 8) (sp : ℤ) (ks : List (List ℤ)) (ss : List (ℤ × ℤ))
    (hk : ∀ k ∈ ks, k.length = 8) (hl : ks.length = ss.length) :
    sCoefLoop fa ks ss (micro sp) = .ok (sCoef fa sp ks ss) := by
  unfold sCoefLoop sCoef
  rw [loop_down (ks.zip ss) ks.length (by simp [hl]) (f := fun s p =>
    let a := argument p.1 fa
    s +. (micro p.2.1 *. Libm.sin a +. micro p.2.2 *. Libm.cos a)) (fun i p h s => by
    obtain ⟨k1, k2⟩ := zip_some h
    have := argument_loop p.1 fa (hk _ (List.mem_of_getElem? k1)) h2
    rw [index_ok k1, index_ok k2]
    show ((argumentLoop p.1 fa).bind fun a => _) = _
    rw [this]
    rfl)]

/-- **C98.** The same for `cio`: all five loops over the terms and the loop over the eight arguments stay inside their tables. -/
theorem C98_locator_loop [Libm α] (tt : α × α) (x y : α) : cioLoop tt x y = .ok (cio tt x y) := by
  unfold cioLoop cio
  extract_lets t fa s0 s1 s2 s3 s4 s5
  have hl : fa.length = 8 := rfl
  have e0 := sCoef_loop fa hl 9400 KS0 SS0 (by decide) (by decide)
  have e1 := sCoef_loop fa hl 380835 KS1 SS1 (by decide) (by decide)
  have e2 := sCoef_loop fa hl (-11994) KS2 SS2 (by decide) (by decide)
  have e3 := sCoef_loop fa hl (-7257409) KS3 SS3 (by decide) (by decide)
  have e4 := sCoef_loop fa hl 2770 KS4 SS4 (by decide) (by decide)
  have key : (List.range 5).foldlM (fun (s : List α) k => do
      let ksk ← index KSS k
      let ssk ← index SSS k
      return s.set k (← sCoefLoop fa ksk ssk (← index s k))) (SP.map micro) =
      (.ok [s0, s1, s2, s3, s4, s5] : Rust (List α)) := by
    simp only [List.range, List.range.loop, List.foldlM_cons, List.foldlM_nil, SP, List.map_cons, List.map_nil]
    simp only [index, KSS, SSS, List.getElem?_cons_zero, List.getElem?_cons_succ, e0, e1, e2, e3, e4, bind, Except.bind, pure, Except.pure,
      List.set_cons_zero, List.set_cons_succ]
    rfl
  rw [key]
  rfl

/-- **C98.** The loops read every row, so that a longer or shorter bound would not do. -/
theorem C98_bounds_are_tight : NALS.length = NLS ∧ CLS.length = NLS ∧ KSS.length = 5 ∧ SSS.length = 5 ∧ SP.length = 6 ∧
    (∀ k < 5, (KSS[k]?).map List.length = (SSS[k]?).map List.length) ∧
    (∀ ks ∈ KSS, ∀ k ∈ ks, k.length = 8) ∧ index NALS NLS = .error .index ∧ index CLS NLS = .error .index := by
  refine ⟨by decide, by decide, by decide, by decide, by decide, by decide, by decide, rfl, rfl⟩

/-- J2000.0 with a library that exists. -/
example : ∃ (L : Libm F64) (r : F64 × F64), @nutationLoop F64 _ L (lit 2451545, lit 0) = .ok r :=
  ⟨⟨id, id, id, id, id, id, fun a _ => a⟩, _, @C98_nutation_loop F64 _ ⟨id, id, id, id, id, id, fun a _ => a⟩ _⟩

end Verif
