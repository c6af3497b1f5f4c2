import Mathlib.Tactic.Ring
import Mathlib.Tactic.Linarith
import Mathlib.Algebra.Order.Floor.Defs
import Verif.Spec.Simulation
import Verif.Lemmas.Field

/-!
# Lemmas about ranges
-/

set_option autoImplicit false

namespace Postpic

open Postpic.Spec

theorem rangeLen_iff {a b step : ℤ} (h : step ≠ 0) (k : ℕ) :
    k < rangeLen a b step ↔ if 0 < step then a + k * step < b else b < a + k * step := by
  unfold rangeLen
  by_cases hp : 0 < step
  · rw [if_pos hp, if_pos hp]
    have : (k : ℤ) < (b - a + step - 1) / step ↔ a + k * step < b := by
      rw [← Int.add_one_le_iff, Int.le_ediv_iff_mul_le hp]
      constructor <;> intro h <;> nlinarith
    rw [← this]
    omega
  · rw [if_neg hp, if_neg hp]
    have hn : 0 < -step := by omega
    have : (k : ℤ) < (a - b - step - 1) / (-step) ↔ b < a + k * step := by
      rw [← Int.add_one_le_iff, Int.le_ediv_iff_mul_le hn]
      constructor <;> intro h <;> nlinarith
    rw [← this]
    omega

theorem pyRange_get {a b step : ℤ} (m : ℕ) (x : ℤ) :
    (pyRange a b step)[m]? = some x ↔ m < rangeLen a b step ∧ x = a + m * step := by
  unfold pyRange
  rw [List.getElem?_map]
  by_cases h : m < rangeLen a b step
  · rw [List.getElem?_range h]
    simp [h, eq_comm]
  · rw [List.getElem?_eq_none (by simpa using h)]
    simp [h]

theorem mem_pyRange {a b step : ℤ} (h : step ≠ 0) (x : ℤ) :
    x ∈ pyRange a b step ↔ SlicePlace a b step x := by
  rw [List.mem_iff_getElem?]
  unfold SlicePlace
  constructor
  · rintro ⟨m, hm⟩
    obtain ⟨h1, rfl⟩ := (pyRange_get m x).1 hm
    exact ⟨m, rfl, (rangeLen_iff h m).1 h1⟩
  · rintro ⟨m, rfl, h1⟩
    exact ⟨m, (pyRange_get m _).2 ⟨(rangeLen_iff h m).2 h1, rfl⟩⟩

theorem sliceIndices_eq (n : ℕ) (start stop : Option ℤ) (step : ℤ) (h : step ≠ 0) :
    sliceIndices n start stop (some step) =
      .ok (firstLimit n step start, secondLimit n step stop, step) := by
  have key : ∀ v : ℤ, adjustIndex n (if step < 0 then -1 else 0)
      (if step < 0 then (n : ℤ) - 1 else n) v = firstLimit n step (some v) := by
    intro v
    unfold adjustIndex firstLimit
    split_ifs <;> simp <;> omega
  unfold sliceIndices
  simp only [Option.getD_some, if_neg h]
  congr 2
  · cases start with
    | none => simp only [firstLimit]; split_ifs <;> omega
    | some v => exact key v
  · congr 1
    cases stop with
    | none => simp only [secondLimit]; split_ifs <;> omega
    | some v => exact key v

/-- All selected places lie in the sequence. -/
theorem slicePlace_inside {n : ℕ} {start stop : Option ℤ} {step : ℤ} (h : step ≠ 0) {x : ℤ}
    (hx : SlicePlace (firstLimit n step start) (secondLimit n step stop) step x) :
    0 ≤ x ∧ x < n := by
  obtain ⟨m, rfl, hx⟩ := hx
  have f1 : 0 < step → 0 ≤ firstLimit n step start := by
    intro hp
    cases start <;> simp [firstLimit, hp]
  have f2 : 0 < step → secondLimit n step stop ≤ n := by
    intro hp
    cases stop <;> simp [secondLimit, firstLimit, hp]
  have f3 : ¬ 0 < step → firstLimit n step start ≤ n - 1 := by
    intro hp
    cases start <;> simp [firstLimit, hp]
  have f4 : ¬ 0 < step → -1 ≤ secondLimit n step stop := by
    intro hp
    cases stop <;> simp [secondLimit, firstLimit, hp]
  by_cases hp : 0 < step
  · rw [if_pos hp] at hx
    have := f1 hp
    have := f2 hp
    have : 0 ≤ (m : ℤ) * step := by positivity
    omega
  · rw [if_neg hp] at hx
    have := f3 hp
    have := f4 hp
    have : (m : ℤ) * step ≤ 0 := mul_nonpos_of_nonneg_of_nonpos (by positivity) (by omega)
    omega

theorem mapM_of_get {α β : Type} {f : α → Res β} {l : List α} {r : List β}
    (hl : r.length = l.length)
    (h : ∀ (m : ℕ) (a : α) (b : β), l[m]? = some a → r[m]? = some b → f a = .ok b) :
    l.mapM f = .ok r := by
  induction l generalizing r with
  | nil =>
    have : r = [] := List.length_eq_zero_iff.1 (by simpa using hl)
    rw [this]
    rfl
  | cons a l ih =>
    cases r with
    | nil => simp at hl
    | cons b r =>
      rw [List.mapM_cons, h 0 a b rfl rfl, ih (by simpa using hl) fun m => h (m + 1)]
      rfl

end Postpic
