import Mathlib.Algebra.BigOperators.Group.Finset.Basic
import Mathlib.Tactic.FieldSimp
import Mathlib.Tactic.Linarith
import Mathlib.Tactic.Positivity
import Verif.Lemmas.Axis
import Verif.Props.Plotter

/-!
# Lineouts of pictures
-/

set_option autoImplicit false

namespace Postpic.Props

open Postpic Postpic.Axes Postpic.Fields Postpic.Plot

/-- `i/(m - 1)` lies between `i/m` and `(i + 1)/m`. -/
theorem linspace_in_cell (lo hi : ℝ) (h : lo ≤ hi) (m i : ℕ) (hi' : i < m) :
    lo + (i : ℝ) * ((hi - lo) / m) ≤ lo + (i : ℝ) * ((hi - lo) / ((m - 1 : ℕ) : ℝ)) ∧
    lo + (i : ℝ) * ((hi - lo) / ((m - 1 : ℕ) : ℝ)) ≤ lo + ((i : ℝ) + 1) * ((hi - lo) / m) := by
  obtain ⟨k, rfl⟩ : ∃ k, m = k + 1 := ⟨m - 1, by omega⟩
  have hd : 0 ≤ hi - lo := by linarith
  rw [Nat.add_sub_cancel]
  push_cast
  have hk1 : (0 : ℝ) < (k : ℝ) + 1 := by positivity
  rcases Nat.eq_zero_or_pos k with hk | hk
  · have : i = 0 := by omega
    subst this
    have h0 : 0 ≤ (hi - lo) / ((k : ℝ) + 1) := div_nonneg hd hk1.le
    simp only [Nat.cast_zero, zero_mul, zero_add, one_mul, add_zero]
    exact ⟨le_refl _, by linarith⟩
  · have hk0 : (0 : ℝ) < k := by exact_mod_cast hk
    have hik : (i : ℝ) ≤ k := by exact_mod_cast Nat.lt_succ_iff.1 hi'
    have hi0 : (0 : ℝ) ≤ i := Nat.cast_nonneg i
    have e1 : (i : ℝ) * ((hi - lo) / k) - (i : ℝ) * ((hi - lo) / (k + 1)) = (i : ℝ) * (hi - lo) / (k * (k + 1)) := by
      field_simp
      ring
    have e2 : ((i : ℝ) + 1) * ((hi - lo) / (k + 1)) - (i : ℝ) * ((hi - lo) / k) = ((k : ℝ) - i) * (hi - lo) / (k * (k + 1)) := by
      field_simp
      ring
    have p1 : 0 ≤ (i : ℝ) * (hi - lo) / (k * (k + 1)) := by positivity
    have p2 : 0 ≤ ((k : ℝ) - i) * (hi - lo) / (k * (k + 1)) :=
      div_nonneg (mul_nonneg (by linarith) hd) (by positivity)
    constructor <;> linarith

theorem sum_range_map (g : ℕ → ℝ) (n : ℕ) : ((List.range n).map g).sum = ∑ j ∈ Finset.range n, g j := by
  induction n with
  | zero => simp
  | succ n ih => rw [List.range_succ, List.map_append, List.sum_append, ih, Finset.sum_range_succ]; simp

/-- What a lineout shows: point `i` is drawn somewhere in cell `i` of `m` even ones between `lo` and `hi`, and its value is `mean i`, or the decimal
logarithm of it (minus infinity, `none`, for a mean which is not positive). -/
def LineoutOf (l : List (ℝ × Option ℝ)) (lo hi : ℝ) (m : ℕ) (mean : ℕ → ℝ) (log : Bool) : Prop :=
  l.length = m ∧ ∀ i < m, ∃ x, lo + (i : ℝ) * ((hi - lo) / m) ≤ x ∧ x ≤ lo + ((i : ℝ) + 1) * ((hi - lo) / m) ∧
    ((log = false ∧ l[i]? = some (x, some (mean i))) ∨ (log = true ∧ 0 < mean i ∧ l[i]? = some (x, some (Real.logb 10 (mean i)))) ∨
      (log = true ∧ mean i ≤ 0 ∧ l[i]? = some (x, none)))

theorem lineoutOf_zip (lo hi : ℝ) (h : lo ≤ hi) (m : ℕ) (mean : ℕ → ℝ) (log : Bool) :
    LineoutOf ((linspace lo hi m).zip (((List.range m).map mean).map fun v => if log then log10 v else some v)) lo hi m mean log := by
  refine ⟨by simp [linspace_length], fun i hi' => ?_⟩
  obtain ⟨c1, c2⟩ := linspace_in_cell lo hi h m i hi'
  refine ⟨_, c1, c2, ?_⟩
  have hget : ((linspace lo hi m).zip (((List.range m).map mean).map fun v => if log then log10 v else some v))[i]? =
      some (lo + (i : ℝ) * ((hi - lo) / ((m - 1 : ℕ) : ℝ)), if log then log10 (mean i) else some (mean i)) := by
    rw [List.getElem?_zip_eq_some]
    refine ⟨linspace_get _ _ _ _ hi', ?_⟩
    simp [hi']
  rw [hget]
  cases log with
  | false => exact Or.inl ⟨rfl, rfl⟩
  | true =>
    right
    by_cases hp : 0 < mean i
    · exact Or.inl ⟨rfl, hp, by simp [log10, hp]⟩
    · exact Or.inr ⟨rfl, not_lt.1 hp, by simp [log10, hp]⟩

/-- C79: the lineout along the first axis shows the mean of each column, drawn within the column. Partial: within, but not in the middle
(`lineout_violated`), and the columns are even ones. -/
theorem lineout_partial (f : Field ℝ ℝ) (m n : ℕ) (hs : f.shape = [m, n]) (a b : Axis ℝ) (ha : f.axes = [a, b]) (h : a.extent.1 ≤ a.extent.2)
    (log : Bool) : ∃ l, xLineout f log = .ok l ∧
      LineoutOf l a.extent.1 a.extent.2 m (fun i => (∑ j ∈ Finset.range n, f.matrix.at' [i, j]) / n) log := by
  refine ⟨_, ?_, lineoutOf_zip _ _ h _ _ _⟩
  unfold xLineout
  rw [hs, ha]
  simp only [sum_range_map]

/-- C79: the lineout along the second axis shows the mean of each row, drawn within the row. Partial: within, but not in the middle
(`lineouty_violated`), and the rows are even ones. -/
theorem lineouty_partial (f : Field ℝ ℝ) (m n : ℕ) (hs : f.shape = [m, n]) (a b : Axis ℝ) (ha : f.axes = [a, b]) (h : b.extent.1 ≤ b.extent.2)
    (log : Bool) : ∃ l, yLineout f log = .ok l ∧
      LineoutOf l b.extent.1 b.extent.2 n (fun j => (∑ i ∈ Finset.range m, f.matrix.at' [i, j]) / m) log := by
  refine ⟨_, ?_, lineoutOf_zip _ _ h _ _ _⟩
  unfold yLineout
  rw [hs, ha]
  simp only [sum_range_map]

example := lineout_partial picture54 5 4 rfl _ _ rfl (by simp [evenAxisOf]) true

example := lineouty_partial picture54 5 4 rfl _ _ rfl (by simp [evenAxisOf]) false

/-- C79 violated: the mean of the first row is drawn at the lower border of the picture and that of the last one at the upper border. -/
theorem lineouty_violated : ∃ l, yLineout picture54 false = .ok l ∧ l[0]? = some ((-1 : ℝ), some (2 : ℝ)) ∧ l[3]? = some ((1 : ℝ), some (-1 : ℝ)) ∧
    (evenAxisOf "y" "m" (-1 : ℝ) (1 / 2) 4).grid[0]? = some (-3 / 4 : ℝ) ∧ (evenAxisOf "y" "m" (-1 : ℝ) (1 / 2) 4).grid[3]? = some (3 / 4 : ℝ) := by
  refine ⟨_, rfl, ?_, ?_, ?_, ?_⟩
  · simp [linspace, evenAxisOf, picture54, List.range_succ]
    norm_num
  · simp [linspace, evenAxisOf, picture54, List.range_succ]
    norm_num
  · simp [evenAxisOf, ap, List.range_succ]
    norm_num
  · simp [evenAxisOf, ap, List.range_succ]
    norm_num

/-- A field with three cells along `x`: from 0 to 1, from 1 to 2 and from 2 to 10. -/
noncomputable def threeCells : Field ℝ ℝ :=
  ⟨"n", "", ⟨[3, 1], fun idx => (idx.getD 0 0 : ℝ) + 7⟩,
    [⟨"x", "m", [0, 1, 2, 10], [1 / 2, 3 / 2, 6], (0, 10)⟩, evenAxisOf "y" "m" 0 1 1], [some false, some false], [none, none]⟩

/-- C79 violated: on an uneven axis a value is drawn in the wrong column. The second cell ends at 2, its mean is drawn at 5. -/
theorem lineout_uneven_violated : ∃ l, xLineout threeCells false = .ok l ∧ l[1]? = some ((5 : ℝ), some (8 : ℝ)) := by
  refine ⟨_, rfl, ?_⟩
  simp [linspace, threeCells, List.range_succ]
  norm_num

end Postpic.Props
