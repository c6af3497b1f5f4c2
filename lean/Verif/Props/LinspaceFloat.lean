import Verif.Lemmas.LinspaceFloat
import Verif.Props.AxisFloat

/-!
# C123: axes made from extent and number of points are valid despite rounding
-/

set_option autoImplicit false
set_option linter.unusedSectionVars false

namespace Postpic.Props

open Postpic Postpic.Spec Postpic.Axes Postpic.Histogram

section

variable {K : Type} [Field K] [LinearOrder K] [IsStrictOrderedRing K] [FloorRing K]

set_option maxHeartbeats 1000000 in
/-- C123: if the cells are large compared to the rounding errors of the coordinates, `Axis(extent=(e0, e1), n=n)` gives an axis with `n` points
and exactly this extent; nodes and grid ascend or descend strictly, every point is between its nodes, and everything is as near to the
equidistant axis as the rounding allows. `ε` is the error of the spline, which is used for more than two points. -/
theorem axis_from_extent_rounded_partial (rnd : K → Dbl K) (u : K) (A : Accurate rnd u) (hu8 : u ≤ 1 / 8)
    (centers : List (Dbl K) → List (Dbl K)) (e0 e1 : K) (n : ℕ) (hn : 1 ≤ n) (h0 : rnd e0 = .fin e0) (ε : K) (hε : 0 ≤ ε)
    (hspl : 3 ≤ n → ∃ c : List K, centers (linspaceF rnd e0 e1 (n + 1)) = c.map Dbl.fin ∧ c.length = n ∧
      ∀ (i : ℕ) (g : K), c[i]? = some g → |g - (e0 + ((i : K) + 1 / 2) * ((e1 - e0) / n))| ≤ ε)
    (hcell : 2 * n * (17 * u * (|e0| + |e1|) + ε) < |e1 - e0|) :
    ∃ nodes grid : List K, axisFromExtentF rnd centers e0 e1 n = .ok (nodes.map Dbl.fin, grid.map Dbl.fin) ∧ grid.length = n ∧
      ValidAxis nodes grid (e0, e1) ∧
      (∀ (i : ℕ) (a : K), nodes[i]? = some a → |a - (e0 + i * ((e1 - e0) / n))| ≤ 6 * u * (|e0| + |e1|)) ∧
      (∀ (i : ℕ) (g : K), grid[i]? = some g → |g - (e0 + ((i : K) + 1 / 2) * ((e1 - e0) / n))| ≤ 11 * u * (|e0| + |e1|) + ε) := by
  have hu := A.nonneg
  have hn' : (0 : K) < n := by exact_mod_cast hn
  set S := |e0| + |e1| with hSd
  have hS : 0 ≤ S := add_nonneg (abs_nonneg _) (abs_nonneg _)
  have huS : 0 ≤ u * S := mul_nonneg hu hS
  have he : e0 ≠ e1 := by
    rintro rfl
    rw [sub_self, abs_zero] at hcell
    have : 0 ≤ 2 * (n : K) * (17 * u * S + ε) := mul_nonneg (by linarith) (by linarith)
    linarith
  obtain ⟨y, hy, y0, yn, ey⟩ := linspaceF_near A hu8 e0 e1 he h0 n hn
  -- the grid
  have hgrid : ∃ c : List K, gridOfNodesF rnd centers (linspaceF rnd e0 e1 (n + 1)) = .ok (c.map Dbl.fin) ∧ c.length = n ∧
      ∀ (i : ℕ) (g : K), c[i]? = some g → |g - (e0 + ((i : K) + 1 / 2) * ((e1 - e0) / n))| ≤ 11 * u * S + ε := by
    by_cases h3 : 3 ≤ n
    · obtain ⟨c, h1, h2, h4⟩ := hspl h3
      refine ⟨c, ?_, h2, fun i g hg => by linarith [h4 i g hg]⟩
      unfold gridOfNodesF
      rw [if_pos (by simp [hy]; omega), h1]
    · have mean : ∀ i, i + 1 ≤ n → ∃ c, Dbl.add rnd (Dbl.mul rnd (.fin (y i)) half) (Dbl.mul rnd (.fin (y (i + 1))) half) = .fin c ∧
          |c - (e0 + ((i : K) + 1 / 2) * ((e1 - e0) / n))| ≤ 11 * u * S + ε := by
        intro i hi
        have size : ∀ j ≤ n, |y j| ≤ 2 * S := by
          intro j hj
          have hj' : (j : K) ≤ n := by exact_mod_cast hj
          have t0 : 0 ≤ (j : K) / n := div_nonneg (Nat.cast_nonneg _) hn'.le
          have t1 : (j : K) / n ≤ 1 := (div_le_one hn').2 hj'
          have e : e0 + j * ((e1 - e0) / n) = (1 - j / n) * e0 + (j / n) * e1 := by ring
          have h := ey j hj
          have h1 : |e0 + j * ((e1 - e0) / n)| ≤ S := by
            rw [e]
            refine le_trans (abs_add_le _ _) ?_
            rw [abs_mul, abs_mul, abs_of_nonneg t0, abs_of_nonneg (by linarith : 0 ≤ 1 - (j : K) / n)]
            have c1 := mul_le_mul_of_nonneg_right t1 (abs_nonneg e1)
            have c2 := mul_nonneg t0 (abs_nonneg e0)
            linarith
          have h2 := abs_sub_abs_le_abs_sub (y j) (e0 + j * ((e1 - e0) / n))
          have h3 := mul_le_mul_of_nonneg_right hu8 hS
          linarith
        obtain ⟨c, hc, ec⟩ := mean_near A hu8 (y i) (y (i + 1)) S (size i (by omega)) (size (i + 1) hi)
        refine ⟨c, hc, ?_⟩
        have h1 := ey i (by omega)
        have h2 := ey (i + 1) hi
        push_cast at h2
        have e : (y i + y (i + 1)) / 2 - (e0 + ((i : K) + 1 / 2) * ((e1 - e0) / n))
            = 1 / 2 * (y i - (e0 + i * ((e1 - e0) / n))) + 1 / 2 * (y (i + 1) - (e0 + ((i : K) + 1) * ((e1 - e0) / n))) := by ring
        have h3 : |(y i + y (i + 1)) / 2 - (e0 + ((i : K) + 1 / 2) * ((e1 - e0) / n))| ≤ 6 * u * S := by
          rw [e]
          refine le_trans (abs_add_le _ _) ?_
          rw [abs_mul, abs_mul, abs_of_pos (by norm_num : (0 : K) < 1 / 2)]
          linarith
        have h4 := abs_sub_le c ((y i + y (i + 1)) / 2) (e0 + ((i : K) + 1 / 2) * ((e1 - e0) / n))
        linarith
      obtain rfl | rfl : n = 1 ∨ n = 2 := by omega
      · obtain ⟨c, hc, ec⟩ := mean 0 le_rfl
        refine ⟨[c], ?_, rfl, ?_⟩
        · rw [hy]
          simp only [List.range_succ, List.range_zero, gridOfNodesF, List.map_append, List.map_cons, List.map_nil, List.nil_append,
            List.cons_append, List.length_cons, List.length_nil, List.tail_cons, List.zipWith_cons_cons, List.zipWith_nil_right]
          rw [zero_add] at hc
          rw [hc]
          rfl
        · intro i g hg
          rcases i with _ | i
          · cases hg; exact ec
          · simp at hg
      · obtain ⟨c, hc, ec⟩ := mean 0 (by omega)
        obtain ⟨d, hd, ed⟩ := mean 1 le_rfl
        refine ⟨[c, d], ?_, rfl, ?_⟩
        · rw [hy]
          simp only [List.range_succ, List.range_zero, gridOfNodesF, List.map_append, List.map_cons, List.map_nil, List.nil_append,
            List.cons_append, List.length_cons, List.length_nil, List.tail_cons, List.zipWith_cons_cons, List.zipWith_nil_right]
          rw [zero_add] at hc
          rw [show (1 : ℕ) + 1 = 2 from rfl] at hd
          rw [hc, hd]
          rfl
        · intro i g hg
          rcases i with _ | _ | i
          · cases hg; exact ec
          · cases hg; exact ed
          · simp at hg
  obtain ⟨c, hc, lc, ec⟩ := hgrid
  have hnodes : ∀ (i : ℕ) (a : K), ((List.range (n + 1)).map y)[i]? = some a → i ≤ n ∧ a = y i := by
    intro i a h
    rw [List.getElem?_map, Option.map_eq_some_iff] at h
    obtain ⟨j, h1, rfl⟩ := h
    obtain ⟨h2, h3⟩ := List.getElem?_eq_some_iff.1 h1
    simp at h2 h3
    subst h3
    exact ⟨by omega, rfl⟩
  have hfirst : ((List.range (n + 1)).map y).head? = some e0 := by simp [List.head?_range, y0]
  have hlast : ((List.range (n + 1)).map y).getLast? = some e1 := by simp [List.getLast?_range, yn]
  refine ⟨(List.range (n + 1)).map y, c, ?_, lc, ⟨⟨by simp [lc], ?_⟩, hfirst, hlast⟩, ?_, ec⟩
  · unfold axisFromExtentF
    simp only [hc, bind, Except.bind, pure, Except.pure]
    rw [hy, List.head?_map, hfirst, List.getLast?_map, hlast]
    simp [lc]
  · have cell : |e1 - e0| / n = |(e1 - e0) / n| := by rw [abs_div, abs_of_pos hn']
    have hcell' : 2 * (17 * u * S + ε) < |(e1 - e0) / n| := by
      rw [← cell, lt_div_iff₀ hn']
      linarith
    rcases lt_or_gt_of_ne he with h | h
    · left
      intro i a g b ha hg hb
      obtain ⟨hi, rfl⟩ := hnodes i a ha
      obtain ⟨hi1, rfl⟩ := hnodes (i + 1) b hb
      rw [abs_of_pos (div_pos (by linarith) hn')] at hcell'
      have k1 := abs_le.1 (ey i hi)
      have k2 := abs_le.1 (ey (i + 1) hi1)
      have k3 := abs_le.1 (ec i g hg)
      push_cast at k2
      constructor <;> linarith [k1.1, k1.2, k2.1, k2.2, k3.1, k3.2]
    · right
      intro i a g b ha hg hb
      obtain ⟨hi, rfl⟩ := hnodes i a ha
      obtain ⟨hi1, rfl⟩ := hnodes (i + 1) b hb
      rw [abs_of_neg (div_neg_of_neg_of_pos (by linarith) hn')] at hcell'
      have k1 := abs_le.1 (ey i hi)
      have k2 := abs_le.1 (ey (i + 1) hi1)
      have k3 := abs_le.1 (ec i g hg)
      push_cast at k2
      constructor <;> linarith [k1.1, k1.2, k2.1, k2.2, k3.1, k3.2]
  · intro i a ha
    obtain ⟨hi, rfl⟩ := hnodes i a ha
    exact ey i hi

/-- C123: the computed fractional index of each point of such an axis, rounded to the nearest integer, is the number of the point. -/
theorem axis_from_extent_index_rounded_partial (rnd : K → Dbl K) (u : K) (A : Accurate rnd u) (hu8 : u ≤ 1 / 8)
    (centers : List (Dbl K) → List (Dbl K)) (name unit : String) (e0 e1 : K) (n : ℕ) (hn : 1 ≤ n) (h0 : rnd e0 = .fin e0) (ε : K)
    (hε : 0 ≤ ε) (hspl : 3 ≤ n → ∃ c : List K, centers (linspaceF rnd e0 e1 (n + 1)) = c.map Dbl.fin ∧ c.length = n ∧
      ∀ (i : ℕ) (g : K), c[i]? = some g → |g - (e0 + ((i : K) + 1 / 2) * ((e1 - e0) / n))| ≤ ε)
    (hcell : 2 * n * (40 * u * (|e0| + |e1|) + ε) < |e1 - e0|) :
    ∃ nodes grid : List K, axisFromExtentF rnd centers e0 e1 n = .ok (nodes.map Dbl.fin, grid.map Dbl.fin) ∧
      ∀ (i : ℕ) (g : K), grid[i]? = some g →
        ∃ r, (⟨name, unit, nodes, grid, (e0, e1)⟩ : Axis K).valueToIndexLinearF rnd g = .ok (.fin r) ∧ round r = i := by
  have hu := A.nonneg
  have hn' : (1 : K) ≤ n := by exact_mod_cast hn
  have hS : 0 ≤ |e0| + |e1| := add_nonneg (abs_nonneg _) (abs_nonneg _)
  have hDS : |e1 - e0| ≤ |e0| + |e1| := by linarith [abs_sub e1 e0]
  have huS : 0 ≤ u * (|e0| + |e1|) := mul_nonneg hu hS
  have hnu : 0 ≤ (n : K) * (u * (|e0| + |e1|)) := mul_nonneg (by linarith) huS
  obtain ⟨nodes, grid, h1, h2, hv, -, h3⟩ := axis_from_extent_rounded_partial rnd u A hu8 centers e0 e1 n hn h0 ε hε hspl (by linarith)
  refine ⟨nodes, grid, h1, fun i g hg => ?_⟩
  have hi : i + 1 ≤ n := by
    have := (List.getElem?_eq_some_iff.1 hg).1
    omega
  have hi' : (i : K) + 1 ≤ n := by exact_mod_cast hi
  have hi0 : (0 : K) ≤ i := Nat.cast_nonneg _
  have hD : 0 < |e1 - e0| := by
    have : 0 ≤ 2 * (n : K) * (40 * u * (|e0| + |e1|) + ε) := mul_nonneg (by linarith) (by linarith)
    linarith
  have he : e0 ≠ e1 := by
    rintro rfl
    simp at hD
  have hd : e1 - e0 ≠ 0 := sub_ne_zero.2 he.symm
  obtain ⟨r, hr, er⟩ := value_to_index_rounded rnd u A hu8 ⟨name, unit, nodes, grid, (e0, e1)⟩ he g
  refine ⟨r, hr, ?_⟩
  -- the exact fractional index
  have hx : (⟨name, unit, nodes, grid, (e0, e1)⟩ : Axis K).valueToIndexLinear g - i
      = (g - (e0 + ((i : K) + 1 / 2) * ((e1 - e0) / n))) * (n / (e1 - e0)) := by
    unfold Axis.valueToIndexLinear Axis.len
    simp only [h2]
    have : (n : K) ≠ 0 := by linarith
    field_simp
    ring
  generalize (⟨name, unit, nodes, grid, (e0, e1)⟩ : Axis K).valueToIndexLinear g = x at *
  have hx1 : |x - i| * |e1 - e0| ≤ (11 * u * (|e0| + |e1|) + ε) * n := by
    rw [hx, abs_mul, abs_div, abs_of_nonneg (by linarith : (0 : K) ≤ n), mul_assoc, div_mul_cancel₀ _ hD.ne']
    exact mul_le_mul_of_nonneg_right (h3 i g hg) (by linarith)
  have hx2 : |x - i| + 29 * (n * u) < 1 / 2 := by
    have k1 : 29 * (n * u) * |e1 - e0| ≤ 29 * (n * u) * (|e0| + |e1|) :=
      mul_le_mul_of_nonneg_left hDS (mul_nonneg (by norm_num) (mul_nonneg (by linarith) hu))
    have k2 : (|x - i| + 29 * (n * u)) * |e1 - e0| < 1 / 2 * |e1 - e0| := by linarith
    exact lt_of_mul_lt_mul_right k2 hD.le
  have hun : u ≤ n * u := by
    have := mul_le_mul_of_nonneg_right hn' hu
    linarith
  have hun0 : 0 ≤ n * u := le_trans hu hun
  have hx3 : |x + 1 / 2| ≤ n + 1 := by
    have k := abs_le.1 (by linarith : |x - i| ≤ 1 / 2)
    rw [abs_le]
    constructor <;> linarith [k.1, k.2]
  have hx4 := mul_le_mul_of_nonneg_left hx3 hu
  have hx5 := abs_sub_le r x i
  have hx6 : |r - i| < 1 / 2 := by linarith
  rw [abs_lt] at hx6
  rw [round_eq, Int.floor_eq_iff]
  push_cast
  constructor <;> linarith [hx6.1, hx6.2]

end

/-! ### Examples -/

/-- The means of the nodes, as the spline through equidistant points gives them. -/
def meansF (l : List (Dbl ℚ)) : List (Dbl ℚ) :=
  List.zipWith (fun a b => Dbl.add nearest53 (Dbl.mul nearest53 a half) (Dbl.mul nearest53 b half)) l l.tail

/-- C123 is violated for cells smaller than the distance of two numbers: the axis is accepted, although several nodes are equal. -/
theorem axis_from_extent_rounded_violated :
    axisFromExtentF nearest53 meansF (2 ^ 53) (2 ^ 53 + 2) 4 =
      .ok ([.fin (2 ^ 53), .fin (2 ^ 53), .fin (2 ^ 53 + 2), .fin (2 ^ 53 + 2), .fin (2 ^ 53 + 2)],
        [.fin (2 ^ 53), .fin (2 ^ 53 + 2), .fin (2 ^ 53 + 2), .fin (2 ^ 53 + 2)]) := by decide +kernel

/-- An axis from 1 to 2 with ten points. -/
example : (1 : ℕ) ≤ 10 ∧ nearest53 1 = .fin 1 ∧ (∃ c : List ℚ, meansF (linspaceF nearest53 1 2 (10 + 1)) = c.map Dbl.fin ∧ c.length = 10 ∧
      ∀ i < 10, |c.getD i 0 - (1 + ((i : ℚ) + 1 / 2) * ((2 - 1) / (10 : ℕ)))| ≤ 1 / 2 ^ 50) ∧
    2 * (10 : ℕ) * (17 * (1 / 2 ^ 53 : ℚ) * (|1| + |2|) + 1 / 2 ^ 50) < |(2 : ℚ) - 1| := by
  refine ⟨by norm_num, by decide +kernel, ⟨(meansF (linspaceF nearest53 1 2 (10 + 1))).map fun d => match d with
    | .fin x => x
    | _ => 0, by decide +kernel, by decide +kernel, by decide +kernel⟩, by norm_num⟩

example := axis_from_extent_rounded_partial nearest53 _ nearest53_accurate (by norm_num) meansF 3 (-1) 2 (by norm_num) (by decide +kernel) 0
  le_rfl (fun h => absurd h (by norm_num)) (by norm_num)
example := axis_from_extent_index_rounded_partial nearest53 _ nearest53_accurate (by norm_num) meansF "x" "m" 3 (-1) 2 (by norm_num)
  (by decide +kernel) 0 le_rfl (fun h => absurd h (by norm_num)) (by norm_num)

end Postpic.Props
