import Verif.Lemmas.StatisticsDouble
import Verif.Props.AxisDouble
import Verif.Props.LinspaceFloat

/-!
# C141: axes made from extent and number of points are valid with IEEE doubles
-/

set_option autoImplicit false

namespace Postpic.Props

open Postpic Postpic.Spec Postpic.Axes Postpic.Histogram Postpic.Statistics

/-- Integers up to `2^52` are moderate. -/
theorem moderate_nat {i : ℕ} (h : i ≤ 2 ^ 52) : Moderate 0 52 (i : ℚ) := by
  rcases Nat.eq_zero_or_pos i with rfl | hi
  · exact Or.inl (by norm_num)
  · refine Or.inr ?_
    rw [abs_of_nonneg (Nat.cast_nonneg i), zpow_zero, show (2 : ℚ) ^ (52 : ℤ) = ((2 ^ 52 : ℕ) : ℚ) by norm_num]
    exact ⟨by exact_mod_cast hi, by exact_mod_cast h⟩

theorem over_agree {n : ℕ} (hn : n ≤ 2 ^ 52) {x : ℚ} {a b : ℤ} (hx : Moderate a b x) (ha : -1022 ≤ a - 52) (hb : b ≤ 1022) :
    ∃ z, overF double n (.fin x) = .fin z ∧ overF digits53 n (.fin x) = .fin z ∧ Moderate (a - 52) b z := by
  have h := moderate_div hx (moderate_nat hn)
  rw [sub_zero] at h
  obtain ⟨h1, h2, h3, -⟩ := moderate_round ha hb h
  exact ⟨_, h1, h2, h3⟩

/-- A number which is added to the left end of the axis. -/
theorem node_agree {e0 x : ℚ} (d0 : double e0 = .fin e0) (m0 : Moderate (-900) 900 e0) (dx : double x = .fin x) (mx : Moderate (-1004) 953 x) :
    ∃ z, Dbl.add double (.fin x) (.fin e0) = .fin z ∧ Dbl.add digits53 (.fin x) (.fin e0) = .fin z ∧ double z = .fin z ∧ |z| ≤ 2 ^ (954 : ℤ) ∧
      ∃ m : ℤ, z = m * 2 ^ (-1056 : ℤ) := by
  obtain ⟨z, h1, h2, h3, h4⟩ := add_agree (b := 953) (by norm_num) (by norm_num) dx d0 (moderate_upper mx)
    (moderate_upper (moderate_weaken m0 (a' := -900) (by norm_num) (by norm_num)))
  refine ⟨z, h1, h2, h4, h3, ?_⟩
  obtain ⟨p, hp⟩ := double_digit dx mx
  obtain ⟨q, hq⟩ := double_digit d0 (moderate_weaken m0 (a' := -1004) (b' := 900) (by norm_num) (by norm_num))
  exact double_keeps_multiple (e := -1056) (by norm_num) (p + q) (by rw [hp, hq]; push_cast; norm_num; ring) h1

theorem moderate_multiple {e : ℚ} (d : double e = .fin e) (m : Moderate (-900) 900 e) :
    |e| ≤ 2 ^ (954 : ℤ) ∧ ∃ k : ℤ, e = k * 2 ^ (-1056 : ℤ) := by
  have h := double_digit d (moderate_weaken m (a' := -1004) (b' := 900) (by norm_num) (by norm_num))
  rw [show (-1004 - 52 : ℤ) = -1056 by norm_num] at h
  exact ⟨moderate_upper (moderate_weaken m (a' := -900) (by norm_num) (by norm_num)), h⟩

/-- Without underflow `np.linspace` gives the same doubles as with unlimited exponents. -/
theorem linspace_agree {e0 e1 : ℚ} (d0 : double e0 = .fin e0) (d1 : double e1 = .fin e1) (m0 : Moderate (-900) 900 e0)
    (m1 : Moderate (-900) 900 e1) {n : ℕ} (hn1 : 1 ≤ n) (hn : n ≤ 2 ^ 52) :
    ∃ ys : List ℚ, linspaceF double e0 e1 (n + 1) = ys.map Dbl.fin ∧ linspaceF digits53 e0 e1 (n + 1) = ys.map Dbl.fin ∧ ys.length = n + 1 ∧
      ∀ y ∈ ys, double y = .fin y ∧ |y| ≤ 2 ^ (954 : ℤ) ∧ ∃ m : ℤ, y = m * 2 ^ (-1056 : ℤ) := by
  obtain ⟨δ, hd1, hd2, hδ, -⟩ := sub_agree d1 d0 m1 m0 (by norm_num) (by norm_num)
  norm_num at hδ
  obtain ⟨s, hs1, hs2, ms⟩ := over_agree hn hδ (by norm_num) (by norm_num)
  norm_num at ms
  have key : ∀ i ∈ List.range (n + 1), ∃ y : ℚ,
      (if i + 1 = n + 1 ∧ 1 < n + 1 then Dbl.fin e1
        else Dbl.add double (if n + 1 ≤ 1 then Dbl.mul double (.fin i) (.fin δ)
          else if (Dbl.fin s : Dbl ℚ) = .fin 0 then Dbl.mul double (overF double n (.fin i)) (.fin δ)
          else Dbl.mul double (.fin i) (.fin s)) (.fin e0)) = .fin y ∧
      (if i + 1 = n + 1 ∧ 1 < n + 1 then Dbl.fin e1
        else Dbl.add digits53 (if n + 1 ≤ 1 then Dbl.mul digits53 (.fin i) (.fin δ)
          else if (Dbl.fin s : Dbl ℚ) = .fin 0 then Dbl.mul digits53 (overF digits53 n (.fin i)) (.fin δ)
          else Dbl.mul digits53 (.fin i) (.fin s)) (.fin e0)) = .fin y ∧
      double y = .fin y ∧ |y| ≤ 2 ^ (954 : ℤ) ∧ ∃ m : ℤ, y = m * 2 ^ (-1056 : ℤ) := by
    intro i hi
    have hi' : i ≤ 2 ^ 52 := by
      have := List.mem_range.1 hi
      omega
    by_cases hl : i + 1 = n + 1 ∧ 1 < n + 1
    · rw [if_pos hl, if_pos hl]
      exact ⟨e1, rfl, rfl, d1, moderate_multiple d1 m1⟩
    · rw [if_neg hl, if_neg hl, if_neg (show ¬ n + 1 ≤ 1 by omega), if_neg (show ¬ n + 1 ≤ 1 by omega)]
      by_cases h0 : (Dbl.fin s : Dbl ℚ) = .fin 0
      · rw [if_pos h0, if_pos h0]
        obtain ⟨q, hq1, hq2, mq⟩ := over_agree hn (moderate_nat hi') (by norm_num) (by norm_num)
        rw [hq1, hq2]
        obtain ⟨z, hz1, hz2, mz, dz, -⟩ := mul_agree mq hδ (by norm_num) (by norm_num)
        rw [hz1, hz2]
        exact node_agree d0 m0 dz (moderate_weaken mz (by norm_num) (by norm_num))
      · rw [if_neg h0, if_neg h0]
        obtain ⟨z, hz1, hz2, mz, dz, -⟩ := mul_agree (moderate_nat hi') ms (by norm_num) (by norm_num)
        rw [hz1, hz2]
        exact node_agree d0 m0 dz (moderate_weaken mz (by norm_num) (by norm_num))
  choose! f hf using key
  refine ⟨(List.range (n + 1)).map f, ?_, ?_, by simp, ?_⟩
  · unfold linspaceF
    simp only [hd1, Nat.add_sub_cancel, hs1]
    rw [List.map_map]
    exact List.map_congr_left fun i hi => (hf i hi).1
  · unfold linspaceF
    simp only [hd2, Nat.add_sub_cancel, hs2]
    rw [List.map_map]
    exact List.map_congr_left fun i hi => (hf i hi).2.1
  · intro y hy
    obtain ⟨i, hi, rfl⟩ := List.mem_map.1 hy
    exact (hf i hi).2.2

/-- Halves of the nodes are exact, their sum is rounded to 53 digits. -/
theorem mean_agree {a b : ℚ} (ha : |a| ≤ 2 ^ (954 : ℤ) ∧ ∃ m : ℤ, a = m * 2 ^ (-1056 : ℤ))
    (da : double a = .fin a) (hb : |b| ≤ 2 ^ (954 : ℤ) ∧ ∃ m : ℤ, b = m * 2 ^ (-1056 : ℤ)) (db : double b = .fin b) :
    ∃ z, Dbl.add double (Dbl.mul double (.fin a) half) (Dbl.mul double (.fin b) half) = .fin z ∧
      Dbl.add digits53 (Dbl.mul digits53 (.fin a) half) (Dbl.mul digits53 (.fin b) half) = .fin z ∧ double z = .fin z ∧ |z| ≤ 2 ^ (955 : ℤ) := by
  have key : ∀ x : ℚ, |x| ≤ 2 ^ (954 : ℤ) ∧ (∃ m : ℤ, x = m * 2 ^ (-1056 : ℤ)) → ∃ y, Dbl.mul double (.fin x) half = .fin y ∧
      Dbl.mul digits53 (.fin x) half = .fin y ∧ double y = .fin y ∧ |y| ≤ 2 ^ (954 : ℤ) := by
    rintro x ⟨hx, m, hm⟩
    have e : x * (1 / 2) = ((m * 2 ^ 17 : ℤ) : ℚ) * 2 ^ (-1074 : ℤ) := by
      rw [hm, show (2 : ℚ) ^ (-1056 : ℤ) = 2 ^ (18 : ℤ) * 2 ^ (-1074 : ℤ) by rw [← zpow_add₀ (by norm_num)]; norm_num]
      generalize (2 : ℚ) ^ (-1074 : ℤ) = t
      push_cast
      ring
    have hle : |x * (1 / 2)| ≤ 2 ^ (954 : ℤ) := by
      rw [abs_mul, abs_of_pos (by norm_num : (0 : ℚ) < 1 / 2)]
      have := abs_nonneg x
      clear e hm
      generalize (2 : ℚ) ^ (954 : ℤ) = t at *
      linarith
    have hlt : |x * (1 / 2)| < 2 ^ 1023 := lt_of_le_of_lt hle (zpow_lt_1023 (by norm_num))
    have hd := double_digits53 hlt (Or.inr ⟨_, e⟩)
    refine ⟨nearDouble (x * (1 / 2)), double_small hlt, ?_, double_nearDouble hlt, nearDouble_upper (by norm_num) hle⟩
    show digits53 (x * (1 / 2)) = _
    rw [← hd]
    exact double_small hlt
  obtain ⟨p, p1, p2, p3, p4⟩ := key a ha
  obtain ⟨q, q1, q2, q3, q4⟩ := key b hb
  obtain ⟨z, h1, h2, h3, h4⟩ := add_agree (b := 954) (by norm_num) (by norm_num) p3 q3 p4 q4
  rw [p1, p2, q1, q2]
  exact ⟨z, h1, h2, h4, h3⟩

theorem zipWith_agree {f g : Dbl ℚ → Dbl ℚ → Dbl ℚ} {P : ℚ → Prop} {Q : ℚ → Prop}
    (h : ∀ a b, P a → P b → ∃ z, f (.fin a) (.fin b) = .fin z ∧ g (.fin a) (.fin b) = .fin z ∧ Q z) :
    ∀ l l' : List ℚ, (∀ x ∈ l, P x) → (∀ x ∈ l', P x) → ∃ zs : List ℚ, List.zipWith f (l.map Dbl.fin) (l'.map Dbl.fin) = zs.map Dbl.fin ∧
      List.zipWith g (l.map Dbl.fin) (l'.map Dbl.fin) = zs.map Dbl.fin ∧ ∀ z ∈ zs, Q z := by
  intro l
  induction l with
  | nil => intro l' _ _; exact ⟨[], rfl, rfl, by simp⟩
  | cons x l ih =>
    intro l' hl hl'
    cases l' with
    | nil => exact ⟨[], rfl, rfl, by simp⟩
    | cons y l' =>
      obtain ⟨z, h1, h2, h3⟩ := h x y (hl x (by simp)) (hl' y (by simp))
      obtain ⟨zs, z1, z2, z3⟩ := ih l' (fun a ha => hl a (by simp [ha])) (fun a ha => hl' a (by simp [ha]))
      refine ⟨z :: zs, ?_, ?_, ?_⟩
      · simp only [List.map_cons, List.zipWith_cons_cons, h1, z1]
      · simp only [List.map_cons, List.zipWith_cons_cons, h2, z2]
      · intro a ha
        rcases List.mem_cons.1 ha with rfl | ha
        · exact h3
        · exact z3 a ha

/-- Without underflow the axis is the same as with unlimited exponents; for up to two points its grid consists of doubles. -/
theorem axis_agree (centers : List (Dbl ℚ) → List (Dbl ℚ)) {e0 e1 : ℚ} (d0 : double e0 = .fin e0) (d1 : double e1 = .fin e1)
    (m0 : Moderate (-900) 900 e0) (m1 : Moderate (-900) 900 e1) {n : ℕ} (hn1 : 1 ≤ n) (hn : n ≤ 2 ^ 52) :
    linspaceF double e0 e1 (n + 1) = linspaceF digits53 e0 e1 (n + 1) ∧
    axisFromExtentF double centers e0 e1 n = axisFromExtentF digits53 centers e0 e1 n ∧
    ∀ nodes grid : List ℚ, axisFromExtentF double centers e0 e1 n = .ok (nodes.map Dbl.fin, grid.map Dbl.fin) →
      (∀ y ∈ nodes, double y = .fin y) ∧
      (n ≤ 2 → ∀ g ∈ grid, double g = .fin g ∧ |g| ≤ 2 ^ (955 : ℤ)) ∧ (3 ≤ n → grid.map Dbl.fin = centers (linspaceF double e0 e1 (n + 1))) := by
  obtain ⟨ys, h1, h2, h3, h4⟩ := linspace_agree d0 d1 m0 m1 hn1 hn
  have inj : ∀ a b : List ℚ, a.map Dbl.fin = b.map Dbl.fin → a = b := fun a b h =>
    List.map_injective_iff.2 (fun x y hxy => by cases hxy; rfl) h
  have hg : gridOfNodesF double centers (ys.map Dbl.fin) = gridOfNodesF digits53 centers (ys.map Dbl.fin) ∧
      (n ≤ 2 → ∃ zs : List ℚ, gridOfNodesF double centers (ys.map Dbl.fin) = .ok (zs.map Dbl.fin) ∧
        ∀ z ∈ zs, double z = .fin z ∧ |z| ≤ 2 ^ (955 : ℤ)) ∧
      (3 ≤ n → gridOfNodesF double centers (ys.map Dbl.fin) = .ok (centers (ys.map Dbl.fin))) := by
    unfold gridOfNodesF
    rw [List.length_map, h3]
    by_cases hn3 : 3 < n + 1
    · rw [if_pos hn3, if_pos hn3]
      exact ⟨rfl, fun h => by omega, fun _ => rfl⟩
    · rw [if_neg hn3, if_neg hn3]
      match ys, h3, h4 with
      | [], h3, _ => simp at h3
      | [x], h3, _ => simp at h3; omega
      | x :: y :: l, h3, h4 =>
        obtain ⟨zs, z1, z2, z3⟩ := zipWith_agree
          (f := fun a b => Dbl.add double (Dbl.mul double a half) (Dbl.mul double b half))
          (g := fun a b => Dbl.add digits53 (Dbl.mul digits53 a half) (Dbl.mul digits53 b half))
          (P := fun y => double y = .fin y ∧ |y| ≤ 2 ^ (954 : ℤ) ∧ ∃ m : ℤ, y = m * 2 ^ (-1056 : ℤ))
          (Q := fun z => double z = .fin z ∧ |z| ≤ 2 ^ (955 : ℤ))
          (fun a b ha hb => mean_agree ha.2 ha.1 hb.2 hb.1) (x :: y :: l) (y :: l) h4 (fun a ha => h4 a (List.mem_cons_of_mem _ ha))
        refine ⟨congrArg Except.ok (z1.trans z2.symm), fun _ => ⟨zs, congrArg Except.ok z1, z3⟩, fun h => by omega⟩
  obtain ⟨hg1, hg2, hg3⟩ := hg
  refine ⟨by rw [h1, h2], ?_, ?_⟩
  · unfold axisFromExtentF
    rw [h1, h2]
    simp only [hg1]
  · intro nodes grid hok
    unfold axisFromExtentF at hok
    rw [h1] at hok
    simp only [bind, Except.bind] at hok
    cases hgr : gridOfNodesF double centers (ys.map Dbl.fin) with
    | error e => rw [hgr] at hok; cases hok
    | ok gr =>
      rw [hgr] at hok
      simp only at hok
      have hres : ys.map Dbl.fin = nodes.map Dbl.fin ∧ gr = grid.map Dbl.fin := by
        revert hok
        split_ifs <;> intro hok
        all_goals first
          | (cases hok; done)
          | (simp only [pure, Except.pure, Except.ok.injEq, Prod.mk.injEq] at hok; exact hok)
      refine ⟨fun y hy => (h4 y (by rw [inj _ _ hres.1]; exact hy)).1, fun hle => ?_, fun hge => ?_⟩
      · obtain ⟨zs, hz1, hz2⟩ := hg2 hle
        rw [hgr] at hz1
        have : zs.map Dbl.fin = grid.map Dbl.fin := by
          rw [← hres.2]
          exact (Except.ok.inj hz1).symm
        rw [← inj _ _ this]
        exact hz2
      · have := hg3 hge
        rw [hgr] at this
        rw [← hres.2, h1]
        exact Except.ok.inj this

/-- C141: with IEEE doubles, if the cells are large compared to the rounding errors of the coordinates and the ends are 0 or between `2^(-900)` and
`2^900`, `Axis(extent=(e0, e1), n=n)` gives an axis with `n` points and exactly this extent; nodes and grid ascend or descend strictly, every
point is between its nodes, all are doubles, and everything is as near to the equidistant axis as the rounding allows. Partial: `ε` is the error of the
spline of scipy, which is used for more than two points, and smaller cells are not refused (`axis_from_extent_double_violated`). -/
theorem axis_from_extent_double_partial (centers : List (Dbl ℚ) → List (Dbl ℚ)) (e0 e1 : ℚ) (n : ℕ) (hn1 : 1 ≤ n) (hn : n ≤ 2 ^ 52)
    (d0 : double e0 = .fin e0) (d1 : double e1 = .fin e1) (m0 : Moderate (-900) 900 e0) (m1 : Moderate (-900) 900 e1) (ε : ℚ) (hε : 0 ≤ ε)
    (hspl : 3 ≤ n → ∃ c : List ℚ, centers (linspaceF double e0 e1 (n + 1)) = c.map Dbl.fin ∧ c.length = n ∧
      ∀ (i : ℕ) (g : ℚ), c[i]? = some g → double g = .fin g ∧ |g - (e0 + ((i : ℚ) + 1 / 2) * ((e1 - e0) / n))| ≤ ε)
    (hcell : 2 * n * (17 * (1 / 2 ^ 53) * (|e0| + |e1|) + ε) < |e1 - e0|) :
    ∃ nodes grid : List ℚ, axisFromExtentF double centers e0 e1 n = .ok (nodes.map Dbl.fin, grid.map Dbl.fin) ∧ grid.length = n ∧
      ValidAxis nodes grid (e0, e1) ∧ (∀ y ∈ nodes, double y = .fin y) ∧ (∀ g ∈ grid, double g = .fin g) ∧
      (∀ (i : ℕ) (a : ℚ), nodes[i]? = some a → |a - (e0 + i * ((e1 - e0) / n))| ≤ 6 * (1 / 2 ^ 53) * (|e0| + |e1|)) ∧
      (∀ (i : ℕ) (g : ℚ), grid[i]? = some g → |g - (e0 + ((i : ℚ) + 1 / 2) * ((e1 - e0) / n))| ≤ 11 * (1 / 2 ^ 53) * (|e0| + |e1|) + ε) := by
  obtain ⟨a1, a2, a3⟩ := axis_agree centers d0 d1 m0 m1 hn1 hn
  have h0 : digits53 e0 = .fin e0 := by
    rw [← double_digits53 (moderate_lt (by norm_num) m0) (Or.inr (double_multiple d0))]
    exact d0
  obtain ⟨nodes, grid, h1, h2, h3, h4, h5⟩ := axis_from_extent_rounded_partial digits53 (1 / 2 ^ 53) digits53_accurate (by norm_num) centers e0 e1 n
    hn1 h0 ε hε (fun h => by
      obtain ⟨c, c1, c2, c3⟩ := hspl h
      exact ⟨c, by rw [← a1]; exact c1, c2, fun i g hg => (c3 i g hg).2⟩) hcell
  rw [← a2] at h1
  obtain ⟨b1, b2, b3⟩ := a3 nodes grid h1
  refine ⟨nodes, grid, h1, h2, h3, b1, ?_, h4, h5⟩
  rcases Nat.lt_or_ge n 3 with hlt | hge
  · exact fun g hg => (b2 (by omega) g hg).1
  · obtain ⟨c, c1, -, c3⟩ := hspl hge
    have hc := (b3 hge).trans c1
    have : grid = c := List.map_injective_iff.2 (fun x y hxy => by cases hxy; rfl) hc
    intro g hg
    rw [this] at hg
    obtain ⟨i, hi⟩ := List.mem_iff_getElem?.1 hg
    exact (c3 i g hi).1

/-- C141: the index of the `i`-th grid point, computed with IEEE doubles and rounded, is `i`, if the cells are large compared to the rounding errors. -/
theorem axis_from_extent_index_double_partial (centers : List (Dbl ℚ) → List (Dbl ℚ)) (name unit : String) (e0 e1 : ℚ) (n : ℕ) (hn1 : 1 ≤ n)
    (hn : n ≤ 2 ^ 52) (d0 : double e0 = .fin e0) (d1 : double e1 = .fin e1) (m0 : Moderate (-900) 900 e0) (m1 : Moderate (-900) 900 e1) (ε : ℚ)
    (hε : 0 ≤ ε) (hspl : 3 ≤ n → ∃ c : List ℚ, centers (linspaceF double e0 e1 (n + 1)) = c.map Dbl.fin ∧ c.length = n ∧
      ∀ (i : ℕ) (g : ℚ), c[i]? = some g → double g = .fin g ∧ |g - (e0 + ((i : ℚ) + 1 / 2) * ((e1 - e0) / n))| ≤ ε)
    (hcell : 2 * n * (40 * (1 / 2 ^ 53) * (|e0| + |e1|) + ε) < |e1 - e0|) :
    ∃ nodes grid : List ℚ, axisFromExtentF double centers e0 e1 n = .ok (nodes.map Dbl.fin, grid.map Dbl.fin) ∧
      ∀ (i : ℕ) (g : ℚ), grid[i]? = some g →
        ∃ r, (⟨name, unit, nodes, grid, (e0, e1)⟩ : Axis ℚ).valueToIndexLinearF double g = .ok (.fin r) ∧ round r = i := by
  have hn' : (1 : ℚ) ≤ n := by exact_mod_cast hn1
  have hS : 0 ≤ |e0| + |e1| := add_nonneg (abs_nonneg _) (abs_nonneg _)
  have hDS : |e1 - e0| ≤ |e0| + |e1| := by linarith [abs_sub e1 e0]
  have hnu : 0 ≤ (n : ℚ) * (1 / 2 ^ 53 * (|e0| + |e1|)) := mul_nonneg (by linarith) (mul_nonneg (by norm_num) hS)
  obtain ⟨nodes, grid, h1, h2, hv, -, hgd, -, h3⟩ := axis_from_extent_double_partial centers e0 e1 n hn1 hn d0 d1 m0 m1 ε hε hspl (by linarith)
  refine ⟨nodes, grid, h1, fun i g hg => ?_⟩
  have hi : i + 1 ≤ n := by
    have := (List.getElem?_eq_some_iff.1 hg).1
    omega
  have hi' : (i : ℚ) + 1 ≤ n := by exact_mod_cast hi
  have hi0 : (0 : ℚ) ≤ i := Nat.cast_nonneg _
  have hD : 0 < |e1 - e0| := by
    have : 0 ≤ 2 * (n : ℚ) * (40 * (1 / 2 ^ 53) * (|e0| + |e1|) + ε) := mul_nonneg (by linarith) (by linarith)
    linarith
  have he : e0 ≠ e1 := by
    rintro rfl
    simp at hD
  have hd : e1 - e0 ≠ 0 := sub_ne_zero.2 he.symm
  -- the exact fractional index
  have hx : (⟨name, unit, nodes, grid, (e0, e1)⟩ : Axis ℚ).valueToIndexLinear g - i
      = (g - (e0 + ((i : ℚ) + 1 / 2) * ((e1 - e0) / n))) * (n / (e1 - e0)) := by
    unfold Axis.valueToIndexLinear Axis.len
    simp only [h2]
    have : (n : ℚ) ≠ 0 := by linarith
    field_simp
    ring
  have hx0 : (⟨name, unit, nodes, grid, (e0, e1)⟩ : Axis ℚ).valueToIndexLinear g + 1 / 2 = (g - e0) / (e1 - e0) * n := by
    unfold Axis.valueToIndexLinear Axis.len
    simp only [h2]
    ring
  have hx1 : |(⟨name, unit, nodes, grid, (e0, e1)⟩ : Axis ℚ).valueToIndexLinear g - i| * |e1 - e0| ≤
      (11 * (1 / 2 ^ 53) * (|e0| + |e1|) + ε) * n := by
    rw [hx, abs_mul, abs_div, abs_of_nonneg (by linarith : (0 : ℚ) ≤ n), mul_assoc, div_mul_cancel₀ _ hD.ne']
    exact mul_le_mul_of_nonneg_right (h3 i g hg) (by linarith)
  have hx2 : |(⟨name, unit, nodes, grid, (e0, e1)⟩ : Axis ℚ).valueToIndexLinear g - i| + 29 * (n * (1 / 2 ^ 53)) < 1 / 2 := by
    generalize (⟨name, unit, nodes, grid, (e0, e1)⟩ : Axis ℚ).valueToIndexLinear g = x at *
    have k1 : 29 * ((n : ℚ) * (1 / 2 ^ 53)) * |e1 - e0| ≤ 29 * (n * (1 / 2 ^ 53)) * (|e0| + |e1|) :=
      mul_le_mul_of_nonneg_left hDS (mul_nonneg (by norm_num) (mul_nonneg (by linarith) (by norm_num)))
    have k2 : (|x - i| + 29 * (n * (1 / 2 ^ 53))) * |e1 - e0| < 1 / 2 * |e1 - e0| := by linarith
    exact lt_of_mul_lt_mul_right k2 hD.le
  have hun : (0 : ℚ) ≤ n * (1 / 2 ^ 53) := mul_nonneg (by linarith) (by norm_num)
  have hun1 : (1 / 2 ^ 53 : ℚ) ≤ n * (1 / 2 ^ 53) := by
    have := mul_le_mul_of_nonneg_right hn' (by norm_num : (0 : ℚ) ≤ 1 / 2 ^ 53)
    linarith
  have hx3 : |(⟨name, unit, nodes, grid, (e0, e1)⟩ : Axis ℚ).valueToIndexLinear g + 1 / 2| ≤ n + 1 := by
    generalize (⟨name, unit, nodes, grid, (e0, e1)⟩ : Axis ℚ).valueToIndexLinear g = x at *
    have k := abs_le.1 (by linarith : |x - i| ≤ 1 / 2)
    rw [abs_le]
    constructor <;> linarith [k.1, k.2]
  have hge : |g - e0| ≤ 2 * |e1 - e0| := by
    rw [hx0, abs_mul, abs_div, abs_of_nonneg (by linarith : (0 : ℚ) ≤ n)] at hx3
    have k : |g - e0| / |e1 - e0| * n ≤ 2 * n := by linarith
    have k' := le_of_mul_le_mul_right k (by linarith)
    rwa [div_le_iff₀ hD] at k'
  have hsmall : ∀ e : ℚ, Moderate (-900) 900 e → |e| ≤ 2 ^ 900 := fun e m => by
    have := moderate_upper m
    rwa [show (2 : ℚ) ^ (900 : ℤ) = 2 ^ 900 from zpow_natCast 2 900] at this
  have hs0 := hsmall e0 m0
  have hs1 := hsmall e1 m1
  have h900 : (8 : ℚ) * 2 ^ 900 < 2 ^ 1022 := by decide +kernel
  have h900' : (0 : ℚ) < 2 ^ 900 := by decide +kernel
  have h900'' : (2 : ℚ) ≤ 2 ^ 900 := by decide +kernel
  have hgB : |g| ≤ 5 * 2 ^ 900 := by
    have := abs_sub_abs_le_abs_sub g e0
    generalize (2 : ℚ) ^ 900 = B at *
    linarith
  have hfar : |g - e0| ≤ 2 ^ 900 * |e1 - e0| := le_trans hge (mul_le_mul_of_nonneg_right h900'' hD.le)
  obtain ⟨r, hr, er⟩ := value_to_index_double ⟨name, unit, nodes, grid, (e0, e1)⟩ he d0 d1
    (by generalize (2 : ℚ) ^ 900 = B at *; generalize (2 : ℚ) ^ 1022 = C at *; show |e0| < C; linarith)
    (by generalize (2 : ℚ) ^ 900 = B at *; generalize (2 : ℚ) ^ 1022 = C at *; show |e1| < C; linarith)
    (by show grid.length ≤ 2 ^ 53; rw [h2]; exact le_trans hn (by norm_num)) g (hgd g (List.mem_iff_getElem?.2 ⟨i, hg⟩))
    (by generalize (2 : ℚ) ^ 900 = B at *; generalize (2 : ℚ) ^ 1022 = C at *; linarith) hfar
  refine ⟨r, hr, ?_⟩
  clear h900 h900' h900'' hgB hfar hs0 hs1 hsmall hr hx hx0 hge
  generalize (⟨name, unit, nodes, grid, (e0, e1)⟩ : Axis ℚ).valueToIndexLinear g = x at *
  have hx4 := mul_le_mul_of_nonneg_left hx3 (by norm_num : (0 : ℚ) ≤ 1 / 2 ^ 53)
  have hx5 := abs_sub_le r x i
  have hx6 : |r - i| < 1 / 2 := by linarith
  rw [abs_lt] at hx6
  rw [round_eq, Int.floor_eq_iff]
  push_cast
  constructor <;> linarith [hx6.1, hx6.2]

/-! ### Examples and violations -/

/-- The means of the nodes, computed with doubles. -/
def meansD (l : List (Dbl ℚ)) : List (Dbl ℚ) :=
  List.zipWith (fun a b => Dbl.add double (Dbl.mul double a half) (Dbl.mul double b half)) l l.tail

/-- C141 is violated for cells smaller than the distance of two doubles: the axis is accepted, although several nodes are equal. -/
theorem axis_from_extent_double_violated :
    axisFromExtentF double meansD (2 ^ 53) (2 ^ 53 + 2) 4 =
      .ok ([.fin (2 ^ 53), .fin (2 ^ 53), .fin (2 ^ 53), .fin (2 ^ 53 + 2), .fin (2 ^ 53 + 2)],
        [.fin (2 ^ 53), .fin (2 ^ 53), .fin (2 ^ 53), .fin (2 ^ 53 + 2)]) := by decide +kernel

/-- The limits of the exponents are needed: near the largest double the distance of the ends overflows, and the axis is refused; near the smallest one
the second grid point is at the end of its cell. -/
theorem axis_from_extent_double_limits :
    axisFromExtentF double meansD (-2 ^ 1023) (2 ^ 1023) 2 = .error .valueError ∧
    axisFromExtentF double meansD 0 (3 / 2 ^ 1074) 2 =
      .ok ([.fin 0, .fin (2 / 2 ^ 1074), .fin (3 / 2 ^ 1074)], [.fin (1 / 2 ^ 1074), .fin (3 / 2 ^ 1074)]) := by decide +kernel

/-- The rationals of a list of doubles which are all finite. -/
def finites (l : List (Dbl ℚ)) : List ℚ := l.map fun d => match d with
  | .fin x => x
  | _ => 0

/-- An axis from 1 to 2 with ten points. -/
theorem example_centers : ∃ c : List ℚ, meansD (linspaceF double 1 2 (10 + 1)) = c.map Dbl.fin ∧ c.length = 10 ∧
    ∀ (i : ℕ) (g : ℚ), c[i]? = some g → double g = .fin g ∧ |g - (1 + ((i : ℚ) + 1 / 2) * ((2 - 1) / (10 : ℕ)))| ≤ 1 / 2 ^ 50 := by
  refine ⟨finites (meansD (linspaceF double 1 2 (10 + 1))), by decide +kernel, by decide +kernel, ?_⟩
  have key : ∀ i < 10, double ((finites (meansD (linspaceF double 1 2 (10 + 1)))).getD i 0) =
      .fin ((finites (meansD (linspaceF double 1 2 (10 + 1)))).getD i 0) ∧
      |(finites (meansD (linspaceF double 1 2 (10 + 1)))).getD i 0 - (1 + ((i : ℚ) + 1 / 2) * ((2 - 1) / (10 : ℕ)))| ≤ 1 / 2 ^ 50 := by decide +kernel
  have hl : (finites (meansD (linspaceF double 1 2 (10 + 1)))).length = 10 := by decide +kernel
  intro i g hg
  have hi : i < 10 := hl ▸ (List.getElem?_eq_some_iff.1 hg).1
  have := key i hi
  rw [List.getD_eq_getElem?_getD, hg] at this
  exact this

example := axis_from_extent_double_partial meansD 1 2 10 (by norm_num) (by norm_num) (by decide +kernel) (by decide +kernel) (by decide +kernel)
  (by decide +kernel) (1 / 2 ^ 50) (by norm_num) (fun _ => example_centers) (by norm_num)

example := axis_from_extent_index_double_partial meansD "x" "m" 1 2 10 (by norm_num) (by norm_num) (by decide +kernel) (by decide +kernel)
  (by decide +kernel) (by decide +kernel) (1 / 2 ^ 50) (by norm_num) (fun _ => example_centers) (by norm_num)

example := axis_from_extent_double_partial (fun _ => []) (-1) 3 2 (by norm_num) (by norm_num) (by decide +kernel) (by decide +kernel)
  (by decide +kernel) (by decide +kernel) 0 (by norm_num) (fun h => absurd h (by norm_num)) (by norm_num)

end Postpic.Props
