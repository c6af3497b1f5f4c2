import Verif.Model.LinearFloat
import Verif.Props.LinspaceDouble

/-!
# C142: even axes are recognized with IEEE doubles
-/

set_option autoImplicit false

namespace Postpic.Props

open Postpic Postpic.Spec Postpic.Axes Postpic.Histogram Postpic.Statistics

/-- The tolerance of `np.isclose` is at least `2^(-27)`. -/
theorem tolerance_double (b : ℚ) (hb : |b| ≤ 2 ^ (955 : ℤ)) :
    ∃ t, Dbl.add double (double (1 / 100000000)) (Dbl.mul double (double (1 / 100000)) (Dbl.abs (.fin b))) = .fin t ∧ 2 ^ (-27 : ℤ) ≤ t := by
  have a1 : (2 : ℚ) ^ (-27 : ℤ) ≤ 1 / 100000000 := by norm_num
  have a2 : |(1 / 100000000 : ℚ)| ≤ 2 ^ (0 : ℤ) := by norm_num [abs_of_pos]
  have r2 : |(1 / 100000 : ℚ)| ≤ 2 ^ (0 : ℤ) := by norm_num [abs_of_pos]
  have at1 : (2 : ℚ) ^ (-27 : ℤ) ≤ nearDouble (1 / 100000000) := by
    have := nearDouble_mono a1
    rwa [nearDouble_two_zpow (by norm_num)] at this
  have at2 := nearDouble_upper (b := 0) (by norm_num) a2
  have rt1 : 0 ≤ nearDouble (1 / 100000) := nearDouble_nonneg (by norm_num)
  have rt2 := nearDouble_upper (b := 0) (by norm_num) r2
  have d1 : double (1 / 100000000) = .fin (nearDouble (1 / 100000000)) := double_small (lt_of_le_of_lt a2 (zpow_lt_1023 (by norm_num)))
  have d2 : double (1 / 100000) = .fin (nearDouble (1 / 100000)) := double_small (lt_of_le_of_lt r2 (zpow_lt_1023 (by norm_num)))
  rw [d1, d2]
  generalize nearDouble (1 / 100000000) = α at *
  generalize nearDouble (1 / 100000) = ρ at *
  have p1 : 0 ≤ ρ * |b| := mul_nonneg rt1 (abs_nonneg b)
  have p2 : |ρ * (|b|)| ≤ 2 ^ (955 : ℤ) := by
    rw [abs_mul, abs_abs]
    calc |ρ| * |b| ≤ 2 ^ (0 : ℤ) * 2 ^ (955 : ℤ) := mul_le_mul rt2 hb (abs_nonneg b) (by norm_num)
      _ = 2 ^ (955 : ℤ) := by rw [zpow_zero, one_mul]
  have d3 : Dbl.mul double (.fin ρ) (Dbl.abs (.fin b)) = .fin (nearDouble (ρ * |b|)) := double_small (lt_of_le_of_lt p2 (zpow_lt_1023 (by norm_num)))
  rw [d3]
  have q1 := nearDouble_nonneg p1
  have q2 := nearDouble_upper (b := 955) (by norm_num) p2
  generalize nearDouble (ρ * |b|) = β at *
  have s1 : (2 : ℚ) ^ (-27 : ℤ) ≤ α + β := by linarith
  have s2 : |α + β| ≤ 2 ^ (956 : ℤ) := by
    have h0 : (2 : ℚ) ^ (0 : ℤ) ≤ 2 ^ (955 : ℤ) := zpow_le_zpow_right₀ (by norm_num) (by norm_num)
    have e : (2 : ℚ) ^ (956 : ℤ) = 2 ^ (955 : ℤ) + 2 ^ (955 : ℤ) := by
      rw [show (956 : ℤ) = 955 + 1 by norm_num, zpow_add_one₀ (by norm_num)]
      ring
    rw [e]
    exact le_trans (abs_add_le α β) (add_le_add (le_trans at2 h0) q2)
  refine ⟨nearDouble (α + β), double_small (lt_of_le_of_lt s2 (zpow_lt_1023 (by norm_num))), ?_⟩
  have := nearDouble_mono s1
  rwa [nearDouble_two_zpow (by norm_num)] at this

theorem isclose_double {a b : ℚ} (hb : |b| ≤ 2 ^ (955 : ℤ)) (h : |a - b| ≤ 2 ^ (-27 : ℤ)) : iscloseF double (.fin a) (.fin b) = true := by
  obtain ⟨t, ht, h27⟩ := tolerance_double b hb
  have hs : Dbl.sub double (.fin a) (.fin b) = .fin (nearDouble (a - b)) := by
    show double (a + -b) = _
    rw [← sub_eq_add_neg]
    exact double_small (lt_of_le_of_lt h (zpow_lt_1023 (by norm_num)))
  show Dbl.le (Dbl.abs (Dbl.sub double (.fin a) (.fin b)))
    (Dbl.add double (double (1 / 100000000)) (Dbl.mul double (double (1 / 100000)) (Dbl.abs (.fin b)))) = true
  rw [ht, hs]
  exact decide_eq_true (le_trans (nearDouble_upper (by norm_num) h) h27)

/-- Doubles near equidistant points count as even. -/
theorem near_linear (x : ℕ → ℚ) (m : ℕ) (hm1 : 1 ≤ m) (hm : m ≤ 2 ^ 52) (d0 : double (x 0) = .fin (x 0)) (d1 : double (x m) = .fin (x m))
    (m0 : Moderate (-900) 900 (x 0)) (m1 : Moderate (-900) 900 (x m)) (hne : x 0 ≠ x m) (p h δ : ℚ)
    (hx : ∀ k ≤ m, |x k - (p + k * h)| ≤ δ) (hδ : 2 * δ + 6 * (1 / 2 ^ 53) * (|x 0| + |x m|) ≤ 2 ^ (-27 : ℤ)) :
    axisIsLinearF double (((List.range (m + 1)).map x).map Dbl.fin) = true := by
  unfold axisIsLinearF
  by_cases h3 : (((List.range (m + 1)).map x).map Dbl.fin).length - 1 < 3
  · rw [if_pos h3]
  · rw [if_neg h3]
    have hh : (((List.range (m + 1)).map x).map Dbl.fin).head? = some (.fin (x 0)) := by
      rw [List.range_succ_eq_map]
      rfl
    have hl : (((List.range (m + 1)).map x).map Dbl.fin).getLast? = some (.fin (x m)) := by
      rw [List.range_succ]
      simp
    have hlen : (((List.range (m + 1)).map x).map Dbl.fin).length = m + 1 := by simp
    unfold isLinearListF
    rw [hh, hl, hlen]
    simp only
    obtain ⟨ys, a1, a2, a3, a4⟩ := linspace_agree d0 d1 m0 m1 hm1 hm
    have h0 : digits53 (x 0) = .fin (x 0) := by
      rw [← double_digits53 (moderate_lt (by norm_num) m0) (Or.inr (double_multiple d0))]
      exact d0
    obtain ⟨y, b1, -, -, b4⟩ := linspaceF_near digits53_accurate (by norm_num) (x 0) (x m) hne h0 m hm1
    have hys : ys = (List.range (m + 1)).map y :=
      List.map_injective_iff.2 (fun u v huv => by cases huv; rfl) (a2.symm.trans b1)
    rw [a1, hys, List.map_map, List.map_map, List.zip_map', List.all_map, List.all_eq_true]
    intro k hk
    have hk' : k ≤ m := Nat.lt_succ_iff.1 (List.mem_range.1 hk)
    have hyk := a4 (y k) (by rw [hys]; exact List.mem_map_of_mem hk)
    refine isclose_double (le_trans hyk.2.1 (zpow_le_zpow_right₀ (by norm_num) (by norm_num))) ?_
    refine le_trans ?_ hδ
    have c1 := hx k hk'
    have c2 := b4 k hk'
    have hm0 : (0 : ℚ) < m := by exact_mod_cast hm1
    have hkm : (k : ℚ) ≤ m := by exact_mod_cast hk'
    have hk0 : (0 : ℚ) ≤ k := Nat.cast_nonneg k
    have c3 := hx 0 (Nat.zero_le m)
    have c4 := hx m le_rfl
    -- the straight line between the ends is as near to the equidistant points as the ends are
    have c5 : |(x 0 + k * ((x m - x 0) / m)) - (p + k * h)| ≤ δ := by
      have e : (x 0 + k * ((x m - x 0) / m)) - (p + k * h) =
          (1 - k / m) * (x 0 - (p + (0 : ℕ) * h)) + k / m * (x m - (p + m * h)) := by
        field_simp
        push_cast
        ring
      have w1 : (0 : ℚ) ≤ k / m := div_nonneg hk0 hm0.le
      have w2 : (0 : ℚ) ≤ 1 - k / m := by
        have := (div_le_one hm0).2 hkm
        linarith
      rw [e]
      refine le_trans (abs_add_le _ _) ?_
      rw [abs_mul, abs_mul, abs_of_nonneg w1, abs_of_nonneg w2]
      have v1 := mul_le_mul_of_nonneg_left c3 w2
      have v2 := mul_le_mul_of_nonneg_left c4 w1
      linarith
    rw [abs_le] at c1 c2 c5 ⊢
    constructor <;> linarith [c1.1, c1.2, c2.1, c2.2, c5.1, c5.2]

/-- C142: an axis made from extent and number of points counts as even, whatever the extent is, as long as the nodes are
smaller than `2^955`. -/
theorem axis_from_extent_linear_double (centers : List (Dbl ℚ) → List (Dbl ℚ)) (e0 e1 : ℚ) (n : ℕ) (nodes : List ℚ) (grid : List (Dbl ℚ))
    (h : axisFromExtentF double centers e0 e1 n = .ok (nodes.map Dbl.fin, grid)) (hB : ∀ y ∈ nodes, |y| ≤ 2 ^ (955 : ℤ)) :
    axisIsLinearF double (nodes.map Dbl.fin) = true := by
  unfold axisFromExtentF at h
  simp only [bind, Except.bind] at h
  cases hgr : gridOfNodesF double centers (linspaceF double e0 e1 (n + 1)) with
  | error e => rw [hgr] at h; cases h
  | ok gr =>
    rw [hgr] at h
    simp only at h
    by_cases hc : (linspaceF double e0 e1 (n + 1)).head? ≠ some (.fin e0) ∨ (linspaceF double e0 e1 (n + 1)).getLast? ≠ some (.fin e1)
    · rw [if_pos hc] at h
      cases h
    · have hc' := hc
      rw [not_or, not_not, not_not] at hc'
      have hn : linspaceF double e0 e1 (n + 1) = nodes.map Dbl.fin := by
        revert h
        split_ifs <;> intro h
        all_goals first
          | (cases h; done)
          | (simp only [pure, Except.pure, Except.ok.injEq, Prod.mk.injEq] at h; exact h.1)
      have hlen : (nodes.map Dbl.fin).length = n + 1 := by
        rw [← hn]
        simp [linspaceF]
      rw [hn] at hc'
      unfold axisIsLinearF
      by_cases h3 : (nodes.map Dbl.fin).length - 1 < 3
      · rw [if_pos h3]
      · rw [if_neg h3]
        unfold isLinearListF
        rw [hc'.1, hc'.2, hlen]
        simp only
        rw [hn, List.all_eq_true]
        intro p hp
        have : ∀ (l : List ℚ) (q : Dbl ℚ × Dbl ℚ), q ∈ (l.map Dbl.fin).zip (l.map Dbl.fin) → ∃ y ∈ l, q = (.fin y, .fin y) := by
          intro l
          induction l with
          | nil => intro q hq; simp at hq
          | cons a l ih =>
            intro q hq
            rw [List.map_cons, List.zip_cons_cons, List.mem_cons] at hq
            rcases hq with rfl | hq
            · exact ⟨a, by simp, rfl⟩
            · obtain ⟨y, hy, e⟩ := ih q hq
              exact ⟨y, by simp [hy], e⟩
        obtain ⟨y, hy, rfl⟩ := this nodes p hp
        refine isclose_double (hB y hy) ?_
        rw [sub_self, abs_zero]
        exact (two_zpow_pos _).le

/-- C142: consecutive cells of such an axis make an axis which counts as even, if the coordinates are smaller than about a million. Partial: this is not
true for larger coordinates (`cut_linear_violated`). -/
theorem cut_linear_double_partial (e0 e1 : ℚ) (he : e0 ≠ e1) (n : ℕ) (hn1 : 1 ≤ n) (hn : n ≤ 2 ^ 52) (d0 : double e0 = .fin e0)
    (d1 : double e1 = .fin e1) (m0 : Moderate (-900) 900 e0) (m1 : Moderate (-900) 900 e1) (hS : |e0| + |e1| ≤ 2 ^ 20) (nodes : List ℚ)
    (hnodes : linspaceF double e0 e1 (n + 1) = nodes.map Dbl.fin) (i m : ℕ) (hm : 1 ≤ m) (him : i + m ≤ n) (a b : ℚ) (ha : nodes[i]? = some a)
    (hb : nodes[i + m]? = some b) (hab : a ≠ b) (ma : Moderate (-900) 900 a) (mb : Moderate (-900) 900 b) :
    axisIsLinearF double (((nodes.drop i).take (m + 1)).map Dbl.fin) = true := by
  obtain ⟨ys, a1, a2, a3, a4⟩ := linspace_agree d0 d1 m0 m1 hn1 hn
  have h0 : digits53 e0 = .fin e0 := by
    rw [← double_digits53 (moderate_lt (by norm_num) m0) (Or.inr (double_multiple d0))]
    exact d0
  obtain ⟨y, b1, -, -, b4⟩ := linspaceF_near digits53_accurate (by norm_num) e0 e1 he h0 n hn1
  have inj : ∀ l l' : List ℚ, l.map Dbl.fin = l'.map Dbl.fin → l = l' := fun l l' h =>
    List.map_injective_iff.2 (fun u v huv => by cases huv; rfl) h
  have hys : ys = (List.range (n + 1)).map y := inj _ _ (a2.symm.trans b1)
  have hno : nodes = (List.range (n + 1)).map y := by rw [← hys]; exact inj _ _ (hnodes.symm.trans a1)
  have hget : ∀ k ≤ n, nodes[k]? = some (y k) := by
    intro k hk
    rw [hno]
    simp [Nat.lt_succ_iff.2 hk]
  have hya : y i = a := by
    have := hget i (by omega)
    rw [ha] at this
    exact (Option.some.inj this).symm
  have hyb : y (i + m) = b := by
    have := hget (i + m) him
    rw [hb] at this
    exact (Option.some.inj this).symm
  have hcut : (nodes.drop i).take (m + 1) = (List.range (m + 1)).map fun k => y (i + k) := by
    refine List.ext_getElem? fun k => ?_
    rw [List.getElem?_take, List.getElem?_map]
    by_cases hk : k < m + 1
    · rw [if_pos hk, List.getElem?_drop, hget (i + k) (by omega), List.getElem?_range hk]
      rfl
    · rw [if_neg hk, List.getElem?_eq_none (by simpa using hk)]
      rfl
  rw [hcut]
  have hdb : ∀ k ≤ n, double (y k) = .fin (y k) := fun k hk => (a4 (y k) (by rw [hys]; exact List.mem_map_of_mem (List.mem_range.2 (by omega)))).1
  have hn0 : (0 : ℚ) < n := by exact_mod_cast hn1
  have hS0 : 0 ≤ |e0| + |e1| := add_nonneg (abs_nonneg _) (abs_nonneg _)
  -- every node is at most a little larger than the ends
  have hsize : ∀ k ≤ n, |y k| ≤ 2 * (|e0| + |e1|) := by
    intro k hk
    have c := b4 k hk
    have w1 : (0 : ℚ) ≤ k / n := div_nonneg (Nat.cast_nonneg k) hn0.le
    have w2 : (k : ℚ) / n ≤ 1 := (div_le_one hn0).2 (by exact_mod_cast hk)
    have e : e0 + k * ((e1 - e0) / n) = (1 - k / n) * e0 + k / n * e1 := by ring
    have c' : |e0 + k * ((e1 - e0) / n)| ≤ |e0| + |e1| := by
      rw [e]
      refine le_trans (abs_add_le _ _) ?_
      rw [abs_mul, abs_mul, abs_of_nonneg w1, abs_of_nonneg (by linarith : (0 : ℚ) ≤ 1 - k / n)]
      have v1 := mul_le_mul_of_nonneg_right w2 (abs_nonneg e1)
      have v2 := mul_nonneg w1 (abs_nonneg e0)
      linarith
    have c'' := abs_sub_abs_le_abs_sub (y k) (e0 + k * ((e1 - e0) / n))
    generalize |e0| + |e1| = S at *
    linarith
  refine near_linear (fun k => y (i + k)) m hm (by omega) (hdb i (by omega)) (hdb (i + m) him) ?_ ?_ ?_ (e0 + i * ((e1 - e0) / n)) ((e1 - e0) / n)
    (6 * (1 / 2 ^ 53) * (|e0| + |e1|)) (fun k hk => ?_) ?_
  · show Moderate _ _ (y (i + 0))
    rw [add_zero, hya]
    exact ma
  · show Moderate _ _ (y (i + m))
    rw [hyb]
    exact mb
  · show y (i + 0) ≠ y (i + m)
    rw [add_zero, hya, hyb]
    exact hab
  · have := b4 (i + k) (by omega)
    rw [show e0 + (i : ℚ) * ((e1 - e0) / n) + k * ((e1 - e0) / n) = e0 + ((i + k : ℕ) : ℚ) * ((e1 - e0) / n) by push_cast; ring]
    exact this
  · have s1 := hsize (i + 0) (by omega)
    have s2 := hsize (i + m) him
    have e27 : (2 : ℚ) ^ (-27 : ℤ) = 1 / 2 ^ 27 := by norm_num
    rw [e27]
    show 2 * (6 * (1 / 2 ^ 53) * (|e0| + |e1|)) + 6 * (1 / 2 ^ 53) * (|y (i + 0)| + |y (i + m)|) ≤ _
    generalize |e0| + |e1| = S at *
    linarith

/-- Numbers which `np.isclose` accepts are close. -/
theorem isclose_sound_double {a b : ℚ} (da : double a = .fin a) (db : double b = .fin b) (hs : |a - b| < 2 ^ 1023) (hb : |b| ≤ 2 ^ (955 : ℤ))
    (h : iscloseF double (.fin a) (.fin b) = true) : |a - b| ≤ 11 / 10 * (1 / 100000000 + 1 / 100000 * |b|) := by
  have h' : Dbl.le (Dbl.abs (Dbl.sub double (.fin a) (.fin b)))
    (Dbl.add double (double (1 / 100000000)) (Dbl.mul double (double (1 / 100000)) (Dbl.abs (.fin b)))) = true := h
  have hsub : Dbl.sub double (.fin a) (.fin b) = .fin (nearDouble (a - b)) := by
    show double (a + -b) = _
    rw [← sub_eq_add_neg]
    exact double_small hs
  obtain ⟨t, ht, -⟩ := tolerance_double b hb
  rw [hsub, ht] at h'
  have h1 : |nearDouble (a - b)| ≤ t := of_decide_eq_true h'
  -- the difference of two doubles is rounded to 53 digits
  have e1 : |nearDouble (a - b) - (a - b)| ≤ 1 / 2 ^ 53 * |a - b| := by
    have hneg : double (-b) = .fin (-b) := by
      have hlt : |b| < 2 ^ 1023 := lt_of_le_of_lt hb (zpow_lt_1023 (by norm_num))
      have hnb : nearDouble b = b := (Dbl.fin.inj (db.symm.trans (double_small hlt))).symm
      have hlt' : |(-b)| < 2 ^ 1023 := by rwa [abs_neg]
      rw [double_small hlt', nearDouble_neg, hnb]
    have hs' : |a + -b| < 2 ^ 1023 := (sub_eq_add_neg a b) ▸ hs
    have hd := double_add da hneg hs'
    rw [← sub_eq_add_neg, double_small hs] at hd
    obtain ⟨y, hy, hy'⟩ := digits53_accurate.near (a - b)
    rw [← hd] at hy
    cases hy
    exact hy'
  have ferr : ∀ x : ℚ, |nearDouble x - x| ≤ 1 / 2 ^ 53 * |x| + 1 / 10 ^ 20 := by
    intro x
    have := nearDouble_error x
    have hs : (1 / 2 ^ 1075 : ℚ) ≤ 1 / 10 ^ 20 := by decide +kernel
    have h0 : 0 ≤ 1 / 2 ^ 53 * |x| := mul_nonneg (by norm_num) (abs_nonneg x)
    refine le_trans this (max_le ?_ ?_)
    · have : (0 : ℚ) ≤ 1 / 10 ^ 20 := by norm_num
      linarith
    · exact le_trans hs (by linarith)
  -- the tolerance
  have a2 : |(1 / 100000000 : ℚ)| ≤ 2 ^ (0 : ℤ) := by norm_num [abs_of_pos]
  have r2 : |(1 / 100000 : ℚ)| ≤ 2 ^ (0 : ℤ) := by norm_num [abs_of_pos]
  have d1 : double (1 / 100000000) = .fin (nearDouble (1 / 100000000)) := double_small (lt_of_le_of_lt a2 (zpow_lt_1023 (by norm_num)))
  have d2 : double (1 / 100000) = .fin (nearDouble (1 / 100000)) := double_small (lt_of_le_of_lt r2 (zpow_lt_1023 (by norm_num)))
  have g1 := ferr (1 / 100000000)
  have g2 := ferr (1 / 100000)
  rw [d1, d2] at ht
  have rt1 : 0 ≤ nearDouble (1 / 100000) := nearDouble_nonneg (by norm_num)
  have at1 : 0 ≤ nearDouble (1 / 100000000) := nearDouble_nonneg (by norm_num)
  have rt2 := nearDouble_upper (b := 0) (by norm_num) r2
  generalize nearDouble (1 / 100000000) = α at *
  generalize nearDouble (1 / 100000) = ρ at *
  have p1 : 0 ≤ ρ * |b| := mul_nonneg rt1 (abs_nonneg b)
  have p2 : |ρ * (|b|)| ≤ 2 ^ (955 : ℤ) := by
    rw [abs_mul, abs_abs]
    calc |ρ| * |b| ≤ 2 ^ (0 : ℤ) * 2 ^ (955 : ℤ) := mul_le_mul rt2 hb (abs_nonneg b) (by norm_num)
      _ = 2 ^ (955 : ℤ) := by rw [zpow_zero, one_mul]
  have d3 : Dbl.mul double (.fin ρ) (Dbl.abs (.fin b)) = .fin (nearDouble (ρ * |b|)) := double_small (lt_of_le_of_lt p2 (zpow_lt_1023 (by norm_num)))
  rw [d3] at ht
  have g3 := ferr (ρ * |b|)
  have q1 := nearDouble_nonneg p1
  generalize nearDouble (ρ * |b|) = β at *
  have ht' : t = nearDouble (α + β) := by
    have h2 : double (α + β) = .fin t := ht
    unfold double at h2
    by_cases hc : 2 ^ 1024 ≤ |nearDouble (α + β)|
    · rw [if_pos hc] at h2
      cases h2
    · rw [if_neg hc] at h2
      cases h2
      rfl
  have g4 := ferr (α + β)
  rw [← ht'] at g4
  clear ht' ht d3 p2 rt2 d1 d2 a2 r2 h' hsub hs hb h da db ferr
  rw [abs_of_nonneg (by norm_num : (0 : ℚ) ≤ 1 / 100000000)] at g1
  rw [abs_of_nonneg (by norm_num : (0 : ℚ) ≤ 1 / 100000)] at g2
  rw [abs_of_nonneg p1] at g3
  rw [abs_of_nonneg (add_nonneg at1 q1)] at g4
  have hbn := abs_nonneg b
  have k1 := (abs_le.1 g1).2
  have k2 := (abs_le.1 g2).2
  have k3 := (abs_le.1 g3).2
  have k4 := (abs_le.1 g4).2
  have k5 : ρ * |b| ≤ (1 / 100000 + 1 / 2 ^ 53 * (1 / 100000) + 1 / 10 ^ 20) * |b| := mul_le_mul_of_nonneg_right (by linarith) hbn
  have k6 : |a - b| - 1 / 2 ^ 53 * |a - b| ≤ |nearDouble (a - b)| := by
    have := abs_sub_abs_le_abs_sub (a - b) (nearDouble (a - b))
    rw [abs_sub_comm (a - b)] at this
    linarith
  generalize |a - b| = D at *
  generalize |b| = B at *
  generalize |nearDouble (a - b)| = N at *
  generalize ρ * B = R at *
  norm_num at k1 k3 k4 k5 k6 ⊢
  linarith

/-- C142: conversely, an axis with three or more points which counts as even is even: every node is within the tolerance (1e-8 + 1e-5 of the
coordinate, and some roundings) of the straight line between the ends. -/
theorem linear_sound_double (x : ℕ → ℚ) (m : ℕ) (hm3 : 3 ≤ m) (hm : m ≤ 2 ^ 52) (hd : ∀ k ≤ m, double (x k) = .fin (x k))
    (hB : ∀ k ≤ m, |x k| ≤ 2 ^ (955 : ℤ)) (m0 : Moderate (-900) 900 (x 0)) (m1 : Moderate (-900) 900 (x m)) (hne : x 0 ≠ x m)
    (h : axisIsLinearF double (((List.range (m + 1)).map x).map Dbl.fin) = true) (k : ℕ) (hk : k ≤ m) :
    |x k - (x 0 + k * ((x m - x 0) / m))| ≤
      11 / 10 * (1 / 100000000 + 1 / 100000 * |x 0 + k * ((x m - x 0) / m)|) + 7 * (1 / 2 ^ 53) * (|x 0| + |x m|) := by
  unfold axisIsLinearF at h
  rw [if_neg (by simp; omega)] at h
  have hh : (((List.range (m + 1)).map x).map Dbl.fin).head? = some (.fin (x 0)) := by
    rw [List.range_succ_eq_map]
    rfl
  have hl : (((List.range (m + 1)).map x).map Dbl.fin).getLast? = some (.fin (x m)) := by
    rw [List.range_succ]
    simp
  have hlen : (((List.range (m + 1)).map x).map Dbl.fin).length = m + 1 := by simp
  unfold isLinearListF at h
  rw [hh, hl, hlen] at h
  simp only at h
  have d0 := hd 0 (Nat.zero_le m)
  have d1 := hd m le_rfl
  obtain ⟨ys, a1, a2, a3, a4⟩ := linspace_agree d0 d1 m0 m1 (by omega : 1 ≤ m) hm
  have h0 : digits53 (x 0) = .fin (x 0) := by
    rw [← double_digits53 (moderate_lt (by norm_num) m0) (Or.inr (double_multiple d0))]
    exact d0
  obtain ⟨y, b1, -, -, b4⟩ := linspaceF_near digits53_accurate (by norm_num) (x 0) (x m) hne h0 m (by omega)
  have hys : ys = (List.range (m + 1)).map y :=
    List.map_injective_iff.2 (fun u v huv => by cases huv; rfl) (a2.symm.trans b1)
  rw [a1, hys, List.map_map, List.map_map, List.zip_map', List.all_map, List.all_eq_true] at h
  have hmem : k ∈ List.range (m + 1) := List.mem_range.2 (by omega)
  have hyk := a4 (y k) (by rw [hys]; exact List.mem_map_of_mem hmem)
  have hxk := hB k hk
  have hsm : |x k - y k| < 2 ^ 1023 := by
    have t1 : (2 : ℚ) ^ (954 : ℤ) ≤ 2 ^ (955 : ℤ) := zpow_le_zpow_right₀ (by norm_num) (by norm_num)
    have t2 : (2 : ℚ) ^ (955 : ℤ) + 2 ^ (955 : ℤ) = 2 ^ (956 : ℤ) := by
      rw [show (956 : ℤ) = 955 + 1 by norm_num, zpow_add_one₀ (by norm_num)]
      ring
    have t3 : (2 : ℚ) ^ (956 : ℤ) < 2 ^ 1023 := zpow_lt_1023 (by norm_num)
    refine lt_of_le_of_lt (le_trans (abs_sub _ _) (add_le_add hxk (le_trans hyk.2.1 t1))) ?_
    rw [t2]
    exact t3
  have c1 := isclose_sound_double (hd k hk) hyk.1 hsm (le_trans hyk.2.1 (zpow_le_zpow_right₀ (by norm_num) (by norm_num))) (h k hmem)
  have c2 := b4 k hk
  have c3 := abs_sub_le (x k) (y k) (x 0 + k * ((x m - x 0) / m))
  have c4 := abs_sub_abs_le_abs_sub (y k) (x 0 + k * ((x m - x 0) / m))
  have hS : 0 ≤ |x 0| + |x m| := add_nonneg (abs_nonneg _) (abs_nonneg _)
  clear hsm hxk hyk h a4 hB hd m0 m1
  generalize x 0 + k * ((x m - x 0) / m) = L at *
  generalize |x 0| + |x m| = S at *
  norm_num at c1 c2 ⊢
  linarith

/-! ### Examples and violations -/

/-- C142 violated: an axis from -10⁹ to 10⁹ with six points counts as even, but three neighbouring points of it do not: the node in the middle is 0, the
straight line between the new ends is at -1.2·10⁻⁷ there, and the tolerance is 10⁻⁸. -/
theorem cut_linear_violated :
    axisIsLinearF double (linspaceF double (-1000000000) 1000000000 (6 + 1)) = true ∧
    axisIsLinearF double (((linspaceF double (-1000000000) 1000000000 (6 + 1)).drop 1).take 4) = false := by decide +kernel

/-- C142, the other direction violated: the tolerance has an absolute part, so on a scale of nanometres in SI units an axis with squares as nodes
(0, 1, 4, 9, 16 times 2⁻³⁰, about 1e-9) counts as even; the same axis in units of 2⁻³⁰ does not. -/
theorem linear_small_violated :
    axisIsLinearF double ((([0, 1, 4, 9, 16] : List ℚ).map fun x => x / 2 ^ 30).map Dbl.fin) = true ∧
    axisIsLinearF double (([0, 1, 4, 9, 16] : List ℚ).map Dbl.fin) = false := by decide +kernel

example := axis_from_extent_linear_double meansD 1 2 10 (finites (linspaceF double 1 2 (10 + 1))) (meansD (linspaceF double 1 2 (10 + 1)))
  (by decide +kernel) (by decide +kernel)

example := cut_linear_double_partial (-1) 2 (by norm_num) 9 (by norm_num) (by norm_num) (by decide +kernel) (by decide +kernel) (by decide +kernel)
  (by decide +kernel) (by norm_num [abs_of_pos]) (finites (linspaceF double (-1) 2 (9 + 1))) (by decide +kernel) 2 5 (by norm_num) (by norm_num)
  ((finites (linspaceF double (-1) 2 (9 + 1))).getD 2 0) ((finites (linspaceF double (-1) 2 (9 + 1))).getD 7 0) (by decide +kernel)
  (by decide +kernel) (by decide +kernel) (by decide +kernel) (by decide +kernel)

example := linear_sound_double (fun k => (k : ℚ) / 4 - 1) 8 (by norm_num) (by norm_num) (by decide +kernel) (by decide +kernel) (by decide +kernel)
  (by decide +kernel) (by decide +kernel) (by decide +kernel) 3 (by norm_num)

end Postpic.Props
