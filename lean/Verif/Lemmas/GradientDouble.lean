import Verif.Lemmas.GradientFloat
import Verif.Lemmas.SumDouble
import Verif.Spec.Moderate

/-!
# Derivatives with doubles: operations that neither underflow nor overflow
-/

set_option autoImplicit false

namespace Postpic.Props

open Postpic Postpic.Axes Postpic.Fields Postpic.Histogram Postpic.Statistics Postpic.Spec

theorem nearDouble_abs (x : ℚ) : |nearDouble x| = nearDouble |x| := by
  rcases le_total 0 x with h | h
  · rw [abs_of_nonneg h, abs_of_nonneg (nearDouble_nonneg h)]
  · rw [abs_of_nonpos h, nearDouble_neg]
    have := nearDouble_nonneg (show 0 ≤ -x by linarith)
    rw [nearDouble_neg] at this
    exact abs_of_nonpos (by linarith)

theorem nearDouble_two_zpow {a : ℤ} (h : -1074 ≤ a) : nearDouble (2 ^ a) = 2 ^ a := by
  have := nearDouble_exact 1 a (by norm_num) h
  simpa using this

theorem nearDouble_upper {x : ℚ} {b : ℤ} (hb : -1074 ≤ b) (h : |x| ≤ 2 ^ b) : |nearDouble x| ≤ 2 ^ b := by
  rw [nearDouble_abs, ← nearDouble_two_zpow hb]
  exact nearDouble_mono h

theorem nearDouble_lower {x : ℚ} {a : ℤ} (ha : -1074 ≤ a) (h : 2 ^ a ≤ |x|) : 2 ^ a ≤ |nearDouble x| := by
  rw [nearDouble_abs, ← nearDouble_two_zpow ha]
  exact nearDouble_mono h

theorem zpow_lt_1023 {b : ℤ} (h : b ≤ 1022) : (2 : ℚ) ^ b < 2 ^ 1023 := by
  have : (2 : ℚ) ^ b < 2 ^ (1023 : ℤ) := zpow_lt_zpow_right₀ (by norm_num) (by omega)
  exact_mod_cast this

theorem double_small {x : ℚ} (h : |x| < 2 ^ 1023) : double x = .fin (nearDouble x) := by
  obtain ⟨y, y1, -⟩ := double_near x h
  unfold double at y1 ⊢
  split_ifs at y1 ⊢
  rfl

theorem double_nearDouble {x : ℚ} (h : |x| < 2 ^ 1023) : double (nearDouble x) = .fin (nearDouble x) := double_idem (double_small h)

theorem moderate_lt {a b : ℤ} (hb : b ≤ 1022) {x : ℚ} (h : Moderate a b x) : |x| < 2 ^ 1023 := by
  rcases h with rfl | ⟨-, h⟩
  · rw [abs_zero]
    positivity
  · exact lt_of_le_of_lt h (zpow_lt_1023 hb)

/-- Such numbers are rounded to 53 digits. -/
theorem moderate_round {a b : ℤ} (ha : -1022 ≤ a) (hb : b ≤ 1022) {x : ℚ} (h : Moderate a b x) :
    double x = .fin (nearDouble x) ∧ digits53 x = .fin (nearDouble x) ∧ Moderate a b (nearDouble x) ∧
      double (nearDouble x) = .fin (nearDouble x) ∧ (0 < x → 0 < nearDouble x) ∧ (x < 0 → nearDouble x < 0) ∧
      (x ≠ 0 → nearDouble x ≠ 0) := by
  have hx := moderate_lt hb h
  have hd := double_small hx
  have hn : x ≠ 0 → nearDouble x ≠ 0 := by
    intro h0
    rcases h with h | ⟨h, -⟩
    · exact absurd h h0
    · have h1 := nearDouble_lower (by omega) h
      have h2 := two_zpow_pos a
      exact abs_pos.1 (lt_of_lt_of_le h2 h1)
  refine ⟨hd, ?_, ?_, double_nearDouble hx, fun h0 => ?_, fun h0 => ?_, hn⟩
  · rw [← hd]
    symm
    refine double_digits53 hx ?_
    rcases h with rfl | ⟨h, -⟩
    · exact Or.inr ⟨0, by simp⟩
    · exact Or.inl ((zpow_le_zpow_right₀ (by norm_num) ha).trans h)
  · rcases h with rfl | ⟨h1, h2⟩
    · exact Or.inl nearDouble_zero
    · refine Or.inr ⟨nearDouble_lower (by omega) h1, nearDouble_upper ?_ h2⟩
      have : (2 : ℚ) ^ a ≤ 2 ^ b := h1.trans h2
      have := (zpow_le_zpow_iff_right₀ (by norm_num : (1 : ℚ) < 2)).1 this
      omega
  · exact lt_of_le_of_ne (nearDouble_nonneg h0.le) (hn h0.ne').symm
  · have := nearDouble_nonneg (show 0 ≤ -x by linarith)
    rw [nearDouble_neg] at this
    exact lt_of_le_of_ne (by linarith) (hn h0.ne)

theorem moderate_mul {a b c d : ℤ} {x y : ℚ} (hx : Moderate a b x) (hy : Moderate c d y) : Moderate (a + c) (b + d) (x * y) := by
  rcases hx with rfl | ⟨h1, h2⟩
  · exact Or.inl (zero_mul _)
  rcases hy with rfl | ⟨h3, h4⟩
  · exact Or.inl (mul_zero _)
  refine Or.inr ?_
  rw [abs_mul, zpow_add₀ (by norm_num), zpow_add₀ (by norm_num)]
  exact ⟨mul_le_mul h1 h3 (two_zpow_pos c).le (abs_nonneg x), mul_le_mul h2 h4 (abs_nonneg y) (two_zpow_pos b).le⟩

theorem moderate_div {a b c d : ℤ} {x y : ℚ} (hx : Moderate a b x) (hy : Moderate c d y) : Moderate (a - d) (b - c) (x / y) := by
  rw [div_eq_mul_inv, sub_eq_add_neg, sub_eq_add_neg]
  refine moderate_mul hx ?_
  rcases hy with rfl | ⟨h3, h4⟩
  · exact Or.inl inv_zero
  have hp : 0 < |y| := lt_of_lt_of_le (two_zpow_pos c) h3
  refine Or.inr ?_
  rw [abs_inv, zpow_neg, zpow_neg]
  exact ⟨inv_anti₀ hp h4, inv_anti₀ (two_zpow_pos c) h3⟩

/-- Doubles of some size are multiples of a last digit. -/
theorem double_digit {a b : ℤ} {x : ℚ} (hd : double x = .fin x) (h : Moderate a b x) : ∃ m : ℤ, x = m * 2 ^ (a - 52) := by
  rcases h with rfl | ⟨h, -⟩
  · exact ⟨0, by simp⟩
  obtain ⟨m, e, hm, -, hx⟩ := nearDouble_form x
  have h1 : x = nearDouble x := by
    unfold double at hd
    split_ifs at hd
    exact (Dbl.fin.inj hd).symm
  rw [← h1] at hx
  by_cases he : a - 52 ≤ e
  · obtain ⟨k, rfl⟩ := Int.le.dest he
    refine ⟨m * 2 ^ k, ?_⟩
    rw [hx, zpow_add₀ (by norm_num), zpow_natCast]
    push_cast
    ring
  · have hm' : |(m : ℚ)| ≤ 2 ^ 53 := by exact_mod_cast hm
    have h2 : |x| ≤ 2 ^ (a : ℤ) := by
      rw [hx, abs_mul, abs_of_pos (two_zpow_pos e)]
      calc |(m : ℚ)| * 2 ^ e ≤ 2 ^ 53 * 2 ^ (a - 53) :=
            mul_le_mul hm' (zpow_le_zpow_right₀ (by norm_num) (by omega)) (two_zpow_pos e).le (by positivity)
        _ = 2 ^ a := by
          rw [← zpow_natCast, ← zpow_add₀ (by norm_num)]
          congr 1
          push_cast
          ring
    have h3 : |x| = 2 ^ (52 : ℕ) * 2 ^ (a - 52) := by
      rw [le_antisymm h2 h, ← zpow_natCast, ← zpow_add₀ (by norm_num)]
      congr 1
      push_cast
      ring
    rcases abs_choice x with h4 | h4
    · exact ⟨2 ^ 52, by rw [← h4, h3]; push_cast; ring⟩
    · exact ⟨-2 ^ 52, by rw [h4] at h3; push_cast; linarith⟩

theorem moderate_upper {a b : ℤ} {x : ℚ} (h : Moderate a b x) : |x| ≤ 2 ^ b := by
  rcases h with rfl | ⟨-, h⟩
  · rw [abs_zero]
    exact (two_zpow_pos b).le
  · exact h

/-- The difference of two doubles is 0 or not much smaller than the doubles. -/
theorem moderate_sub {a b : ℤ} {x y : ℚ} (dx : double x = .fin x) (dy : double y = .fin y) (hx : Moderate a b x) (hy : Moderate a b y) :
    Moderate (a - 52) (b + 1) (x - y) := by
  by_cases h0 : x - y = 0
  · exact Or.inl h0
  obtain ⟨m, hm⟩ := double_digit dx hx
  obtain ⟨n, hn⟩ := double_digit dy hy
  refine Or.inr ⟨?_, ?_⟩
  · have e : x - y = ((m - n : ℤ) : ℚ) * 2 ^ (a - 52) := by
      rw [hm, hn]
      push_cast
      ring
    have hne : m - n ≠ 0 := by
      intro h
      rw [h] at e
      exact h0 (by rw [e]; simp)
    have h1 : (1 : ℚ) ≤ |((m - n : ℤ) : ℚ)| := by exact_mod_cast Int.one_le_abs hne
    have hp := two_zpow_pos (a - 52)
    rw [e, abs_mul, abs_of_pos hp]
    exact le_mul_of_one_le_left hp.le h1
  · have h1 := moderate_upper hx
    have h2 := moderate_upper hy
    have h3 := abs_sub x y
    rw [zpow_add_one₀ (by norm_num)]
    linarith

/-- Both roundings agree on a sum of doubles. -/
theorem add_agree {b : ℤ} (hb0 : -1074 ≤ b + 1) (hb : b + 1 ≤ 1022) {x y : ℚ} (dx : double x = .fin x) (dy : double y = .fin y) (hx : |x| ≤ 2 ^ b) (hy : |y| ≤ 2 ^ b) :
    ∃ z, double (x + y) = .fin z ∧ digits53 (x + y) = .fin z ∧ |z| ≤ 2 ^ (b + 1) ∧ double z = .fin z := by
  have h1 : |x + y| ≤ 2 ^ (b + 1) := by
    have := abs_add_le x y
    rw [zpow_add_one₀ (by norm_num)]
    linarith
  have h2 : |x + y| < 2 ^ 1023 := lt_of_le_of_lt h1 (zpow_lt_1023 hb)
  have hd := double_small h2
  exact ⟨_, hd, by rw [← hd]; exact (double_add dx dy h2).symm, nearDouble_upper hb0 h1, double_nearDouble h2⟩

theorem moderate_neg {a b : ℤ} {x : ℚ} (h : Moderate a b x) : Moderate a b (-x) := by
  rcases h with rfl | h
  · exact Or.inl neg_zero
  · exact Or.inr (by rwa [abs_neg])

theorem moderate_add {a b : ℤ} {x y : ℚ} (hs : 0 < x ∧ 0 < y ∨ x < 0 ∧ y < 0) (hx : Moderate a b x) (hy : Moderate a b y) :
    Moderate a (b + 1) (x + y) := by
  rcases hx with rfl | ⟨h1, h2⟩
  · rcases hs with h | h <;> exact absurd h.1 (lt_irrefl _)
  rcases hy with rfl | ⟨h3, h4⟩
  · rcases hs with h | h <;> exact absurd h.2 (lt_irrefl _)
  refine Or.inr ?_
  have e : |x + y| = |x| + |y| := by
    rcases hs with ⟨p, q⟩ | ⟨p, q⟩
    · rw [abs_of_pos p, abs_of_pos q, abs_of_pos (by linarith)]
    · rw [abs_of_neg p, abs_of_neg q, abs_of_neg (by linarith)]
      ring
  rw [e, zpow_add_one₀ (by norm_num)]
  exact ⟨by linarith [abs_nonneg y], by linarith⟩

theorem moderate_weaken {a b a' b' : ℤ} {x : ℚ} (h : Moderate a b x) (ha : a' ≤ a) (hb : b ≤ b') : Moderate a' b' x := by
  rcases h with h | ⟨h1, h2⟩
  · exact Or.inl h
  · exact Or.inr ⟨(zpow_le_zpow_right₀ (by norm_num) ha).trans h1, h2.trans (zpow_le_zpow_right₀ (by norm_num) hb)⟩

/-- The quotient of two differences. -/
theorem quot_agree {a b c d : ℤ} {x y : ℚ} (hy0 : y ≠ 0) (hx : Moderate a b x) (hy : Moderate c d y) (h1 : -1022 ≤ a - d) (h2 : b - c ≤ 1022) :
    ∃ z, quotF double (.fin x) (.fin y) = .fin z ∧ quotF digits53 (.fin x) (.fin y) = .fin z ∧ Moderate (a - d) (b - c) z ∧
      double z = .fin z := by
  obtain ⟨e1, e2, e3, e4, -⟩ := moderate_round h1 h2 (moderate_div hx hy)
  exact ⟨_, by simp only [quotF, if_neg hy0]; exact e1, by simp only [quotF, if_neg hy0]; exact e2, e3, e4⟩

theorem mul_agree {a b c d : ℤ} {x y : ℚ} (hx : Moderate a b x) (hy : Moderate c d y) (h1 : -1022 ≤ a + c) (h2 : b + d ≤ 1022) :
    ∃ z, Dbl.mul double (.fin x) (.fin y) = .fin z ∧ Dbl.mul digits53 (.fin x) (.fin y) = .fin z ∧ Moderate (a + c) (b + d) z ∧
      double z = .fin z ∧ (x ≠ 0 → y ≠ 0 → z ≠ 0) := by
  obtain ⟨e1, e2, e3, e4, -, -, e5⟩ := moderate_round h1 h2 (moderate_mul hx hy)
  exact ⟨_, e1, e2, e3, e4, fun h h' => e5 (mul_ne_zero h h')⟩

theorem sub_agree {a b : ℤ} {x y : ℚ} (dx : double x = .fin x) (dy : double y = .fin y) (hx : Moderate a b x) (hy : Moderate a b y)
    (h1 : -1022 ≤ a - 52) (h2 : b + 1 ≤ 1022) :
    ∃ z, Dbl.sub double (.fin x) (.fin y) = .fin z ∧ Dbl.sub digits53 (.fin x) (.fin y) = .fin z ∧ Moderate (a - 52) (b + 1) z ∧
      double z = .fin z := by
  obtain ⟨e1, e2, e3, e4, -⟩ := moderate_round h1 h2 (moderate_sub dx dy hx hy)
  refine ⟨_, ?_, ?_, e3, e4⟩
  · rw [← e1, sub_eq_add_neg]; rfl
  · rw [← e2, sub_eq_add_neg]; rfl

theorem diffsF_getElem {rnd : ℚ → Dbl ℚ} (x : List ℚ) {i : ℕ} (hi : i + 1 < x.length) :
    (diffsF rnd x)[i]? = some (rnd (x.getD (i + 1) 0 - x.getD i 0)) := by
  unfold diffsF
  rw [List.getElem?_zipWith, List.getElem?_tail, List.getElem?_eq_getElem hi, List.getElem?_eq_getElem (by omega : i < x.length),
    List.getD_eq_getElem _ _ hi, List.getD_eq_getElem _ _ (by omega : i < x.length), sub_eq_add_neg]
  rfl

/-- Distances that neither underflow nor overflow. -/
def Distances (x : List ℚ) : Prop := ∀ i, i + 1 < x.length → x.getD (i + 1) 0 - x.getD i 0 ≠ 0 ∧ Moderate (-200) 200 (x.getD (i + 1) 0 - x.getD i 0)

theorem diffs_agree {x : List ℚ} (h : Distances x) : diffsF double x = diffsF digits53 x := by
  refine List.ext_getElem? fun i => ?_
  by_cases hi : i + 1 < x.length
  · rw [diffsF_getElem x hi, diffsF_getElem x hi]
    obtain ⟨e1, e2, -⟩ := moderate_round (by norm_num) (by norm_num) (h i hi).2
    rw [e1, e2]
  · rw [List.getElem?_eq_none (by rw [diffsF_length]; omega), List.getElem?_eq_none (by rw [diffsF_length]; omega)]

theorem diffs_get {x : List ℚ} (h : Distances x) {i : ℕ} (hi : i + 1 < x.length) :
    ∃ d, (diffsF double x)[i]? = some (.fin d) ∧ (diffsF digits53 x)[i]? = some (.fin d) ∧ d ≠ 0 ∧ Moderate (-200) 200 d ∧ double d = .fin d ∧
      (0 < x.getD (i + 1) 0 - x.getD i 0 → 0 < d) ∧ (x.getD (i + 1) 0 - x.getD i 0 < 0 → d < 0) := by
  obtain ⟨e1, e2, e3, e4, e5, e6, e7⟩ := moderate_round (by norm_num) (by norm_num) (h i hi).2
  exact ⟨_, by rw [diffsF_getElem x hi, e1], by rw [diffsF_getElem x hi, e2], e7 (h i hi).1, e3, e4, e5, e6⟩

/-- At the border. -/
theorem border_agree {d y0 y1 : ℚ} (hd0 : d ≠ 0) (hd : Moderate (-200) 200 d) (e0 : double y0 = .fin y0) (e1 : double y1 = .fin y1)
    (h0 : Moderate (-300) 300 y0) (h1 : Moderate (-300) 300 y1) :
    quotF double (Dbl.sub double (.fin y1) (.fin y0)) (.fin d) = quotF digits53 (Dbl.sub digits53 (.fin y1) (.fin y0)) (.fin d) := by
  obtain ⟨s, s1, s2, s3, -⟩ := sub_agree e1 e0 h1 h0 (by norm_num) (by norm_num)
  obtain ⟨z, z1, z2, -⟩ := quot_agree hd0 s3 hd (by norm_num) (by norm_num)
  rw [s1, s2, z1, z2]

/-- Inside with equal distances. -/
theorem even_agree {d y0 y2 : ℚ} (hd0 : d ≠ 0) (hd : Moderate (-200) 200 d) (e0 : double y0 = .fin y0) (e2 : double y2 = .fin y2)
    (h0 : Moderate (-300) 300 y0) (h2 : Moderate (-300) 300 y2) :
    quotF double (Dbl.sub double (.fin y2) (.fin y0)) (Dbl.mul double (.fin 2) (.fin d)) =
      quotF digits53 (Dbl.sub digits53 (.fin y2) (.fin y0)) (Dbl.mul digits53 (.fin 2) (.fin d)) := by
  obtain ⟨s, s1, s2, s3, -⟩ := sub_agree e2 e0 h2 h0 (by norm_num) (by norm_num)
  obtain ⟨p, p1, p2, p3, -, p5⟩ := mul_agree (a := 1) (b := 1) (x := 2) (Or.inr (by norm_num)) hd (by norm_num) (by norm_num)
  obtain ⟨z, z1, z2, -⟩ := quot_agree (p5 (by norm_num) hd0) s3 p3 (by norm_num) (by norm_num)
  rw [s1, s2, p1, p2, z1, z2]

/-- Inside with different distances. -/
theorem uneven_agree {d1 d2 y0 y1 y2 : ℚ} (hs : 0 < d1 ∧ 0 < d2 ∨ d1 < 0 ∧ d2 < 0) (hd1 : Moderate (-200) 200 d1) (hd2 : Moderate (-200) 200 d2)
    (f1 : double d1 = .fin d1) (f2 : double d2 = .fin d2)
    (h0 : Moderate (-300) 300 y0) (h1 : Moderate (-300) 300 y1) (h2 : Moderate (-300) 300 y2) :
    Dbl.add double (Dbl.add double (Dbl.mul double (quotF double (Dbl.fin d2).neg (Dbl.mul double (.fin d1) (Dbl.add double (.fin d1) (.fin d2)))) (.fin y0))
        (Dbl.mul double (quotF double (Dbl.sub double (.fin d2) (.fin d1)) (Dbl.mul double (.fin d1) (.fin d2))) (.fin y1)))
        (Dbl.mul double (quotF double (.fin d1) (Dbl.mul double (.fin d2) (Dbl.add double (.fin d1) (.fin d2)))) (.fin y2)) =
    Dbl.add digits53 (Dbl.add digits53 (Dbl.mul digits53 (quotF digits53 (Dbl.fin d2).neg (Dbl.mul digits53 (.fin d1) (Dbl.add digits53 (.fin d1) (.fin d2)))) (.fin y0))
        (Dbl.mul digits53 (quotF digits53 (Dbl.sub digits53 (.fin d2) (.fin d1)) (Dbl.mul digits53 (.fin d1) (.fin d2))) (.fin y1)))
        (Dbl.mul digits53 (quotF digits53 (.fin d1) (Dbl.mul digits53 (.fin d2) (Dbl.add digits53 (.fin d1) (.fin d2)))) (.fin y2)) := by
  have n1 : d1 ≠ 0 := by rcases hs with h | h; exacts [ne_of_gt h.1, ne_of_lt h.1]
  have n2 : d2 ≠ 0 := by rcases hs with h | h; exacts [ne_of_gt h.2, ne_of_lt h.2]
  have n3 : d1 + d2 ≠ 0 := by rcases hs with ⟨a, b⟩ | ⟨a, b⟩; exacts [by linarith |> ne_of_gt, by linarith |> ne_of_lt]
  obtain ⟨s1, s2, s3, -, -, -, s4⟩ := moderate_round (by norm_num) (by norm_num) (moderate_add hs hd1 hd2)
  replace s4 := s4 n3
  have s1' : Dbl.add double (.fin d1) (.fin d2) = .fin (nearDouble (d1 + d2)) := s1
  have s2' : Dbl.add digits53 (.fin d1) (.fin d2) = .fin (nearDouble (d1 + d2)) := s2
  clear s1 s2
  generalize nearDouble (d1 + d2) = s at *
  obtain ⟨p, p1, p2, p3, -, p5⟩ := mul_agree hd1 s3 (by norm_num) (by norm_num)
  obtain ⟨q, q1, q2, q3, -, q5⟩ := mul_agree hd2 s3 (by norm_num) (by norm_num)
  obtain ⟨r, r1, r2, r3, -, r5⟩ := mul_agree hd1 hd2 (by norm_num) (by norm_num)
  obtain ⟨t, t1, t2, t3, -⟩ := sub_agree f2 f1 hd2 hd1 (by norm_num) (by norm_num)
  obtain ⟨a, a1, a2, a3, -⟩ := quot_agree (p5 n1 s4) (moderate_neg hd2) p3 (by norm_num) (by norm_num)
  obtain ⟨b, b1, b2, b3, -⟩ := quot_agree (r5 n1 n2) t3 r3 (by norm_num) (by norm_num)
  obtain ⟨c, c1, c2, c3, -⟩ := quot_agree (q5 n2 s4) hd1 q3 (by norm_num) (by norm_num)
  obtain ⟨a', a4, a5, a6, a7, -⟩ := mul_agree a3 h0 (by norm_num) (by norm_num)
  obtain ⟨b', b4, b5, b6, b7, -⟩ := mul_agree b3 h1 (by norm_num) (by norm_num)
  obtain ⟨c', c4, c5, c6, c7, -⟩ := mul_agree c3 h2 (by norm_num) (by norm_num)
  have ua := moderate_upper (moderate_weaken a6 le_rfl (b' := 901) (by norm_num))
  have ub := moderate_upper (moderate_weaken b6 le_rfl (b' := 901) (by norm_num))
  have uc := moderate_upper (moderate_weaken c6 le_rfl (b' := 902) (by norm_num))
  obtain ⟨v, v1, v2, v3, v4⟩ := add_agree (by norm_num) (by norm_num) a7 b7 ua ub
  rw [show (901 : ℤ) + 1 = 902 by norm_num] at v3
  obtain ⟨w, w1, w2, -⟩ := add_agree (by norm_num) (by norm_num) v4 c7 v3 uc
  have hn : (Dbl.fin d2).neg = .fin (-d2) := rfl
  have v1' : Dbl.add double (.fin a') (.fin b') = .fin v := v1
  have v2' : Dbl.add digits53 (.fin a') (.fin b') = .fin v := v2
  have w1' : Dbl.add double (.fin v) (.fin c') = .fin w := w1
  have w2' : Dbl.add digits53 (.fin v) (.fin c') = .fin w := w2
  rw [hn, s1', s2', p1, p2, q1, q2, r1, r2, t1, t2, a1, a2, b1, b2, c1, c2, a4, a5, b4, b5, c4, c5, v1', v2', w1', w2']

/-- The derivative is the one computed with unlimited exponents. -/
theorem gradient_agree {x : List ℚ} (h : Distances x)
    (hm : (∀ i, i + 1 < x.length → x.getD i 0 < x.getD (i + 1) 0) ∨ ∀ i, i + 1 < x.length → x.getD (i + 1) 0 < x.getD i 0)
    (h2 : 2 ≤ x.length) (y : ℕ → ℚ) (hy : ∀ j < x.length, double (y j) = .fin (y j) ∧ Moderate (-300) 300 (y j)) (p : ℕ) (hp : p < x.length) :
    gradientAtF double x (fun j => .fin (y j)) x.length p = gradientAtF digits53 x (fun j => .fin (y j)) x.length p := by
  have hd := diffs_agree h
  unfold gradientAtF
  rw [← hd]
  split_ifs with he
  · unfold gradientEvenF
    obtain ⟨d, d1, -, d3, d4, -⟩ := diffs_get h (i := 0) (by omega)
    rw [diffsF_even he d1]
    have hb : ∀ i j, i < x.length → j < x.length → _ := fun i j hi hj => border_agree d3 d4 (hy i hi).1 (hy j hj).1 (hy i hi).2 (hy j hj).2
    split_ifs with h0 h1
    · exact hb 0 1 (by omega) (by omega)
    · exact hb (x.length - 2) (x.length - 1) (by omega) (by omega)
    · exact even_agree d3 d4 (hy (p - 1) (by omega)).1 (hy (p + 1) (by omega)).1 (hy (p - 1) (by omega)).2 (hy (p + 1) (by omega)).2
  · unfold gradientUnevenF
    split_ifs with h0 h1
    · obtain ⟨d, d1, -, d3, d4, -⟩ := diffs_get h (i := 0) (by omega)
      rw [getD_of_get d1]
      exact border_agree d3 d4 (hy 0 (by omega)).1 (hy 1 (by omega)).1 (hy 0 (by omega)).2 (hy 1 (by omega)).2
    · obtain ⟨d, d1, -, d3, d4, -⟩ := diffs_get h (i := x.length - 2) (by omega)
      rw [getD_of_get d1]
      exact border_agree d3 d4 (hy (x.length - 2) (by omega)).1 (hy (x.length - 1) (by omega)).1 (hy (x.length - 2) (by omega)).2
        (hy (x.length - 1) (by omega)).2
    · obtain ⟨d, d1, -, -, d4, d5, d6, d7⟩ := diffs_get h (i := p - 1) (by omega)
      obtain ⟨e, e1, -, -, e4, e5, e6, e7⟩ := diffs_get h (i := p) (by omega)
      rw [show p - 1 + 1 = p by omega] at d6 d7
      rw [getD_of_get d1, getD_of_get e1]
      refine uneven_agree ?_ d4 e4 d5 e5 (hy (p - 1) (by omega)).2 (hy p hp).2 (hy (p + 1) (by omega)).2
      rcases hm with hm | hm
      · have m1 := hm (p - 1) (by omega)
        have m2 := hm p (by omega)
        rw [show p - 1 + 1 = p by omega] at m1
        exact Or.inl ⟨d6 (by linarith), e6 (by linarith)⟩
      · have m1 := hm (p - 1) (by omega)
        have m2 := hm p (by omega)
        rw [show p - 1 + 1 = p by omega] at m1
        exact Or.inr ⟨d7 (by linarith), e7 (by linarith)⟩

end Postpic.Props
