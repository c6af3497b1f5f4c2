import Verif.Lemmas.CalculusFloat
import Verif.Lemmas.Calculus
import Verif.Model.GradientFloat

/-!
# Lemmas: rounding errors of derivatives
-/

set_option autoImplicit false
set_option linter.unusedSectionVars false

namespace Postpic.Fields

open Postpic Postpic.Axes Postpic.Histogram Postpic.Statistics Postpic.Spec

variable {K : Type} [_root_.Field K] [LinearOrder K] [IsStrictOrderedRing K] [FloorRing K] {rnd : K → Dbl K} {u : K}

theorem near_widen (hu0 : 0 ≤ u) (hu1 : u < 1) {k : ℕ} {e m m' y : K} (h : Near u k e m y) (hm : m ≤ m') : Near u k e m' y :=
  ⟨h.1.trans hm, h.2.trans (mul_le_mul_of_nonneg_left hm (by linarith [(pow_facts hu0 hu1 k).2]))⟩

theorem within_symm (hu1 : u < 1) {k : ℕ} {x y : K} (h : Within u k x y) : Within u k y x := by
  obtain ⟨t, h1, h2, rfl⟩ := h
  have w0 : 0 < (1 - u) ^ k := pow_pos (by linarith) k
  have ht : 0 < t := lt_of_lt_of_le w0 h1
  refine ⟨t⁻¹, ?_, ?_, by field_simp⟩
  · rw [le_inv_comm₀ w0 ht, inv_eq_one_div, le_div_iff₀ w0]
    exact h2
  · rw [inv_mul_le_iff₀ ht, mul_one]
    exact h1

/-- Numbers of one sign. -/
theorem within_add_sign (hu0 : 0 ≤ u) (hu1 : u < 1) {k : ℕ} {x y x' y' : K} (hs : 0 < x ∧ 0 < x' ∨ x < 0 ∧ x' < 0) (h : Within u k x y)
    (h' : Within u k x' y') : Within u k (x + x') (y + y') := by
  rcases hs with ⟨a, b⟩ | ⟨a, b⟩
  · exact within_add a.le b.le hu0 hu1 h h'
  · have := within_neg (within_add (by linarith) (by linarith) hu0 hu1 (within_neg h) (within_neg h'))
    rwa [show -(-x + -x') = x + x' by ring, show -(-y + -y') = y + y' by ring] at this

theorem within_ne (hu1 : u < 1) {k : ℕ} {x y : K} (hx : x ≠ 0) (h : Within u k x y) : y ≠ 0 := by
  obtain ⟨t, h1, -, rfl⟩ := h
  exact mul_ne_zero hx (ne_of_gt (lt_of_lt_of_le (pow_pos (by linarith) k) h1))

theorem within_div (hu1 : u < 1) {k l : ℕ} {x y x' y' : K} (h : Within u k x y) (h' : Within u l x' y') :
    Within u (k + l) (x / x') (y / y') := by
  rw [div_eq_mul_inv, div_eq_mul_inv]
  exact within_mul hu1 h (within_inv hu1 h')

theorem quot_near (A : Accurate rnd u) {a b : K} (hb : b ≠ 0) : ∃ r, quotF rnd (.fin a) (.fin b) = .fin r ∧ |r - a / b| ≤ u * |a / b| := by
  simp only [quotF, if_neg hb]
  exact A.near _

/-- The derivative at a point with neighbours at the distances `d1` and `d2`. -/
def centralSlope (d1 d2 y0 y1 y2 : K) : K := -d2 / (d1 * (d1 + d2)) * y0 + (d2 - d1) / (d1 * d2) * y1 + d1 / (d2 * (d1 + d2)) * y2

theorem central_scale {d1 d2 : K} (hs : 0 < d1 ∧ 0 < d2 ∨ d1 < 0 ∧ d2 < 0) (y0 y1 y2 : K) :
    |-d2 / (d1 * (d1 + d2))| * |y0| + (|d2| + |d1|) * |(d1 * d2)⁻¹| * |y1| + |d1 / (d2 * (d1 + d2))| * |y2| ≤
      (|y0| + |y1|) / |d1| + (|y1| + |y2|) / |d2| := by
  have key : ∀ a b : K, 0 < a → 0 < b → b / (a * (a + b)) ≤ 1 / a := by
    intro a b ha hb
    rw [div_le_div_iff₀ (by positivity) ha]
    nlinarith
  have e0 : |d1 + d2| = |d1| + |d2| := by
    rcases hs with ⟨a, b⟩ | ⟨a, b⟩
    · rw [abs_of_pos a, abs_of_pos b, abs_of_pos (by linarith)]
    · rw [abs_of_neg a, abs_of_neg b, abs_of_neg (by linarith)]
      ring
  have p1 : 0 < |d1| := abs_pos.2 (by rcases hs with h | h; exacts [ne_of_gt h.1, ne_of_lt h.1])
  have p2 : 0 < |d2| := abs_pos.2 (by rcases hs with h | h; exacts [ne_of_gt h.2, ne_of_lt h.2])
  rw [abs_div, abs_neg, abs_mul, abs_div, abs_mul, abs_inv, abs_mul, e0]
  generalize |d1| = a at *
  generalize |d2| = b at *
  have k1 := mul_le_mul_of_nonneg_right (key a b p1 p2) (abs_nonneg y0)
  have k2 := mul_le_mul_of_nonneg_right (key b a p2 p1) (abs_nonneg y2)
  rw [add_comm b a] at k2
  have k3 : (b + a) * (a * b)⁻¹ * |y1| = |y1| / a + |y1| / b := by field_simp
  rw [k3, add_div, add_div]
  rw [one_div_mul_eq_div] at k1 k2
  linarith

theorem uneven_near (A : Accurate rnd u) (hu1 : u < 1) {d1 d2 D1 D2 : K} (hs : 0 < d1 ∧ 0 < d2 ∨ d1 < 0 ∧ d2 < 0) (h1 : Within u 1 d1 D1)
    (h2 : Within u 1 d2 D2) (y0 y1 y2 : K) :
    ∃ z, Dbl.add rnd (Dbl.add rnd (Dbl.mul rnd (quotF rnd (Dbl.fin D2).neg (Dbl.mul rnd (.fin D1) (Dbl.add rnd (.fin D1) (.fin D2)))) (.fin y0))
        (Dbl.mul rnd (quotF rnd (Dbl.sub rnd (.fin D2) (.fin D1)) (Dbl.mul rnd (.fin D1) (.fin D2))) (.fin y1)))
        (Dbl.mul rnd (quotF rnd (.fin D1) (Dbl.mul rnd (.fin D2) (Dbl.add rnd (.fin D1) (.fin D2)))) (.fin y2)) = .fin z ∧
      Near u 9 (centralSlope d1 d2 y0 y1 y2) ((|y0| + |y1|) / |d1| + (|y1| + |y2|) / |d2|) z := by
  have hu0 := A.nonneg
  have n1 : d1 ≠ 0 := by rcases hs with h | h; exacts [ne_of_gt h.1, ne_of_lt h.1]
  have n2 : d2 ≠ 0 := by rcases hs with h | h; exacts [ne_of_gt h.2, ne_of_lt h.2]
  have n3 : d1 + d2 ≠ 0 := by rcases hs with ⟨a, b⟩ | ⟨a, b⟩; exacts [by linarith |> ne_of_gt, by linarith |> ne_of_lt]
  -- the sum of the distances
  obtain ⟨s, s1, s2⟩ := add_near A D1 D2
  have ws : Within u 2 (d1 + d2) s := within_round hu0 hu1 (within_add_sign hu0 hu1 hs h1 h2) s2
  -- the denominators
  obtain ⟨p, p1, p2⟩ := mul_near A D1 s
  have wp : Within u 4 (d1 * (d1 + d2)) p := within_round hu0 hu1 (within_mul hu1 h1 ws) p2
  obtain ⟨q, q1, q2⟩ := mul_near A D2 s
  have wq : Within u 4 (d2 * (d1 + d2)) q := within_round hu0 hu1 (within_mul hu1 h2 ws) q2
  obtain ⟨t, t1, t2⟩ := mul_near A D1 D2
  have wt : Within u 3 (d1 * d2) t := within_round hu0 hu1 (within_mul hu1 h1 h2) t2
  -- the weights
  obtain ⟨a, a1, a2⟩ := quot_near A (a := -D2) (within_ne hu1 (mul_ne_zero n1 n3) wp)
  have wa : Within u 6 (-d2 / (d1 * (d1 + d2))) a := within_round hu0 hu1 (within_div hu1 (within_neg h2) wp) a2
  obtain ⟨c, c1, c2⟩ := quot_near A (a := D1) (within_ne hu1 (mul_ne_zero n2 n3) wq)
  have wc : Within u 6 (d1 / (d2 * (d1 + d2))) c := within_round hu0 hu1 (within_div hu1 h1 wq) c2
  obtain ⟨v, v1, v2⟩ := sub_near A D2 D1
  have wv : Near u 2 (d2 - d1) (|d2| + |d1|) v := by
    have := near_add hu0 hu1 (near_of_within hu0 hu1 h2) (near_neg (near_of_within hu0 hu1 h1))
    rw [← sub_eq_add_neg, ← sub_eq_add_neg] at this
    exact near_round hu0 hu1 this v2
  obtain ⟨b, b1, b2⟩ := quot_near A (a := v) (within_ne hu1 (mul_ne_zero n1 n2) wt)
  have wb : Near u 6 ((d2 - d1) / (d1 * d2)) ((|d2| + |d1|) * |(d1 * d2)⁻¹|) b := by
    rw [div_eq_mul_inv] at b2 ⊢
    exact near_round hu0 hu1 (near_mul hu0 hu1 wv (near_of_within hu0 hu1 (within_inv hu1 wt))) b2
  -- the products
  obtain ⟨x0, e0, f0⟩ := mul_near A a y0
  obtain ⟨x1, e1, f1⟩ := mul_near A b y1
  obtain ⟨x2, e2, f2⟩ := mul_near A c y2
  have w0 := near_round hu0 hu1 (near_mul hu0 hu1 (near_of_within hu0 hu1 wa) (near_refl y0)) f0
  have w1 := near_round hu0 hu1 (near_mul hu0 hu1 wb (near_refl y1)) f1
  have w2 := near_round hu0 hu1 (near_mul hu0 hu1 (near_of_within hu0 hu1 wc) (near_refl y2)) f2
  -- the sum
  obtain ⟨r, r1, r2⟩ := add_near A x0 x1
  have wr := near_round hu0 hu1 (near_add hu0 hu1 w0 w1) r2
  obtain ⟨z, z1, z2⟩ := add_near A r x2
  have wz := near_round hu0 hu1 (near_add hu0 hu1 wr (near_mono hu0 hu1 (by norm_num : 6 + 0 + 1 ≤ 6 + 0 + 1 + 1) w2)) z2
  refine ⟨z, ?_, near_widen hu0 hu1 wz (central_scale hs y0 y1 y2)⟩
  rw [s1, p1, q1, t1, v1, b1, c1, show (Dbl.fin D2).neg = Dbl.fin (-D2) from rfl, a1, e0, e1, e2, r1, z1]

theorem even_near (A : Accurate rnd u) (hu1 : u < 1) {d1 d2 D : K} (hs : 0 < d1 ∧ 0 < d2 ∨ d1 < 0 ∧ d2 < 0) (h1 : Within u 1 d1 D)
    (h2 : Within u 1 d2 D) (y0 y1 y2 : K) :
    ∃ z, quotF rnd (Dbl.sub rnd (.fin y2) (.fin y0)) (Dbl.mul rnd (.fin 2) (.fin D)) = .fin z ∧
      Near u 9 (centralSlope d1 d2 y0 y1 y2) ((|y0| + |y1|) / |d1| + (|y1| + |y2|) / |d2|) z := by
  have hu0 := A.nonneg
  have n1 : d1 ≠ 0 := by rcases hs with h | h; exacts [ne_of_gt h.1, ne_of_lt h.1]
  have nD : D ≠ 0 := within_ne hu1 n1 h1
  obtain ⟨s, s1, s2⟩ := sub_near A y2 y0
  obtain ⟨g, ⟨g1, g2⟩, rfl⟩ := round_factor hu0 hu1 s2
  obtain ⟨p, p1, p2⟩ := mul_near A 2 D
  have wp : Within u 1 (2 * D) p := within_round hu0 hu1 (within_refl _) p2
  obtain ⟨z, z1, z2⟩ := quot_near A (a := (y2 - y0) * g) (within_ne hu1 (mul_ne_zero two_ne_zero nD) wp)
  obtain ⟨h, ⟨h3, h4⟩, rfl⟩ := round_factor hu0 hu1 z2
  -- the factor in front of the values
  have wg : Within u 1 1 g := ⟨g, g1, g2, (one_mul g).symm⟩
  have wh : Within u 1 1 h := ⟨h, h3, h4, (one_mul h).symm⟩
  have wf : Within u 3 (1 / (2 * D)) (g * h / p) := by
    have := within_div hu1 (within_mul hu1 wg wh) wp
    rwa [one_mul] at this
  have wsum : Within u 1 (d1 + d2) (2 * D) := by
    rw [two_mul]
    exact within_add_sign hu0 hu1 hs h1 h2
  have join : ∀ {k l : ℕ} {a b c : K}, Within u k a b → Within u l b c → Within u (k + l) a c := by
    intro k l a b c hab hbc
    obtain ⟨t, t1, t2, rfl⟩ := hab
    obtain ⟨t', t1', t2', rfl⟩ := hbc
    have := factor_mul hu1 ⟨t1, t2⟩ ⟨t1', t2'⟩
    exact ⟨t * t', this.1, this.2, by ring⟩
  have wa : Within u 6 (-d2 / (d1 * (d1 + d2))) (-(g * h / p)) := by
    have := within_div hu1 h2 (within_mul hu1 h1 wsum)
    rw [show D / (D * (2 * D)) = 1 / (2 * D) by field_simp] at this
    rw [neg_div]
    exact within_neg (join this wf)
  have wc : Within u 6 (d1 / (d2 * (d1 + d2))) (g * h / p) := by
    have := within_div hu1 h1 (within_mul hu1 h2 wsum)
    rw [show D / (D * (2 * D)) = 1 / (2 * D) by field_simp] at this
    exact join this wf
  have wb : Near u 6 ((d2 - d1) / (d1 * d2)) ((|d2| + |d1|) * |(d1 * d2)⁻¹|) 0 := by
    have h5 := near_add hu0 hu1 (near_of_within hu0 hu1 h2) (near_neg (near_of_within hu0 hu1 h1))
    have h6 := near_mul hu0 hu1 h5 (near_of_within hu0 hu1 (within_inv hu1 (within_mul hu1 h1 h2)))
    rw [add_neg_cancel, zero_mul, ← sub_eq_add_neg, ← div_eq_mul_inv] at h6
    exact near_mono hu0 hu1 (by norm_num) h6
  have w0 := near_mul hu0 hu1 (near_of_within hu0 hu1 wa) (near_refl y0)
  have w1 := near_mul hu0 hu1 wb (near_refl y1)
  have w2 := near_mul hu0 hu1 (near_of_within hu0 hu1 wc) (near_refl y2)
  have w := near_mono hu0 hu1 (by norm_num : 6 + 0 ≤ 9) (near_add hu0 hu1 (near_add hu0 hu1 w0 w1) w2)
  refine ⟨_, by rw [s1, p1, z1], ?_⟩
  rw [show (y2 - y0) * g / p * h = -(g * h / p) * y0 + 0 * y1 + g * h / p * y2 by ring]
  exact near_widen hu0 hu1 w (central_scale hs y0 y1 y2)

/-! ### `np.gradient` -/

theorem diffsF_length (x : List K) : (diffsF rnd x).length = x.length - 1 := by simp [diffsF]

theorem diffsF_get (A : Accurate rnd u) (hu1 : u < 1) (x : List K) {i : ℕ} (hi : i + 1 < x.length) :
    ∃ d, (diffsF rnd x)[i]? = some (.fin d) ∧ Within u 1 (x.getD (i + 1) 0 - x.getD i 0) d := by
  obtain ⟨d, h1, h2⟩ := sub_near A (x.getD (i + 1) 0) (x.getD i 0)
  refine ⟨d, ?_, within_round A.nonneg hu1 (within_refl _) h2⟩
  unfold diffsF
  rw [List.getElem?_zipWith, List.getElem?_tail, List.getElem?_eq_getElem hi, List.getElem?_eq_getElem (by omega : i < x.length), ← h1,
    List.getD_eq_getElem _ _ hi, List.getD_eq_getElem _ _ (by omega : i < x.length)]

theorem getD_of_get {α : Type} {l : List α} {i : ℕ} {a b : α} (h : l[i]? = some a) : l.getD i b = a := by
  rw [List.getD_eq_getElem?_getD, h]
  rfl

theorem diffsF_even {x : List K} (h : ((diffsF rnd x).all fun d => decide (d = (diffsF rnd x).headD .nan)) = true) {i : ℕ} {d : Dbl K}
    (hd : (diffsF rnd x)[i]? = some d) : (diffsF rnd x).headD .nan = d := by
  rw [List.all_eq_true] at h
  exact (of_decide_eq_true (h _ (List.mem_of_getElem? hd))).symm

/-- The quotient of two differences. -/
theorem diffQuot_within (A : Accurate rnd u) (hu1 : u < 1) {d D : K} (hd : d ≠ 0) (h : Within u 1 d D) (y0 y1 : K) :
    ∃ z, quotF rnd (Dbl.sub rnd (.fin y1) (.fin y0)) (.fin D) = .fin z ∧ Within u 3 ((y1 - y0) / d) z := by
  have hu0 := A.nonneg
  obtain ⟨s, s1, s2⟩ := sub_near A y1 y0
  have ws : Within u 1 (y1 - y0) s := within_round hu0 hu1 (within_refl _) s2
  obtain ⟨z, z1, z2⟩ := quot_near A (a := s) (within_ne hu1 hd h)
  exact ⟨z, by rw [s1, z1], within_round hu0 hu1 (within_div hu1 ws h) z2⟩

theorem gradientF_first (A : Accurate rnd u) (hu1 : u < 1) {x : List K} (hn : x.Nodup) (h2 : 2 ≤ x.length) (y : ℕ → K) :
    ∃ z, gradientAtF rnd x (fun j => .fin (y j)) x.length 0 = .fin z ∧ Within u 3 ((y 1 - y 0) / (x.getD 1 0 - x.getD 0 0)) z := by
  obtain ⟨D, h3, h4⟩ := diffsF_get A hu1 x (i := 0) (by omega)
  have hne := nodup_getD hn (i := 0) (j := 1) (by omega) (by omega) (by omega)
  obtain ⟨z, z1, z2⟩ := diffQuot_within A hu1 (sub_ne_zero.2 hne.symm) h4 (y 0) (y 1)
  refine ⟨z, ?_, z2⟩
  unfold gradientAtF
  split_ifs with h
  · unfold gradientEvenF
    rw [if_pos rfl, diffsF_even h h3, z1]
  · unfold gradientUnevenF
    rw [if_pos rfl, getD_of_get h3, z1]

theorem gradientF_last (A : Accurate rnd u) (hu1 : u < 1) {x : List K} (hn : x.Nodup) (h2 : 2 ≤ x.length) (y : ℕ → K) :
    ∃ z, gradientAtF rnd x (fun j => .fin (y j)) x.length (x.length - 1) = .fin z ∧
      Within u 3 ((y (x.length - 1) - y (x.length - 2)) / (x.getD (x.length - 1) 0 - x.getD (x.length - 2) 0)) z := by
  obtain ⟨D, h3, h4⟩ := diffsF_get A hu1 x (i := x.length - 2) (by omega)
  rw [show x.length - 2 + 1 = x.length - 1 by omega] at h4
  have hne := nodup_getD hn (i := x.length - 2) (j := x.length - 1) (by omega) (by omega) (by omega)
  obtain ⟨z, z1, z2⟩ := diffQuot_within A hu1 (sub_ne_zero.2 hne.symm) h4 (y (x.length - 2)) (y (x.length - 1))
  refine ⟨z, ?_, z2⟩
  unfold gradientAtF
  split_ifs with h
  · unfold gradientEvenF
    rw [if_neg (by omega), if_pos rfl, diffsF_even h h3, z1]
  · unfold gradientUnevenF
    rw [if_neg (by omega), if_pos rfl, getD_of_get h3, z1]

theorem gradientF_inner (A : Accurate rnd u) (hu1 : u < 1) {x : List K} {i : ℕ} (hi : i + 2 < x.length)
    (hs : x.getD i 0 < x.getD (i + 1) 0 ∧ x.getD (i + 1) 0 < x.getD (i + 2) 0 ∨
      x.getD (i + 1) 0 < x.getD i 0 ∧ x.getD (i + 2) 0 < x.getD (i + 1) 0) (y : ℕ → K) :
    ∃ z, gradientAtF rnd x (fun j => .fin (y j)) x.length (i + 1) = .fin z ∧
      Near u 9 (centralSlope (x.getD (i + 1) 0 - x.getD i 0) (x.getD (i + 2) 0 - x.getD (i + 1) 0) (y i) (y (i + 1)) (y (i + 2)))
        ((|y i| + |y (i + 1)|) / |x.getD (i + 1) 0 - x.getD i 0| + (|y (i + 1)| + |y (i + 2)|) / |x.getD (i + 2) 0 - x.getD (i + 1) 0|) z := by
  obtain ⟨D1, h3, h4⟩ := diffsF_get A hu1 x (i := i) (by omega)
  obtain ⟨D2, h5, h6⟩ := diffsF_get A hu1 x (i := i + 1) (by omega)
  rw [show i + 1 + 1 = i + 2 from rfl] at h6
  have hs' : 0 < x.getD (i + 1) 0 - x.getD i 0 ∧ 0 < x.getD (i + 2) 0 - x.getD (i + 1) 0 ∨
      x.getD (i + 1) 0 - x.getD i 0 < 0 ∧ x.getD (i + 2) 0 - x.getD (i + 1) 0 < 0 := by
    rcases hs with ⟨a, b⟩ | ⟨a, b⟩
    · exact Or.inl ⟨sub_pos.2 a, sub_pos.2 b⟩
    · exact Or.inr ⟨sub_neg.2 a, sub_neg.2 b⟩
  unfold gradientAtF
  split_ifs with h
  · have e1 := diffsF_even h h3
    have e2 := diffsF_even h h5
    obtain rfl : D1 = D2 := Dbl.fin.inj (e1.symm.trans e2)
    unfold gradientEvenF
    rw [if_neg (by omega), if_neg (by omega), e1]
    exact even_near A hu1 hs' h4 h6 _ _ _
  · unfold gradientUnevenF
    rw [if_neg (by omega), if_neg (by omega)]
    simp only [Nat.add_sub_cancel]
    rw [getD_of_get h3, getD_of_get h5]
    exact uneven_near A hu1 hs' h4 h6 _ _ _

/-- The exact derivative. -/
theorem gradient_central {x : List K} (hn : x.Nodup) {i : ℕ} (hi : i + 2 < x.length) (y : ℕ → K) :
    gradientAt x y x.length (i + 1) =
      centralSlope (x.getD (i + 1) 0 - x.getD i 0) (x.getD (i + 2) 0 - x.getD (i + 1) 0) (y i) (y (i + 1)) (y (i + 2)) := by
  have n01 := nodup_getD hn (i := i) (j := i + 1) (by omega) (by omega) (by omega)
  unfold gradientAt
  split_ifs with h
  · unfold gradientEven
    rw [if_neg (by omega), if_neg (by omega)]
    simp only [Nat.add_sub_cancel]
    have e1 := diffs_even h (i := i) (by omega)
    have e2 := diffs_even h (i := i + 1) (by omega)
    rw [show i + 1 + 1 = i + 2 from rfl] at e2 ⊢
    have hd : (diffs x).headD 0 ≠ 0 := by rw [← e1]; exact sub_ne_zero.2 n01.symm
    rw [e1, e2]
    generalize (diffs x).headD 0 = d at *
    unfold centralSlope
    rw [smul_eq_mul, ← two_mul]
    field_simp
    ring
  · unfold gradientUneven
    rw [if_neg (by omega), if_neg (by omega)]
    simp only [Nat.add_sub_cancel]
    rw [diffs_getD x (by omega), diffs_getD x (by omega)]
    rfl

theorem gradient_ends {x : List K} (h2 : 2 ≤ x.length) (y : ℕ → K) :
    gradientAt x y x.length 0 = (y 1 - y 0) / (x.getD 1 0 - x.getD 0 0) ∧
      gradientAt x y x.length (x.length - 1) =
        (y (x.length - 1) - y (x.length - 2)) / (x.getD (x.length - 1) 0 - x.getD (x.length - 2) 0) := by
  have e : x.length - 2 + 1 = x.length - 1 := by omega
  unfold gradientAt
  split_ifs with h
  · have e1 := diffs_even h (i := 0) (by omega)
    have e2 := diffs_even h (i := x.length - 2) (by omega)
    rw [e] at e2
    unfold gradientEven
    rw [if_pos rfl, if_neg (by omega), if_pos rfl, e2, show x.getD 1 0 - x.getD 0 0 = _ from e1, smul_eq_mul, smul_eq_mul]
    exact ⟨by ring, by ring⟩
  · unfold gradientUneven
    rw [if_pos rfl, if_neg (by omega), if_pos rfl, diffs_getD x (by omega), diffs_getD x (by omega), e, smul_eq_mul, smul_eq_mul]
    exact ⟨by ring, by ring⟩

theorem derivativeF_ok {f : Field K (Dbl K)} (hf : f.Sound) {a : ℤ} {k : ℕ} {ax : Axis K}
    (ha : pyIdx f.shape.length a = some k) (hax : f.axes[k]? = some ax) (h2 : 2 ≤ ax.len) :
    f.derivativeF rnd a = .ok ⟨f.name ++ "'", f.unit, ⟨f.shape, fun idx =>
      gradientAtF rnd ax.grid (fun j => f.matrix.at' (idx.set k j)) ax.grid.length (idx.getD k 0)⟩,
      f.axes, f.ats, f.tao⟩ := by
  have hl := ok_axes_length hf.ok
  have e1 : pyGet f.axes a = .ok ax := pyGet_of (by rw [hl]; exact ha) hax
  have hs : f.matrix.shape[k]? = some ax.grid.length := by
    show f.shape[k]? = _
    rw [← hf.ok.lengths, List.getElem?_map, hax]
    rfl
  have e2 : axisIdx f.matrix.shape.length a = .ok k := by
    unfold axisIdx
    rw [show pyIdx f.matrix.shape.length a = some k from ha]
  have h2' : 2 ≤ ax.grid.length := h2
  unfold Field.derivativeF
  rw [e1]
  simp only [bind, Except.bind]
  unfold Arr.gradientF
  rw [e2]
  simp only [bind, Except.bind]
  rw [hs]
  simp only [ne_eq, not_true_eq_false, if_false]
  rw [if_neg (by omega)]
  simp only [pure, Except.pure]
  unfold Field.replaceData
  rw [if_neg (by simp [Field.shape])]
  rfl

/-- The coordinates of an axis rise or fall. -/
theorem grid_monotone {ax : Axis K} (h : ValidAxis ax.gridNode ax.grid ax.extent) :
    (∀ i, i + 1 < ax.grid.length → ax.grid.getD i 0 < ax.grid.getD (i + 1) 0) ∨
      ∀ i, i + 1 < ax.grid.length → ax.grid.getD (i + 1) 0 < ax.grid.getD i 0 := by
  rcases (wf_iff _ _).1 h.wf with h | h
  · refine Or.inl fun i hi => ?_
    have := (List.pairwise_iff_getElem.1 (pairwise_of_mono lt_tr (interleave_mono_grid lt_tr h))) i (i + 1) (by omega) hi (by omega)
    rwa [List.getD_eq_getElem _ _ (by omega : i < ax.grid.length), List.getD_eq_getElem _ _ hi]
  · refine Or.inr fun i hi => ?_
    have := (List.pairwise_iff_getElem.1 (pairwise_of_mono gt_tr (interleave_mono_grid gt_tr h))) i (i + 1) (by omega) hi (by omega)
    rwa [List.getD_eq_getElem _ _ (by omega : i < ax.grid.length), List.getD_eq_getElem _ _ hi]

/-- All points. -/
theorem gradientF_error (A : Accurate rnd u) (hu : 9 * u ≤ 1 / 2) {ax : Axis K} (hv : ValidAxis ax.gridNode ax.grid ax.extent)
    (h2 : 2 ≤ ax.grid.length) (y : ℕ → K) (p : ℕ) (hp : p < ax.grid.length) :
    ∃ z, gradientAtF rnd ax.grid (fun j => .fin (y j)) ax.grid.length p = .fin z ∧
      (p = 0 ∨ p + 1 = ax.grid.length → |z - gradientAt ax.grid y ax.grid.length p| ≤ 6 * u * |gradientAt ax.grid y ax.grid.length p|) ∧
      ∀ i x0 x1 x2, p = i + 1 → ax.grid[i]? = some x0 → ax.grid[i + 1]? = some x1 → ax.grid[i + 2]? = some x2 →
        |z - gradientAt ax.grid y ax.grid.length p| ≤
          18 * u * ((|y i| + |y (i + 1)|) / |x1 - x0| + (|y (i + 1)| + |y (i + 2)|) / |x2 - x1|) := by
  have hu0 := A.nonneg
  have hu1 : u < 1 := by linarith
  have hn := grid_nodup hv
  obtain ⟨e1, e2⟩ := gradient_ends h2 y
  have hend : ∀ {x z : K}, Within u 3 x z → |z - x| ≤ 6 * u * |x| := by
    intro x z h
    have := within_error hu0 (by push_cast; linarith) h
    push_cast at this
    linarith
  by_cases hp0 : p = 0
  · subst hp0
    obtain ⟨z, z1, z2⟩ := gradientF_first A hu1 hn h2 y
    exact ⟨z, z1, fun _ => by rw [e1]; exact hend z2, fun i _ _ _ h => absurd h (by omega)⟩
  by_cases hpl : p + 1 = ax.grid.length
  · obtain rfl : p = ax.grid.length - 1 := by omega
    obtain ⟨z, z1, z2⟩ := gradientF_last A hu1 hn h2 y
    refine ⟨z, z1, fun _ => by rw [e2]; exact hend z2, fun i _ _ _ h _ _ h2 => ?_⟩
    have := (List.getElem?_eq_some_iff.1 h2).1
    omega
  obtain ⟨i, rfl⟩ : ∃ i, p = i + 1 := ⟨p - 1, by omega⟩
  have hi2 : i + 2 < ax.grid.length := by omega
  have hmono : ax.grid.getD i 0 < ax.grid.getD (i + 1) 0 ∧ ax.grid.getD (i + 1) 0 < ax.grid.getD (i + 2) 0 ∨
      ax.grid.getD (i + 1) 0 < ax.grid.getD i 0 ∧ ax.grid.getD (i + 2) 0 < ax.grid.getD (i + 1) 0 := by
    rcases grid_monotone hv with h | h
    · exact Or.inl ⟨h i (by omega), h (i + 1) (by omega)⟩
    · exact Or.inr ⟨h i (by omega), h (i + 1) (by omega)⟩
  obtain ⟨z, z1, z2⟩ := gradientF_inner A hu1 hi2 hmono y
  refine ⟨z, z1, fun h => by omega, fun j x0 x1 x2 h h0 h1 h2 => ?_⟩
  obtain rfl : i = j := by omega
  have := near_error hu0 (by push_cast; linarith) z2
  rw [getD_of_get h0, getD_of_get h1, getD_of_get h2] at this
  rw [gradient_central hn hi2, getD_of_get h0, getD_of_get h1, getD_of_get h2]
  push_cast at this
  linarith

/-- Whether a field is made depends on the shape only. -/
theorem mkField_shape {V W : Type} {m : Arr V} {m' : Arr W} (hm : m'.shape = m.shape) {name unit : String} {axes : List (Axis K)}
    {ats : List (Option Bool)} {tao : List (Option K)} {r : Field K V} (h : mkField m name unit axes ats tao = .ok r) :
    r = ⟨name, unit, m, axes, ats, tao⟩ ∧ mkField m' name unit axes ats tao = .ok ⟨name, unit, m', axes, ats, tao⟩ := by
  unfold mkField at *
  rw [hm]
  split_ifs at h with h0
  rw [if_neg h0]
  cases hc : checkAxes m.shape 0 axes with
  | error e => rw [hc] at h; cases h
  | ok v =>
    rw [hc] at h
    exact ⟨(Except.ok.inj h).symm, rfl⟩

theorem derivativeStaggerF_ok (A : Accurate rnd u) (hu1 : u < 1) {spl : Splines K} {f : Field K K} (hf : f.Sound) {a : ℤ} {r : Field K K}
    (hr : f.derivativeStagger spl a = .ok r) :
    ∃ rF, (Field.mapValues f Dbl.fin).derivativeStaggerF rnd spl a = .ok rF ∧ rF.shape = r.shape ∧ rF.axes = r.axes ∧
      rF.name = r.name ∧ rF.unit = r.unit ∧ rF.ats = r.ats ∧ rF.tao = r.tao ∧
      ∀ idx, ∃ z, rF.matrix.at' idx = .fin z ∧ Within u 3 (r.matrix.at' idx) z := by
  have hu0 := A.nonneg
  unfold Field.derivativeStagger at hr
  unfold Field.derivativeStaggerF
  rw [show (Field.mapValues f Dbl.fin).axes = f.axes from rfl, show (Field.mapValues f Dbl.fin).dims = f.dims from rfl]
  cases h1 : pyGet f.axes a with
  | error e => rw [h1] at hr; cases hr
  | ok ax =>
    rw [h1] at hr
    simp only [bind, Except.bind] at hr ⊢
    split_ifs at hr with h2
    rw [if_neg h2]
    cases h3 : mkAxis spl { name := ax.name, unit := ax.unit, grid := some ax.gridNode.tail.dropLast } with
    | error e => rw [h3] at hr; cases hr
    | ok ax' =>
      rw [h3] at hr
      simp only at hr ⊢
      cases h4 : pySet f.axes a ax' with
      | error e => rw [h4] at hr; cases hr
      | ok axes =>
        rw [h4] at hr
        simp only at hr ⊢
        cases h5 : pyIdx f.dims.toNat a with
        | none => rw [h5] at hr; cases hr
        | some k =>
          rw [h5] at hr
          simp only at hr ⊢
          have hmem : ax ∈ f.axes := by
            unfold pyGet at h1
            split at h1
            · split at h1
              · rename_i h
                cases h1
                exact List.mem_of_getElem? h
              · cases h1
            · cases h1
          have hv := hf.valid ax hmem
          unfold Axis.spacing at hr
          unfold spacingF
          rw [if_neg h2] at hr ⊢
          match hg : ax.gridNode with
          | [] => rw [hg] at hr; cases hr
          | [_] => rw [hg] at hr; cases hr
          | x :: y :: l =>
            rw [hg] at hr
            simp only at hr ⊢
            have hne : y - x ≠ 0 := by
              rcases (wf_iff _ _).1 hv.wf with h | h
              · have := (List.pairwise_cons.1 (hg ▸ pairwise_of_mono lt_tr (interleave_mono_nodes lt_tr h))).1 y (by simp)
                exact sub_ne_zero.2 (ne_of_gt this)
              · have := (List.pairwise_cons.1 (hg ▸ pairwise_of_mono gt_tr (interleave_mono_nodes gt_tr h))).1 y (by simp)
                exact sub_ne_zero.2 (ne_of_lt this)
            obtain ⟨D, d1, d2⟩ := sub_near A y x
            have hD : Within u 1 |y - x| |D| := by
              obtain ⟨t, t1, t2, rfl⟩ := within_round hu0 hu1 (within_refl (y - x)) d2
              exact ⟨t, t1, t2, by rw [abs_mul, abs_of_nonneg (le_trans (pow_nonneg (by linarith) _) t1)]⟩
            rw [d1, show (Dbl.fin D).abs = Dbl.fin |D| from rfl]
            obtain ⟨g1, g2⟩ := mkField_shape (m' := ⟨(Field.mapValues f Dbl.fin).shape.modify k fun x => x - 1, fun idx =>
              quotF rnd (Dbl.sub rnd ((Field.mapValues f Dbl.fin).matrix.at' (idx.modify k fun x => x + 1))
                ((Field.mapValues f Dbl.fin).matrix.at' idx)) (.fin |D|)⟩) (by rfl) hr
            refine ⟨_, g2, ?_⟩
            rw [g1]
            refine ⟨rfl, rfl, rfl, rfl, rfl, rfl, fun idx => ?_⟩
            obtain ⟨z, z1, z2⟩ := diffQuot_within A hu1 (abs_ne_zero.2 hne) hD (f.matrix.at' idx) (f.matrix.at' (idx.modify k fun x => x + 1))
            refine ⟨z, z1, ?_⟩
            rw [div_eq_inv_mul] at z2
            exact z2

end Postpic.Fields
