import Verif.Lemmas.HistogramFloat
import Mathlib.Algebra.Order.Ring.Abs
import Mathlib.Tactic.Positivity

/-!
# Lemmas: rounding errors of the deposition
-/

set_option autoImplicit false
set_option linter.unusedSectionVars false

namespace Postpic.Histogram

open Postpic Postpic.Spec

section
variable {K : Type} [Field K] [LinearOrder K] [IsStrictOrderedRing K] [FloorRing K] {rnd : K → Dbl K} {u : K}

theorem add_near (A : Accurate rnd u) (a b : K) : ∃ r, Dbl.add rnd (.fin a) (.fin b) = .fin r ∧ |r - (a + b)| ≤ u * |a + b| := A.near _

theorem sub_near (A : Accurate rnd u) (a b : K) : ∃ r, Dbl.sub rnd (.fin a) (.fin b) = .fin r ∧ |r - (a - b)| ≤ u * |a - b| := by
  rw [sub_eq_add_neg]
  exact A.near _

theorem mul_near (A : Accurate rnd u) (a b : K) : ∃ r, Dbl.mul rnd (.fin a) (.fin b) = .fin r ∧ |r - a * b| ≤ u * |a * b| := A.near _

/-- A sum of numbers known up to multiples of `u`. -/
theorem near_add {a b x y r e f M : K} (hu : 0 ≤ u) (ha : |a - x| ≤ e * u) (hb : |b - y| ≤ f * u) (hM : |x + y| ≤ M) (hs : (e + f) * u ≤ 1)
    (hr : |r - (a + b)| ≤ u * |a + b|) : |r - (x + y)| ≤ (e + f + M + 1) * u := by
  have h1 : |a + b - (x + y)| ≤ (e + f) * u := by
    rw [show a + b - (x + y) = (a - x) + (b - y) by ring]
    linarith [abs_add_le (a - x) (b - y)]
  have h2 : |a + b| ≤ M + 1 := by
    have := abs_add_le (a + b - (x + y)) (x + y)
    rw [show a + b - (x + y) + (x + y) = a + b by ring] at this
    linarith
  have h3 : |r - (x + y)| ≤ |r - (a + b)| + |a + b - (x + y)| := by
    rw [show r - (x + y) = (r - (a + b)) + (a + b - (x + y)) by ring]
    exact abs_add_le _ _
  have h4 := mul_le_mul_of_nonneg_left h2 hu
  linarith

theorem near_sub {a b x y r e f M : K} (hu : 0 ≤ u) (ha : |a - x| ≤ e * u) (hb : |b - y| ≤ f * u) (hM : |x - y| ≤ M) (hs : (e + f) * u ≤ 1)
    (hr : |r - (a - b)| ≤ u * |a - b|) : |r - (x - y)| ≤ (e + f + M + 1) * u := by
  have hb' : |-b - -y| ≤ f * u := by
    rw [show -b - -y = -(b - y) by ring, abs_neg]
    exact hb
  rw [sub_eq_add_neg] at hM
  rw [sub_eq_add_neg x y]
  rw [sub_eq_add_neg a b] at hr
  exact near_add hu ha hb' hM hs hr

/-- A product of numbers known up to multiples of `u`. -/
theorem near_mul {a b x y r e f X Y : K} (hu : 0 ≤ u) (ha : |a - x| ≤ e * u) (hb : |b - y| ≤ f * u) (hX : |x| ≤ X) (hY : |y| ≤ Y)
    (he : e * u ≤ 1) (hf : f * u ≤ 1) (hr : |r - a * b| ≤ u * |a * b|) :
    |r - x * y| ≤ (e * (Y + 1) + X * f + (X + 1) * (Y + 1)) * u := by
  have hX0 : 0 ≤ X := le_trans (abs_nonneg _) hX
  have hY0 : 0 ≤ Y := le_trans (abs_nonneg _) hY
  have h1 : |a| ≤ X + 1 := by
    have := abs_add_le (a - x) x
    rw [sub_add_cancel] at this
    linarith
  have h2 : |b| ≤ Y + 1 := by
    have := abs_add_le (b - y) y
    rw [sub_add_cancel] at this
    linarith
  have h3 : |a * b - x * y| ≤ e * u * (Y + 1) + X * (f * u) := by
    rw [show a * b - x * y = (a - x) * b + x * (b - y) by ring]
    refine le_trans (abs_add_le _ _) ?_
    rw [abs_mul, abs_mul]
    have := mul_le_mul ha h2 (abs_nonneg _) (le_trans (abs_nonneg _) ha)
    have := mul_le_mul hX hb (abs_nonneg _) hX0
    linarith
  have h4 : |a * b| ≤ (X + 1) * (Y + 1) := by
    rw [abs_mul]
    exact mul_le_mul h1 h2 (abs_nonneg _) (by linarith)
  have h5 : |r - x * y| ≤ |r - a * b| + |a * b - x * y| := by
    rw [show r - x * y = (r - a * b) + (a * b - x * y) by ring]
    exact abs_add_le _ _
  have h6 := mul_le_mul_of_nonneg_left h4 hu
  calc |r - x * y| ≤ u * ((X + 1) * (Y + 1)) + (e * u * (Y + 1) + X * (f * u)) := by linarith
    _ = _ := by ring

theorem near_over (A : Accurate rnd u) (c : K) (a : K) : ∃ r, (rnd (a / c)) = .fin r ∧ |r - a / c| ≤ u * |a / c| := A.near _

/-! ### The weights of one particle -/

/-- What is needed to know about the computed weights. -/
def GoodWeights (rnd : K → Dbl K) (s : Shape) (x : Dbl K) (ε : K) : Prop :=
  ∃ vs : List K, wtsF rnd s x = vs.map Dbl.fin ∧ |vs.sum - 1| ≤ ε ∧ (∀ v ∈ vs, |v| ≤ 2)

theorem near_sum {l m : List K} {e : K} (h : List.Forall₂ (fun a x => |a - x| ≤ e) l m) : |l.sum - m.sum| ≤ l.length * e := by
  induction h with
  | nil => simp
  | @cons a x l m hax _ ih =>
    rw [List.sum_cons, List.sum_cons, List.length_cons]
    have := abs_add_le (a - x) (l.sum - m.sum)
    rw [show a - x + (l.sum - m.sum) = a + l.sum - (x + m.sum) by ring] at this
    push_cast
    linarith

theorem triangle_weights (A : Accurate rnd u) (hu1 : u ≤ 1 / 4096) (x : Dbl K) (d : K)
    (hd : Dbl.sub rnd x (.fin (cellRefF rnd .triangle x : K)) = .fin d) (hd0 : -(1 / 8) ≤ d) (hd1 : d ≤ 9 / 8) :
    GoodWeights rnd .triangle x (64 * u) := by
  have hu := A.nonneg
  have z : ∀ t : K, |t - t| ≤ 0 * u := by intro t; simp
  obtain ⟨a, ea, ha⟩ := sub_near A 1 d
  have ha' : |a - (1 - d)| ≤ 3 * u := le_trans (near_sub (M := 9 / 8) hu (z 1) (z d) (by rw [abs_le]; constructor <;> linarith only [hd0, hd1])
    (by linarith only [hu, hu1]) ha) (by linarith only [hu, hu1])
  have hX : |1 - d| ≤ 9 / 8 := by rw [abs_le]; constructor <;> linarith only [hd0, hd1]
  obtain ⟨b, eb, hb⟩ := mul_near A a a
  have hb' : |b - (1 - d) * (1 - d)| ≤ 16 * u := le_trans (near_mul hu ha' ha' hX hX (by linarith only [hu, hu1]) (by linarith only [hu, hu1]) hb) (by linarith only [hu, hu1])
  have hsq : |(1 - d) * (1 - d)| ≤ 81 / 64 := by rw [abs_le]; constructor <;> nlinarith only [hd0, hd1]
  obtain ⟨c, ec, hc⟩ := mul_near A (1 / 2) b
  have hc' : |c - 1 / 2 * ((1 - d) * (1 - d))| ≤ 16 * u := le_trans (near_mul (X := 1 / 2) hu (z (1 / 2)) hb'
    (by rw [abs_le]; constructor <;> linarith only [hd0, hd1]) hsq (by linarith only [hu, hu1]) (by linarith only [hu, hu1]) hc) (by linarith only [hu, hu1])
  have hD : |d| ≤ 9 / 8 := by rw [abs_le]; constructor <;> linarith only [hd0, hd1]
  obtain ⟨p, ep, hp⟩ := add_near A (1 / 2) d
  have hp' : |p - (1 / 2 + d)| ≤ 3 * u := le_trans (near_add (M := 13 / 8) hu (z (1 / 2)) (z d) (by rw [abs_le]; constructor <;> linarith only [hd0, hd1])
    (by linarith only [hu, hu1]) hp) (by linarith only [hu, hu1])
  obtain ⟨q, eq, hq⟩ := mul_near A d d
  have hq' : |q - d * d| ≤ 5 * u := le_trans (near_mul hu (z d) (z d) hD hD (by linarith only [hu, hu1]) (by linarith only [hu, hu1]) hq) (by linarith only [hu, hu1])
  obtain ⟨r, er, hr⟩ := sub_near A p q
  have hr' : |r - (1 / 2 + d - d * d)| ≤ 16 * u := le_trans (near_sub (M := 3) hu hp' hq' (by rw [abs_le]; constructor <;> nlinarith only [hd0, hd1])
    (by linarith only [hu, hu1]) hr) (by linarith only [hu, hu1])
  obtain ⟨t, et, ht⟩ := mul_near A (1 / 2) q
  have hdd : |d * d| ≤ 81 / 64 := by rw [abs_le]; constructor <;> nlinarith only [hd0, hd1]
  have ht' : |t - 1 / 2 * (d * d)| ≤ 16 * u := le_trans (near_mul (X := 1 / 2) hu (z (1 / 2)) hq'
    (by rw [abs_le]; constructor <;> linarith only [hd0, hd1]) hdd (by linarith only [hu, hu1]) (by linarith only [hu, hu1]) ht) (by linarith only [hu, hu1])
  refine ⟨[c, r, t], ?_, ?_, ?_⟩
  · simp only [wtsF, hd, half, ea, eb, ec, ep, eq, er, et, List.map_cons, List.map_nil]
  · have h := near_sum (e := 16 * u) (l := [c, r, t]) (m := [1 / 2 * ((1 - d) * (1 - d)), 1 / 2 + d - d * d, 1 / 2 * (d * d)])
      (by simp only [List.forall₂_cons, List.Forall₂.nil, and_true]; exact ⟨hc', hr', ht'⟩)
    have e : ([1 / 2 * ((1 - d) * (1 - d)), 1 / 2 + d - d * d, 1 / 2 * (d * d)] : List K).sum = 1 := by
      simp only [List.sum_cons, List.sum_nil]; ring
    rw [e] at h
    simp only [List.length_cons, List.length_nil] at h
    push_cast at h
    linarith only [h, hu]
  · intro v hv
    simp only [List.mem_cons, List.not_mem_nil, or_false] at hv
    have h1 := abs_le.1 hc'
    have h2 := abs_le.1 hr'
    have h3 := abs_le.1 ht'
    have h4 := abs_le.1 hsq
    have h5 := abs_le.1 hdd
    have h6 := mul_self_nonneg d
    have h7 := mul_self_nonneg (1 - d)
    rcases hv with rfl | rfl | rfl <;> rw [abs_le]
    · constructor <;> linarith only [h1.1, h1.2, h4.2, h7, hu, hu1]
    · constructor <;> linarith only [h2.1, h2.2, h5.2, h6, hd0, hd1, hu, hu1]
    · constructor <;> linarith only [h3.1, h3.2, h5.2, h6, hu, hu1]

set_option maxHeartbeats 1000000 in
theorem spline3_weights (A : Accurate rnd u) (hu1 : u ≤ 1 / 4096) (x : Dbl K) (d : K)
    (hd : Dbl.add rnd (Dbl.sub rnd x (.fin (cellRefF rnd .spline3 x : K))) half = .fin d) (hd0 : -(1 / 8) ≤ d) (hd1 : d ≤ 9 / 8) :
    GoodWeights rnd .spline3 x (168 * u) := by
  have hu := A.nonneg
  have z : ∀ t : K, |t - t| ≤ 0 * u := by intro t; simp
  have hD : |d| ≤ 9 / 8 := by rw [abs_le]; constructor <;> linarith only [hd0, hd1]
  -- `1./6` and `2./3`
  obtain ⟨k6, ek6, hk6⟩ := A.near (1 / 6)
  rw [abs_of_nonneg (show (0 : K) ≤ 1 / 6 by norm_num)] at hk6
  have hk6' : |k6 - 1 / 6| ≤ 1 * u := by linarith only [hk6, hu]
  obtain ⟨k23, ek23, hk23⟩ := A.near (2 / 3)
  rw [abs_of_nonneg (show (0 : K) ≤ 2 / 3 by norm_num)] at hk23
  have hk23' : |k23 - 2 / 3| ≤ 1 * u := by linarith only [hk23, hu]
  -- first
  obtain ⟨a1, ea1, ha1⟩ := A.near (d / 6)
  have ha1' : |a1 - d / 6| ≤ 1 * u := by
    have : |d / 6| ≤ 1 := by rw [abs_le]; constructor <;> linarith only [hd0, hd1]
    have := mul_le_mul_of_nonneg_left this hu
    linarith only [this, ha1]
  obtain ⟨a2, ea2, ha2⟩ := sub_near A (1 / 2) a1
  have ha2' : |a2 - (1 / 2 - d / 6)| ≤ 3 * u := le_trans (near_sub (M := 1) hu (z (1 / 2)) ha1' (by rw [abs_le]; constructor <;> linarith only [hd0, hd1])
    (by linarith only [hu, hu1]) ha2) (by linarith only [hu, hu1])
  obtain ⟨a3, ea3, ha3⟩ := mul_near A a2 d
  have ha3' : |a3 - (1 / 2 - d / 6) * d| ≤ 12 * u := le_trans (near_mul (X := 1) hu ha2' (z d) (by rw [abs_le]; constructor <;> linarith only [hd0, hd1]) hD
    (by linarith only [hu, hu1]) (by linarith only [hu, hu1]) ha3) (by linarith only [hu, hu1])
  obtain ⟨a4, ea4, ha4⟩ := add_near A (-(1 / 2)) a3
  have ha4b : |-(1 / 2) + (1 / 2 - d / 6) * d| ≤ 1 := by rw [abs_le]; constructor <;> nlinarith only [hd0, hd1]
  have ha4' : |a4 - (-(1 / 2) + (1 / 2 - d / 6) * d)| ≤ 14 * u := le_trans (near_add (M := 1) hu (z (-(1 / 2))) ha3' ha4b
    (by linarith only [hu, hu1]) ha4) (by linarith only [hu, hu1])
  obtain ⟨a5, ea5, ha5⟩ := mul_near A d a4
  have ha5' : |a5 - d * (-(1 / 2) + (1 / 2 - d / 6) * d)| ≤ 30 * u := le_trans (near_mul hu (z d) ha4' hD ha4b
    (by linarith only [hu, hu1]) (by linarith only [hu, hu1]) ha5) (by linarith only [hu, hu1])
  obtain ⟨a6, ea6, ha6⟩ := add_near A k6 a5
  have hb1 : |d * (-(1 / 2) + (1 / 2 - d / 6) * d)| ≤ 9 / 8 := by
    rw [abs_mul]
    calc |d| * _ ≤ 9 / 8 * 1 := mul_le_mul hD ha4b (abs_nonneg _) (by norm_num)
      _ = 9 / 8 := by ring
  have hb1' := abs_le.1 hb1
  have ha6' : |a6 - (1 / 6 + d * (-(1 / 2) + (1 / 2 - d / 6) * d))| ≤ 40 * u := le_trans (near_add (M := 3 / 2) hu hk6' ha5'
    (by rw [abs_le]; constructor <;> linarith only [hb1'.1, hb1'.2]) (by linarith only [hu, hu1]) ha6) (by linarith only [hu, hu1])
  -- second
  obtain ⟨b1, eb1, hb1r⟩ := A.near (d / 2)
  have hb1r' : |b1 - d / 2| ≤ 1 * u := by
    have : |d / 2| ≤ 1 := by rw [abs_le]; constructor <;> linarith only [hd0, hd1]
    have := mul_le_mul_of_nonneg_left this hu
    linarith only [this, hb1r]
  obtain ⟨b2, eb2, hb2⟩ := add_near A (-1) b1
  have hb2b : |-1 + d / 2| ≤ 5 / 4 := by rw [abs_le]; constructor <;> linarith only [hd0, hd1]
  have hb2' : |b2 - (-1 + d / 2)| ≤ 4 * u := le_trans (near_add hu (z (-1)) hb1r' hb2b (by linarith only [hu, hu1]) hb2) (by linarith only [hu, hu1])
  obtain ⟨b3, eb3, hb3⟩ := mul_near A b2 d
  have hb3b : |(-1 + d / 2) * d| ≤ 3 / 2 := by
    rw [abs_mul]
    calc |-1 + d / 2| * _ ≤ 5 / 4 * (9 / 8) := mul_le_mul hb2b hD (abs_nonneg _) (by norm_num)
      _ ≤ 3 / 2 := by norm_num
  have hb3' : |b3 - (-1 + d / 2) * d| ≤ 14 * u := le_trans (near_mul hu hb2' (z d) hb2b hD (by linarith only [hu, hu1]) (by linarith only [hu, hu1]) hb3) (by linarith only [hu, hu1])
  obtain ⟨b4, eb4, hb4⟩ := mul_near A b3 d
  have hb4' : |b4 - (-1 + d / 2) * d * d| ≤ 36 * u := le_trans (near_mul hu hb3' (z d) hb3b hD (by linarith only [hu, hu1]) (by linarith only [hu, hu1]) hb4) (by linarith only [hu, hu1])
  have hb4b : |(-1 + d / 2) * d * d| ≤ 2 := by
    rw [abs_mul]
    calc |(-1 + d / 2) * d| * _ ≤ 3 / 2 * (9 / 8) := mul_le_mul hb3b hD (abs_nonneg _) (by norm_num)
      _ ≤ 2 := by norm_num
  have hb4b' := abs_le.1 hb4b
  obtain ⟨b5, eb5, hb5⟩ := add_near A k23 b4
  have hb5' : |b5 - (2 / 3 + (-1 + d / 2) * d * d)| ≤ 42 * u := le_trans (near_add (M := 3) hu hk23' hb4'
    (by rw [abs_le]; constructor <;> linarith only [hb4b'.1, hb4b'.2]) (by linarith only [hu, hu1]) hb5) (by linarith only [hu, hu1])
  -- third
  obtain ⟨c1, ec1, hc1⟩ := sub_near A (1 / 2) b1
  have hc1b : |1 / 2 - d / 2| ≤ 1 := by rw [abs_le]; constructor <;> linarith only [hd0, hd1]
  have hc1' : |c1 - (1 / 2 - d / 2)| ≤ 3 * u := le_trans (near_sub hu (z (1 / 2)) hb1r' hc1b (by linarith only [hu, hu1]) hc1) (by linarith only [hu, hu1])
  obtain ⟨c2, ec2, hc2⟩ := mul_near A c1 d
  have hc2' : |c2 - (1 / 2 - d / 2) * d| ≤ 12 * u := le_trans (near_mul hu hc1' (z d) hc1b hD (by linarith only [hu, hu1]) (by linarith only [hu, hu1]) hc2) (by linarith only [hu, hu1])
  obtain ⟨c3, ec3, hc3⟩ := add_near A (1 / 2) c2
  have hc3b : |1 / 2 + (1 / 2 - d / 2) * d| ≤ 1 := by rw [abs_le]; constructor <;> nlinarith only [hd0, hd1]
  have hc3' : |c3 - (1 / 2 + (1 / 2 - d / 2) * d)| ≤ 14 * u := le_trans (near_add hu (z (1 / 2)) hc2' hc3b (by linarith only [hu, hu1]) hc3) (by linarith only [hu, hu1])
  obtain ⟨c4, ec4, hc4⟩ := mul_near A d c3
  have hc4' : |c4 - d * (1 / 2 + (1 / 2 - d / 2) * d)| ≤ 30 * u := le_trans (near_mul hu (z d) hc3' hD hc3b
    (by linarith only [hu, hu1]) (by linarith only [hu, hu1]) hc4) (by linarith only [hu, hu1])
  have hc4b : |d * (1 / 2 + (1 / 2 - d / 2) * d)| ≤ 9 / 8 := by
    rw [abs_mul]
    calc |d| * _ ≤ 9 / 8 * 1 := mul_le_mul hD hc3b (abs_nonneg _) (by norm_num)
      _ = 9 / 8 := by ring
  have hc4b' := abs_le.1 hc4b
  obtain ⟨c5, ec5, hc5⟩ := add_near A k6 c4
  have hc5' : |c5 - (1 / 6 + d * (1 / 2 + (1 / 2 - d / 2) * d))| ≤ 40 * u := le_trans (near_add (M := 3 / 2) hu hk6' hc4'
    (by rw [abs_le]; constructor <;> linarith only [hc4b'.1, hc4b'.2]) (by linarith only [hu, hu1]) hc5) (by linarith only [hu, hu1])
  -- fourth
  obtain ⟨g1, eg1, hg1⟩ := mul_near A d d
  have hg1b : |d * d| ≤ 4 / 3 := by rw [abs_le]; constructor <;> nlinarith only [hd0, hd1]
  have hg1' : |g1 - d * d| ≤ 5 * u := le_trans (near_mul hu (z d) (z d) hD hD (by linarith only [hu, hu1]) (by linarith only [hu, hu1]) hg1) (by linarith only [hu, hu1])
  obtain ⟨g2, eg2, hg2⟩ := mul_near A g1 d
  have hg2' : |g2 - d * d * d| ≤ 16 * u := le_trans (near_mul hu hg1' (z d) hg1b hD (by linarith only [hu, hu1]) (by linarith only [hu, hu1]) hg2) (by linarith only [hu, hu1])
  have hg2b : |d * d * d| ≤ 3 / 2 := by
    rw [abs_mul]
    calc |d * d| * _ ≤ 4 / 3 * (9 / 8) := mul_le_mul hg1b hD (abs_nonneg _) (by norm_num)
      _ = 3 / 2 := by norm_num
  have hg2b' := abs_le.1 hg2b
  obtain ⟨g3, eg3, hg3⟩ := A.near (g2 / 6)
  have hg3' : |g3 - d * d * d / 6| ≤ 40 * u := by
    have h1 := abs_le.1 hg2'
    have h2 : |g2 / 6| ≤ 1 := by rw [abs_le]; constructor <;> linarith only [h1.1, h1.2, hg2b'.1, hg2b'.2, hu, hu1]
    have h3 := abs_le.1 (le_trans hg3 (mul_le_mul_of_nonneg_left h2 hu))
    rw [abs_le]
    constructor <;> linarith only [h1.1, h1.2, h3.1, h3.2, hu, hu1]
  refine ⟨[a6, b5, c5, g3], ?_, ?_, ?_⟩
  · unfold half at hd
    simp only [wtsF, half, hd, ek6, ek23, ea1, ea2, ea3, ea4, ea5, ea6, eb1, eb2, eb3, eb4, eb5, ec1, ec2, ec3, ec4, ec5, eg1, eg2, eg3,
      List.map_cons, List.map_nil]
  · have h := near_sum (e := 42 * u) (l := [a6, b5, c5, g3]) (m := [1 / 6 + d * (-(1 / 2) + (1 / 2 - d / 6) * d),
      2 / 3 + (-1 + d / 2) * d * d, 1 / 6 + d * (1 / 2 + (1 / 2 - d / 2) * d), d * d * d / 6])
      (by simp only [List.forall₂_cons, List.Forall₂.nil, and_true]; exact ⟨le_trans ha6' (by linarith only [hu]), hb5', le_trans hc5' (by linarith only [hu]), le_trans hg3' (by linarith only [hu])⟩)
    have e : ([1 / 6 + d * (-(1 / 2) + (1 / 2 - d / 6) * d), 2 / 3 + (-1 + d / 2) * d * d, 1 / 6 + d * (1 / 2 + (1 / 2 - d / 2) * d),
        d * d * d / 6] : List K).sum = 1 := by
      simp only [List.sum_cons, List.sum_nil]; ring
    rw [e] at h
    simp only [List.length_cons, List.length_nil] at h
    push_cast at h
    linarith only [h, hu]
  · intro v hv
    simp only [List.mem_cons, List.not_mem_nil, or_false] at hv
    have h1 := abs_le.1 ha6'
    have h2 := abs_le.1 hb5'
    have h3 := abs_le.1 hc5'
    have h4 := abs_le.1 hg3'
    have h5 : (-1 + d / 2) * d * d ≤ 1 := by nlinarith only [mul_self_nonneg d, hd0, hd1]
    rcases hv with rfl | rfl | rfl | rfl <;> rw [abs_le]
    · constructor <;> linarith only [h1.1, h1.2, hb1'.1, hb1'.2, hu, hu1]
    · constructor <;> linarith only [h2.1, h2.2, hb4b'.1, h5, hu, hu1]
    · constructor <;> linarith only [h3.1, h3.2, hc4b'.1, hc4b'.2, hu, hu1]
    · constructor <;> linarith only [h4.1, h4.2, hg2b'.1, hg2b'.2, hu, hu1]

theorem tophat_weights (A : Accurate rnd u) (v B : K) (hB : u * B ≤ 1 / 16) (hB2 : 2 ≤ B) (hv0 : 0 ≤ v) (hv1 : v + 1 / 2 ≤ B)
    (hr : |v - (cellRefF rnd .tophat (.fin v) : K)| ≤ 5 / 8) : GoodWeights rnd .tophat (.fin v) (6 * (u * B)) := by
  have hu := A.nonneg
  have hr' := abs_le.1 hr
  have huB : u * 2 ≤ u * B := mul_le_mul_of_nonneg_left hB2 hu
  generalize hx : (cellRefF rnd .tophat (.fin v) : K) = xr at *
  obtain ⟨a, ea, ha⟩ := sub_near A (1 / 2) v
  have ha' := abs_le.1 (le_trans ha (mul_le_mul_of_nonneg_left (show |1 / 2 - v| ≤ B by rw [abs_le]; constructor <;> linarith) hu))
  obtain ⟨b, eb, hb⟩ := add_near A a xr
  have hb' := abs_le.1 (le_trans hb (mul_le_mul_of_nonneg_left (show |a + xr| ≤ B by rw [abs_le]; constructor <;> linarith) hu))
  obtain ⟨c, ec, hc⟩ := add_near A (1 / 2) v
  have hc' := abs_le.1 (le_trans hc (mul_le_mul_of_nonneg_left (show |1 / 2 + v| ≤ B by rw [abs_le]; constructor <;> linarith) hu))
  obtain ⟨d, ed, hd⟩ := sub_near A c xr
  have hd' := abs_le.1 (le_trans hd (mul_le_mul_of_nonneg_left (show |c - xr| ≤ B by rw [abs_le]; constructor <;> linarith) hu))
  refine ⟨[b, d], ?_, ?_, ?_⟩
  · simp only [wtsF, hx, half, ea, eb, ec, ed, List.map_cons, List.map_nil]
  · simp only [List.sum_cons, List.sum_nil]
    rw [abs_le]
    constructor <;> linarith
  · intro w hw
    simp only [List.mem_cons, List.not_mem_nil, or_false] at hw
    rcases hw with rfl | rfl <;> rw [abs_le] <;> constructor <;> linarith

theorem ngp_weights (x : Dbl K) (rnd : K → Dbl K) : GoodWeights rnd .ngp x 0 :=
  ⟨[1], rfl, by simp, by simp⟩

/-! ### Sums -/

/-- The values which go to one cell. -/
def valuesAt {ι : Type} [DecidableEq ι] (i : ι) (l : List (ι × K)) : List K := (l.filter fun c => c.1 = i).map Prod.snd

/-- Adding up one list of values. -/
theorem addAll_near (A : Accurate rnd u) {ι : Type} [DecidableEq ι] (inb : ι → Bool) (l : List (ι × K)) (h : ∀ c ∈ l, inb c.1 = true)
    (m : ι → K) : ∃ m' : ι → K, (l.map fun c => (c.1, Dbl.fin c.2)).foldlM (addAtF rnd inb) (fun i => Dbl.fin (m i)) = .ok (fun i => .fin (m' i)) ∧
      ∀ (i : ι) (k : ℕ) (S T : K), |S| ≤ T → |m i - S| ≤ ((1 + u) ^ k - 1) * T →
        |m' i - (S + (valuesAt i l).sum)| ≤ ((1 + u) ^ (k + l.length) - 1) * (T + ((valuesAt i l).map abs).sum) := by
  have hu := A.nonneg
  induction l generalizing m with
  | nil => exact ⟨m, rfl, by simp [valuesAt]⟩
  | cons c l ih =>
    obtain ⟨r, er, hr⟩ := add_near A (m c.1) c.2
    obtain ⟨m', h1, h2⟩ := ih (fun c hc => h c (by simp [hc])) (Function.update m c.1 r)
    refine ⟨m', ?_, ?_⟩
    · rw [List.map_cons, List.foldlM_cons]
      unfold addAtF
      rw [if_pos (h c (by simp))]
      have e : Function.update (fun i => Dbl.fin (m i)) c.1 (Dbl.add rnd (Dbl.fin (m c.1)) (Dbl.fin c.2)) =
          fun i => Dbl.fin (Function.update m c.1 r i) := by
        funext i
        by_cases hi : i = c.1
        · subst hi
          simp [er]
        · simp [hi]
      show (l.map _).foldlM (addAtF rnd inb) _ = _
      rw [e]
      exact h1
    · intro i k S T hST hm
      have hT : 0 ≤ T := le_trans (abs_nonneg _) hST
      have hp : (1 : K) ≤ (1 + u) ^ k := one_le_pow₀ (by linarith)
      have hmono : ((1 + u) ^ k - 1) * T ≤ ((1 + u) ^ (k + 1) - 1) * T := by
        refine mul_le_mul_of_nonneg_right ?_ hT
        rw [pow_succ]
        nlinarith
      rw [List.length_cons, show k + (l.length + 1) = k + 1 + l.length by omega]
      by_cases hi : c.1 = i
      · have e1 : valuesAt i (c :: l) = c.2 :: valuesAt i l := by simp [valuesAt, hi]
        rw [e1, List.sum_cons, List.map_cons, List.sum_cons, ← add_assoc, ← add_assoc]
        refine h2 i (k + 1) (S + c.2) (T + |c.2|) (le_trans (abs_add_le _ _) (by linarith)) ?_
        subst hi
        rw [Function.update_self]
        have h3 : |r - (S + c.2)| ≤ |r - (m c.1 + c.2)| + |m c.1 - S| := by
          rw [show r - (S + c.2) = (r - (m c.1 + c.2)) + (m c.1 - S) by ring]
          exact abs_add_le _ _
        have h4 : |m c.1 + c.2| ≤ ((1 + u) ^ k - 1) * T + (T + |c.2|) := by
          rw [show m c.1 + c.2 = (m c.1 - S) + (S + c.2) by ring]
          refine le_trans (abs_add_le _ _) ?_
          have := abs_add_le S c.2
          linarith
        have h5 := mul_le_mul_of_nonneg_left h4 hu
        have hc := abs_nonneg c.2
        rw [pow_succ]
        generalize (1 + u) ^ k = P at *
        calc |r - (S + c.2)| ≤ u * ((P - 1) * T + (T + |c.2|)) + (P - 1) * T := by linarith
          _ = (P * (1 + u) - 1) * T + u * |c.2| := by ring
          _ ≤ (P * (1 + u) - 1) * T + (P * (1 + u) - 1) * |c.2| := by
            have : u * |c.2| ≤ (P * (1 + u) - 1) * |c.2| := mul_le_mul_of_nonneg_right (by nlinarith) hc
            linarith
          _ = _ := by ring
      · have e1 : valuesAt i (c :: l) = valuesAt i l := by simp [valuesAt, hi]
        rw [e1]
        refine h2 i (k + 1) S T hST ?_
        rw [Function.update_of_ne (Ne.symm hi)]
        exact le_trans hm hmono

/-- The whole loop adds up the values of all particles. -/
theorem loopF_near (A : Accurate rnd u) {ι α : Type} [DecidableEq ι] (inb : ι → Bool) (act : α → Res (List (ι × Dbl K)))
    (vals : α → List (ι × K)) (ps : List α) (h : ∀ p ∈ ps, act p = .ok ((vals p).map fun c => (c.1, Dbl.fin c.2)))
    (hin : ∀ p ∈ ps, ∀ c ∈ vals p, inb c.1 = true) :
    ∃ m : ι → K, loopF rnd inb act ps = .ok (fun i => .fin (m i)) ∧ ∀ i, |m i - (valuesAt i (ps.flatMap vals)).sum| ≤
      ((1 + u) ^ (ps.flatMap vals).length - 1) * ((valuesAt i (ps.flatMap vals)).map abs).sum := by
  obtain ⟨m, h1, h2⟩ := addAll_near A inb (ps.flatMap vals) (by
    intro c hc
    obtain ⟨p, hp, hc⟩ := List.mem_flatMap.1 hc
    exact hin p hp c hc) (fun _ => 0)
  refine ⟨m, ?_, fun i => ?_⟩
  · rw [← h1]
    unfold loopF
    clear h1 h2 hin
    generalize (fun _ => Dbl.fin 0 : ι → Dbl K) = m0
    induction ps generalizing m0 with
    | nil => rfl
    | cons p ps ih =>
      rw [List.foldlM_cons, h p (by simp), List.flatMap_cons, List.map_append, List.foldlM_append]
      show (List.foldlM (addAtF rnd inb) m0 _ >>= _) = _
      congr 1
      funext m
      exact ih (fun p hp => h p (by simp [hp])) m
  · have := h2 i 0 0 0 (by simp) (by simp)
    simpa using this

/-! ### Particles well inside of the range -/

theorem inner_ref (A : Accurate rnd u) (s : Shape) {bins : ℕ} (hb : bins ≤ 2 ^ 31) {v : K} (hv0 : 2 ≤ v) (hv1 : v ≤ bins - 2)
    (hB : u * (bins + 2) ≤ 1 / 4096) : 2 ≤ cellRefF rnd s (.fin v) ∧ cellRefF rnd s (.fin v) + 2 ≤ bins ∧
      GoodWeights rnd s (.fin v) (168 * (u * (bins + 2))) := by
  have hu := A.nonneg
  have hbins : (4 : K) ≤ bins := by linarith
  have hu1 : u ≤ 1 / 4096 := by nlinarith
  have huB : u ≤ u * (bins + 2) := by nlinarith
  have plain : 2 ≤ cInt v ∧ cInt v + 2 ≤ bins ∧ (cInt v : K) ≤ v ∧ v < cInt v + 1 := by
    obtain ⟨e, e0, e1⟩ := cInt_inside (show 0 ≤ v by linarith) (show v < bins by linarith) hb
    rw [e]
    refine ⟨Int.le_floor.2 (by exact_mod_cast hv0), ?_, Int.floor_le v, Int.lt_floor_add_one v⟩
    have : ((⌊v⌋ : ℤ) : K) + 2 ≤ bins := by linarith [Int.floor_le v]
    exact_mod_cast this
  have shifted : 2 ≤ (Dbl.add rnd (.fin v) half).cast ∧ (Dbl.add rnd (.fin v) half).cast + 2 ≤ bins ∧
      |v - ((Dbl.add rnd (.fin v) half).cast : K)| ≤ 9 / 16 := by
    obtain ⟨y, ey, hy⟩ := add_near A v (1 / 2)
    unfold half
    rw [ey]
    have hy1 := abs_le.1 (le_trans hy (mul_le_mul_of_nonneg_left (show |v + 1 / 2| ≤ bins + 2 by rw [abs_le]; constructor <;> linarith) hu))
    obtain ⟨e, e0, e1⟩ := cInt_inside (show 0 ≤ y by linarith) (show y < bins by linarith) hb
    simp only [Dbl.cast]
    rw [e]
    have f1 := Int.floor_le y
    have f2 := Int.lt_floor_add_one y
    refine ⟨Int.le_floor.2 (by push_cast; linarith), ?_, ?_⟩
    · have : ((⌊y⌋ : ℤ) : K) < ((bins - 1 : ℤ) : K) := by push_cast; linarith
      have : ⌊y⌋ < (bins : ℤ) - 1 := by exact_mod_cast this
      omega
    · rw [abs_le]
      constructor <;> linarith
  cases s
  · refine ⟨plain.1, plain.2.1, ?_⟩
    obtain ⟨vs, h1, h2, h3⟩ := ngp_weights (.fin v) rnd
    exact ⟨vs, h1, le_trans h2 (by linarith), h3⟩
  · refine ⟨shifted.1, shifted.2.1, ?_⟩
    obtain ⟨vs, h1, h2, h3⟩ := tophat_weights A v (bins + 2) (by linarith) (by linarith) (by linarith) (by linarith)
      (le_trans shifted.2.2 (by norm_num))
    exact ⟨vs, h1, le_trans h2 (by linarith), h3⟩
  · refine ⟨plain.1, plain.2.1, ?_⟩
    obtain ⟨d, ed, hd⟩ := sub_near A v (cInt v)
    have hd' := abs_le.1 (le_trans hd (mul_le_mul_of_nonneg_left (show |v - (cInt v : K)| ≤ 1 by
      rw [abs_le]; constructor <;> linarith [plain.2.2.1, plain.2.2.2]) hu))
    obtain ⟨vs, h1, h2, h3⟩ := triangle_weights A hu1 (.fin v) d ed (by linarith [plain.2.2.1]) (by linarith [plain.2.2.2])
    exact ⟨vs, h1, le_trans h2 (by linarith), h3⟩
  · refine ⟨shifted.1, shifted.2.1, ?_⟩
    have hs := abs_le.1 shifted.2.2
    obtain ⟨a, ea, ha⟩ := sub_near A v ((Dbl.add rnd (.fin v) half).cast : K)
    have ha' := abs_le.1 (le_trans ha (mul_le_mul_of_nonneg_left (le_trans shifted.2.2 (show (9 / 16 : K) ≤ 1 by norm_num)) hu))
    obtain ⟨d, ed, hd⟩ := add_near A a (1 / 2)
    have hd' := abs_le.1 (le_trans hd (mul_le_mul_of_nonneg_left (show |a + 1 / 2| ≤ 2 by rw [abs_le]; constructor <;> linarith) hu))
    obtain ⟨vs, h1, h2, h3⟩ := spline3_weights A hu1 (.fin v) d (by
      show Dbl.add rnd (Dbl.sub rnd (.fin v) (.fin ((Dbl.add rnd (.fin v) half).cast : K))) half = _
      rw [ea]
      exact ed) (by linarith) (by linarith)
    exact ⟨vs, h1, le_trans h2 (by linarith), h3⟩

/-- The computed weights times the weight of the particle. -/
theorem scaled_near (A : Accurate rnd u) (w : K) (vs : List (ℤ × K)) (hv : ∀ v ∈ vs, |v.2| ≤ 2) :
    ∃ l : List (ℤ × K), (vs.map fun c => (c.1, Dbl.mul rnd (.fin c.2) (.fin w))) = l.map (fun c => (c.1, Dbl.fin c.2)) ∧
      l.map Prod.fst = vs.map Prod.fst ∧ |(l.map Prod.snd).sum - (vs.map Prod.snd).sum * w| ≤ vs.length * (2 * u * |w|) ∧
      (l.map fun c => |c.2|).sum ≤ vs.length * (2 * (1 + u) * |w|) := by
  have hu := A.nonneg
  induction vs with
  | nil => exact ⟨[], rfl, rfl, by simp, by simp⟩
  | cons c vs ih =>
    obtain ⟨l, h1, h2, h3, h4⟩ := ih fun v hv' => hv v (by simp [hv'])
    obtain ⟨r, er, hr⟩ := mul_near A c.2 w
    have hc : |c.2 * w| ≤ 2 * |w| := by
      rw [abs_mul]
      exact mul_le_mul_of_nonneg_right (hv c (by simp)) (abs_nonneg _)
    have hr' : |r - c.2 * w| ≤ 2 * u * |w| := by
      have := mul_le_mul_of_nonneg_left hc hu
      linarith
    refine ⟨(c.1, r) :: l, by simp [h1, er], by simp [h2], ?_, ?_⟩
    · simp only [List.map_cons, List.sum_cons, List.length_cons]
      have := abs_add_le (r - c.2 * w) ((l.map Prod.snd).sum - (vs.map Prod.snd).sum * w)
      rw [show r - c.2 * w + ((l.map Prod.snd).sum - (vs.map Prod.snd).sum * w) =
        r + (l.map Prod.snd).sum - (c.2 + (vs.map Prod.snd).sum) * w by ring] at this
      push_cast
      linarith
    · simp only [List.map_cons, List.sum_cons, List.length_cons]
      have := abs_add_le (r - c.2 * w) (c.2 * w)
      rw [sub_add_cancel] at this
      push_cast
      linarith

theorem sum_valuesAt {n : ℕ} {a : ℤ} (f : K → K) (l : List (ℤ × K)) (h : ∀ c ∈ l, a ≤ c.1 ∧ c.1 < a + n) :
    ((List.range n).map fun i : ℕ => ((valuesAt (a + i) l).map f).sum).sum = (l.map fun c => f c.2).sum := by
  induction l with
  | nil => simp [valuesAt]
  | cons c l ih =>
    obtain ⟨h0, h1⟩ := h c (by simp)
    have e : ∀ i : ℕ, ((valuesAt (a + i) (c :: l)).map f).sum = (if i = (c.1 - a).toNat then f c.2 else 0) + ((valuesAt (a + i) l).map f).sum := by
      intro i
      by_cases hi : c.1 = a + i
      · have : i = (c.1 - a).toNat := by omega
        rw [if_pos this]
        simp [valuesAt, hi]
      · have : ¬ i = (c.1 - a).toNat := by omega
        rw [if_neg this]
        simp [valuesAt, hi]
    simp only [e, List.sum_map_add, List.map_cons, List.sum_cons]
    rw [ih fun c hc => h c (by simp [hc])]
    congr 1
    have hn : (c.1 - a).toNat < n := by omega
    generalize (c.1 - a).toNat = j at hn
    clear e ih h h0 h1
    induction n with
    | zero => omega
    | succ n ihn =>
      rw [List.range_succ, List.map_append, List.sum_append]
      by_cases hj : j = n
      · subst hj
        have : ((List.range j).map fun i => if i = j then f c.2 else 0).sum = 0 := by
          apply List.sum_eq_zero
          intro x hx
          obtain ⟨i, hi, rfl⟩ := List.mem_map.1 hx
          rw [if_neg]
          have := List.mem_range.1 hi
          omega
        rw [this]
        simp
      · rw [ihn (by omega)]
        simp [Ne.symm hj]

theorem sum_near {n : ℕ} (f g e : ℕ → K) (h : ∀ i < n, |f i - g i| ≤ e i) :
    |((List.range n).map f).sum - ((List.range n).map g).sum| ≤ ((List.range n).map e).sum := by
  induction n with
  | zero => simp
  | succ n ih =>
    rw [List.range_succ]
    simp only [List.map_append, List.sum_append, List.map_cons, List.map_nil, List.sum_cons, List.sum_nil, add_zero]
    have h1 := ih fun i hi => h i (by omega)
    have h2 := h n (by omega)
    have := abs_add_le (((List.range n).map f).sum - ((List.range n).map g).sum) (f n - g n)
    rw [show ((List.range n).map f).sum - ((List.range n).map g).sum + (f n - g n) =
      ((List.range n).map f).sum + f n - (((List.range n).map g).sum + g n) by ring] at this
    linarith

end

end Postpic.Histogram
