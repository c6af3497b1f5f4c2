import Verif.Lemmas.AxisCommute
import Verif.Lemmas.FieldLinear
import Verif.Lemmas.SumDouble
import Verif.Model.MeanFloat
import Verif.Props.CalculusFloat

/-!
# Sums and means of fields of IEEE doubles
-/

set_option autoImplicit false

namespace Postpic.Props

open Postpic Postpic.Axes Postpic.Fields Postpic.Histogram Postpic.Statistics Postpic.Spec

/-! ## C130: sums and means of doubles -/

/-- C130: a sum of doubles, in any order of the additions, is a double with a small error, unless the absolute values add up to a number near
the largest double. Small numbers are no exception: additions do not underflow. -/
theorem sum_list_double {add : List (Dbl ℚ) → Dbl ℚ} {n d : ℕ} (S : Summation double add n d) (hd : d ≤ 2 ^ 52) {xs : List ℚ}
    (hx : ∀ x ∈ xs, double x = .fin x) (hn : xs.length ≤ n) (hs : (xs.map abs).sum < 2 ^ 1022) :
    ∃ y, add (xs.map .fin) = .fin y ∧ double y = .fin y ∧ |y - xs.sum| ≤ d / 2 ^ 52 * (xs.map abs).sum := by
  have hk : (d : ℚ) * (1 / 2 ^ 53) ≤ 1 / 2 := by
    have : (d : ℚ) ≤ 2 ^ 52 := by exact_mod_cast hd
    linarith
  obtain ⟨y, y1, y2, y3⟩ := add_double S hk hx hn hs
  refine ⟨y, y1, y2, y3.trans (le_of_eq ?_)⟩
  ring

/-- C130: a mean. The division may underflow. -/
theorem mean_list_double {add : List (Dbl ℚ) → Dbl ℚ} {n d : ℕ} (S : Summation double add n d) (hd : d ≤ 2 ^ 52) {xs : List ℚ}
    (hx : ∀ x ∈ xs, double x = .fin x) (hn : xs.length ≤ n) (hl : xs.length ≤ 2 ^ 53) (hne : xs ≠ []) (hs : (xs.map abs).sum < 2 ^ 1022) :
    ∃ y, meanDbl double add (xs.map .fin) = .fin y ∧ double y = .fin y ∧
      |y - xs.sum / xs.length| ≤ (d + 1) / 2 ^ 52 * ((xs.map abs).sum / xs.length) + 1 / 2 ^ 1075 := by
  obtain ⟨s, s1, s2, s3⟩ := sum_list_double S hd hx hn hs
  have hc : double (xs.length : ℚ) = .fin xs.length := by
    have hb : (xs.length : ℚ) ≤ 2 ^ 53 := by exact_mod_cast hl
    refine double_exact xs.length 0 (by rw [Nat.abs_cast]; exact_mod_cast hl) (by norm_num) (by simp) ?_
    rw [Nat.abs_cast]
    exact lt_of_le_of_lt hb (by rw [← zpow_natCast, ← zpow_natCast]; exact zpow_lt_zpow_right₀ (by norm_num) (by norm_num))
  have hpos : (1 : ℚ) ≤ xs.length := by
    exact_mod_cast List.length_pos_of_ne_nil hne
  have hM : 0 ≤ (xs.map abs).sum := List.sum_nonneg (by
    intro a ha
    obtain ⟨i, -, rfl⟩ := List.mem_map.1 ha
    exact abs_nonneg _)
  have hS : |xs.sum| ≤ (xs.map abs).sum := by
    clear s1 s3 hs hn hl hne hx hc hpos hM
    induction xs with
    | nil => simp
    | cons a xs ih =>
      rw [List.sum_cons, List.map_cons, List.sum_cons]
      exact (abs_add_le _ _).trans (by linarith)
  have hdd : (d : ℚ) / 2 ^ 52 ≤ 1 := by
    rw [div_le_one (by norm_num)]
    exact_mod_cast hd
  generalize (xs.map abs).sum = M at *
  generalize xs.sum = e at *
  obtain ⟨c, hcd⟩ : ∃ c : ℚ, c = xs.length := ⟨_, rfl⟩
  rw [← hcd] at hc hpos ⊢
  have hd0 : (0 : ℚ) ≤ d / 2 ^ 52 := div_nonneg (Nat.cast_nonneg d) (pow_nonneg (by norm_num) 52)
  generalize hD : (d : ℚ) / 2 ^ 52 = D at s3 hdd hd0
  have hc0 : 0 < c := by linarith
  have b2 : |s| ≤ 2 * M := by
    have b3 : D * M ≤ 1 * M := mul_le_mul_of_nonneg_right hdd hM
    have b4 : |s| ≤ |s - e| + |e| := by simpa using abs_add_le (s - e) e
    linarith
  have hq : |s / c| ≤ 2 * (M / c) := by
    rw [abs_div, abs_of_pos hc0, ← mul_div_assoc]
    exact div_le_div_of_nonneg_right b2 hc0.le
  have hMc : M / c ≤ M := div_le_self hM hpos
  have hq2 : |s / c| < 2 ^ 1023 := by
    have e2 : (2 : ℚ) ^ 1023 = 2 * 2 ^ 1022 := by rw [← pow_succ']
    rw [e2]
    refine lt_of_le_of_lt hq ?_
    exact mul_lt_mul_of_pos_left (lt_of_le_of_lt hMc hs) (by norm_num)
  obtain ⟨y, y1, y2⟩ := double_near (s / c) hq2
  refine ⟨y, ?_, double_idem y1, ?_⟩
  · unfold meanDbl
    rw [s1, List.length_map, ← hcd, hc]
    simp only [Dbl.div]
    rw [if_neg hc0.ne']
    exact y1
  · have t1 : |y - s / c| ≤ 1 / 2 ^ 53 * (2 * (M / c)) + 1 / 2 ^ 1075 := by
      refine y2.trans (max_le ?_ ?_)
      · have := mul_le_mul_of_nonneg_left hq (show (0 : ℚ) ≤ 1 / 2 ^ 53 by norm_num)
        exact this.trans (le_add_of_nonneg_right (by positivity))
      · exact le_add_of_nonneg_left (by positivity)
    have t2 : |s / c - e / c| ≤ D * (M / c) := by
      rw [← sub_div, abs_div, abs_of_pos hc0, ← mul_div_assoc]
      exact div_le_div_of_nonneg_right s3 hc0.le
    have t3 : |y - e / c| ≤ |y - s / c| + |s / c - e / c| := abs_sub_le _ _ _
    have e3 : ((d : ℚ) + 1) / 2 ^ 52 = D + 1 / 2 ^ 52 := by rw [add_div, hD]
    rw [e3]
    generalize (1 : ℚ) / 2 ^ 1075 = η at *
    linarith

/-- What is added to get one value of the result. -/
theorem fibre_values {f : Field ℚ ℚ} (hx : ∀ j, InBounds f.shape j → double (f.matrix.at' j) = .fin (f.matrix.at' j)) {dims : List ℕ}
    {idx : List ℕ} (hi : InBounds (keep (flags f.shape.length dims) f.shape) idx) :
    ∀ x ∈ (fibre f.shape (flags f.shape.length dims) idx).map f.matrix.at', double x = .fin x := by
  intro x hx'
  obtain ⟨j, hj, rfl⟩ := List.mem_map.1 hx'
  exact hx j (fibre_inBounds _ _ _ _ (flags_length _ _) hi hj)

/-- C130: `Field.sum` of a field of doubles over any dimensions: computed with doubles, the result has the shape and the axes of the exact
one, and each of its values is a double with a small error, unless the absolute values add up to a number near the largest double. -/
theorem field_sum_double {add : List (Dbl ℚ) → Dbl ℚ} {n d : ℕ} (S : Summation double add n d) (hk : d ≤ 2 ^ 52)
    (spl : Splines ℚ) (f : Field ℚ ℚ) (hf : f.Sound) (h3 : f.shape.length ≤ 3) (hn : f.shape.prod ≤ n) (dims : List ℕ) (hnd : dims.Nodup)
    (hd : ∀ i ∈ dims, i < f.shape.length) (hx : ∀ j, InBounds f.shape j → double (f.matrix.at' j) = .fin (f.matrix.at' j)) :
    ∃ r m rF, f.reduce spl List.sum (some (dims.map Int.ofNat)) false = .ok r ∧
      (f.mapValues abs).reduce spl List.sum (some (dims.map Int.ofNat)) false = .ok m ∧
      (f.mapValues .fin).reduce spl add (some (dims.map Int.ofNat)) false = .ok rF ∧
      rF.shape = r.shape ∧ rF.axes = r.axes ∧
      ∀ idx, InBounds r.shape idx → m.matrix.at' idx < 2 ^ 1022 → ∃ y, rF.matrix.at' idx = .fin y ∧ double y = .fin y ∧
        |y - r.matrix.at' idx| ≤ d / 2 ^ 52 * m.matrix.at' idx := by
  have h1 : List.Forall₂ (fun i k => pyIdx f.shape.length i = some k) (dims.map Int.ofNat) dims := by
    rw [List.forall₂_map_left_iff, List.forall₂_same]
    intro i hi
    exact pyIdx_nat (hd i hi)
  have h2 : (∀ i ∈ dims.map Int.ofNat, 0 ≤ i) ∨ (dims.map Int.ofNat).length ≤ 1 := Or.inl (by
    intro i hi
    obtain ⟨a, -, rfl⟩ := List.mem_map.1 hi
    exact Int.natCast_nonneg a)
  have h4 : (unflagged (flags f.shape.length dims) f.shape).length ≤ 3 := by
    refine le_trans ?_ h3
    rw [unflagged_count (flags_length _ _).symm]
    refine le_trans List.count_le_length ?_
    rw [flags_length]
  refine ⟨_, _, _, reduce_sound spl List.sum hf h1 hnd h2 h4, reduce_sound spl List.sum (mapValues_sound hf abs) h1 hnd h2 h4,
    reduce_sound spl add (mapValues_sound hf Dbl.fin) h1 hnd h2 h4, rfl, rfl, ?_⟩
  intro idx hi hm
  have key := sum_list_double S hk (fibre_values hx hi) (by
    rw [List.length_map]
    exact (fibre_length hf.nonempty _ _).trans hn)
  rw [List.map_map, List.map_map] at key
  exact key hm

/-- C130: `Field.mean` of a field of doubles. -/
theorem field_mean_double {add : List (Dbl ℚ) → Dbl ℚ} {n d : ℕ} (S : Summation double add n d) (hk : d ≤ 2 ^ 52)
    (spl : Splines ℚ) (f : Field ℚ ℚ) (hf : f.Sound) (h3 : f.shape.length ≤ 3) (hn : f.shape.prod ≤ n) (hl : f.shape.prod ≤ 2 ^ 53)
    (dims : List ℕ) (hnd : dims.Nodup) (hd : ∀ i ∈ dims, i < f.shape.length)
    (hx : ∀ j, InBounds f.shape j → double (f.matrix.at' j) = .fin (f.matrix.at' j)) :
    ∃ r m s rF, f.reduce spl (meanOf ℚ) (some (dims.map Int.ofNat)) false = .ok r ∧
      (f.mapValues abs).reduce spl (meanOf ℚ) (some (dims.map Int.ofNat)) false = .ok m ∧
      (f.mapValues abs).reduce spl List.sum (some (dims.map Int.ofNat)) false = .ok s ∧
      (f.mapValues .fin).reduce spl (meanDbl double add) (some (dims.map Int.ofNat)) false = .ok rF ∧
      rF.shape = r.shape ∧ rF.axes = r.axes ∧
      ∀ idx, InBounds r.shape idx → s.matrix.at' idx < 2 ^ 1022 → ∃ y, rF.matrix.at' idx = .fin y ∧ double y = .fin y ∧
        |y - r.matrix.at' idx| ≤ (d + 1) / 2 ^ 52 * m.matrix.at' idx + 1 / 2 ^ 1075 := by
  have h1 : List.Forall₂ (fun i k => pyIdx f.shape.length i = some k) (dims.map Int.ofNat) dims := by
    rw [List.forall₂_map_left_iff, List.forall₂_same]
    intro i hi
    exact pyIdx_nat (hd i hi)
  have h2 : (∀ i ∈ dims.map Int.ofNat, 0 ≤ i) ∨ (dims.map Int.ofNat).length ≤ 1 := Or.inl (by
    intro i hi
    obtain ⟨a, -, rfl⟩ := List.mem_map.1 hi
    exact Int.natCast_nonneg a)
  have h4 : (unflagged (flags f.shape.length dims) f.shape).length ≤ 3 := by
    refine le_trans ?_ h3
    rw [unflagged_count (flags_length _ _).symm]
    refine le_trans List.count_le_length ?_
    rw [flags_length]
  refine ⟨_, _, _, _, reduce_sound spl (meanOf ℚ) hf h1 hnd h2 h4, reduce_sound spl (meanOf ℚ) (mapValues_sound hf abs) h1 hnd h2 h4,
    reduce_sound spl List.sum (mapValues_sound hf abs) h1 hnd h2 h4,
    reduce_sound spl (meanDbl double add) (mapValues_sound hf Dbl.fin) h1 hnd h2 h4, rfl, rfl, ?_⟩
  intro idx hi hm
  have key := mean_list_double S hk (fibre_values hx hi) (by
    rw [List.length_map]
    exact (fibre_length hf.nonempty _ _).trans hn) (by
    rw [List.length_map]
    exact (fibre_length hf.nonempty _ _).trans hl) (by
    rw [ne_eq, List.map_eq_nil_iff]
    exact fibre_nonempty _ _ _ hf.nonempty)
  rw [List.map_map, List.map_map] at key
  obtain ⟨y, y1, y2, y3⟩ := key hm
  refine ⟨y, y1, y2, ?_⟩
  have e1 : ∀ g : List ℕ → ℚ, meanOf ℚ ((fibre f.shape (flags f.shape.length dims) idx).map g) =
      ((fibre f.shape (flags f.shape.length dims) idx).map g).sum / (fibre f.shape (flags f.shape.length dims) idx).length := by
    intro g
    unfold meanOf
    rw [List.length_map, smul_eq_mul, inv_mul_eq_div]
  rw [List.length_map] at y3
  change |y - meanOf ℚ ((fibre f.shape (flags f.shape.length dims) idx).map f.matrix.at')| ≤
    (d + 1) / 2 ^ 52 * meanOf ℚ ((fibre f.shape (flags f.shape.length dims) idx).map (abs ∘ f.matrix.at')) + 1 / 2 ^ 1075
  rw [e1, e1]
  exact y3

/-- The mean of doubles may be infinite although it is a double: the sum overflows. The largest double, three times. -/
theorem mean_double_overflow :
    let x : ℚ := (2 ^ 53 - 1) * 2 ^ 971
    double x = .fin x ∧ meanDbl double (fun l => sumF double l (chain l.length)) [.fin x, .fin x, .fin x] = .inf false := by
  decide +kernel

/-- The result depends on the order of the additions. -/
theorem sum_double_order :
    sumF double [.fin 1, .fin (2 ^ 53), .fin (-2 ^ 53)] (chain 3) = .fin 0 ∧
    sumF double [.fin (2 ^ 53), .fin (-2 ^ 53), .fin 1] (chain 3) = .fin 1 := by
  decide +kernel

/-- Small numbers are added without any error. -/
theorem sum_double_subnormal :
    sumF double [.fin (2 ^ (-1074 : ℤ)), .fin (3 * 2 ^ (-1074 : ℤ))] (chain 2) = .fin (2 ^ (-1072 : ℤ)) := by
  decide +kernel

theorem field43_doubles : ∀ j, InBounds field43.shape j → double (field43.matrix.at' j) = .fin (field43.matrix.at' j) := by
  intro j hj
  have h : ∀ a < 4, ∀ b < 3, double (100 * ((a : ℕ) : ℚ) + ((b : ℕ) : ℚ)) = .fin (100 * ((a : ℕ) : ℚ) + ((b : ℕ) : ℚ)) := by decide +kernel
  obtain ⟨h1, h2⟩ := hj
  rcases j with _ | ⟨a, _ | ⟨b, _ | ⟨c, j⟩⟩⟩ <;> simp [field43, Field.shape] at h1
  exact h a (h2 0 a 4 rfl rfl) b (h2 1 b 3 rfl rfl)

example := sum_list_double (chain_summation double 3) (by norm_num) (xs := [1, 2 ^ 53, -3]) (by decide +kernel) (by decide) (by
  refine lt_of_lt_of_le (b := 2 ^ 60) (by norm_num) ?_
  exact pow_le_pow_right₀ (by norm_num) (by norm_num))
example := mean_list_double (chain_summation double 3) (by norm_num) (xs := [1, 2 ^ 53, -3]) (by decide +kernel) (by decide) (by decide)
  (by decide) (by
  refine lt_of_lt_of_le (b := 2 ^ 60) (by norm_num) ?_
  exact pow_le_pow_right₀ (by norm_num) (by norm_num))
example := field_sum_double (chain_summation double 12) (by norm_num) midSplines field43 field43_sound (by decide) (by decide) [1] (by decide)
  (by decide) field43_doubles
example := field_mean_double (chain_summation double 12) (by norm_num) midSplines field43 field43_sound (by decide) (by decide) (by decide)
  [0, 1] (by decide) (by decide) field43_doubles

end Postpic.Props
