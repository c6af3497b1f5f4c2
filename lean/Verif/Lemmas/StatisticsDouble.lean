import Verif.Lemmas.GradientDouble
import Verif.Props.StatisticsFloat

/-!
# Averages and cumulated sums of doubles without underflow
-/

set_option autoImplicit false

namespace Postpic.Props

open Postpic Postpic.Histogram Postpic.Statistics Postpic.Spec

/-! ### 53 digits -/

theorem log_scale {x : ℚ} (hx : 0 < x) (k : ℤ) : Int.log 2 (x * 2 ^ k) = Int.log 2 x + k := by
  have hp := two_zpow_pos k
  have hxk : 0 < x * 2 ^ k := mul_pos hx hp
  apply le_antisymm
  · have h1 := Int.zpow_log_le_self (b := 2) (by norm_num) hxk
    have h2 : ((2 : ℕ) : ℚ) ^ (Int.log 2 (x * 2 ^ k) - k) ≤ x := by
      rw [zpow_sub₀ (by norm_num), div_le_iff₀ (by exact_mod_cast hp)]
      exact_mod_cast h1
    have := (Int.zpow_le_iff_le_log (b := 2) (by norm_num) hx).1 h2
    omega
  · have h1 := Int.zpow_log_le_self (b := 2) (by norm_num) hx
    have h2 : ((2 : ℕ) : ℚ) ^ (Int.log 2 x + k) ≤ x * 2 ^ k := by
      rw [zpow_add₀ (by norm_num)]
      exact mul_le_mul_of_nonneg_right h1 hp.le
    exact (Int.zpow_le_iff_le_log (b := 2) (by norm_num) hxk).1 h2

/-- The rounded number. -/
def value53 (x : ℚ) : ℚ := roundEven (x / 2 ^ (Int.log 2 |x| - 52)) * 2 ^ (Int.log 2 |x| - 52)

theorem digits53_value (x : ℚ) : digits53 x = .fin (value53 x) := rfl

theorem value53_zero : value53 0 = 0 := by
  unfold value53
  rw [zero_div, show roundEven 0 = 0 from roundEven_int 0]
  simp

theorem value53_scale (x : ℚ) (k : ℤ) : value53 (x * 2 ^ k) = value53 x * 2 ^ k := by
  by_cases hx : x = 0
  · rw [hx, zero_mul, value53_zero, zero_mul]
  have hp := two_zpow_pos k
  unfold value53
  rw [abs_mul, abs_of_pos hp, log_scale (abs_pos.2 hx)]
  rw [show Int.log 2 |x| + k - 52 = Int.log 2 |x| - 52 + k by ring, zpow_add₀ (by norm_num), mul_div_mul_right _ _ hp.ne', mul_assoc]

theorem value53_near {x : ℚ} (h : x = 0 ∨ 2 ^ (-1022 : ℤ) ≤ |x|) : value53 x = nearDouble x := by
  rcases h with rfl | h
  · rw [value53_zero, nearDouble_zero]
  have hpos : 0 < |x| := lt_of_lt_of_le (two_zpow_pos _) h
  have := (Int.zpow_le_iff_le_log (b := 2) (by norm_num) hpos).1 (by exact_mod_cast h)
  unfold value53 nearDouble
  rw [show lastDigit x = Int.log 2 |x| - 52 from max_eq_left (by omega)]

/-- A scale at which both numbers are large. -/
theorem large_scale (x : ℚ) : ∃ k : ℕ, ∀ m : ℕ, k ≤ m → x * 2 ^ (m : ℤ) = 0 ∨ 2 ^ (-1022 : ℤ) ≤ |x * 2 ^ (m : ℤ)| := by
  by_cases hx : x = 0
  · exact ⟨0, fun m _ => Or.inl (by rw [hx, zero_mul])⟩
  obtain ⟨k, hk⟩ := pow_unbounded_of_one_lt |x|⁻¹ (by norm_num : (1 : ℚ) < 2)
  refine ⟨k, fun m hm => Or.inr ?_⟩
  have hpos : 0 < |x| := abs_pos.2 hx
  have h1 : (2 : ℚ) ^ k ≤ 2 ^ m := pow_le_pow_right₀ (by norm_num) hm
  have h2 : 1 ≤ |x| * 2 ^ m := by
    have := mul_le_mul_of_nonneg_left (hk.le.trans h1) hpos.le
    rwa [mul_inv_cancel₀ hpos.ne'] at this
  rw [abs_mul, zpow_natCast, abs_of_pos (by positivity : (0 : ℚ) < 2 ^ m)]
  have h3 : (2 : ℚ) ^ (-1022 : ℤ) ≤ 1 := zpow_le_one_of_nonpos₀ (by norm_num) (by norm_num)
  exact h3.trans h2

/-- Rounding to 53 digits keeps the order and does not change its results. -/
theorem digits53_format : Format digits53 where
  mono x y x' y' h hx hy := by
    have ex : x' = value53 x := (Dbl.fin.inj hx).symm
    have ey : y' = value53 y := (Dbl.fin.inj hy).symm
    obtain ⟨k, hk⟩ := large_scale x
    obtain ⟨l, hl⟩ := large_scale y
    have hp := two_zpow_pos ((max k l : ℕ) : ℤ)
    have h1 := nearDouble_mono (mul_le_mul_of_nonneg_right h hp.le)
    rw [← value53_near (hk _ (le_max_left k l)), ← value53_near (hl _ (le_max_right k l)), value53_scale, value53_scale] at h1
    rw [ex, ey]
    exact le_of_mul_le_mul_right h1 hp
  idem x y h := by
    have e : y = value53 x := (Dbl.fin.inj h).symm
    rw [e, digits53_value]
    congr 1
    obtain ⟨k, hk⟩ := large_scale x
    obtain ⟨l, hl⟩ := large_scale (value53 x)
    have hp := two_zpow_pos ((max k l : ℕ) : ℤ)
    have h1 : value53 (value53 x * 2 ^ ((max k l : ℕ) : ℤ)) = value53 x * 2 ^ ((max k l : ℕ) : ℤ) := by
      rw [value53_near (hl _ (le_max_right k l)), ← value53_scale, value53_near (hk _ (le_max_left k l)), nearDouble_idem]
    rw [value53_scale] at h1
    exact mul_right_cancel₀ hp.ne' h1

/-! ### Sums -/

/-- Rounding keeps multiples of a power of two. -/
theorem double_keeps_multiple {x y : ℚ} {e : ℤ} (he : -1074 ≤ e) (m : ℤ) (hx : x = m * 2 ^ e) (h : double x = .fin y) : ∃ n : ℤ, y = n * 2 ^ e := by
  have hy : y = nearDouble x := by
    unfold double at h
    split_ifs at h
    exact (Dbl.fin.inj h).symm
  by_cases hm : |m| ≤ 2 ^ 53
  · exact ⟨m, by rw [hy, hx, nearDouble_exact m e hm he]⟩
  · have hm' : (2 : ℚ) ^ 53 ≤ |(m : ℚ)| := by exact_mod_cast (not_le.1 hm).le
    have h1 : (2 : ℚ) ^ (e + 53) ≤ |x| := by
      rw [hx, abs_mul, abs_of_pos (two_zpow_pos e), zpow_add₀ (by norm_num), mul_comm]
      exact mul_le_mul_of_nonneg_right (by exact_mod_cast hm') (two_zpow_pos e).le
    have h2 := nearDouble_lower (by omega) h1
    rw [← hy] at h2
    obtain ⟨n, hn⟩ := double_digit (a := e + 53) (b := Int.log 2 |y| + 1) (double_idem h) (Or.inr ⟨h2, by
      have := Int.lt_zpow_succ_log_self (b := 2) (by norm_num) |y|
      exact_mod_cast this.le⟩)
    refine ⟨n * 2, ?_⟩
    rw [hn, show e + 53 - 52 = e + 1 by ring, zpow_add_one₀ (by norm_num)]
    push_cast
    ring

theorem sumF_multiple {xs : List ℚ} {e : ℤ} (he : -1074 ≤ e) (hm : ∀ x ∈ xs, ∃ m : ℤ, x = m * 2 ^ e) (t : SumTree) (y : ℚ)
    (hy : sumF double (xs.map .fin) t = .fin y) : ∃ m : ℤ, y = m * 2 ^ e := by
  induction t generalizing y with
  | empty => cases hy; exact ⟨0, by simp⟩
  | leaf i =>
    simp only [sumF] at hy
    rw [List.getD_eq_getElem?_getD, List.getElem?_map] at hy
    cases h : xs[i]? with
    | none => rw [h] at hy; cases hy; exact ⟨0, by simp⟩
    | some x => rw [h] at hy; cases hy; exact hm _ (List.mem_of_getElem? h)
  | node l r ihl ihr =>
    simp only [sumF] at hy
    cases hl : sumF double (xs.map .fin) l with
    | fin a =>
      cases hr : sumF double (xs.map .fin) r with
      | fin b =>
        rw [hl, hr] at hy
        obtain ⟨m, hm⟩ := ihl a hl
        obtain ⟨n, hn⟩ := ihr b hr
        exact double_keeps_multiple he (m + n) (x := a + b) (by rw [hm, hn]; push_cast; ring) hy
      | inf s => rw [hl, hr] at hy; cases hy
      | nan => rw [hl, hr] at hy; cases hy
    | inf s =>
      cases hr : sumF double (xs.map .fin) r with
      | fin b => rw [hl, hr] at hy; cases hy
      | inf s' => rw [hl, hr] at hy; simp only [Dbl.add] at hy; split_ifs at hy
      | nan => rw [hl, hr] at hy; cases hy
    | nan =>
      rw [hl] at hy
      cases hr : sumF double (xs.map .fin) r <;> (rw [hr] at hy; cases hy)

/-- Sums of up to `2^64` doubles of moderate size. -/
theorem sum_agree {a b : ℤ} (ha : -1022 ≤ a) (hb : b + 66 ≤ 1022) {xs : List ℚ} (hx : ∀ x ∈ xs, double x = .fin x ∧ Moderate a b x) (t : SumTree)
    (ht : Adds t xs.length) (hn : xs.length ≤ 2 ^ 64) (hd : (t.depth : ℚ) * (1 / 2 ^ 53) ≤ 1 / 2) :
    ∃ y, sumF double (xs.map .fin) t = .fin y ∧ sumF digits53 (xs.map .fin) t = .fin y ∧ double y = .fin y ∧ Moderate (a - 52) (b + 65) y := by
  have hmem : ∀ i ∈ t.leaves, i < xs.length := fun i hi => by simpa using ht.subset hi
  have hp := two_zpow_pos b
  have hsum : (t.leaves.map fun i => |xs.getD i 0|).sum ≤ 2 ^ (b + 64) := by
    have h1 : (t.leaves.map fun i => |xs.getD i 0|).sum ≤ (t.leaves.map fun i => |xs.getD i 0|).length • (2 : ℚ) ^ b := by
      refine List.sum_le_card_nsmul _ _ fun x hx' => ?_
      obtain ⟨i, hi, rfl⟩ := List.mem_map.1 hx'
      rw [List.getD_eq_getElem _ _ (hmem i hi)]
      exact moderate_upper (hx _ (List.getElem_mem _)).2
    have h2 : t.leaves.length = xs.length := by rw [ht.length_eq, List.length_range]
    rw [List.length_map, h2, nsmul_eq_mul] at h1
    have h3 : (xs.length : ℚ) ≤ 2 ^ 64 := by exact_mod_cast hn
    rw [zpow_add₀ (by norm_num), mul_comm ((2 : ℚ) ^ b)]
    exact h1.trans (mul_le_mul_of_nonneg_right (by exact_mod_cast h3) hp.le)
  have hlt : (t.leaves.map fun i => |xs.getD i 0|).sum < 2 ^ 1022 := by
    refine lt_of_le_of_lt hsum ?_
    have : (2 : ℚ) ^ (b + 64) < 2 ^ (1022 : ℤ) := zpow_lt_zpow_right₀ (by norm_num) (by omega)
    exact_mod_cast this
  obtain ⟨y, y1, y2, y3⟩ := sumF_double (fun x h => (hx x h).1) t hmem hd hlt
  refine ⟨y, y1, y2, y3, ?_⟩
  by_cases hy0 : y = 0
  · exact Or.inl hy0
  obtain ⟨m, hm⟩ := sumF_multiple (e := a - 52) (by omega) (fun x h => double_digit (hx x h).1 (hx x h).2) t y y1
  refine Or.inr ⟨?_, ?_⟩
  · have hm0 : m ≠ 0 := by
      rintro rfl
      exact hy0 (by rw [hm]; simp)
    have h1 : (1 : ℚ) ≤ |(m : ℚ)| := by exact_mod_cast Int.one_le_abs hm0
    rw [hm, abs_mul, abs_of_pos (two_zpow_pos (a - 52))]
    exact le_mul_of_one_le_left (two_zpow_pos _).le h1
  · obtain ⟨z, z1, z2⟩ := nearAll_sumF digits53_accurate (by norm_num) (nearAll_fin (1 / 2 ^ 53 : ℚ) xs) t (by simpa using hmem)
    rw [y2] at z1
    cases z1
    have habs : (t.leaves.map fun i => (xs.map abs).getD i 0) = t.leaves.map fun i => |xs.getD i 0| := by
      refine List.map_congr_left fun i _ => ?_
      rw [List.getD_eq_getElem?_getD, List.getD_eq_getElem?_getD, List.getElem?_map]
      cases xs[i]? <;> simp
    rw [habs, Nat.zero_add] at z2
    have b1 := near_error (by norm_num) hd z2
    have b2 := z2.1
    rw [show b + 65 = b + 64 + 1 by ring, zpow_add_one₀ (by norm_num)]
    have hm' := (abs_nonneg _).trans b2
    clear hlt
    generalize (2 : ℚ) ^ (b + 64) = B at *
    generalize (t.leaves.map fun i => |xs.getD i 0|).sum = s at *
    generalize (t.leaves.map fun i => xs.getD i 0).sum = e at *
    have b3 : 2 * (t.depth : ℚ) * (1 / 2 ^ 53) * s ≤ 1 * s := mul_le_mul_of_nonneg_right (by linarith) hm'
    have b4 : |y| ≤ |y - e| + |e| := by simpa using abs_add_le (y - e) e
    linarith

/-- Averages with doubles are those with 53 digits. -/
theorem average_agree {p p' q : ℤ} (h1 : p + 2 * q + 117 ≤ 1022) (h2 : p' + 2 * q + 117 ≤ 1022) (hq : 0 ≤ q) (hp' : -1000 ≤ p') {ds w : List ℚ}
    (hlen : w.length = ds.length) (hds : ∀ x ∈ ds, Moderate (-p) p' x) (hw : ∀ x ∈ w, double x = .fin x ∧ Moderate (-q) q x)
    (t : SumTree) (ht : Adds t ds.length) (hn : ds.length ≤ 2 ^ 64) (hd : (t.depth : ℚ) * (1 / 2 ^ 53) ≤ 1 / 2) :
    averageF double t (ds.map .fin) (w.map .fin) = averageF digits53 t (ds.map .fin) (w.map .fin) ∧
      ∀ y, averageF double t (ds.map .fin) (w.map .fin) = .ok (.fin y) → double y = .fin y ∧ Moderate (-(p + 2 * q + 117)) (p' + 2 * q + 117) y := by
  have hprod : ∀ rnd : ℚ → Dbl ℚ, (∀ x ∈ ds, ∀ a ∈ w, rnd (x * a) = .fin (nearDouble (x * a))) →
      List.zipWith (Dbl.mul rnd) (ds.map .fin) (w.map .fin) = (List.zipWith (fun x a => nearDouble (x * a)) ds w).map .fin := by
    clear ht hn hds hw
    intro rnd h
    induction ds generalizing w with
    | nil => simp
    | cons x ds ih =>
      cases w with
      | nil => simp
      | cons a w =>
        simp only [List.map_cons, List.zipWith_cons_cons]
        rw [ih (by simpa using hlen) fun y hy b hb => h y (by simp [hy]) b (by simp [hb])]
        congr 1
        exact h x (by simp) a (by simp)
  have hround : ∀ x ∈ ds, ∀ a ∈ w, _ := fun x hx a ha =>
    moderate_round (a := -p + -q) (b := p' + q) (by omega) (by omega) (moderate_mul (hds x hx) (hw a ha).2)
  have hps : ∀ x ∈ List.zipWith (fun x a => nearDouble (x * a)) ds w, double x = .fin x ∧ Moderate (-p + -q) (p' + q) x := by
    intro y hy
    obtain ⟨i, hi, rfl⟩ := List.getElem_of_mem hy
    rw [List.getElem_zipWith]
    have := hround _ (List.getElem_mem (l := ds) (n := i) (by simp at hi; omega)) _ (List.getElem_mem (l := w) (n := i) (by simp at hi; omega))
    exact ⟨this.2.2.2.1, this.2.2.1⟩
  have hpl : (List.zipWith (fun x a => nearDouble (x * a)) ds w).length = ds.length := by simp [hlen]
  obtain ⟨n, n1, n2, -, n4⟩ := sum_agree (by omega) (by omega) hps t (by rwa [hpl]) (by rwa [hpl]) hd
  obtain ⟨s, s1, s2, -, s4⟩ := sum_agree (by omega) (by omega) hw t (by rwa [hlen]) (by rwa [hlen]) hd
  unfold averageF
  rw [hprod double fun x hx a ha => (hround x hx a ha).1, hprod digits53 fun x hx a ha => (hround x hx a ha).2.1, n1, n2, s1, s2]
  by_cases hs : s = 0
  · subst hs
    rw [if_pos rfl, if_pos rfl]
    exact ⟨rfl, fun y h => by cases h⟩
  · rw [if_neg (fun h => hs (Dbl.fin.inj h)), if_neg (fun h => hs (Dbl.fin.inj h))]
    simp only [Dbl.div, if_neg hs]
    obtain ⟨e1, e2, e3, e4, -⟩ := moderate_round (by omega) (by omega) (moderate_div n4 s4)
    rw [e1, e2]
    refine ⟨rfl, fun y h => ?_⟩
    cases h
    exact ⟨e4, moderate_weaken e3 (by omega) (by omega)⟩

/-! ### Cumulated sums -/

theorem cumsum_agree {l : List ℚ} (hl : ∀ a ∈ l, 0 ≤ a) (hx : ∀ a ∈ l, double a = .fin a) (hr : ∀ a ∈ l, digits53 a = .fin a)
    (hd : (l.length : ℚ) * (1 / 2 ^ 53) ≤ 1 / 2) (hs : l.sum < 2 ^ 1021) :
    cumsumF double l = cumsumF digits53 l ∧ ∀ y, Dbl.fin y ∈ cumsumF digits53 l → double y = .fin y ∧ |y| ≤ 2 * l.sum := by
  have hbound : ∀ (i : ℕ) (hi : i < l.length), ∃ y, (cumsumF digits53 l)[i]? = some (.fin y) ∧ |y| ≤ 2 * l.sum := by
    intro i hi
    obtain ⟨y, y1, y2, -⟩ := cumsumF_get digits53_accurate digits53_format (by norm_num) l hl hr i hi
    refine ⟨y, y1, ?_⟩
    have hi' : (i : ℚ) ≤ l.length := by exact_mod_cast hi.le
    have hiu : (i : ℚ) * (1 / 2 ^ 53) ≤ 1 / 2 := (mul_le_mul_of_nonneg_right hi' (by norm_num)).trans hd
    have h1 := within_error (by norm_num) hiu y2
    have h0 : 0 ≤ (l.take (i + 1)).sum := List.sum_nonneg fun a ha => hl a (List.mem_of_mem_take ha)
    have h2 : (l.take (i + 1)).sum ≤ l.sum := by
      have := List.sum_take_add_sum_drop l (i + 1)
      have h3 : 0 ≤ (l.drop (i + 1)).sum := List.sum_nonneg fun a ha => hl a (List.mem_of_mem_drop ha)
      linarith
    generalize (l.take (i + 1)).sum = c at *
    rw [abs_of_nonneg h0] at h1
    have h4 : 2 * (i : ℚ) * (1 / 2 ^ 53) * c ≤ 1 * c := mul_le_mul_of_nonneg_right (by linarith) h0
    have h5 := abs_sub_abs_le_abs_sub y c
    rw [abs_of_nonneg h0] at h5
    linarith
  have key : ∀ (i : ℕ), i < l.length → (cumsumF double l)[i]? = (cumsumF digits53 l)[i]? ∧
      ∀ y, (cumsumF digits53 l)[i]? = some (.fin y) → double y = .fin y := by
    intro i
    induction i with
    | zero =>
      intro hi
      cases l with
      | nil => simp at hi
      | cons a l =>
        refine ⟨by simp [cumsumF], fun y hy => ?_⟩
        have : a = y := by simpa [cumsumF] using hy
        rw [← this]
        exact hx a (by simp)
    | succ i ih =>
      intro hi
      obtain ⟨e1, e2⟩ := ih (by omega)
      obtain ⟨y, y1, y2⟩ := hbound i (by omega)
      obtain ⟨z, z1, z2⟩ := hbound (i + 1) hi
      have hstep := cumsumF_step (rnd := digits53) l i _ y1 hi
      have hstep' := cumsumF_step (rnd := double) l i _ (e1.trans y1) hi
      have hal : l[i + 1] ∈ l := List.getElem_mem _
      have hlt : |y + l[i + 1]| < 2 ^ 1023 := by
        have hle : l[i + 1] ≤ l.sum := List.single_le_sum hl _ hal
        have h1 := abs_add_le y l[i + 1]
        have h2 := hl _ hal
        rw [abs_of_nonneg h2] at h1
        have h3 : (2 : ℚ) ^ 1023 = 4 * 2 ^ 1021 := by rw [pow_succ, pow_succ]; ring
        rw [h3]
        have h4 : 0 ≤ l.sum := h2.trans hle
        generalize (2 : ℚ) ^ 1021 = B at hs ⊢
        clear h3
        linarith
      have hadd := double_add (e2 y y1) (hx _ hal) hlt
      have hadd' : Dbl.add double (.fin y) (.fin l[i + 1]) = Dbl.add digits53 (.fin y) (.fin l[i + 1]) := hadd
      rw [hstep, hstep', hadd']
      refine ⟨rfl, fun v hv => ?_⟩
      have hv' : digits53 (y + l[i + 1]) = .fin v := Option.some.inj hv
      exact double_idem (hadd.trans hv')
  refine ⟨List.ext_getElem? fun i => ?_, fun y hy => ?_⟩
  · by_cases hi : i < l.length
    · exact (key i hi).1
    · rw [List.getElem?_eq_none (by rw [cumsumF_length]; omega), List.getElem?_eq_none (by rw [cumsumF_length]; omega)]
  · obtain ⟨i, hi⟩ := List.mem_iff_getElem?.1 hy
    have hil : i < l.length := by
      rw [← cumsumF_length (rnd := digits53) l]
      exact (List.getElem?_eq_some_iff.1 hi).1
    obtain ⟨z, z1, z2⟩ := hbound i hil
    rw [hi] at z1
    cases z1
    exact ⟨(key i hil).2 y hi, z2⟩

/-- The sum of all weights. -/
theorem cumsum_last_double {l : List ℚ} (hl : ∀ a ∈ l, 0 ≤ a) (hr : ∀ a ∈ l, digits53 a = .fin a) (hd : (l.length : ℚ) * (1 / 2 ^ 53) ≤ 1 / 4)
    {a : Dbl ℚ} (ha : (cumsumF digits53 l).getLast? = some a) : ∃ y, a = .fin y ∧ Dbl.fin y ∈ cumsumF digits53 l ∧ |y - l.sum| ≤ l.sum / 2 := by
  have hmem := List.mem_of_getLast? ha
  rw [List.getLast?_eq_getElem?, cumsumF_length] at ha
  have hn : 0 < l.length := by
    rw [← cumsumF_length (rnd := digits53) l]
    exact List.length_pos_of_mem hmem
  obtain ⟨y, y1, y2, -⟩ := cumsumF_get digits53_accurate digits53_format (by norm_num) l hl hr (l.length - 1) (by omega)
  rw [ha] at y1
  cases y1
  refine ⟨y, rfl, hmem, ?_⟩
  rw [show l.length - 1 + 1 = l.length by omega, List.take_length] at y2
  have hi' : ((l.length - 1 : ℕ) : ℚ) ≤ l.length := by exact_mod_cast (by omega)
  have hiu : ((l.length - 1 : ℕ) : ℚ) * (1 / 2 ^ 53) ≤ 1 / 4 := (mul_le_mul_of_nonneg_right hi' (by norm_num)).trans hd
  have h1 := within_error (by norm_num) (hiu.trans (by norm_num)) y2
  have h0 : 0 ≤ l.sum := List.sum_nonneg hl
  rw [abs_of_nonneg h0] at h1
  have h4 : 2 * ((l.length - 1 : ℕ) : ℚ) * (1 / 2 ^ 53) * l.sum ≤ 1 / 2 * l.sum := mul_le_mul_of_nonneg_right (by linarith) h0
  linarith

end Postpic.Props
