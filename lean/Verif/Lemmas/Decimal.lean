import Mathlib.Tactic.IntervalCases
import Verif.Lemmas.Series
import Verif.Spec.Decimal
import Verif.Props.Double

/-!
# Doubles as decimal numbers
-/

set_option autoImplicit false

namespace Postpic.Props

open Postpic Postpic.Histogram Postpic.Spec

/-! ### Numbers next to a double -/

theorem roundEven_of_near {y : ℚ} {m : ℤ} (h : |y - m| < 1 / 2) : roundEven y = m := by
  have h1 := abs_le.1 (roundEven_near y)
  have h2 := abs_lt.1 h
  have h3 : (roundEven y : ℚ) < m + 1 := by linarith
  have h4 : (m : ℚ) < roundEven y + 1 := by linarith
  have h5 : roundEven y < m + 1 := by exact_mod_cast h3
  have h6 : m < roundEven y + 1 := by exact_mod_cast h4
  omega

theorem nearDouble_stable_pos {x v : ℚ} (hx : 0 < x) (hd : nearDouble x = x) (h : |v - x| ≤ x / 2 ^ 55) : nearDouble v = x := by
  obtain ⟨h1, h2⟩ := abs_le.1 h
  have hv : x / 2 ≤ v := by linarith
  have hv0 : 0 < v := by linarith
  generalize he : lastDigit x = e
  generalize he' : lastDigit v = e'
  have hp := two_zpow_pos e
  have hlog : Int.log 2 x ≤ e + 52 := by
    have : Int.log 2 |x| - 52 ≤ lastDigit x := le_max_left _ _
    rw [abs_of_pos hx, he] at this
    omega
  have hx53 : x < 2 ^ 53 * 2 ^ e := by
    have := Int.lt_zpow_succ_log_self (b := 2) (by norm_num) x
    refine lt_of_lt_of_le this ?_
    rw [← zpow_natCast (2 : ℚ) 53, ← zpow_add₀ (by norm_num)]
    push_cast
    exact zpow_le_zpow_right₀ (by norm_num) (by omega)
  obtain ⟨m, hm⟩ : ∃ m : ℤ, x = m * 2 ^ e := ⟨roundEven (x / 2 ^ e), by
    conv_lhs => rw [← hd]
    unfold nearDouble
    rw [he]⟩
  have hm53 : m + 1 ≤ 2 ^ 53 := by
    have : (m : ℚ) < 2 ^ 53 := by
      rw [hm] at hx53
      exact lt_of_mul_lt_mul_right hx53 hp.le
    have : m < 2 ^ 53 := by exact_mod_cast this
    omega
  have hxm : x + 2 ^ e ≤ 2 ^ 53 * 2 ^ e := by
    have : ((m : ℚ) + 1) ≤ 2 ^ 53 := by exact_mod_cast hm53
    calc x + 2 ^ e = (m + 1) * 2 ^ e := by rw [add_mul, one_mul, ← hm]
      _ ≤ _ := mul_le_mul_of_nonneg_right this hp.le
  have herr : x / 2 ^ 55 < 2 ^ e / 4 := by
    rw [div_lt_iff₀ (by norm_num)]
    linarith
  have hup : e' ≤ e := by
    rw [← he', lastDigit, abs_of_pos hv0]
    refine max_le ?_ (by rw [← he]; exact le_max_right _ _)
    have : v < (2 : ℕ) ^ (e + 53) := by
      push_cast
      rw [zpow_add₀ (by norm_num), show (2 : ℚ) ^ (53 : ℤ) = 2 ^ 53 from zpow_natCast 2 53]
      linarith
    have := (Int.lt_zpow_iff_log_lt (b := 2) (by norm_num) hv0).1 this
    omega
  have hlow : e - 1 ≤ e' := by
    have g1 : Int.log 2 |v| - 52 ≤ e' := by rw [← he']; exact le_max_left _ _
    have g2 : -1074 ≤ e' := by rw [← he']; exact le_max_right _ _
    have g3 : Int.log 2 x - 1 ≤ Int.log 2 v := by
      rw [← Int.zpow_le_iff_le_log (b := 2) (by norm_num) hv0]
      have := Int.zpow_log_le_self (b := 2) (by norm_num) hx
      push_cast at this ⊢
      rw [zpow_sub_one₀ (by norm_num)]
      linarith
    rw [abs_of_pos hv0] at g1
    have g4 : e = max (Int.log 2 x - 52) (-1074) := by rw [← he, lastDigit, abs_of_pos hx]
    omega
  obtain ⟨k, hk⟩ := Int.le.dest hup
  have hxM : x = ((m * 2 ^ k : ℤ) : ℚ) * 2 ^ e' := by
    rw [hm, ← hk, zpow_add₀ (by norm_num), zpow_natCast]
    push_cast
    ring
  have hp' := two_zpow_pos e'
  have hhalf : (2 : ℚ) ^ e ≤ 2 * 2 ^ e' := by
    rw [← zpow_one_add₀ (by norm_num)]
    exact zpow_le_zpow_right₀ (by norm_num) (by omega)
  unfold nearDouble
  rw [he', roundEven_of_near (m := m * 2 ^ k), ← hxM]
  rw [show v / 2 ^ e' - ((m * 2 ^ k : ℤ) : ℚ) = (v - x) / 2 ^ e' by
    rw [sub_div]
    congr 1
    rw [hxM, mul_div_assoc, div_self hp'.ne', mul_one]]
  rw [abs_div, abs_of_pos hp', div_lt_iff₀ hp']
  linarith

/-- A number which is next to a double, with a relative error below `2^(-55)`, is rounded to it. -/
theorem nearDouble_stable {x v : ℚ} (hd : nearDouble x = x) (h : |v - x| ≤ |x| / 2 ^ 55) : nearDouble v = x := by
  rcases lt_trichotomy x 0 with hx | rfl | hx
  · have := nearDouble_stable_pos (x := -x) (v := -v) (by linarith) (by rw [nearDouble_neg, hd])
      (by rw [abs_of_neg hx] at h; rw [show -v - -x = -(v - x) by ring, abs_neg]; exact h)
    rw [nearDouble_neg] at this
    linarith
  · rw [abs_zero, zero_div, sub_zero] at h
    rw [abs_nonpos_iff.1 h, hd]
  · rw [abs_of_pos hx] at h
    exact nearDouble_stable_pos hx hd h

/-! ### Digits -/

theorem digit_ok {d : ℕ} (h : d < 10) : (digitChar d).isDigit = true ∧ digitValue (digitChar d) = d ∧
    digitChar d ≠ '-' ∧ digitChar d ≠ '+' := by
  interval_cases d <;> decide

theorem readDigits_snoc (l : List Char) (c : Char) : readDigits (l ++ [c]) = 10 * readDigits l + digitValue c := by
  simp [readDigits]

theorem readDigits_show (k n : ℕ) : readDigits (showDigits k n) = n % 10 ^ k := by
  induction k generalizing n with
  | zero => simp [showDigits, readDigits, Nat.mod_one]
  | succ k ih =>
    rw [showDigits, readDigits_snoc, ih, (digit_ok (Nat.mod_lt n (by norm_num))).2.1, pow_succ', Nat.mod_mul]
    omega

theorem showDigits_add (a b n : ℕ) : showDigits (a + b) n = showDigits a (n / 10 ^ b) ++ showDigits b n := by
  induction b generalizing n with
  | zero => simp [showDigits]
  | succ b ih =>
    rw [← Nat.add_assoc, showDigits, ih, showDigits, Nat.div_div_eq_div_mul, ← pow_succ', List.append_assoc]

theorem showDigits_length (k n : ℕ) : (showDigits k n).length = k := by
  induction k generalizing n with
  | zero => rfl
  | succ k ih => simp [showDigits, ih]

theorem showDigits_digit (k n : ℕ) : ∀ c ∈ showDigits k n, c.isDigit = true := by
  induction k generalizing n with
  | zero => simp [showDigits]
  | succ k ih =>
    intro c hc
    rcases List.mem_append.1 hc with h | h
    · exact ih _ c h
    · rw [List.mem_singleton.1 h]
      exact (digit_ok (Nat.mod_lt n (by norm_num))).1

theorem span_digits {l : List Char} (h : ∀ c ∈ l, c.isDigit = true) {d : Char} (hd : d.isDigit = false) (r : List Char) :
    (l ++ d :: r).span Char.isDigit = (l, d :: r) := by
  rw [List.span_eq_takeWhile_dropWhile, List.takeWhile_append_of_pos h, List.dropWhile_append_of_pos h,
    List.takeWhile_cons_of_neg (by simp [hd]), List.dropWhile_cons_of_neg (by simp [hd]), List.append_nil]

theorem readSign_digit {d : ℕ} (h : d < 10) (l : List Char) : readSign (digitChar d :: l) = (false, digitChar d :: l) := by
  obtain ⟨-, -, h1, h2⟩ := digit_ok h
  unfold readSign
  split
  next h => exact absurd (List.cons.inj h).1 h1
  next h => exact absurd (List.cons.inj h).1 h2
  next => rfl

theorem showDigits_one (a : ℕ) : showDigits 1 a = [digitChar (a % 10)] := by simp [showDigits]

/-- The sign is read. -/
theorem readSign_text (neg : Bool) (a : ℕ) (l : List Char) :
    readSign ((if neg then ['-'] else []) ++ showDigits 1 a ++ l) = (neg, showDigits 1 a ++ l) := by
  cases neg with
  | true => rfl
  | false =>
    rw [showDigits_one]
    exact readSign_digit (Nat.mod_lt a (by norm_num)) l

/-- The exponent is read. -/
theorem readExponent_text (k : ℤ) :
    readExponent ('e' :: (if k < 0 then '-' else '+') :: showDigits (max 2 (Nat.log 10 k.natAbs + 1)) k.natAbs) = some k := by
  generalize hw : max 2 (Nat.log 10 k.natAbs + 1) = w
  have hw2 : 2 ≤ w := by rw [← hw]; exact le_max_left _ _
  have hlt : k.natAbs < 10 ^ w :=
    lt_of_lt_of_le (Nat.lt_pow_succ_log_self (by norm_num) _) (Nat.pow_le_pow_right (by norm_num) (by rw [← hw]; exact le_max_right _ _))
  have hr : readDigits (showDigits w k.natAbs) = k.natAbs := by rw [readDigits_show, Nat.mod_eq_of_lt hlt]
  have hall : (showDigits w k.natAbs).all Char.isDigit = true := List.all_eq_true.2 (showDigits_digit w _)
  have hne : (showDigits w k.natAbs).isEmpty = false := by
    rw [List.isEmpty_eq_false_iff, ← List.length_pos_iff, showDigits_length]
    omega
  by_cases hk : k < 0
  · rw [if_pos hk]
    simp only [readExponent, readSign, hne, hall, hr]
    simp [abs_of_neg hk]
  · rw [if_neg hk]
    simp only [readExponent, readSign, hne, hall, hr]
    simp [abs_of_nonneg (not_lt.1 hk)]

/-- The text of a number with digits `m` and the exponent `k`. -/
def sciText (n : ℕ) (neg : Bool) (m : ℕ) (k : ℤ) : List Char :=
  (if neg then ['-'] else []) ++ showDigits 1 (m / 10 ^ n) ++ '.' :: showDigits n m ++ 'e' :: (if k < 0 then '-' else '+') ::
    showDigits (max 2 (Nat.log 10 k.natAbs + 1)) k.natAbs

theorem readDecimal_text (n : ℕ) (neg : Bool) {m : ℕ} (hm : m < 10 ^ (n + 1)) (k : ℤ) :
    readDecimal (sciText n neg m k) = some ((if neg then -1 else 1) * (m : ℚ) * 10 ^ (k - n)) := by
  have hd : readDigits (showDigits 1 (m / 10 ^ n) ++ showDigits n m) = m := by
    rw [← showDigits_add, readDigits_show, Nat.mod_eq_of_lt (by rwa [Nat.add_comm])]
  unfold readDecimal sciText
  rw [List.append_assoc, List.append_assoc, ← List.append_assoc, List.cons_append, readSign_text]
  simp only
  rw [span_digits (showDigits_digit _ _) (by decide)]
  simp only [readFraction]
  rw [span_digits (showDigits_digit _ _) (by decide)]
  simp only
  rw [if_neg (by rw [showDigits_one]; simp), readExponent_text, hd, showDigits_length]
  rfl

theorem sciText_visible (n : ℕ) (neg : Bool) (m : ℕ) (k : ℤ) : ∀ c ∈ sciText n neg m k, 32 < c.toNat ∧ c.toNat < 128 := by
  have hdig : ∀ c : Char, c.isDigit = true → 32 < c.toNat ∧ c.toNat < 128 := by
    intro c hc
    have := Readers.digit_range hc
    omega
  intro c hc
  unfold sciText at hc
  simp only [List.mem_append, List.mem_cons] at hc
  rcases hc with ((h | h) | h | h) | h | h | h
  · cases neg with
    | true => rw [List.mem_singleton.1 h]; decide
    | false => simp at h
  · exact hdig c (showDigits_digit _ _ c h)
  · subst h; decide
  · exact hdig c (showDigits_digit _ _ c h)
  · subst h; decide
  · subst h; split_ifs <;> decide
  · exact hdig c (showDigits_digit _ _ c h)

theorem sciText_plain (n : ℕ) (neg : Bool) (m : ℕ) (k : ℤ) : ∀ c ∈ sciText n neg m k, c ≠ ' ' ∧ c ≠ ',' ∧ c ≠ '#' ∧ c ≠ '\r' ∧ c ≠ '\n' := by
  have hdig : ∀ c : Char, c.isDigit = true → c ≠ ' ' ∧ c ≠ ',' ∧ c ≠ '#' ∧ c ≠ '\r' ∧ c ≠ '\n' := by
    intro c hc
    refine ⟨?_, ?_, ?_, ?_, ?_⟩ <;> rintro rfl <;> exact absurd hc (by decide)
  intro c hc
  unfold sciText at hc
  simp only [List.mem_append, List.mem_cons] at hc
  rcases hc with ((h | h) | h | h) | h | h | h
  · cases neg with
    | true => rw [List.mem_singleton.1 h]; decide
    | false => simp at h
  · exact hdig c (showDigits_digit _ _ c h)
  · subst h; decide
  · exact hdig c (showDigits_digit _ _ c h)
  · subst h; decide
  · subst h; split_ifs <;> decide
  · exact hdig c (showDigits_digit _ _ c h)

/-! ### Rounding to decimal digits -/

theorem scientific_spec (n : ℕ) {x : ℚ} (hx : x ≠ 0) :
    10 ^ n ≤ (scientific n x).1 ∧ (scientific n x).1 < 10 ^ (n + 1) ∧
      abs (((scientific n x).1 : ℚ) * 10 ^ ((scientific n x).2 - n) - |x|) ≤ |x| / (2 * 10 ^ n) := by
  have hx0 : 0 < |x| := abs_pos.2 hx
  generalize hk : Int.log 10 |x| = k
  have h1 : (10 : ℚ) ^ k ≤ |x| := by
    have := Int.zpow_log_le_self (b := 10) (by norm_num) hx0
    rw [hk] at this
    exact_mod_cast this
  have h2 : |x| < (10 : ℚ) ^ (k + 1) := by
    have := Int.lt_zpow_succ_log_self (b := 10) (by norm_num) |x|
    rw [hk] at this
    exact_mod_cast this
  have hs : (0 : ℚ) < 10 ^ (k - (n : ℤ)) := zpow_pos (by norm_num) _
  have e1 : (10 : ℚ) ^ k = ((10 ^ n : ℤ) : ℚ) * 10 ^ (k - (n : ℤ)) := by
    push_cast
    rw [← zpow_natCast (10 : ℚ) n, ← zpow_add₀ (by norm_num)]
    congr 1
    ring
  have e2 : (10 : ℚ) ^ (k + 1) = ((10 ^ (n + 1) : ℤ) : ℚ) * 10 ^ (k - (n : ℤ)) := by
    push_cast
    rw [← zpow_natCast (10 : ℚ) (n + 1), ← zpow_add₀ (by norm_num)]
    congr 1
    push_cast
    ring
  have m1 : (10 ^ n : ℤ) ≤ roundEven (|x| / 10 ^ (k - (n : ℤ))) := by
    rw [← roundEven_int (10 ^ n)]
    refine roundEven_mono ?_
    rw [le_div_iff₀ hs, ← e1]
    exact h1
  have m2 : roundEven (|x| / 10 ^ (k - (n : ℤ))) ≤ (10 ^ (n + 1) : ℤ) := by
    conv_rhs => rw [← roundEven_int (10 ^ (n + 1))]
    refine roundEven_mono ?_
    rw [div_le_iff₀ hs, ← e2]
    exact h2.le
  have m3 := roundEven_near (|x| / 10 ^ (k - (n : ℤ)))
  generalize hM : roundEven (|x| / 10 ^ (k - (n : ℤ))) = M at m1 m2 m3
  obtain ⟨m, rfl⟩ : ∃ m : ℕ, M = m := Int.eq_ofNat_of_zero_le (le_trans (by positivity) m1)
  have m1' : 10 ^ n ≤ m := by exact_mod_cast m1
  have m2' : m ≤ 10 ^ (n + 1) := by exact_mod_cast m2
  have herr : abs ((m : ℚ) * 10 ^ (k - (n : ℤ)) - |x|) ≤ |x| / (2 * 10 ^ n) := by
    have e3 : (m : ℚ) * 10 ^ (k - (n : ℤ)) - |x| = ((m : ℤ) - |x| / 10 ^ (k - (n : ℤ))) * 10 ^ (k - (n : ℤ)) := by
      rw [sub_mul, div_mul_cancel₀ _ hs.ne']
      simp
    rw [e3, abs_mul, abs_of_pos hs]
    calc _ ≤ 1 / 2 * (10 : ℚ) ^ (k - (n : ℤ)) := mul_le_mul_of_nonneg_right m3 hs.le
      _ = 10 ^ k / (2 * 10 ^ n) := by
        rw [e1]
        push_cast
        field_simp
      _ ≤ _ := div_le_div_of_nonneg_right h1 (by positivity)
  unfold scientific
  simp only [hk, hM, Int.toNat_natCast]
  by_cases hm : m = 10 ^ (n + 1)
  · rw [if_pos hm]
    refine ⟨le_refl _, Nat.pow_lt_pow_right (by norm_num) (by omega), ?_⟩
    have : ((10 ^ n : ℕ) : ℚ) * 10 ^ (k + 1 - (n : ℤ)) = (m : ℚ) * 10 ^ (k - (n : ℤ)) := by
      rw [hm, show k + 1 - (n : ℤ) = (k - n) + 1 by ring, zpow_add_one₀ (by norm_num)]
      push_cast
      ring
    simp only [this]
    exact herr
  · rw [if_neg hm]
    exact ⟨m1', lt_of_le_of_ne m2' hm, herr⟩

theorem printSci_text (n : ℕ) (x : ℚ) : ∃ m k, printSci n x = sciText n (decide (x < 0)) m k ∧ m < 10 ^ (n + 1) ∧
    |(if decide (x < 0) then -1 else 1) * (m : ℚ) * 10 ^ (k - (n : ℤ)) - x| ≤ |x| / (2 * 10 ^ n) := by
  by_cases hx : x = 0
  · subst hx
    refine ⟨0, 0, ?_, by positivity, by simp⟩
    simp [printSci, sciText]
  · obtain ⟨h1, h2, h3⟩ := scientific_spec n hx
    refine ⟨(scientific n x).1, (scientific n x).2, ?_, h2, ?_⟩
    · simp [printSci, sciText, hx]
    · by_cases hneg : x < 0
      · rw [decide_eq_true hneg, if_pos rfl]
        rw [abs_of_neg hneg] at h3 ⊢
        rw [← abs_neg]
        convert h3 using 2
        ring
      · rw [decide_eq_false hneg]
        simp only [Bool.false_eq_true, if_false, one_mul]
        rw [abs_of_nonneg (not_lt.1 hneg)] at h3 ⊢
        exact h3

/-- A double which is printed with 17 or more digits after the point is read as it was. -/
theorem readDouble_print (n : ℕ) (hn : 17 ≤ n) {x : ℚ} (hd : double x = .fin x) : readDouble (printSci n x) = some x := by
  obtain ⟨m, k, h1, h2, h3⟩ := printSci_text n x
  have hnd : nearDouble x = x := by
    unfold double at hd
    split_ifs at hd
    exact Dbl.fin.inj hd
  have hlt : |x| < 2 ^ 1024 := by
    unfold double at hd
    split_ifs at hd with h
    rw [hnd] at h
    exact not_le.1 h
  unfold readDouble
  rw [h1, readDecimal_text n _ h2]
  have h4 : |x| / (2 * 10 ^ n) ≤ |x| / 2 ^ 55 := by
    refine div_le_div_of_nonneg_left (abs_nonneg x) (by norm_num) ?_
    calc (2 : ℚ) ^ 55 ≤ 2 * 10 ^ 17 := by norm_num
      _ ≤ 2 * 10 ^ n := by
        refine mul_le_mul_of_nonneg_left ?_ (by norm_num)
        exact pow_le_pow_right₀ (by norm_num) hn
  have h5 := nearDouble_stable hnd (le_trans h3 h4)
  simp only
  rw [double_fin (by rw [h5]; exact hlt), h5]

end Postpic.Props
