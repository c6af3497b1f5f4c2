import Verif.Model.Ieee
import Verif.Lemmas.Decimal

/-!
# The binary formats of IEEE 754
-/

set_option autoImplicit false

namespace Postpic.Spec

open Postpic.Io Postpic.Histogram Postpic.Props

/-! ### Codes -/

/-- A code with the parts `s`, `b` and `f`. -/
theorem decode_parts (F : BinaryFormat) (s : Bool) (b f : ℕ) (hb : b < 2 ^ F.bits) (hf : f < 2 ^ (F.digits - 1)) :
    F.decode ((if s then 2 ^ (F.bits + (F.digits - 1)) else 0) + (b * 2 ^ (F.digits - 1) + f)) =
      if b = 2 ^ F.bits - 1 then (if f = 0 then .inf s else .nan)
      else .fin ((if s then -1 else 1) *
        (if b = 0 then (f : ℚ) * 2 ^ F.least else (2 ^ (F.digits - 1) + f) * 2 ^ ((b : ℤ) - 1 + F.least))) := by
  generalize hB : 2 ^ (F.digits - 1) = B at hf
  generalize hW : 2 ^ F.bits = W at hb
  have hB0 : 0 < B := by rw [← hB]; positivity
  have hW0 : 0 < W := by omega
  have hWB : 2 ^ (F.bits + (F.digits - 1)) = W * B := by rw [pow_add, hB, hW]
  have hq : ((2 : ℚ) ^ (F.digits - 1)) = (B : ℚ) := by rw [← hB]; push_cast; rfl
  have hlt : b * B + f < W * B := by
    calc b * B + f < b * B + B := by omega
      _ = (b + 1) * B := by ring
      _ ≤ W * B := Nat.mul_le_mul_right B hb
  obtain ⟨k, hk, hks⟩ : ∃ k, k < 2 ∧ (k = 1 ↔ s = true) ∧ (if s then W * B else 0) = k * (W * B) := by
    cases s with
    | true => exact ⟨1, by norm_num, by simp, by simp⟩
    | false => exact ⟨0, by norm_num, by simp, by simp⟩
  have e1 : (k * (W * B) + (b * B + f)) / (W * B) % 2 = k := by
    rw [Nat.add_comm, Nat.add_mul_div_right _ _ (by positivity), Nat.div_eq_of_lt hlt, Nat.zero_add, Nat.mod_eq_of_lt hk]
  have e2 : (k * (W * B) + (b * B + f)) / B % W = b := by
    have : k * (W * B) + (b * B + f) = f + (k * W + b) * B := by ring
    rw [this, Nat.add_mul_div_right _ _ hB0, Nat.div_eq_of_lt hf, Nat.zero_add, Nat.mul_add_mod_self_right, Nat.mod_eq_of_lt hb]
  have e3 : (k * (W * B) + (b * B + f)) % B = f := by
    have : k * (W * B) + (b * B + f) = f + (k * W + b) * B := by ring
    rw [this, Nat.add_mul_mod_self_right, Nat.mod_eq_of_lt hf]
  unfold BinaryFormat.decode
  simp only [hWB, hB, hW, hq, hks.2, e1, e2, e3]
  have hs : decide (k = 1) = s := by
    rw [Bool.eq_iff_iff, decide_eq_true_iff, hks.1]
  by_cases hT : b = W - 1
  · rw [if_pos hT, if_pos hT, hs]
  · rw [if_neg hT, if_neg hT]
    congr 1
    cases s with
    | true => rw [if_pos (hks.1.2 rfl), if_pos rfl, neg_one_mul]
    | false => rw [if_neg (fun h => by simpa using hks.1.1 h)]; simp

/-- A code with a carry. -/
theorem decode_carry (F : BinaryFormat) (s : Bool) (a m : ℕ) (hm : m ≤ 2 * 2 ^ (F.digits - 1)) (ha : m < 2 ^ (F.digits - 1) → a = 0)
    (hlt : a * 2 ^ (F.digits - 1) + m < (2 ^ F.bits - 1) * 2 ^ (F.digits - 1)) :
    F.decode ((if s then 2 ^ (F.bits + (F.digits - 1)) else 0) + (a * 2 ^ (F.digits - 1) + m)) =
      .fin ((if s then -1 else 1) * ((m : ℚ) * 2 ^ ((a : ℤ) + F.least))) := by
  have hB0 : 0 < 2 ^ (F.digits - 1) := by positivity
  have key : ∀ b f : ℕ, f < 2 ^ (F.digits - 1) → a * 2 ^ (F.digits - 1) + m = b * 2 ^ (F.digits - 1) + f → b < 2 ^ F.bits - 1 := by
    intro b f _ he
    by_contra hc
    have := Nat.mul_le_mul_right (2 ^ (F.digits - 1)) (not_lt.1 hc)
    omega
  rcases lt_or_ge m (2 ^ (F.digits - 1)) with h1 | h1
  · obtain rfl := ha h1
    have hk := key 0 m h1 rfl
    rw [decode_parts F s 0 m (by omega) h1, if_neg (by omega), if_pos rfl]
    simp
  · rcases lt_or_ge m (2 * 2 ^ (F.digits - 1)) with h2 | h2
    · have he : a * 2 ^ (F.digits - 1) + m = (a + 1) * 2 ^ (F.digits - 1) + (m - 2 ^ (F.digits - 1)) := by
        rw [add_mul, one_mul]
        omega
      have hf : m - 2 ^ (F.digits - 1) < 2 ^ (F.digits - 1) := by omega
      have hk := key _ _ hf he
      rw [he, decode_parts F s _ _ (by omega) hf, if_neg (by omega), if_neg (show ¬ a + 1 = 0 by omega), Nat.cast_sub h1]
      push_cast
      rw [add_sub_cancel, add_sub_cancel_right]
    · have hm2 : m = 2 * 2 ^ (F.digits - 1) := le_antisymm hm h2
      have he : a * 2 ^ (F.digits - 1) + m = (a + 2) * 2 ^ (F.digits - 1) + 0 := by
        rw [add_mul, hm2, Nat.add_zero]
      have hk := key _ _ hB0 he
      rw [he, decode_parts F s _ _ (by omega) hB0, if_neg (by omega), if_neg (show ¬ a + 2 = 0 by omega)]
      congr 2
      rw [hm2, show ((a + 2 : ℕ) : ℤ) - 1 + F.least = (a + F.least) + 1 by push_cast; ring, zpow_add_one₀ (by norm_num)]
      push_cast
      ring

/-! ### Digits -/

theorem last_least (F : BinaryFormat) (x : ℚ) : F.least ≤ F.last x := by
  unfold BinaryFormat.last
  split_ifs
  · exact le_refl _
  · exact le_max_right _ _

theorem near_parts (F : BinaryFormat) (hF : 1 ≤ F.digits) (x : ℚ) :
    ∃ a m : ℕ, (F.last x - F.least).toNat = a ∧ (roundEven (|x| / 2 ^ F.last x)).toNat = m ∧ m ≤ 2 * 2 ^ (F.digits - 1) ∧
      (m < 2 ^ (F.digits - 1) → a = 0) ∧ |F.near x| = m * 2 ^ ((a : ℤ) + F.least) ∧
      F.near x = (if x < 0 then -1 else 1) * (m * 2 ^ ((a : ℤ) + F.least)) := by
  have hge : F.least ≤ F.last x := last_least F x
  obtain ⟨a, ha⟩ := Int.le.dest hge
  have hat : (F.last x - F.least).toNat = a := by omega
  have hal : (a : ℤ) + F.least = F.last x := by omega
  have hp := two_zpow_pos (F.last x)
  have hn : 0 ≤ roundEven (|x| / 2 ^ F.last x) := by
    have := roundEven_mono (x := 0) (y := |x| / 2 ^ F.last x) (div_nonneg (abs_nonneg x) hp.le)
    rwa [show roundEven 0 = 0 from roundEven_int 0] at this
  obtain ⟨m, hm⟩ := Int.eq_ofNat_of_zero_le hn
  obtain ⟨q, hq⟩ : ∃ q, F.digits = q + 1 := ⟨F.digits - 1, by omega⟩
  have hqd : F.digits - 1 = q := by omega
  have hnear : F.near x = (if x < 0 then -1 else 1) * ((m : ℚ) * 2 ^ F.last x) := by
    unfold BinaryFormat.near
    by_cases hx : x < 0
    · rw [if_pos hx]
      rw [abs_of_neg hx, neg_div, roundEven_neg] at hm
      have : roundEven (x / 2 ^ F.last x) = -(m : ℤ) := by omega
      rw [this]
      push_cast
      ring
    · rw [if_neg hx]
      rw [abs_of_nonneg (not_lt.1 hx)] at hm
      rw [hm, one_mul]
      push_cast
      rfl
  refine ⟨a, m, hat, by rw [hm]; rfl, ?_, ?_, ?_, by rw [hal]; exact hnear⟩
  · rw [hqd, ← pow_succ']
    have h1 : |x| ≤ 2 ^ (q + 1) * 2 ^ F.last x := by
      by_cases hx : x = 0
      · subst hx
        rw [abs_zero]
        positivity
      · have h := Int.lt_zpow_succ_log_self (b := 2) (by norm_num) |x|
        push_cast at h
        refine h.le.trans ?_
        rw [← zpow_natCast (2 : ℚ) (q + 1), ← zpow_add₀ (by norm_num)]
        refine zpow_le_zpow_right₀ (by norm_num) ?_
        have : Int.log 2 |x| - ((F.digits : ℤ) - 1) ≤ F.last x := by
          unfold BinaryFormat.last
          rw [if_neg hx]
          exact le_max_left _ _
        push_cast
        omega
    have h2 : |x| / 2 ^ F.last x ≤ ((2 ^ (q + 1) : ℤ) : ℚ) := by
      rw [div_le_iff₀ hp]
      push_cast
      exact h1
    have h3 := roundEven_mono h2
    rw [roundEven_int, hm] at h3
    exact_mod_cast h3
  · intro hlt
    by_contra h0
    rw [hqd] at hlt
    by_cases hx : x = 0
    · have : F.last x = F.least := by
        unfold BinaryFormat.last
        rw [if_pos hx]
      omega
    · have hmax : F.last x = Int.log 2 |x| - ((F.digits : ℤ) - 1) := by
        unfold BinaryFormat.last at hal ⊢
        rw [if_neg hx] at hal ⊢
        omega
      have h := Int.zpow_log_le_self (b := 2) (by norm_num) (abs_pos.2 hx)
      push_cast at h
      have h2 : ((2 ^ q : ℤ) : ℚ) ≤ |x| / 2 ^ F.last x := by
        rw [le_div_iff₀ hp]
        push_cast
        rw [← zpow_natCast (2 : ℚ) q, ← zpow_add₀ (by norm_num)]
        refine le_trans (zpow_le_zpow_right₀ (by norm_num) ?_) h
        omega
      have h3 := roundEven_mono h2
      rw [roundEven_int, hm] at h3
      have : 2 ^ q ≤ m := by exact_mod_cast h3
      omega
  · rw [hnear, abs_mul, hal, abs_of_nonneg (show (0 : ℚ) ≤ m * 2 ^ F.last x by positivity)]
    split_ifs <;> simp

theorem magnitude_lt (F : BinaryFormat) (hd : 1 ≤ F.digits) (hW : 4 ≤ 2 ^ F.bits) {a m : ℕ} (h3 : m ≤ 2 * 2 ^ (F.digits - 1))
    (h4 : m < 2 ^ (F.digits - 1) → a = 0) (hl : (m : ℚ) * 2 ^ ((a : ℤ) + F.least) < F.limit) :
    a * 2 ^ (F.digits - 1) + m < (2 ^ F.bits - 1) * 2 ^ (F.digits - 1) := by
  by_contra hc
  apply not_le.2 hl
  unfold BinaryFormat.limit
  generalize hT : 2 ^ F.bits - 1 = T at hc
  obtain ⟨q, hq⟩ : ∃ q, F.digits = q + 1 := ⟨F.digits - 1, by omega⟩
  have hqd : F.digits - 1 = q := by omega
  rw [hqd] at hc h3 h4
  have hTz : (2 ^ F.bits - 2 + ((F.digits : ℤ) - 1) : ℤ) = (T : ℤ) - 1 + q := by
    have : ((2 ^ F.bits : ℕ) : ℤ) = T + 1 := by omega
    push_cast at this
    rw [this, hq]
    push_cast
    ring
  rw [hTz]
  have hc' : T * 2 ^ q ≤ a * 2 ^ q + m := not_lt.1 hc
  have hmq : 2 ^ q ≤ m := by
    by_contra hlt
    have h0 := h4 (not_le.1 hlt)
    subst h0
    have : 3 * 2 ^ q ≤ T * 2 ^ q := Nat.mul_le_mul_right _ (by omega)
    omega
  have hcase : T ≤ a + 1 ∨ (T = a + 2 ∧ m = 2 * 2 ^ q) := by
    by_contra hn
    push Not at hn
    obtain ⟨n1, n2⟩ := hn
    rcases Nat.lt_or_ge (a + 2) T with h | h
    · have : (a + 3) * 2 ^ q ≤ T * 2 ^ q := Nat.mul_le_mul_right _ (by omega)
      rw [add_mul] at this
      have : 0 < 2 ^ q := by positivity
      omega
    · have hTa : T = a + 2 := by omega
      have hm := n2 hTa
      rw [hTa, add_mul] at hc'
      omega
  rcases hcase with h | ⟨h, hm⟩
  · calc (2 : ℚ) ^ ((T : ℤ) - 1 + q + F.least) ≤ 2 ^ ((q : ℤ) + (a + F.least)) := zpow_le_zpow_right₀ (by norm_num) (by omega)
      _ = 2 ^ q * 2 ^ ((a : ℤ) + F.least) := by rw [zpow_add₀ (by norm_num), zpow_natCast]
      _ ≤ m * 2 ^ ((a : ℤ) + F.least) := by
        refine mul_le_mul_of_nonneg_right ?_ (two_zpow_pos _).le
        exact_mod_cast hmq
  · refine le_of_eq ?_
    rw [hm, show (T : ℤ) - 1 + q + F.least = (q : ℤ) + 1 + (a + F.least) by rw [h]; push_cast; ring, zpow_add₀ (by norm_num),
      zpow_add_one₀ (by norm_num), zpow_natCast]
    push_cast
    ring

/-- Reading the code of a number gives the number, rounded to the format. -/
theorem decode_code (F : BinaryFormat) (hd : 2 ≤ F.digits) (hb : 2 ≤ F.bits) (v : Dbl ℚ) : F.decode (ieeeCode F v) = F.round v := by
  have hW : 4 ≤ 2 ^ F.bits := by
    calc 4 = 2 ^ 2 := rfl
      _ ≤ 2 ^ F.bits := Nat.pow_le_pow_right (by norm_num) hb
  have hB : 0 < 2 ^ (F.digits - 1) := by positivity
  cases v with
  | nan =>
    have h1 : 2 ^ (F.digits - 2) < 2 ^ (F.digits - 1) := Nat.pow_lt_pow_right (by norm_num) (by omega)
    have h2 : 0 < 2 ^ (F.digits - 2) := by positivity
    have := decode_parts F false (2 ^ F.bits - 1) (2 ^ (F.digits - 2)) (by omega) h1
    rw [if_pos rfl, if_neg (show ¬ 2 ^ (F.digits - 2) = 0 by omega)] at this
    simp only [Bool.false_eq_true, if_false, Nat.zero_add] at this
    exact this
  | inf s =>
    have := decode_parts F s (2 ^ F.bits - 1) 0 (by omega) hB
    rw [if_pos rfl, if_pos rfl, Nat.add_zero] at this
    exact this
  | fin x =>
    obtain ⟨a, m, h1, h2, h3, h4, h5, h6⟩ := near_parts F (by omega) x
    simp only [ieeeCode, BinaryFormat.round]
    have hs : (if x < 0 then 2 ^ (F.bits + (F.digits - 1)) else 0) = if decide (x < 0) = true then 2 ^ (F.bits + (F.digits - 1)) else 0 := by
      simp
    by_cases hl : F.limit ≤ |F.near x|
    · rw [if_pos hl, if_pos hl, hs]
      have := decode_parts F (decide (x < 0)) (2 ^ F.bits - 1) 0 (by omega) hB
      rw [if_pos rfl, if_pos rfl, Nat.add_zero] at this
      exact this
    · rw [if_neg hl, if_neg hl, h1, h2, hs, decode_carry F _ a m h3 h4, h6]
      · simp
      · exact magnitude_lt F (by omega) (by omega) h3 h4 (by rw [← h5]; exact not_le.1 hl)

theorem code_lt (F : BinaryFormat) (hd : 2 ≤ F.digits) (hb : 2 ≤ F.bits) (v : Dbl ℚ) : ieeeCode F v < 2 ^ (F.bits + F.digits) := by
  have hW : 4 ≤ 2 ^ F.bits := by
    calc 4 = 2 ^ 2 := rfl
      _ ≤ 2 ^ F.bits := Nat.pow_le_pow_right (by norm_num) hb
  obtain ⟨q, hq⟩ : ∃ q, F.digits = q + 1 := ⟨F.digits - 1, by omega⟩
  have hqd : F.digits - 1 = q := by omega
  have hB : 0 < 2 ^ q := by positivity
  have e1 : 2 ^ (F.bits + F.digits) = 2 * 2 ^ (F.bits + q) := by rw [hq, ← Nat.add_assoc, pow_succ']
  have e2 : 2 ^ (F.bits + q) = (2 ^ F.bits - 1) * 2 ^ q + 2 ^ q := by
    rw [pow_add]
    conv_lhs => rw [show 2 ^ F.bits = (2 ^ F.bits - 1) + 1 by omega]
    rw [add_mul, one_mul]
  have key : ∀ (s : Prop) [Decidable s] (c : ℕ), c < 2 ^ (F.bits + q) → (if s then 2 ^ (F.bits + q) else 0) + c < 2 ^ (F.bits + F.digits) := by
    intro s _ c hc
    rw [e1]
    split_ifs <;> omega
  cases v with
  | nan =>
    have h1 : 2 ^ (F.digits - 2) < 2 ^ q := Nat.pow_lt_pow_right (by norm_num) (by omega)
    simp only [ieeeCode, hqd]
    omega
  | inf s =>
    simp only [ieeeCode, hqd]
    exact key _ _ (by omega)
  | fin x =>
    obtain ⟨a, m, h1, h2, h3, h4, h5, h6⟩ := near_parts F (by omega) x
    simp only [ieeeCode, h1, h2, hqd]
    refine key _ _ ?_
    by_cases hl : F.limit ≤ |F.near x|
    · rw [if_pos hl]
      omega
    · rw [if_neg hl]
      have := magnitude_lt F (by omega) hW h3 h4 (by rw [← h5]; exact not_le.1 hl)
      rw [hqd] at this
      omega

/-! ### Bytes -/

theorem bigEndian_snoc (l : Bytes) (c : UInt8) : bigEndian (l ++ [c]) = 256 * bigEndian l + c.toNat := by
  simp [bigEndian]

theorem bigEndian_bytes (k n : ℕ) : bigEndian (toBytes k n) = n % 256 ^ k := by
  induction k generalizing n with
  | zero => simp [toBytes, bigEndian, Nat.mod_one]
  | succ k ih =>
    have h : (UInt8.ofNat (n % 256)).toNat = n % 256 := by
      rw [UInt8.toNat_ofNat']
      omega
    rw [toBytes, bigEndian_snoc, ih, h, pow_succ', Nat.mod_mul]
    omega

theorem toBytes_length (k n : ℕ) : (toBytes k n).length = k := by
  induction k generalizing n with
  | zero => rfl
  | succ k ih => simp [toBytes, ih]

theorem ieee_roundtrip (t : VtkType) (v : Dbl ℚ) : ieeeValue t (ieeeBytes t v) = some ((vtkFormat t).round v) := by
  have hd : 2 ≤ (vtkFormat t).digits := by cases t <;> decide
  have hb : 2 ≤ (vtkFormat t).bits := by cases t <;> decide
  have hsize : 256 ^ typeSize t = 2 ^ ((vtkFormat t).bits + (vtkFormat t).digits) := by cases t <;> rfl
  unfold ieeeValue ieeeBytes
  rw [toBytes_length, if_pos rfl, bigEndian_bytes, hsize, Nat.mod_eq_of_lt (code_lt _ hd hb v), decode_code _ hd hb]

/-! ### Rounding -/

/-- `binary64` is the format of doubles. -/
theorem near_double (x : ℚ) : binary64.near x = nearDouble x := by
  by_cases hx : x = 0
  · subst hx
    unfold BinaryFormat.near nearDouble
    rw [zero_div, zero_div, show roundEven 0 = 0 from roundEven_int 0]
    simp
  · unfold BinaryFormat.near nearDouble
    have : binary64.last x = lastDigit x := by
      unfold BinaryFormat.last lastDigit
      rw [if_neg hx]
      rfl
    rw [this]

theorem limit_double : binary64.limit = 2 ^ 1024 := zpow_natCast 2 1024

theorem limit_float : binary32.limit = 2 ^ 128 := zpow_natCast 2 128

theorem round_double (x : ℚ) : binary64.round (.fin x) = double x := by
  simp only [BinaryFormat.round, double, near_double, limit_double]

/-- The error of rounding. -/
theorem format_error (F : BinaryFormat) (hd : 1 ≤ F.digits) (x : ℚ) :
    |F.near x - x| ≤ max (1 / 2 ^ F.digits * |x|) (1 / 2 * 2 ^ F.least) := by
  have hp := two_zpow_pos (F.last x)
  have h1 := roundEven_near (x / 2 ^ F.last x)
  have h2 : F.near x - x = (roundEven (x / 2 ^ F.last x) - x / 2 ^ F.last x) * 2 ^ F.last x := by
    unfold BinaryFormat.near
    field_simp
  rw [h2, abs_mul, abs_of_pos hp]
  refine (mul_le_mul_of_nonneg_right h1 hp.le).trans ?_
  by_cases hc : F.last x = F.least
  · rw [hc]
    exact le_max_right _ _
  · refine le_trans ?_ (le_max_left _ _)
    by_cases hx : x = 0
    · exact absurd (by unfold BinaryFormat.last; rw [if_pos hx]) hc
    have hl : F.last x = Int.log 2 |x| - ((F.digits : ℤ) - 1) := by
      unfold BinaryFormat.last at hc ⊢
      rw [if_neg hx] at hc ⊢
      omega
    have := Int.zpow_log_le_self (b := 2) (by norm_num) (abs_pos.2 hx)
    push_cast at this
    rw [hl, show Int.log 2 |x| - ((F.digits : ℤ) - 1) = Int.log 2 |x| - F.digits + 1 by ring, zpow_add_one₀ (by norm_num), zpow_sub₀ (by norm_num),
      zpow_natCast]
    calc (1 : ℚ) / 2 * (2 ^ Int.log 2 |x| / 2 ^ F.digits * 2) = 1 / 2 ^ F.digits * 2 ^ Int.log 2 |x| := by ring
      _ ≤ _ := mul_le_mul_of_nonneg_left this (by positivity)

end Postpic.Spec
