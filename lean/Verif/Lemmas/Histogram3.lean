import Verif.Lemmas.Histogram2

/-! # Guards, bounds and sums of the deposited weights -/

set_option linter.unusedSectionVars false
set_option linter.unusedTactic false

set_option autoImplicit false

namespace Postpic.Histogram

open Postpic Postpic.Spec

variable {K : Type*} [Field K] [LinearOrder K] [IsStrictOrderedRing K] [FloorRing K]

theorem _root_.Postpic.Spec.InRange.bounds {s : Shape} {n : ℕ} {x : K} (h : InRange s n x) : 0 ≤ x ∧ x ≤ n := by
  cases s <;> simp only [InRange] at h
  · exact ⟨h.1.le, h.2.le⟩
  all_goals exact h

theorem natCast_lt_two31 {n : ℕ} (hn : n < 2 ^ 31) : (n : K) + 1 ≤ 2 ^ 31 := by
  exact_mod_cast hn

theorem half_bound {s : Shape} {n : ℕ} (hn : n < 2 ^ 31) {x : K} (h : InRange s n x) :
    x + 1 / 2 < 2 ^ 31 := by
  have := natCast_lt_two31 (K := K) hn
  have := h.bounds
  linarith

theorem cellRef_bounds {s : Shape} (hs : s ≠ .ngp) {n : ℕ} (hn : n < 2 ^ 31) {x : K} (h0 : 0 ≤ x)
    (h1 : x ≤ n) : 0 ≤ cellRef s x ∧ cellRef s x ≤ n := by
  have h2 := natCast_lt_two31 (K := K) hn
  have a1 : cInt x = ⌊x⌋ := cInt_of_nonneg h0 (by linarith)
  have a2 : cInt (x + 1 / 2) = ⌊x + 1 / 2⌋ := cInt_of_nonneg (by linarith) (by linarith)
  have b1 : 0 ≤ ⌊x⌋ := Int.floor_nonneg.2 h0
  have b2 : 0 ≤ ⌊x + 1 / 2⌋ := Int.floor_nonneg.2 (by linarith)
  have c1 : ⌊x⌋ < (n : ℤ) + 1 := by rw [Int.floor_lt]; push_cast; linarith
  have c2 : ⌊x + 1 / 2⌋ < (n : ℤ) + 1 := by rw [Int.floor_lt]; push_cast; linarith
  cases s <;> simp only [cellRef, a1, a2] <;> first | contradiction | (constructor <;> omega)

theorem guard1_of_inRange {s : Shape} {n : ℕ} (hn : n < 2 ^ 31) {x : K} (h : InRange s n x) :
    guard1 s n x = true := by
  by_cases hs : s = .ngp
  · subst hs; simpa [guard1, InRange] using h
  · have := cellRef_bounds hs hn h.bounds.1 h.bounds.2
    cases s <;> first | contradiction | simpa [guard1] using this

theorem guard2_of_inRange {s : Shape} {n m : ℕ} (hn : n < 2 ^ 31) (hm : m < 2 ^ 31) {x y : K}
    (h : InRange s n x) (h' : InRange s m y) : guard2 s n m x y = true := by
  by_cases hs : s = .ngp
  · subst hs; simp only [InRange] at h h'; simp [guard2, h, h']
  · have a := cellRef_bounds hs hn h.bounds.1 h.bounds.2
    have b := cellRef_bounds hs hm h'.bounds.1 h'.bounds.2
    cases s <;> first | contradiction | simp [guard2, a, b, h'.bounds.1]

theorem guard3_of_inRange {s : Shape} {n m l : ℕ} (hn : n < 2 ^ 31) (hm : m < 2 ^ 31)
    (hl : l < 2 ^ 31) {x y z : K} (h : InRange s n x) (h' : InRange s m y) (h'' : InRange s l z) :
    guard3 s n m l x y z = true := by
  by_cases hs : s = .ngp
  · subst hs; simp only [InRange] at h h' h''; simp [guard3, h, h', h'']
  · have a := cellRef_bounds hs hn h.bounds.1 h.bounds.2
    have b := cellRef_bounds hs hm h'.bounds.1 h'.bounds.2
    have c := cellRef_bounds hs hl h''.bounds.1 h''.bounds.2
    cases s <;> first | contradiction | simp [guard3, a, b, c, h'.bounds.1, h''.bounds.1]

/-! ### bounds of all writes -/

theorem c1_inRange (s : Shape) {n : ℕ} (hn : n < 2 ^ 31) (r : K × K) (p : K × K) (w : ℤ × K)
    (hw : w ∈ c1 s n r p) : inRange (n + 2 * supp s) w.1 = true := by
  unfold c1 at hw
  split at hw
  · next hg =>
    simp only [List.mem_map] at hw
    obtain ⟨c, hc, rfl⟩ := hw
    by_cases hs : s = .ngp
    · subst hs
      simp only [guard1, Bool.and_eq_true, decide_eq_true_eq] at hg
      exact cells_inRange_ngp n hn _ hg.1 hg.2 c hc
    · have hg' : 0 ≤ cellRef s (scaled r n p.1) ∧ cellRef s (scaled r n p.1) ≤ n := by
        cases s <;> first | contradiction | simpa [guard1] using hg
      exact cells_inRange s hs n _ hg'.1 hg'.2 c hc
  · simp at hw

/-- The position test `y >= 0` implies `yr >= 0` only if the cast does not overflow. -/
theorem cellRef_nonneg (s : Shape) {y : K} (h0 : 0 ≤ y) (h1 : y + 1 / 2 < 2 ^ 31) :
    0 ≤ cellRef s y := by
  have a1 : cInt y = ⌊y⌋ := cInt_of_nonneg h0 (by linarith)
  have a2 : cInt (y + 1 / 2) = ⌊y + 1 / 2⌋ := cInt_of_nonneg (by linarith) (by linarith)
  have b1 : 0 ≤ ⌊y⌋ := Int.floor_nonneg.2 h0
  have b2 : 0 ≤ ⌊y + 1 / 2⌋ := Int.floor_nonneg.2 (by linarith)
  cases s <;> simp only [cellRef, a1, a2, b1, b2]

theorem c2_inRange (s : Shape) {n m : ℕ} (hn : n < 2 ^ 31) (hm : m < 2 ^ 31) (rx ry : K × K)
    (p : (K × K) × K) (hy : s = .ngp ∨ scaled ry m p.1.2 + 1 / 2 < 2 ^ 31)
    (w : (ℤ × ℤ) × K) (hw : w ∈ c2 s n m rx ry p) :
    (inRange (n + 2 * supp s) w.1.1 && inRange (m + 2 * supp s) w.1.2) = true := by
  unfold c2 at hw
  split at hw
  · next hg =>
    simp only [List.mem_flatMap, List.mem_map] at hw
    obtain ⟨a, ha, b, hb, rfl⟩ := hw
    by_cases hs : s = .ngp
    · subst hs
      simp only [guard2, Bool.and_eq_true, decide_eq_true_eq] at hg
      simp only [Bool.and_eq_true]
      exact ⟨cells_inRange_ngp n hn _ hg.1.1.1 hg.1.2 a ha,
        cells_inRange_ngp m hm _ hg.1.1.2 hg.2 b hb⟩
    · have hy' := hy.resolve_left hs
      have hg' : ((0 ≤ cellRef s (scaled rx n p.1.1) ∧ 0 ≤ scaled ry m p.1.2) ∧
          cellRef s (scaled rx n p.1.1) ≤ n) ∧ cellRef s (scaled ry m p.1.2) ≤ m := by
        cases s <;> first | contradiction | simpa [guard2] using hg
      simp only [Bool.and_eq_true]
      exact ⟨cells_inRange s hs n _ hg'.1.1.1 hg'.1.2 a ha,
        cells_inRange s hs m _ (cellRef_nonneg s hg'.1.1.2 hy') hg'.2 b hb⟩
  · simp at hw

theorem c3_inRange (s : Shape) {n m l : ℕ} (hn : n < 2 ^ 31) (hm : m < 2 ^ 31) (hl : l < 2 ^ 31)
    (rx ry rz : K × K) (p : (K × K × K) × K)
    (hy : s = .ngp ∨ scaled ry m p.1.2.1 + 1 / 2 < 2 ^ 31)
    (hz : s ≠ .tophat ∨ scaled rz l p.1.2.2 + 1 / 2 < 2 ^ 31)
    (w : (ℤ × ℤ × ℤ) × K) (hw : w ∈ c3 s n m l rx ry rz p) :
    (inRange (n + 2 * supp s) w.1.1 && (inRange (m + 2 * supp s) w.1.2.1 &&
      inRange (l + 2 * supp s) w.1.2.2)) = true := by
  unfold c3 at hw
  split at hw
  · next hg =>
    simp only [List.mem_flatMap, List.mem_map] at hw
    obtain ⟨a, ha, b, hb, c, hc, rfl⟩ := hw
    simp only [Bool.and_eq_true]
    by_cases hs : s = .ngp
    · subst hs
      simp only [guard3, Bool.and_eq_true, decide_eq_true_eq] at hg
      exact ⟨cells_inRange_ngp n hn _ hg.1.1.1.1.1 hg.1.1.2 a ha,
        cells_inRange_ngp m hm _ hg.1.1.1.1.2 hg.1.2 b hb,
        cells_inRange_ngp l hl _ hg.1.1.1.2 hg.2 c hc⟩
    · have hy' := hy.resolve_left hs
      have hg' : (0 ≤ cellRef s (scaled rx n p.1.1) ∧ cellRef s (scaled rx n p.1.1) ≤ n) ∧
          (0 ≤ scaled ry m p.1.2.1 ∧ cellRef s (scaled ry m p.1.2.1) ≤ m) ∧
          (0 ≤ cellRef s (scaled rz l p.1.2.2) ∧ cellRef s (scaled rz l p.1.2.2) ≤ l) := by
        cases s
        · contradiction
        · simp [guard3] at hg
          exact ⟨⟨hg.1.1.1.1.1, hg.1.1.1.2⟩, ⟨hg.1.1.1.1.2, hg.1.1.2⟩,
            ⟨cellRef_nonneg _ hg.1.2 (hz.resolve_left (by simp)), hg.2⟩⟩
        all_goals
          simp [guard3] at hg
          exact ⟨⟨hg.1.1.1.1.1, hg.1.1.2⟩, ⟨hg.1.1.1.1.2, hg.1.2⟩, ⟨hg.1.1.1.2, hg.2⟩⟩
      exact ⟨cells_inRange s hs n _ hg'.1.1 hg'.1.2 a ha,
        cells_inRange s hs m _ (cellRef_nonneg s hg'.2.1.1 hy') hg'.2.1.2 b hb,
        cells_inRange s hs l _ hg'.2.2.1 hg'.2.2.2 c hc⟩
  · simp at hw

/-! ### values -/

theorem _root_.Postpic.Spec.InRange.clear {s : Shape} {n : ℕ} (hn : n < 2 ^ 31) {x : K} (h : InRange s n x) :
    Clear s n x := by
  have h1 := half_bound hn h
  have h2 := h.bounds
  cases s
  · exact h.1.ne'
  · exact ⟨Or.inl h2.1, h1⟩
  · exact ⟨Or.inl h2.1, h1⟩
  · exact ⟨Or.inl h2.1, h1, Or.inl (by linarith)⟩

theorem _root_.Postpic.Spec.Clear.sides {s : Shape} (hs : s ≠ .ngp) {n : ℕ} {x : K} (h : Clear s n x) :
    (0 ≤ x ∨ x ≤ -(3 / 2)) ∧ x + 1 / 2 < 2 ^ 31 := by
  cases s
  · exact absurd rfl hs
  · exact h
  · exact h
  · exact ⟨h.1, h.2.1⟩

theorem cInt_neg {x : K} (h : x ≤ -1) : cInt x < 0 := by
  have h1 : trunc x ≤ -1 := by
    unfold trunc
    rw [if_neg (by linarith), Int.ceil_le]
    push_cast
    linarith
  unfold cInt
  split
  · omega
  · norm_num

theorem cellRef_neg {s : Shape} (hs : s ≠ .ngp) {x : K} (h : x ≤ -(3 / 2)) : cellRef s x < 0 := by
  cases s <;> first | contradiction | exact cInt_neg (by linarith)

/-- Outside of its width the assignment function is 0. -/
theorem W_far {s : Shape} {u : K} (h : 2 ≤ |u| ∨ (s = .triangle ∧ 3 / 2 ≤ |u|) ∨ (s = .tophat ∧ 1 ≤ |u|)) :
    W s u = 0 := by
  cases s with
  | ngp =>
    have h : 2 ≤ |u| := by simpa using h
    simp only [W]
    rw [if_neg]
    rintro ⟨h1, h2⟩
    have : |u| ≤ 1 / 2 := abs_le.2 ⟨h1.le, h2⟩
    linarith
  | tophat =>
    have h : 1 ≤ |u| := by
      rcases h with h | h | h
      · linarith
      · exact absurd h.1 (by simp)
      · exact h.2
    simp only [W]
    split
    · linarith
    · rfl
  | triangle =>
    have h : 3 / 2 ≤ |u| := by
      rcases h with h | h | h
      · linarith
      · exact h.2
      · exact absurd h.1 (by simp)
    simp only [W]
    rw [if_neg (by linarith)]
    split
    · next h' => rw [le_antisymm h' h]; norm_num
    · rfl
  | spline3 =>
    have h : 2 ≤ |u| := by simpa using h
    simp only [W]
    rw [if_neg (by linarith)]
    split
    · next h' => rw [le_antisymm h' h]; norm_num
    · rfl

theorem wsum_guarded {s : Shape} {n : ℕ} (hn : n < 2 ^ 31) {x : K} (h : Clear s n x) (hg : guard1 s n x = true) (j : ℤ) :
    wsum (cells s x) ((supp s : ℤ) + j) = W s ((j : K) + 1 / 2 - x) := by
  have h2 := natCast_lt_two31 (K := K) hn
  by_cases hs : s = .ngp
  · subst hs
    simp only [guard1, Bool.and_eq_true, decide_eq_true_eq] at hg
    exact wsum_cells _ _ hg.1.le (by linarith [hg.2]) j
  · obtain ⟨h3, h4⟩ := h.sides hs
    have hc : 0 ≤ cellRef s x := by
      cases s <;> first | contradiction | (simp only [guard1, Bool.and_eq_true, decide_eq_true_eq] at hg; exact hg.1)
    refine wsum_cells _ _ (h3.resolve_right fun h5 => ?_) h4 j
    exact absurd (cellRef_neg hs h5) (not_lt.2 hc)

theorem W_unguarded {s : Shape} {n : ℕ} {x : K} (h : Clear s n x) (hg : ¬ guard1 s n x = true) {j : ℕ} (hj : j < n) :
    W s ((j : K) + 1 / 2 - x) = 0 := by
  have hj0 : (0 : K) ≤ j := Nat.cast_nonneg j
  have hj1 : (j : K) + 1 ≤ n := by exact_mod_cast hj
  by_cases hs : s = .ngp
  · subst hs
    simp only [guard1, Bool.and_eq_true, decide_eq_true_eq, not_and, not_lt] at hg
    simp only [W]
    rw [if_neg]
    rintro ⟨h1, h2⟩
    have h3 : 0 < x := lt_of_le_of_ne (by linarith) (Ne.symm h)
    linarith [hg h3]
  · obtain ⟨h3, h4⟩ := h.sides hs
    rcases h3 with h3 | h3
    · have hc : (n : ℤ) < cellRef s x := by
        have h5 := cellRef_nonneg s h3 h4
        by_contra h6
        apply hg
        cases s <;> first | contradiction | (simp only [guard1, Bool.and_eq_true, decide_eq_true_eq]; exact ⟨h5, not_lt.1 h6⟩)
      have f1 := cInt_of_nonneg h3 (by linarith : x < 2 ^ 31)
      have f2 := cInt_of_nonneg (by linarith : 0 ≤ x + 1 / 2) h4
      cases s with
      | ngp => contradiction
      | tophat =>
        simp only [cellRef, f2] at hc
        have h5 : ((n : ℤ) + 1 : ℤ) ≤ ⌊x + 1 / 2⌋ := by omega
        rw [Int.le_floor] at h5
        push_cast at h5
        refine W_far (Or.inr (Or.inr ⟨rfl, ?_⟩))
        rw [abs_of_nonpos (by linarith)]
        linarith
      | triangle =>
        simp only [cellRef, f1] at hc
        have h5 : ((n : ℤ) + 1 : ℤ) ≤ ⌊x⌋ := by omega
        rw [Int.le_floor] at h5
        push_cast at h5
        refine W_far (Or.inr (Or.inl ⟨rfl, ?_⟩))
        rw [abs_of_nonpos (by linarith)]
        linarith
      | spline3 =>
        simp only [cellRef, f2] at hc
        have h5 : ((n : ℤ) + 1 : ℤ) ≤ ⌊x + 1 / 2⌋ := by omega
        rw [Int.le_floor] at h5
        push_cast at h5
        have h6 : (n : K) + 3 / 2 ≤ x := h.2.2.resolve_left (by linarith)
        refine W_far (Or.inl ?_)
        rw [abs_of_nonpos (by linarith)]
        linarith
    · refine W_far (Or.inl ?_)
      rw [abs_of_nonneg (by linarith)]
      linarith

/-- The position test is the test of the cell, for clear positions. -/
theorem cellRef_sign {s : Shape} (hs : s ≠ .ngp) {n : ℕ} {x : K} (h : Clear s n x) : 0 ≤ x ↔ 0 ≤ cellRef s x := by
  obtain ⟨h3, h4⟩ := h.sides hs
  constructor
  · exact fun h5 => cellRef_nonneg s h5 h4
  · intro h5
    exact h3.resolve_right fun h6 => absurd (cellRef_neg hs h6) (not_lt.2 h5)

theorem guard2_clear {s : Shape} {n m : ℕ} {x y : K} (h' : Clear s m y) :
    guard2 s n m x y = true ↔ guard1 s n x = true ∧ guard1 s m y = true := by
  by_cases hs : s = .ngp
  · subst hs
    simp only [guard2, guard1, Bool.and_eq_true, decide_eq_true_eq]
    tauto
  · have := cellRef_sign hs h'
    cases s <;> first | contradiction | (simp only [guard2, guard1, Bool.and_eq_true, decide_eq_true_eq]; tauto)

theorem guard3_clear {s : Shape} {n m l : ℕ} {x y z : K} (h' : Clear s m y) (h'' : Clear s l z) :
    guard3 s n m l x y z = true ↔ guard1 s n x = true ∧ guard1 s m y = true ∧ guard1 s l z = true := by
  by_cases hs : s = .ngp
  · subst hs
    simp only [guard3, guard1, Bool.and_eq_true, decide_eq_true_eq]
    tauto
  · have := cellRef_sign hs h'
    have := cellRef_sign hs h''
    cases s <;> first | contradiction | (simp only [guard3, guard1, Bool.and_eq_true, decide_eq_true_eq]; tauto)

theorem wsum_c1 {s : Shape} {n : ℕ} (hn : n < 2 ^ 31) (r : K × K) (p : K × K)
    (h : Clear s n (scaled r n p.1)) {j : ℕ} (hj : j < n) :
    wsum (c1 s n r p) ((supp s : ℤ) + j) = W s ((j : K) + 1 / 2 - scaled r n p.1) * p.2 := by
  unfold c1
  by_cases hg : guard1 s n (scaled r n p.1) = true
  · rw [if_pos hg, wsum_scale, wsum_guarded hn h hg]
    push_cast
    rfl
  · rw [if_neg hg, W_unguarded h hg hj]
    simp

theorem wsum_c2 {s : Shape} {n m : ℕ} (hn : n < 2 ^ 31) (hm : m < 2 ^ 31) (rx ry : K × K)
    (p : (K × K) × K) (h : Clear s n (scaled rx n p.1.1)) (h' : Clear s m (scaled ry m p.1.2))
    {i j : ℕ} (hi : i < n) (hj : j < m) :
    wsum (c2 s n m rx ry p) ((supp s : ℤ) + i, (supp s : ℤ) + j)
      = W s ((i : K) + 1 / 2 - scaled rx n p.1.1) * W s ((j : K) + 1 / 2 - scaled ry m p.1.2)
        * p.2 := by
  unfold c2
  by_cases hg : guard1 s n (scaled rx n p.1.1) = true ∧ guard1 s m (scaled ry m p.1.2) = true
  · rw [if_pos ((guard2_clear h').2 hg), wsum_prod, wsum_guarded hn h hg.1, wsum_guarded hm h' hg.2]
    push_cast
    rfl
  · rw [if_neg (fun h0 => hg ((guard2_clear h').1 h0))]
    by_cases hg1 : guard1 s n (scaled rx n p.1.1) = true
    · rw [W_unguarded h' (fun h0 => hg ⟨hg1, h0⟩) hj]
      simp
    · rw [W_unguarded h hg1 hi]
      simp

theorem wsum_c3 {s : Shape} {n m l : ℕ} (hn : n < 2 ^ 31) (hm : m < 2 ^ 31) (hl : l < 2 ^ 31)
    (rx ry rz : K × K) (p : (K × K × K) × K) (h : Clear s n (scaled rx n p.1.1))
    (h' : Clear s m (scaled ry m p.1.2.1)) (h'' : Clear s l (scaled rz l p.1.2.2))
    {i j k : ℕ} (hi : i < n) (hj : j < m) (hk : k < l) :
    wsum (c3 s n m l rx ry rz p) ((supp s : ℤ) + i, (supp s : ℤ) + j, (supp s : ℤ) + k)
      = W s ((i : K) + 1 / 2 - scaled rx n p.1.1) * W s ((j : K) + 1 / 2 - scaled ry m p.1.2.1)
        * W s ((k : K) + 1 / 2 - scaled rz l p.1.2.2) * p.2 := by
  unfold c3
  by_cases hg : guard1 s n (scaled rx n p.1.1) = true ∧ guard1 s m (scaled ry m p.1.2.1) = true ∧
      guard1 s l (scaled rz l p.1.2.2) = true
  · rw [if_pos ((guard3_clear h' h'').2 hg), wsum_prod3, wsum_guarded hn h hg.1, wsum_guarded hm h' hg.2.1,
      wsum_guarded hl h'' hg.2.2]
    push_cast
    rfl
  · rw [if_neg (fun h0 => hg ((guard3_clear h' h'').1 h0))]
    by_cases hg1 : guard1 s n (scaled rx n p.1.1) = true
    · by_cases hg2 : guard1 s m (scaled ry m p.1.2.1) = true
      · rw [W_unguarded h'' (fun h0 => hg ⟨hg1, hg2, h0⟩) hk]
        simp
      · rw [W_unguarded h' hg2 hj]
        simp
    · rw [W_unguarded h hg1 hi]
      simp

theorem W_nonneg (s : Shape) (u : K) : 0 ≤ W s u := by
  cases s <;> simp only [W]
  · split <;> norm_num
  · split
    · linarith
    · exact le_refl _
  · split
    · next h => rw [← sq_abs]; nlinarith [abs_nonneg u]
    · split
      · positivity
      · exact le_refl _
  · split
    · next h =>
      rw [← sq_abs]
      have := abs_nonneg u
      nlinarith [mul_nonneg this (sub_nonneg.2 h), pow_nonneg this 3]
    · split
      · next h => have : 0 ≤ 2 - |u| := by linarith
                  positivity
      · exact le_refl _

theorem sum_window_aux (n : ℕ) (c a : ℤ) (v : K) :
    ((List.range n).map fun j : ℕ => if c = a + j then v else 0).sum
      = if a ≤ c ∧ c < a + n then v else 0 := by
  induction n with
  | zero => simp
  | succ n ih =>
    rw [List.range_succ, List.map_append, List.sum_append, ih]
    simp only [List.map_cons, List.map_nil, List.sum_cons, List.sum_nil, add_zero]
    push_cast
    by_cases h : c = a + n
    · rw [if_neg (by omega), if_pos h, if_pos (by omega)]; ring
    · by_cases h2 : a ≤ c ∧ c < a + n
      · rw [if_pos h2, if_neg h, if_pos (by omega)]; ring
      · rw [if_neg h2, if_neg h, if_neg (by omega)]; ring

/-- The value of a write, if it falls into the window. -/
def win (a : ℤ) (n : ℕ) (c : ℤ) (v : K) : K := if a ≤ c ∧ c < a + n then v else 0

theorem win_in {a : ℤ} {n : ℕ} {c : ℤ} (v : K) (h : a ≤ c ∧ c < a + n) : win a n c v = v := by
  rw [win, if_pos h]

theorem win_out {a : ℤ} {n : ℕ} {c : ℤ} (v : K) (h : ¬ (a ≤ c ∧ c < a + n)) :
    win a n c v = 0 := by
  rw [win, if_neg h]

theorem sum_window (ws : List (ℤ × K)) (n : ℕ) (a : ℤ) :
    ((List.range n).map fun j : ℕ => wsum ws (a + j)).sum
      = (ws.map fun c => win a n c.1 c.2).sum := by
  induction ws with
  | nil => simp
  | cons c ws ih =>
    simp only [wsum_cons, List.map_cons, List.sum_cons, List.sum_map_add, ih, sum_window_aux, win]

/-- The weights which a particle inside the range deposits in the bins sum up to one. -/
theorem sum_W {s : Shape} {n : ℕ} (hn : n < 2 ^ 31) {x : K} (h : Inside s n x) :
    ((List.range n).map fun j : ℕ => W s ((j : K) + 1 / 2 - x)).sum = 1 := by
  obtain ⟨hr, h0, h1⟩ := h
  have hb := hr.bounds
  have hh := half_bound hn hr
  have e : ((List.range n).map fun j : ℕ => W s ((j : K) + 1 / 2 - x))
      = (List.range n).map fun j : ℕ => wsum (cells s x) ((supp s : ℤ) + j) := by
    apply List.map_congr_left; intro j _
    have := wsum_cells s x hb.1 hh (j : ℤ)
    rw [this]; push_cast; rfl
  rw [e, sum_window]
  have hx2 : x < 2 ^ 31 := by linarith
  have hy0 : 0 ≤ x + 1 / 2 := by linarith
  cases s with
  | ngp =>
    simp only [InRange] at hr
    simp only [cells, wts, firstCell, cellRef, supp, cInt_of_nonneg hb.1 hx2, List.zipIdx]
    have hf := Int.floor_nonneg.2 hb.1
    have hl : ⌊x⌋ < (n : ℤ) := by rw [Int.floor_lt]; exact_mod_cast hr.2
    simp only [List.map, List.sum_cons, List.sum_nil]
    rw [win_in _ (by push_cast; omega)]; ring
  | tophat =>
    simp only [radius] at h0 h1
    simp only [cells, wts, firstCell, cellRef, supp, cInt_of_nonneg hy0 hh, List.zipIdx]
    have hf := Int.floor_le (x + 1 / 2)
    have hl := Int.lt_floor_add_one (x + 1 / 2)
    have p0 : 1 ≤ ⌊x + 1 / 2⌋ := by rw [Int.le_floor]; push_cast; linarith
    have p1 : ⌊x + 1 / 2⌋ ≤ n := by
      have : ⌊x + 1 / 2⌋ < (n : ℤ) + 1 := by rw [Int.floor_lt]; push_cast; linarith
      omega
    generalize ⌊x + 1 / 2⌋ = m at *
    simp only [List.map, List.sum_cons, List.sum_nil]
    rw [win_in _ (by push_cast; omega)]
    by_cases hm : m = n
    · have hx : x = n - 1 / 2 := by
        have : (m : K) = n := by rw [hm]; push_cast; rfl
        linarith
      have : (m : K) = n := by rw [hm]; push_cast; rfl
      rw [win_out _ (by push_cast; omega), this, hx]; ring
    · rw [win_in _ (by push_cast; omega)]; ring
  | triangle =>
    simp only [radius] at h0 h1
    simp only [cells, wts, firstCell, cellRef, supp, cInt_of_nonneg hb.1 hx2, List.zipIdx]
    have hf := Int.floor_le x
    have hl := Int.lt_floor_add_one x
    have p0 : 1 ≤ ⌊x⌋ := by rw [Int.le_floor]; push_cast; linarith
    have p1 : ⌊x⌋ < n := by rw [Int.floor_lt]; push_cast; linarith
    generalize ⌊x⌋ = m at *
    simp only [List.map, List.sum_cons, List.sum_nil]
    rw [win_in _ (by push_cast; omega), win_in _ (by push_cast; omega)]
    by_cases hm : m + 1 = n
    · have hmk : (m : K) + 1 = n := by exact_mod_cast congrArg (Int.cast (R := K)) hm
      have hx : x = m := by linarith
      rw [win_out _ (by push_cast; omega), hx]; ring
    · rw [win_in _ (by push_cast; omega)]; ring
  | spline3 =>
    simp only [radius] at h0 h1
    simp only [cells, wts, firstCell, cellRef, supp, cInt_of_nonneg hy0 hh, List.zipIdx]
    have hf := Int.floor_le (x + 1 / 2)
    have hl := Int.lt_floor_add_one (x + 1 / 2)
    have p0 : 2 ≤ ⌊x + 1 / 2⌋ := by rw [Int.le_floor]; push_cast; linarith
    have p1 : ⌊x + 1 / 2⌋ < n := by rw [Int.floor_lt]; push_cast; linarith
    generalize ⌊x + 1 / 2⌋ = m at *
    simp only [List.map, List.sum_cons, List.sum_nil]
    rw [win_in _ (by push_cast; omega), win_in _ (by push_cast; omega), win_in _ (by push_cast; omega)]
    by_cases hm : m + 1 = n
    · have hmk : (m : K) + 1 = n := by exact_mod_cast congrArg (Int.cast (R := K)) hm
      have hx : x = m - 1 / 2 := by linarith
      rw [win_out _ (by push_cast; omega), hx]; ring
    · rw [win_in _ (by push_cast; omega)]; ring

end Postpic.Histogram
