import Mathlib.Tactic.Ring
import Mathlib.Tactic.Linarith
import Mathlib.Tactic.FieldSimp
import Mathlib.Tactic.NormNum
import Mathlib.Tactic.Positivity
import Mathlib.Algebra.BigOperators.Group.List.Basic
import Mathlib.Algebra.BigOperators.Ring.List
import Verif.Model.Histogram
import Verif.Spec.Kernel

/-! # Helper lemmas about the deposition loops -/

set_option linter.unusedSectionVars false
set_option linter.unusedTactic false

set_option autoImplicit false

namespace Postpic.Histogram

open Postpic Postpic.Spec

variable {K : Type*} [Field K] [LinearOrder K] [IsStrictOrderedRing K] [FloorRing K]

/-! ### memory -/

/-- Sum of the values written to index `k`. -/
def wsum {ι : Type*} [DecidableEq ι] (ws : List (ι × K)) (k : ι) : K :=
  (ws.map fun w => if w.1 = k then w.2 else 0).sum

@[simp] theorem wsum_nil {ι : Type*} [DecidableEq ι] (k : ι) : wsum ([] : List (ι × K)) k = 0 := rfl

@[simp] theorem wsum_cons {ι : Type*} [DecidableEq ι] (w : ι × K) (ws : List (ι × K)) (k : ι) :
    wsum (w :: ws) k = (if w.1 = k then w.2 else 0) + wsum ws k := by
  simp [wsum]

theorem wsum_append {ι : Type*} [DecidableEq ι] (u v : List (ι × K)) (k : ι) :
    wsum (u ++ v) k = wsum u k + wsum v k := by
  simp [wsum]

theorem foldlM_addAt {ι : Type*} [DecidableEq ι] (inb : ι → Bool) (ws : List (ι × K)) (m : ι → K)
    (h : ∀ w ∈ ws, inb w.1 = true) :
    ws.foldlM (addAt inb) m = (.ok fun k => m k + wsum ws k : Res (ι → K)) := by
  induction ws generalizing m with
  | nil => simp [pure, Except.pure]
  | cons w ws ih =>
    have hw : inb w.1 = true := h w (by simp)
    simp only [List.foldlM_cons, addAt, hw, if_true, bind, Except.bind]
    rw [ih (Function.update m w.1 (m w.1 + w.2)) (fun v hv => h v (by simp [hv]))]
    congr 1
    funext k
    by_cases hk : w.1 = k
    · subst hk; simp; ring
    · have : k ≠ w.1 := fun e => hk e.symm
      simp [hk, Function.update_of_ne this]

theorem foldlM_loop {ι α : Type*} [DecidableEq ι] (inb : ι → Bool)
    (act : α → Res (List (ι × K))) (ps : List α) (ws : α → List (ι × K)) (m : ι → K)
    (hact : ∀ p ∈ ps, act p = .ok (ws p)) (hin : ∀ p ∈ ps, ∀ w ∈ ws p, inb w.1 = true) :
    ps.foldlM (fun m p => do (← act p).foldlM (addAt inb) m) m
      = (.ok fun k => m k + (ps.map fun p => wsum (ws p) k).sum : Res (ι → K)) := by
  induction ps generalizing m with
  | nil => simp [pure, Except.pure]
  | cons p ps ih =>
    rw [List.foldlM_cons, hact p (by simp)]
    simp only [bind, Except.bind]
    rw [foldlM_addAt inb (ws p) m (hin p (by simp))]
    have := ih (fun k => m k + wsum (ws p) k) (fun q hq => hact q (by simp [hq]))
      (fun q hq => hin q (by simp [hq]))
    simp only [bind, Except.bind] at this
    simp only [this]
    congr 1
    funext k
    simp [add_assoc]

/-- The loop computes, in each cell, the sum over all particles of what they deposit there,
provided that all writes are in bounds. -/
theorem loop_ok {ι α : Type*} [DecidableEq ι] (inb : ι → Bool)
    (act : α → Res (List (ι × K))) (ps : List α) (ws : α → List (ι × K))
    (hact : ∀ p ∈ ps, act p = .ok (ws p)) (hin : ∀ p ∈ ps, ∀ w ∈ ws p, inb w.1 = true) :
    loop inb act ps = (.ok fun k => (ps.map fun p => wsum (ws p) k).sum : Res (ι → K)) := by
  unfold loop
  rw [foldlM_loop inb act ps ws _ hact hin]
  simp

/-! ### the C cast -/

theorem trunc_of_nonneg {x : K} (h : 0 ≤ x) : trunc x = ⌊x⌋ := by simp [trunc, h]

theorem cInt_of_nonneg {x : K} (h : 0 ≤ x) (h' : x < 2 ^ 31) : cInt x = ⌊x⌋ := by
  have h1 : (0 : ℤ) ≤ ⌊x⌋ := Int.floor_nonneg.2 h
  have h2 : ⌊x⌋ < 2 ^ 31 := by
    rw [Int.floor_lt]; exact_mod_cast h'
  unfold cInt
  rw [trunc_of_nonneg h, if_pos]
  exact ⟨by omega, h2⟩

theorem cInt_lt (x : K) : cInt x < 2 ^ 31 := by
  unfold cInt; split
  · next h => exact h.2
  · norm_num

theorem cInt_eq_trunc_of_nonneg {x : K} (h : 0 ≤ cInt x) : cInt x = trunc x := by
  unfold cInt at *
  split
  · rfl
  · next hn => rw [if_neg hn] at h; norm_num at h

/-! ### in bounds -/

/-- Cells touched, given the reference cell. -/
theorem cells_index (s : Shape) (x : K) (c : ℤ × K) (hc : c ∈ cells s x) :
    cellRef s x ≤ c.1 ∧ c.1 ≤ cellRef s x + match s with
      | .ngp => 0 | .tophat => 1 | .triangle => 3 | .spline3 => 4 := by
  cases s <;> simp [cells, wts, firstCell, supp, List.zipIdx] at hc ⊢
  · subst hc; simp
  · rcases hc with rfl | rfl <;> simp
  · rcases hc with rfl | rfl | rfl <;> simp <;> omega
  · rcases hc with rfl | rfl | rfl | rfl <;> simp <;> omega

theorem cells_inRange (s : Shape) (hs : s ≠ .ngp) (n : ℕ) (x : K) (h0 : 0 ≤ cellRef s x)
    (h1 : cellRef s x ≤ n) (c : ℤ × K) (hc : c ∈ cells s x) :
    inRange (n + 2 * supp s) c.1 = true := by
  have := cells_index s x c hc
  cases s <;> simp [inRange, supp] at * <;> constructor <;> omega

theorem cells_inRange_ngp (n : ℕ) (hn : n < 2 ^ 31) (x : K) (h0 : 0 < x) (h1 : x < n)
    (c : ℤ × K) (hc : c ∈ cells .ngp x) :
    inRange (n + 2 * supp .ngp) c.1 = true := by
  have h2 : x < 2 ^ 31 := lt_trans h1 (by exact_mod_cast hn)
  have h3 := cInt_of_nonneg h0.le h2
  have h4 : ⌊x⌋ < (n : ℤ) := by rw [Int.floor_lt]; exact_mod_cast h1
  have h5 : 0 ≤ ⌊x⌋ := Int.floor_nonneg.2 h0.le
  have := cells_index .ngp x c hc
  simp only [cellRef, h3] at this
  simp [inRange, supp]; omega

/-! ### weights are B-splines -/

/-- Where the particle is in range, the value deposited into output cell `j` is the B-spline. -/
theorem wsum_cells (s : Shape) (x : K) (h0 : 0 ≤ x) (h1 : x + 1 / 2 < 2 ^ 31) (j : ℤ) :
    wsum (cells s x) ((supp s : ℤ) + j) = W s ((j : K) + 1 / 2 - x) := by
  have hx2 : x < 2 ^ 31 := by linarith
  have hy0 : 0 ≤ x + 1 / 2 := by linarith
  have hy2 : x + 1 / 2 < 2 ^ 31 := h1
  cases s with
  | ngp =>
    simp only [cells, wts, firstCell, cellRef, supp, cInt_of_nonneg h0 hx2, List.zipIdx]
    have hf := Int.floor_le x
    have hl := Int.lt_floor_add_one x
    generalize ⌊x⌋ = n at hf hl
    simp only [List.map, wsum_cons, wsum_nil, W]
    rcases lt_trichotomy n j with h | h | h
    · have hh : (n : K) + 1 ≤ j := by exact_mod_cast h
      rw [if_neg (by push_cast; omega), if_neg (by intro hc; linarith [hc.2])]; ring
    · subst h
      rw [if_pos (by push_cast; omega), if_pos (by constructor <;> linarith)]; ring
    · have hh : (j : K) + 1 ≤ n := by exact_mod_cast h
      rw [if_neg (by push_cast; omega), if_neg (by intro hc; linarith [hc.1])]; ring
  | tophat =>
    simp only [cells, wts, firstCell, cellRef, supp, cInt_of_nonneg hy0 hy2, List.zipIdx]
    have hf := Int.floor_le (x + 1 / 2)
    have hl := Int.lt_floor_add_one (x + 1 / 2)
    generalize ⌊x + 1 / 2⌋ = n at hf hl
    simp only [List.map, wsum_cons, wsum_nil, W]
    have hcase : j < n - 1 ∨ j = n - 1 ∨ j = n ∨ n < j := by omega
    rcases hcase with h | h | h | h
    · have hh : (j : K) + 2 ≤ n := by exact_mod_cast (by omega : j + 2 ≤ n)
      rw [if_neg (by push_cast; omega), if_neg (by push_cast; omega), abs_of_neg (by linarith)]
      split
      · linarith
      · ring
    · subst h
      push_cast
      rw [if_pos (by push_cast; omega), if_neg (by push_cast; omega),
        abs_of_nonpos (by linarith), if_pos (by linarith)]; ring
    · subst h
      rw [if_neg (by push_cast; omega), if_pos (by push_cast; omega),
        abs_of_nonneg (by linarith), if_pos (by linarith)]; ring
    · have hh : (n : K) + 1 ≤ j := by exact_mod_cast h
      rw [if_neg (by push_cast; omega), if_neg (by push_cast; omega), abs_of_pos (by linarith)]
      split
      · linarith
      · ring
  | triangle =>
    simp only [cells, wts, firstCell, cellRef, supp, cInt_of_nonneg h0 hx2, List.zipIdx]
    have hf := Int.floor_le x
    have hl := Int.lt_floor_add_one x
    generalize ⌊x⌋ = n at hf hl
    simp only [List.map, wsum_cons, wsum_nil, W]
    have hcase : j < n - 1 ∨ j = n - 1 ∨ j = n ∨ j = n + 1 ∨ n + 1 < j := by omega
    rcases hcase with h | h | h | h | h
    · have hh : (j : K) + 2 ≤ n := by exact_mod_cast (by omega : j + 2 ≤ n)
      rw [if_neg (by push_cast; omega), if_neg (by push_cast; omega), if_neg (by push_cast; omega),
        abs_of_neg (by linarith), if_neg (by linarith)]
      split
      · have : x = n := by linarith
        have : (j : K) + 2 = n := by linarith
        nlinarith
      · ring
    · subst h
      push_cast
      rw [if_pos (by push_cast; omega), if_neg (by push_cast; omega), if_neg (by push_cast; omega),
        abs_of_nonpos (by linarith)]
      split
      · have : x = n := by linarith
        subst this; ring
      · rw [if_pos (by linarith)]; ring
    · subst h
      rw [if_neg (by push_cast; omega), if_pos (by push_cast; omega), if_neg (by push_cast; omega)]
      rw [if_pos (by rw [abs_le]; constructor <;> linarith)]; ring
    · subst h
      push_cast
      rw [if_neg (by push_cast; omega), if_neg (by push_cast; omega), if_pos (by push_cast; omega),
        abs_of_nonneg (by linarith)]
      rw [if_neg (by linarith), if_pos (by linarith)]; ring
    · have hh : (n : K) + 2 ≤ j := by exact_mod_cast (by omega : n + 2 ≤ j)
      rw [if_neg (by push_cast; omega), if_neg (by push_cast; omega), if_neg (by push_cast; omega),
        abs_of_pos (by linarith), if_neg (by linarith), if_neg (by linarith)]; ring
  | spline3 =>
    simp only [cells, wts, firstCell, cellRef, supp, cInt_of_nonneg hy0 hy2, List.zipIdx]
    have hf := Int.floor_le (x + 1 / 2)
    have hl := Int.lt_floor_add_one (x + 1 / 2)
    generalize ⌊x + 1 / 2⌋ = n at hf hl
    simp only [List.map, wsum_cons, wsum_nil, W]
    have hcase : j < n - 2 ∨ j = n - 2 ∨ j = n - 1 ∨ j = n ∨ j = n + 1 ∨ n + 1 < j := by omega
    rcases hcase with h | h | h | h | h | h
    · have hh : (j : K) + 3 ≤ n := by exact_mod_cast (by omega : j + 3 ≤ n)
      rw [if_neg (by push_cast; omega), if_neg (by push_cast; omega), if_neg (by push_cast; omega),
        if_neg (by push_cast; omega), abs_of_neg (by linarith), if_neg (by linarith)]
      split
      · have : x + 1 / 2 = n := by linarith
        have : (j : K) + 3 = n := by linarith
        have e : 2 - -((j : K) + 1 / 2 - x) = 0 := by linarith
        rw [e]; ring
      · ring
    · subst h
      push_cast
      rw [if_pos (by push_cast; omega), if_neg (by push_cast; omega), if_neg (by push_cast; omega),
        if_neg (by push_cast; omega), abs_of_nonpos (by linarith)]
      split
      · have : x = n - 1 / 2 := by linarith
        subst this; ring
      · rw [if_pos (by linarith)]; ring
    · subst h
      push_cast
      rw [if_neg (by push_cast; omega), if_pos (by push_cast; omega), if_neg (by push_cast; omega),
        if_neg (by push_cast; omega), abs_of_nonpos (by linarith), if_pos (by linarith)]; ring
    · subst h
      rw [if_neg (by push_cast; omega), if_neg (by push_cast; omega), if_pos (by push_cast; omega),
        if_neg (by push_cast; omega), abs_of_nonneg (by linarith), if_pos (by linarith)]; ring
    · subst h
      push_cast
      rw [if_neg (by push_cast; omega), if_neg (by push_cast; omega), if_neg (by push_cast; omega),
        if_pos (by push_cast; omega), abs_of_nonneg (by linarith), if_neg (by linarith),
        if_pos (by linarith)]; ring
    · have hh : (n : K) + 2 ≤ j := by exact_mod_cast (by omega : n + 2 ≤ j)
      rw [if_neg (by push_cast; omega), if_neg (by push_cast; omega), if_neg (by push_cast; omega),
        if_neg (by push_cast; omega), abs_of_pos (by linarith), if_neg (by linarith),
        if_neg (by linarith)]; ring

end Postpic.Histogram
