import Verif.Lemmas.Histogram3

/-!
# Lemmas for sums of histograms over one axis
-/

set_option autoImplicit false
set_option linter.unusedSectionVars false

namespace Postpic.Histogram

open Postpic Postpic.Spec

variable {K : Type*} [Field K] [LinearOrder K] [IsStrictOrderedRing K] [FloorRing K]

/-- What a particle puts into bin `j` along one axis, if it is deposited at all. -/
def w1 (s : Shape) (x : K) (j : ℕ) : K := wsum (cells s x) ((supp s : ℤ) + j)

theorem sum_w1 {s : Shape} {n : ℕ} (hn : n < 2 ^ 31) {x : K} (h : Inside s n x) :
    ((List.range n).map fun j => w1 s x j).sum = 1 := by
  rw [← sum_W hn h]
  congr 1
  apply List.map_congr_left; intro j _
  have := wsum_cells s x h.1.bounds.1 (half_bound hn h.1) (j : ℤ)
  unfold w1
  rw [this]; push_cast; rfl

theorem cells_ne_nil (s : Shape) (x : K) : cells s x ≠ [] := by
  cases s <;> simp [cells, wts]

theorem inside_cells {s : Shape} {n : ℕ} (hn : n < 2 ^ 31) {x : K} (h : Inside s n x) {c : ℤ × K} (hc : c ∈ cells s x) :
    inRange (n + 2 * supp s) c.1 = true := by
  by_cases hs : s = .ngp
  · subst hs
    exact cells_inRange_ngp n hn x h.1.1 h.1.2 c hc
  · have := cellRef_bounds hs hn h.1.bounds.1 h.1.bounds.2
    exact cells_inRange s hs n x this.1 this.2 c hc

/-! ### Guards -/

theorem sided_iff {s : Shape} (hs : s ≠ .ngp) {y : K} (h : Sided s y) : 0 ≤ y ↔ 0 ≤ cellRef s y := by
  obtain ⟨h1, h2⟩ := h.resolve_left hs
  constructor
  · exact fun h0 => cellRef_nonneg s h0 h2
  · intro h0
    refine h1.resolve_right fun h3 => absurd h0 (not_le.2 ?_)
    cases s with
    | ngp => exact absurd rfl hs
    | tophat => simp only [lowest] at h3; exact cInt_neg (by linarith)
    | triangle => simp only [lowest] at h3; exact cInt_neg h3
    | spline3 => simp only [lowest] at h3; exact cInt_neg (by linarith)

theorem guard2_second {s : Shape} {n m : ℕ} (hm : m < 2 ^ 31) {x y : K} (h : Inside s m y) : guard2 s n m x y = guard1 s n x := by
  by_cases hs : s = .ngp
  · subst hs
    have h1 := h.1
    simp only [InRange] at h1
    simp [guard2, guard1, h1]
  · have h0 := h.1.bounds.1
    have hc := cellRef_bounds hs hm h0 h.1.bounds.2
    cases s <;> first | contradiction | simp [guard2, guard1, h0, hc]

theorem guard2_first {s : Shape} {n m : ℕ} (hn : n < 2 ^ 31) {x y : K} (h : Inside s n x) (hy : Sided s y) :
    guard2 s n m x y = guard1 s m y := by
  by_cases hs : s = .ngp
  · subst hs
    have h1 := h.1
    simp only [InRange] at h1
    simp [guard2, guard1, h1]
  · have hc := cellRef_bounds hs hn h.1.bounds.1 h.1.bounds.2
    have hi := sided_iff hs hy
    cases s <;> first | contradiction | simp [guard2, guard1, hi, hc]

theorem guard3_third {s : Shape} {n m l : ℕ} (hl : l < 2 ^ 31) {x y z : K} (h : Inside s l z) :
    guard3 s n m l x y z = guard2 s n m x y := by
  by_cases hs : s = .ngp
  · subst hs
    have h1 := h.1
    simp only [InRange] at h1
    simp [guard3, guard2, h1]
  · have h0 := h.1.bounds.1
    have hc := cellRef_bounds hs hl h0 h.1.bounds.2
    cases s <;> first | contradiction | simp [guard3, guard2, h0, hc]

theorem guard3_second {s : Shape} {n m l : ℕ} (hm : m < 2 ^ 31) {x y z : K} (h : Inside s m y) (hz : s = .tophat ∨ Sided s z) :
    guard3 s n m l x y z = guard2 s n l x z := by
  by_cases hs : s = .ngp
  · subst hs
    have h1 := h.1
    simp only [InRange] at h1
    simp [guard3, guard2, h1]
  · have h0 := h.1.bounds.1
    have hc := cellRef_bounds hs hm h0 h.1.bounds.2
    by_cases ht : s = .tophat
    · subst ht
      rw [Bool.eq_iff_iff]
      simp [guard3, guard2, h0, hc]
      tauto
    · have hi := sided_iff hs (hz.resolve_left ht)
      rw [Bool.eq_iff_iff]
      cases s <;> first | contradiction | (simp [guard3, guard2, h0, hc, hi])

theorem guard3_first {s : Shape} {n m l : ℕ} (hn : n < 2 ^ 31) {x y z : K} (h : Inside s n x) (hy : Sided s y)
    (hz : s = .tophat ∨ Sided s z) : guard3 s n m l x y z = guard2 s m l y z := by
  by_cases hs : s = .ngp
  · subst hs
    have h1 := h.1
    simp only [InRange] at h1
    simp [guard3, guard2, h1]
  · have hc := cellRef_bounds hs hn h.1.bounds.1 h.1.bounds.2
    have hiy := sided_iff hs hy
    by_cases ht : s = .tophat
    · subst ht
      rw [Bool.eq_iff_iff]
      simp [guard3, guard2, hc, hiy]
      tauto
    · have hi := sided_iff hs (hz.resolve_left ht)
      rw [Bool.eq_iff_iff]
      cases s <;> first | contradiction | (simp [guard3, guard2, hc, hi, hiy])

/-! ### Values and addresses of one particle -/

theorem wsum_c1' (s : Shape) (n : ℕ) (r : K × K) (p : K × K) (j : ℕ) :
    wsum (c1 s n r p) ((supp s : ℤ) + j) =
      if guard1 s n (scaled r n p.1) then w1 s (scaled r n p.1) j * p.2 else 0 := by
  unfold c1
  split
  · rw [wsum_scale]; rfl
  · rfl

theorem wsum_c2' (s : Shape) (n m : ℕ) (rx ry : K × K) (p : (K × K) × K) (i j : ℕ) :
    wsum (c2 s n m rx ry p) ((supp s : ℤ) + i, (supp s : ℤ) + j) =
      if guard2 s n m (scaled rx n p.1.1) (scaled ry m p.1.2) then
        w1 s (scaled rx n p.1.1) i * w1 s (scaled ry m p.1.2) j * p.2 else 0 := by
  unfold c2
  split
  · rw [wsum_prod]; rfl
  · rfl

theorem wsum_c3' (s : Shape) (n m l : ℕ) (rx ry rz : K × K) (p : (K × K × K) × K) (i j k : ℕ) :
    wsum (c3 s n m l rx ry rz p) ((supp s : ℤ) + i, (supp s : ℤ) + j, (supp s : ℤ) + k) =
      if guard3 s n m l (scaled rx n p.1.1) (scaled ry m p.1.2.1) (scaled rz l p.1.2.2) then
        w1 s (scaled rx n p.1.1) i * w1 s (scaled ry m p.1.2.1) j * w1 s (scaled rz l p.1.2.2) k * p.2 else 0 := by
  unfold c3
  split
  · rw [wsum_prod3]; rfl
  · rfl

/-- All writes of a shape along one axis go to allocated cells. -/
def Safe (s : Shape) (n : ℕ) (x : K) : Prop := ∀ c ∈ cells s x, inRange (n + 2 * supp s) c.1 = true

theorem inside_safe {s : Shape} {n : ℕ} (hn : n < 2 ^ 31) {x : K} (h : Inside s n x) : Safe s n x := fun _ hc => inside_cells hn h hc

theorem safe2_iff (s : Shape) (n m : ℕ) (rx ry : K × K) (p : (K × K) × K) :
    (∀ w ∈ c2 s n m rx ry p, (inRange (n + 2 * supp s) w.1.1 && inRange (m + 2 * supp s) w.1.2) = true) ↔
      (guard2 s n m (scaled rx n p.1.1) (scaled ry m p.1.2) = true →
        Safe s n (scaled rx n p.1.1) ∧ Safe s m (scaled ry m p.1.2)) := by
  unfold c2 Safe
  by_cases hg : guard2 s n m (scaled rx n p.1.1) (scaled ry m p.1.2) = true
  · rw [if_pos hg]
    simp only [hg, true_imp_iff, List.mem_flatMap, List.mem_map, Bool.and_eq_true]
    obtain ⟨a, ha⟩ := List.exists_mem_of_ne_nil _ (cells_ne_nil s (scaled rx n p.1.1))
    obtain ⟨b, hb⟩ := List.exists_mem_of_ne_nil _ (cells_ne_nil s (scaled ry m p.1.2))
    constructor
    · intro h
      exact ⟨fun c hc => (h _ ⟨c, hc, b, hb, rfl⟩).1, fun c hc => (h _ ⟨a, ha, c, hc, rfl⟩).2⟩
    · rintro ⟨h1, h2⟩ w ⟨c, hc, d, hd, rfl⟩
      exact ⟨h1 c hc, h2 d hd⟩
  · rw [if_neg hg]
    simp [hg]

theorem safe3_iff (s : Shape) (n m l : ℕ) (rx ry rz : K × K) (p : (K × K × K) × K) :
    (∀ w ∈ c3 s n m l rx ry rz p, (inRange (n + 2 * supp s) w.1.1 && (inRange (m + 2 * supp s) w.1.2.1 &&
        inRange (l + 2 * supp s) w.1.2.2)) = true) ↔
      (guard3 s n m l (scaled rx n p.1.1) (scaled ry m p.1.2.1) (scaled rz l p.1.2.2) = true →
        Safe s n (scaled rx n p.1.1) ∧ Safe s m (scaled ry m p.1.2.1) ∧ Safe s l (scaled rz l p.1.2.2)) := by
  unfold c3 Safe
  by_cases hg : guard3 s n m l (scaled rx n p.1.1) (scaled ry m p.1.2.1) (scaled rz l p.1.2.2) = true
  · rw [if_pos hg]
    simp only [hg, true_imp_iff, List.mem_flatMap, List.mem_map, Bool.and_eq_true]
    obtain ⟨a, ha⟩ := List.exists_mem_of_ne_nil _ (cells_ne_nil s (scaled rx n p.1.1))
    obtain ⟨b, hb⟩ := List.exists_mem_of_ne_nil _ (cells_ne_nil s (scaled ry m p.1.2.1))
    obtain ⟨d, hd⟩ := List.exists_mem_of_ne_nil _ (cells_ne_nil s (scaled rz l p.1.2.2))
    constructor
    · intro h
      exact ⟨fun c hc => (h _ ⟨c, hc, b, hb, d, hd, rfl⟩).1, fun c hc => (h _ ⟨a, ha, c, hc, d, hd, rfl⟩).2.1,
        fun c hc => (h _ ⟨a, ha, b, hb, c, hc, rfl⟩).2.2⟩
    · rintro ⟨h1, h2, h3⟩ w ⟨c, hc, d, hd, e, he, rfl⟩
      exact ⟨h1 c hc, h2 d hd, h3 e he⟩
  · rw [if_neg hg]
    simp [hg]

/-! ### Lists -/

theorem zip_first (a b w : List K) (h : a.length = b.length) :
    a.zip w = ((a.zip b).zip w).map fun p => (p.1.1, p.2) := by
  induction a generalizing b w with
  | nil => simp
  | cons x a ih =>
    cases b with
    | nil => simp at h
    | cons y b =>
      cases w with
      | nil => simp
      | cons v w => simp at h; simp [ih b w h]

theorem zip_second (a b w : List K) (h : a.length = b.length) :
    b.zip w = ((a.zip b).zip w).map fun p => (p.1.2, p.2) := by
  induction a generalizing b w with
  | nil =>
    cases b with
    | nil => simp
    | cons y b => simp at h
  | cons x a ih =>
    cases b with
    | nil => simp
    | cons y b =>
      cases w with
      | nil => simp
      | cons v w => simp at h; simp [ih b w h]

theorem zip3 (a b c w : List K) (h : a.length = b.length) (h' : a.length = c.length) :
    (a.zip b).zip w = ((a.zip (b.zip c)).zip w).map (fun p => ((p.1.1, p.1.2.1), p.2)) ∧
    (a.zip c).zip w = ((a.zip (b.zip c)).zip w).map (fun p => ((p.1.1, p.1.2.2), p.2)) ∧
    (b.zip c).zip w = ((a.zip (b.zip c)).zip w).map (fun p => ((p.1.2.1, p.1.2.2), p.2)) := by
  induction a generalizing b c w with
  | nil =>
    cases b with
    | nil => simp
    | cons y b => simp at h
  | cons x a ih =>
    cases b with
    | nil => simp at h
    | cons y b =>
      cases c with
      | nil => simp at h'
      | cons z c =>
        cases w with
        | nil => simp
        | cons v w =>
          simp at h h'
          obtain ⟨h1, h2, h3⟩ := ih b c w h h'
          refine ⟨?_, ?_, ?_⟩ <;> simp [h1, h2, h3]

end Postpic.Histogram
