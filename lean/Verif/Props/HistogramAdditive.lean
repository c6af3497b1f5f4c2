import Mathlib.Algebra.BigOperators.Group.List.Basic
import Verif.Props.Histogram

/-!
# C03: particle histograms are additive and independent of the order of the particles

The particles are given by columns and a list of weights; `Args1/2/3` are the usual arguments.
Particles may lie anywhere, also outside of the range. Where a write outside of the arrays is
possible (C02) the theorems speak of the executions in which it does not happen; reordering
preserves even this.
-/

set_option linter.unusedSectionVars false

set_option autoImplicit false

namespace Postpic.Props

open Postpic Postpic.Spec Postpic.Histogram

variable {K : Type*} [Field K] [LinearOrder K] [IsStrictOrderedRing K] [FloorRing K]

/-- Entrywise sum of two arrays. -/
def add1 (a b : List K) : List K := List.zipWith (· + ·) a b
/-- Entrywise sum of two 2D arrays. -/
def add2 (a b : List (List K)) : List (List K) := List.zipWith add1 a b
/-- Entrywise sum of two 3D arrays. -/
def add3 (a b : List (List (List K))) : List (List (List K)) := List.zipWith add2 a b

theorem zipWith_map_range {α β γ : Type*} (n : ℕ) (f : ℕ → α) (g : ℕ → β) (h : α → β → γ) :
    List.zipWith h ((List.range n).map f) ((List.range n).map g)
      = (List.range n).map fun i => h (f i) (g i) := by
  rw [List.zipWith_map]
  induction (List.range n) with
  | nil => rfl
  | cons a l ih => simp

theorem ok_if {c : Prop} [Decidable c] {α : Type*} {a b : α} {e : Err}
    (h : (if c then Except.ok a else .error e : Res α) = .ok b) : c ∧ a = b := by
  by_cases hc : c
  · rw [if_pos hc] at h; exact ⟨hc, by simpa using h⟩
  · rw [if_neg hc] at h; simp at h

/-! ## Adding particles -/

/-- 1D: the histogram of the union of two lists of particles is the sum of their histograms. -/
theorem histogram_additive (spacing : K → K) (s : Shape) (d₁ d₂ w₁ w₂ : List K) (r : K × K)
    (bins : ℕ) (h₁ : Args1 spacing d₁ r bins (some w₁)) (h₂ : Args1 spacing d₂ r bins (some w₂)) :
    ∃ a b e, histogram spacing s d₁ r bins (some w₁) = .ok (a, e) ∧
      histogram spacing s d₂ r bins (some w₂) = .ok (b, e) ∧
      histogram spacing s (d₁ ++ d₂) r bins (some (w₁ ++ w₂)) = .ok (add1 a b, e) := by
  have l₁ := h₁.weights; have l₂ := h₂.weights
  simp only [weightsOf] at l₁ l₂
  have safe : ∀ (ps : List (K × K)), ∀ p ∈ ps, ∀ w ∈ c1 s bins r p,
      inRange (bins + 2 * supp s) w.1 = true :=
    fun ps p _ w hw => c1_inRange s h₁.bins r p w hw
  rw [histogram_closed spacing s d₁ r bins (some w₁) h₁.range h₁.weights.ge, if_pos (safe _),
    histogram_closed spacing s d₂ r bins (some w₂) h₂.range h₂.weights.ge, if_pos (safe _),
    histogram_closed spacing s (d₁ ++ d₂) r bins (some (w₁ ++ w₂)) h₁.range
      (by simp [weightsOf, l₁, l₂]), if_pos (safe _)]
  refine ⟨_, _, _, rfl, rfl, ?_⟩
  simp only [weightsOf, List.zip_append l₁.symm, List.map_append, List.sum_append, grid1, add1,
    zipWith_map_range]

/-- 2D. -/
theorem histogram2d_additive (spacing : K → K) (s : Shape) (x₁ y₁ w₁ x₂ y₂ w₂ : List K)
    (rx ry : K × K) (xb yb : ℕ) (h₁ : Args2 spacing x₁ y₁ rx ry xb yb (some w₁))
    (h₂ : Args2 spacing x₂ y₂ rx ry xb yb (some w₂)) {a b : List (List K)} {e e' : List K × List K}
    (ha : histogram2d spacing s x₁ y₁ rx ry xb yb (some w₁) = .ok (a, e))
    (hb : histogram2d spacing s x₂ y₂ rx ry xb yb (some w₂) = .ok (b, e')) :
    histogram2d spacing s (x₁ ++ x₂) (y₁ ++ y₂) rx ry xb yb (some (w₁ ++ w₂))
      = .ok (add2 a b, e) ∧ e = e' := by
  have l₁ := h₁.weights; have l₂ := h₂.weights
  simp only [weightsOf] at l₁ l₂
  rw [histogram2d_closed spacing s x₁ y₁ rx ry xb yb (some w₁) h₁.len h₁.rangex h₁.rangey
    h₁.weights.ge] at ha
  rw [histogram2d_closed spacing s x₂ y₂ rx ry xb yb (some w₂) h₂.len h₂.rangex h₂.rangey
    h₂.weights.ge] at hb
  obtain ⟨ca, ea⟩ := ok_if ha
  obtain ⟨cb, eb⟩ := ok_if hb
  simp only [Prod.mk.injEq] at ea eb
  rw [histogram2d_closed spacing s (x₁ ++ x₂) (y₁ ++ y₂) rx ry xb yb (some (w₁ ++ w₂))
    (by simp [h₁.len, h₂.len]) h₁.rangex h₁.rangey (by simp [weightsOf, l₁, l₂])]
  have hz : ((x₁ ++ x₂).zip (y₁ ++ y₂)).zip (w₁ ++ w₂)
      = (x₁.zip y₁).zip w₁ ++ (x₂.zip y₂).zip w₂ := by
    rw [List.zip_append h₁.len, List.zip_append (by simp [l₁, ← h₁.len])]
  simp only [weightsOf] at ca cb ea eb
  rw [if_pos]
  · simp only [weightsOf]
    rw [← ea.1, ← eb.1, ← ea.2, ← eb.2, hz]
    simp only [add2, grid2, List.map_append, List.sum_append, zipWith_map_range, add1, and_self]
  · intro p hp
    simp only [weightsOf] at hp
    rw [hz, List.mem_append] at hp
    exact hp.elim (ca p) (cb p)

/-- 3D. -/
theorem histogram3d_additive (spacing : K → K) (s : Shape) (x₁ y₁ z₁ w₁ x₂ y₂ z₂ w₂ : List K)
    (rx ry rz : K × K) (xb yb zb : ℕ)
    (h₁ : Args3 spacing x₁ y₁ z₁ rx ry rz xb yb zb (some w₁))
    (h₂ : Args3 spacing x₂ y₂ z₂ rx ry rz xb yb zb (some w₂)) {a b : List (List (List K))}
    {e e' : List K × List K × List K}
    (ha : histogram3d spacing s x₁ y₁ z₁ rx ry rz xb yb zb (some w₁) = .ok (a, e))
    (hb : histogram3d spacing s x₂ y₂ z₂ rx ry rz xb yb zb (some w₂) = .ok (b, e')) :
    histogram3d spacing s (x₁ ++ x₂) (y₁ ++ y₂) (z₁ ++ z₂) rx ry rz xb yb zb (some (w₁ ++ w₂))
      = .ok (add3 a b, e) ∧ e = e' := by
  have l₁ := h₁.weights; have l₂ := h₂.weights
  simp only [weightsOf] at l₁ l₂
  rw [histogram3d_closed spacing s x₁ y₁ z₁ rx ry rz xb yb zb (some w₁) h₁.len h₁.len' h₁.rangex
    h₁.rangey h₁.rangez h₁.weights.ge] at ha
  rw [histogram3d_closed spacing s x₂ y₂ z₂ rx ry rz xb yb zb (some w₂) h₂.len h₂.len' h₂.rangex
    h₂.rangey h₂.rangez h₂.weights.ge] at hb
  obtain ⟨ca, ea⟩ := ok_if ha
  obtain ⟨cb, eb⟩ := ok_if hb
  simp only [Prod.mk.injEq] at ea eb
  rw [histogram3d_closed spacing s (x₁ ++ x₂) (y₁ ++ y₂) (z₁ ++ z₂) rx ry rz xb yb zb
    (some (w₁ ++ w₂)) (by simp [h₁.len, h₂.len]) (by simp [h₁.len', h₂.len']) h₁.rangex h₁.rangey
    h₁.rangez (by simp [weightsOf, l₁, l₂])]
  have hz : ((x₁ ++ x₂).zip ((y₁ ++ y₂).zip (z₁ ++ z₂))).zip (w₁ ++ w₂)
      = (x₁.zip (y₁.zip z₁)).zip w₁ ++ (x₂.zip (y₂.zip z₂)).zip w₂ := by
    have e1 := h₁.len; have e2 := h₁.len'
    rw [List.zip_append (e1.symm.trans e2), List.zip_append (by simp; omega),
      List.zip_append (by simp; omega)]
  simp only [weightsOf] at ca cb ea eb
  rw [if_pos]
  · simp only [weightsOf]
    rw [← ea.1, ← eb.1, ← ea.2, ← eb.2, hz]
    simp only [add3, add2, grid3, List.map_append, List.sum_append, zipWith_map_range, add1,
      and_self]
  · intro p hp
    simp only [weightsOf] at hp
    rw [hz, List.mem_append] at hp
    exact hp.elim (ca p) (cb p)

/-! ## Reordering particles -/

/-- 1D: any reordering of the particles (with their weights) gives the same histogram. -/
theorem histogram_perm (spacing : K → K) (s : Shape) (d d' w w' : List K) (r : K × K) (bins : ℕ)
    (h : Args1 spacing d r bins (some w)) (h' : Args1 spacing d' r bins (some w'))
    (hp : (d.zip w).Perm (d'.zip w')) :
    histogram spacing s d r bins (some w) = histogram spacing s d' r bins (some w') := by
  rw [histogram_closed spacing s d r bins (some w) h.range h.weights.ge,
    histogram_closed spacing s d' r bins (some w') h'.range h'.weights.ge]
  have hf : ∀ f : K × K → K, ((d.zip w).map f).sum = ((d'.zip w').map f).sum :=
    fun f => (hp.map f).sum_eq
  simp only [weightsOf, hf]
  refine if_congr ?_ rfl rfl
  simp only [hp.mem_iff]

/-- 2D. -/
theorem histogram2d_perm (spacing : K → K) (s : Shape) (x y w x' y' w' : List K) (rx ry : K × K)
    (xb yb : ℕ) (h : Args2 spacing x y rx ry xb yb (some w))
    (h' : Args2 spacing x' y' rx ry xb yb (some w'))
    (hp : ((x.zip y).zip w).Perm ((x'.zip y').zip w')) :
    histogram2d spacing s x y rx ry xb yb (some w)
      = histogram2d spacing s x' y' rx ry xb yb (some w') := by
  rw [histogram2d_closed spacing s x y rx ry xb yb (some w) h.len h.rangex h.rangey h.weights.ge,
    histogram2d_closed spacing s x' y' rx ry xb yb (some w') h'.len h'.rangex h'.rangey
      h'.weights.ge]
  have hf : ∀ f : (K × K) × K → K,
      (((x.zip y).zip w).map f).sum = (((x'.zip y').zip w').map f).sum :=
    fun f => (hp.map f).sum_eq
  simp only [weightsOf, hf]
  refine if_congr ?_ rfl rfl
  simp only [hp.mem_iff]

/-- 3D. -/
theorem histogram3d_perm (spacing : K → K) (s : Shape) (x y z w x' y' z' w' : List K)
    (rx ry rz : K × K) (xb yb zb : ℕ) (h : Args3 spacing x y z rx ry rz xb yb zb (some w))
    (h' : Args3 spacing x' y' z' rx ry rz xb yb zb (some w'))
    (hp : ((x.zip (y.zip z)).zip w).Perm ((x'.zip (y'.zip z')).zip w')) :
    histogram3d spacing s x y z rx ry rz xb yb zb (some w)
      = histogram3d spacing s x' y' z' rx ry rz xb yb zb (some w') := by
  rw [histogram3d_closed spacing s x y z rx ry rz xb yb zb (some w) h.len h.len' h.rangex h.rangey
      h.rangez h.weights.ge,
    histogram3d_closed spacing s x' y' z' rx ry rz xb yb zb (some w') h'.len h'.len' h'.rangex
      h'.rangey h'.rangez h'.weights.ge]
  have hf : ∀ f : (K × K × K) × K → K,
      (((x.zip (y.zip z)).zip w).map f).sum = (((x'.zip (y'.zip z')).zip w').map f).sum :=
    fun f => (hp.map f).sum_eq
  simp only [weightsOf, hf]
  refine if_congr ?_ rfl rfl
  simp only [hp.mem_iff]

example : (([1, 2] : List ℚ).zip [5, 7]).Perm ([2, 1].zip [7, 5]) := by
  simpa using List.Perm.swap _ _ _

/-! ## Scaling weights -/

theorem wsum_smul {ι : Type*} [DecidableEq ι] (c : K) (ws : List (ι × K)) (k : ι) :
    wsum (ws.map fun w => (w.1, c * w.2)) k = c * wsum ws k := by
  induction ws with
  | nil => simp
  | cons w ws ih =>
    simp only [List.map_cons, wsum_cons, ih]
    split_ifs <;> ring

theorem zip_map_right' {α : Type*} (c : K) (a : List α) (w : List K) :
    a.zip (w.map fun v => c * v) = (a.zip w).map fun p => (p.1, c * p.2) := by
  rw [List.zip_map_right]; rfl

/-- 1D: multiplying all weights with `c` multiplies the histogram with `c`. -/
theorem histogram_scale (spacing : K → K) (s : Shape) (d w : List K) (r : K × K) (bins : ℕ) (c : K)
    (h : Args1 spacing d r bins (some w)) :
    ∃ a e, histogram spacing s d r bins (some w) = .ok (a, e) ∧
      histogram spacing s d r bins (some (w.map fun v => c * v))
        = .ok (a.map fun v => c * v, e) := by
  have l := h.weights
  simp only [weightsOf] at l
  have safe : ∀ (ps : List (K × K)), ∀ p ∈ ps, ∀ w ∈ c1 s bins r p,
      inRange (bins + 2 * supp s) w.1 = true :=
    fun ps p _ w hw => c1_inRange s h.bins r p w hw
  have e : ∀ p : K × K, c1 s bins r (p.1, c * p.2)
      = (c1 s bins r p).map fun w => (w.1, c * w.2) := by
    intro p
    unfold c1
    split
    · simp only [List.map_map]; apply List.map_congr_left; intro a _
      simp only [Function.comp, Prod.mk.injEq, true_and]; ring
    · rfl
  rw [histogram_closed spacing s d r bins (some w) h.range h.weights.ge, if_pos (safe _),
    histogram_closed spacing s d r bins (some (w.map fun v => c * v)) h.range
      (by simp [weightsOf, l]), if_pos (safe _)]
  refine ⟨_, _, rfl, ?_⟩
  simp only [weightsOf, zip_map_right', List.map_map, Function.comp_def, e, wsum_smul,
    List.sum_map_mul_left, grid1]

/-- 2D. -/
theorem histogram2d_scale (spacing : K → K) (s : Shape) (x y w : List K) (rx ry : K × K)
    (xb yb : ℕ) (c : K) (h : Args2 spacing x y rx ry xb yb (some w)) {a : List (List K)}
    {e : List K × List K} (ha : histogram2d spacing s x y rx ry xb yb (some w) = .ok (a, e)) :
    histogram2d spacing s x y rx ry xb yb (some (w.map fun v => c * v))
      = .ok (a.map fun row => row.map fun v => c * v, e) := by
  have l := h.weights
  simp only [weightsOf] at l
  have ec : ∀ p : (K × K) × K, c2 s xb yb rx ry (p.1, c * p.2)
      = (c2 s xb yb rx ry p).map fun w => (w.1, c * w.2) := by
    intro p
    unfold c2
    split
    · simp only [List.map_flatMap, List.map_map, Function.comp_def]
      congr 1; funext cx; apply List.map_congr_left; intro cy _
      simp only [Prod.mk.injEq, true_and]; ring
    · rfl
  rw [histogram2d_closed spacing s x y rx ry xb yb (some w) h.len h.rangex h.rangey
    h.weights.ge] at ha
  obtain ⟨ca, ea⟩ := ok_if ha
  simp only [Prod.mk.injEq] at ea
  rw [histogram2d_closed spacing s x y rx ry xb yb (some (w.map fun v => c * v)) h.len h.rangex
    h.rangey (by simp [weightsOf, l])]
  simp only [weightsOf] at ca ea
  rw [if_pos]
  · simp only [weightsOf, zip_map_right']
    rw [← ea.1, ← ea.2]
    simp only [List.map_map, Function.comp_def, ec, wsum_smul, List.sum_map_mul_left, grid2]
  · intro p hp
    simp only [weightsOf, zip_map_right'] at hp
    rw [List.mem_map] at hp
    obtain ⟨q, hq, rfl⟩ := hp
    intro v hv
    rw [ec, List.mem_map] at hv
    obtain ⟨u, hu, rfl⟩ := hv
    exact ca q hq u hu

/-- 3D. -/
theorem histogram3d_scale (spacing : K → K) (s : Shape) (x y z w : List K) (rx ry rz : K × K)
    (xb yb zb : ℕ) (c : K) (h : Args3 spacing x y z rx ry rz xb yb zb (some w))
    {a : List (List (List K))} {e : List K × List K × List K}
    (ha : histogram3d spacing s x y z rx ry rz xb yb zb (some w) = .ok (a, e)) :
    histogram3d spacing s x y z rx ry rz xb yb zb (some (w.map fun v => c * v))
      = .ok (a.map fun m => m.map fun row => row.map fun v => c * v, e) := by
  have l := h.weights
  simp only [weightsOf] at l
  have ec : ∀ p : (K × K × K) × K, c3 s xb yb zb rx ry rz (p.1, c * p.2)
      = (c3 s xb yb zb rx ry rz p).map fun w => (w.1, c * w.2) := by
    intro p
    unfold c3
    split
    · simp only [List.map_flatMap, List.map_map, Function.comp_def]
      congr 1; funext cx; congr 1; funext cy; apply List.map_congr_left; intro cz _
      simp only [Prod.mk.injEq, true_and]; ring
    · rfl
  rw [histogram3d_closed spacing s x y z rx ry rz xb yb zb (some w) h.len h.len' h.rangex h.rangey
    h.rangez h.weights.ge] at ha
  obtain ⟨ca, ea⟩ := ok_if ha
  simp only [Prod.mk.injEq] at ea
  rw [histogram3d_closed spacing s x y z rx ry rz xb yb zb (some (w.map fun v => c * v)) h.len
    h.len' h.rangex h.rangey h.rangez (by simp [weightsOf, l])]
  simp only [weightsOf] at ca ea
  rw [if_pos]
  · simp only [weightsOf, zip_map_right']
    rw [← ea.1, ← ea.2]
    simp only [List.map_map, Function.comp_def, ec, wsum_smul, List.sum_map_mul_left, grid3]
  · intro p hp
    simp only [weightsOf, zip_map_right'] at hp
    rw [List.mem_map] at hp
    obtain ⟨q, hq, rfl⟩ := hp
    intro v hv
    rw [ec, List.mem_map] at hv
    obtain ⟨u, hu, rfl⟩ := hv
    exact ca q hq u hu

/-- The 2D and 3D theorems are about executions that happen: two particles, one of them outside
of the range. -/
example : ∃ a e, histogram2d (fun _ => (1 / 1000 : ℚ)) .triangle [1, 7] [1, 1 / 2] (0, 2) (0, 2) 2 2
    (some [1, 3]) = .ok (a, e) := by
  have h : Args2 (fun _ => (1 / 1000 : ℚ)) [1, 7] [1, 1 / 2] (0, 2) (0, 2) 2 2 (some [1, 3]) :=
    ⟨rfl, ⟨by norm_num, by norm_num⟩, ⟨by norm_num, by norm_num⟩, by norm_num, by norm_num, rfl⟩
  obtain ⟨a, ex, ey, h, _⟩ := histogram2d_memory_safe_partial _ .triangle _ _ _ _ _ _ _ h
    (Or.inr (by intro d hd; simp at hd; rcases hd with rfl | rfl <;> simp [scaled] <;> norm_num))
  exact ⟨a, (ex, ey), h⟩

/-! ### The theorems applied -/

/-- The particles of the samples in another order. -/
theorem args1_other : Args1 (fun _ => (1 / 1000 : ℚ)) [5 / 2, -20, 1] (0, 4) 4 (some [3, 4, 2]) := ⟨⟨by norm_num, by norm_num⟩, by norm_num, rfl⟩
theorem args2_other : Args2 (fun _ => (1 / 1000 : ℚ)) [5 / 2, -20, 1] [1, 3, 2] (0, 4) (-1, 5) 4 3 (some [3, 4, 2]) :=
  ⟨rfl, ⟨by norm_num, by norm_num⟩, ⟨by norm_num, by norm_num⟩, by norm_num, by norm_num, rfl⟩
theorem args3_other : Args3 (fun _ => (1 / 1000 : ℚ)) [5 / 2, -20, 1] [1, 3, 2] [2, 3, 1] (0, 4) (-1, 5) (0, 4) 4 3 5 (some [3, 4, 2]) :=
  ⟨rfl, rfl, ⟨by norm_num, by norm_num⟩, ⟨by norm_num, by norm_num⟩, ⟨by norm_num, by norm_num⟩, by norm_num, by norm_num, by norm_num, rfl⟩

example := histogram_additive _ .spline3 _ _ _ _ _ _ args1_sample args1_inside
example := histogram2d_additive _ .triangle _ _ _ _ _ _ _ _ _ _ args2_sample args2_inside
  (histogram2d_clear _ .triangle _ _ _ _ _ _ _ args2_sample (by decide +kernel) (by decide +kernel))
  (histogram2d_clear _ .triangle _ _ _ _ _ _ _ args2_inside (by decide +kernel) (by decide +kernel))
example := histogram3d_additive _ .tophat _ _ _ _ _ _ _ _ _ _ _ _ _ _ args3_sample args3_inside
  (histogram3d_clear _ .tophat _ _ _ _ _ _ _ _ _ _ args3_sample (by decide +kernel) (by decide +kernel) (by decide +kernel))
  (histogram3d_clear _ .tophat _ _ _ _ _ _ _ _ _ _ args3_inside (by decide +kernel) (by decide +kernel) (by decide +kernel))
example := histogram_perm _ .triangle _ _ _ _ _ _ args1_sample args1_other (by decide +kernel)
example := histogram2d_perm _ .triangle _ _ _ _ _ _ _ _ _ _ args2_sample args2_other (by decide +kernel)
example := histogram3d_perm _ .tophat _ _ _ _ _ _ _ _ _ _ _ _ _ _ args3_sample args3_other (by decide +kernel)
example := histogram_scale _ .spline3 _ _ _ _ (-5) args1_sample
example := histogram2d_scale _ .triangle _ _ _ _ _ _ _ (-5) args2_sample
  (histogram2d_clear _ .triangle _ _ _ _ _ _ _ args2_sample (by decide +kernel) (by decide +kernel))
example := histogram3d_scale _ .tophat _ _ _ _ _ _ _ _ _ _ (-5) args3_sample
  (histogram3d_clear _ .tophat _ _ _ _ _ _ _ _ _ _ args3_sample (by decide +kernel) (by decide +kernel) (by decide +kernel))

end Postpic.Props
