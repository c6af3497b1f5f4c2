import Verif.Props.HistogramAdditive
import Verif.Props.Histogramdd
import Verif.Spec.HistogramLaws

/-!
# Laws of the particle histograms (C111 – C113)

Linear in the weights, independent of the units of the coordinates, and for order 0 compatible with merging bins. The particles may lie
anywhere, also outside of the range.
-/

set_option linter.unusedSectionVars false

set_option autoImplicit false

namespace Postpic.Props

open Postpic Postpic.Spec Postpic.Histogram

variable {K : Type*} [_root_.Field K] [LinearOrder K] [IsStrictOrderedRing K] [FloorRing K]

/-! ## C111: linear in the weights -/

theorem wsum_c1_add (s : Shape) (bins : ℕ) (r : K × K) (d w v : K) (k : ℤ) :
    wsum (c1 s bins r (d, w + v)) k = wsum (c1 s bins r (d, w)) k + wsum (c1 s bins r (d, v)) k := by
  unfold c1
  split
  · simp only
    induction cells s (scaled r bins d) with
    | nil => simp
    | cons c l ih => simp only [List.map_cons, wsum_cons, ih]; split_ifs <;> ring
  · simp

theorem zip_sums {α : Type*} (d : List α) (w v : List K) (f : α × K → K) (hf : ∀ a x y, f (a, x + y) = f (a, x) + f (a, y))
    (hw : w.length = d.length) (hv : v.length = d.length) :
    ((d.zip (List.zipWith (· + ·) w v)).map f).sum = ((d.zip w).map f).sum + ((d.zip v).map f).sum := by
  induction d generalizing w v with
  | nil => simp
  | cons a d ih =>
    cases w with
    | nil => simp at hw
    | cons x w =>
      cases v with
      | nil => simp at hv
      | cons y v =>
        simp only [List.zipWith_cons_cons, List.zip_cons_cons, List.map_cons, List.sum_cons, hf]
        rw [ih w v (by simpa using hw) (by simpa using hv)]
        ring

/-- 1D: with the sum of two lists of weights, the histogram is the sum of the histograms. -/
theorem histogram_weights_add (spacing : K → K) (s : Shape) (d w v : List K) (r : K × K) (bins : ℕ)
    (hw : Args1 spacing d r bins (some w)) (hv : Args1 spacing d r bins (some v)) :
    ∃ a b e, histogram spacing s d r bins (some w) = .ok (a, e) ∧ histogram spacing s d r bins (some v) = .ok (b, e) ∧
      histogram spacing s d r bins (some (List.zipWith (· + ·) w v)) = .ok (add1 a b, e) := by
  have l₁ := hw.weights; have l₂ := hv.weights
  simp only [weightsOf] at l₁ l₂
  have safe : ∀ (ps : List (K × K)), ∀ p ∈ ps, ∀ w ∈ c1 s bins r p, inRange (bins + 2 * supp s) w.1 = true :=
    fun ps p _ w hw' => c1_inRange s hw.bins r p w hw'
  rw [histogram_closed spacing s d r bins (some w) hw.range hw.weights.ge, if_pos (safe _),
    histogram_closed spacing s d r bins (some v) hw.range hv.weights.ge, if_pos (safe _),
    histogram_closed spacing s d r bins (some (List.zipWith (· + ·) w v)) hw.range (by simp [weightsOf, l₁, l₂]), if_pos (safe _)]
  refine ⟨_, _, _, rfl, rfl, ?_⟩
  simp only [weightsOf, grid1, add1, zipWith_map_range, Except.ok.injEq, Prod.mk.injEq, and_true]
  apply List.map_congr_left
  intro i _
  exact zip_sums d w v _ (fun a x y => wsum_c1_add s bins r a x y _) l₁ l₂

theorem wsum_map_add {ι : Type*} [DecidableEq ι] (l : List (ι × K)) (w v : K) (k : ι) :
    wsum (l.map fun c => (c.1, c.2 * (w + v))) k = wsum (l.map fun c => (c.1, c.2 * w)) k + wsum (l.map fun c => (c.1, c.2 * v)) k := by
  induction l with
  | nil => simp
  | cons c l ih => simp only [List.map_cons, wsum_cons, ih]; split_ifs <;> ring

theorem c2_map (s : Shape) (xb yb : ℕ) (rx ry : K × K) (d : K × K) (w : K) :
    c2 s xb yb rx ry (d, w) = (c2 s xb yb rx ry (d, 1)).map fun c => (c.1, c.2 * w) := by
  unfold c2
  split
  · simp only [List.map_flatMap, List.map_map, Function.comp_def, mul_one]
  · rfl

theorem c3_map (s : Shape) (xb yb zb : ℕ) (rx ry rz : K × K) (d : K × K × K) (w : K) :
    c3 s xb yb zb rx ry rz (d, w) = (c3 s xb yb zb rx ry rz (d, 1)).map fun c => (c.1, c.2 * w) := by
  unfold c3
  split
  · simp only [List.map_flatMap, List.map_map, Function.comp_def, mul_one]
  · rfl

theorem mem_zip_weights {α : Type*} (d : List α) (w v : List K) (h : d.length ≤ v.length) {p : α × K} (hp : p ∈ d.zip w) :
    ∃ x, (p.1, x) ∈ d.zip v := by
  obtain ⟨i, hi, rfl⟩ := List.mem_iff_getElem.1 hp
  simp only [List.length_zip, lt_inf_iff] at hi
  refine ⟨v[i]'(by omega), List.mem_iff_getElem.2 ⟨i, by simp; omega, by simp⟩⟩

/-- 2D: if the two histograms are calculated, so is the one with the sum of the weights, and it is their sum. -/
theorem histogram2d_weights_add (spacing : K → K) (s : Shape) (x y w v : List K) (rx ry : K × K) (xb yb : ℕ)
    (hw : Args2 spacing x y rx ry xb yb (some w)) (hv : Args2 spacing x y rx ry xb yb (some v))
    {a b : List (List K)} {e e' : List K × List K}
    (ha : histogram2d spacing s x y rx ry xb yb (some w) = .ok (a, e))
    (hb : histogram2d spacing s x y rx ry xb yb (some v) = .ok (b, e')) :
    histogram2d spacing s x y rx ry xb yb (some (List.zipWith (· + ·) w v)) = .ok (add2 a b, e) ∧ e = e' := by
  have l₁ := hw.weights; have l₂ := hv.weights
  simp only [weightsOf] at l₁ l₂
  rw [histogram2d_closed spacing s x y rx ry xb yb (some w) hw.len hw.rangex hw.rangey hw.weights.ge] at ha
  rw [histogram2d_closed spacing s x y rx ry xb yb (some v) hw.len hw.rangex hw.rangey hv.weights.ge] at hb
  obtain ⟨ca, ea⟩ := ok_if ha
  obtain ⟨-, eb⟩ := ok_if hb
  simp only [Prod.mk.injEq] at ea eb
  rw [histogram2d_closed spacing s x y rx ry xb yb (some (List.zipWith (· + ·) w v)) hw.len hw.rangex hw.rangey
    (by simp [weightsOf, l₁, l₂]), if_pos]
  · rw [← ea.1, ← eb.1, ← ea.2, ← eb.2]
    simp only [weightsOf, grid2, add2, add1, zipWith_map_range, Except.ok.injEq, Prod.mk.injEq, and_true, and_self]
    apply List.map_congr_left; intro i _
    apply List.map_congr_left; intro j _
    exact zip_sums (x.zip y) w v _ (fun a x y => by rw [c2_map, wsum_map_add, ← c2_map, ← c2_map])
      (by simp [l₁, ← hw.len]) (by simp [l₂, ← hw.len])
  · intro p hp c hc
    obtain ⟨u, hu⟩ := mem_zip_weights (x.zip y) _ w (by simp [l₁]) hp
    obtain ⟨d, q⟩ := p
    rw [c2_map, List.mem_map] at hc
    obtain ⟨c', hc', rfl⟩ := hc
    have := ca (d, u) hu (c'.1, c'.2 * u) (by rw [c2_map]; exact List.mem_map_of_mem (f := fun c => (c.1, c.2 * u)) hc')
    exact this

/-- 3D. -/
theorem histogram3d_weights_add (spacing : K → K) (s : Shape) (x y z w v : List K) (rx ry rz : K × K) (xb yb zb : ℕ)
    (hw : Args3 spacing x y z rx ry rz xb yb zb (some w)) (hv : Args3 spacing x y z rx ry rz xb yb zb (some v))
    {a b : List (List (List K))} {e e' : List K × List K × List K}
    (ha : histogram3d spacing s x y z rx ry rz xb yb zb (some w) = .ok (a, e))
    (hb : histogram3d spacing s x y z rx ry rz xb yb zb (some v) = .ok (b, e')) :
    histogram3d spacing s x y z rx ry rz xb yb zb (some (List.zipWith (· + ·) w v)) = .ok (add3 a b, e) ∧ e = e' := by
  have l₁ := hw.weights; have l₂ := hv.weights
  simp only [weightsOf] at l₁ l₂
  have n1 := hw.len; have n2 := hw.len'
  rw [histogram3d_closed spacing s x y z rx ry rz xb yb zb (some w) hw.len hw.len' hw.rangex hw.rangey hw.rangez hw.weights.ge] at ha
  rw [histogram3d_closed spacing s x y z rx ry rz xb yb zb (some v) hw.len hw.len' hw.rangex hw.rangey hw.rangez hv.weights.ge] at hb
  obtain ⟨ca, ea⟩ := ok_if ha
  obtain ⟨-, eb⟩ := ok_if hb
  simp only [Prod.mk.injEq] at ea eb
  rw [histogram3d_closed spacing s x y z rx ry rz xb yb zb (some (List.zipWith (· + ·) w v)) hw.len hw.len' hw.rangex hw.rangey
    hw.rangez (by simp [weightsOf, l₁, l₂]), if_pos]
  · rw [← ea.1, ← eb.1, ← ea.2, ← eb.2]
    simp only [weightsOf, grid3, add3, add2, add1, zipWith_map_range, Except.ok.injEq, Prod.mk.injEq, and_true, and_self]
    apply List.map_congr_left; intro i _
    apply List.map_congr_left; intro j _
    apply List.map_congr_left; intro k _
    exact zip_sums (x.zip (y.zip z)) w v _ (fun a x y => by rw [c3_map, wsum_map_add, ← c3_map, ← c3_map])
      (by simp [l₁]; omega) (by simp [l₂]; omega)
  · intro p hp c hc
    obtain ⟨u, hu⟩ := mem_zip_weights (x.zip (y.zip z)) _ w (by simp [l₁]) hp
    obtain ⟨d, q⟩ := p
    rw [c3_map, List.mem_map] at hc
    obtain ⟨c', hc', rfl⟩ := hc
    have := ca (d, u) hu (c'.1, c'.2 * u) (by rw [c3_map]; exact List.mem_map_of_mem (f := fun c => (c.1, c.2 * u)) hc')
    exact this

/-- Without weights, all weights are 1. -/
theorem histogram_weights_none (spacing : K → K) (s : Shape) (d : List K) (r : K × K) (bins : ℕ) (hr : Proper spacing r) :
    histogram spacing s d r bins none = histogram spacing s d r bins (some (List.replicate d.length 1)) := by
  rw [histogram_closed spacing s d r bins none hr (by simp [weightsOf]),
    histogram_closed spacing s d r bins (some (List.replicate d.length 1)) hr (by simp [weightsOf])]
  rfl

/-- 2D. -/
theorem histogram2d_weights_none (spacing : K → K) (s : Shape) (x y : List K) (rx ry : K × K) (xb yb : ℕ)
    (hl : x.length = y.length) (hx : Proper spacing rx) (hy : Proper spacing ry) :
    histogram2d spacing s x y rx ry xb yb none = histogram2d spacing s x y rx ry xb yb (some (List.replicate x.length 1)) := by
  rw [histogram2d_closed spacing s x y rx ry xb yb none hl hx hy (by simp [weightsOf]),
    histogram2d_closed spacing s x y rx ry xb yb (some (List.replicate x.length 1)) hl hx hy (by simp [weightsOf])]
  rfl

/-- 3D. -/
theorem histogram3d_weights_none (spacing : K → K) (s : Shape) (x y z : List K) (rx ry rz : K × K) (xb yb zb : ℕ)
    (hl : x.length = y.length) (hl' : x.length = z.length) (hx : Proper spacing rx) (hy : Proper spacing ry) (hz : Proper spacing rz) :
    histogram3d spacing s x y z rx ry rz xb yb zb none =
      histogram3d spacing s x y z rx ry rz xb yb zb (some (List.replicate x.length 1)) := by
  rw [histogram3d_closed spacing s x y z rx ry rz xb yb zb none hl hl' hx hy hz (by simp [weightsOf]),
    histogram3d_closed spacing s x y z rx ry rz xb yb zb (some (List.replicate x.length 1)) hl hl' hx hy hz (by simp [weightsOf])]
  rfl

/-- Three particles, one of them below the range, with two lists of weights. -/
example : Args1 (fun _ => (1 / 1000 : ℚ)) [1, 5 / 2, -7] (0, 4) 4 (some [2, 3, 1]) ∧
    Args1 (fun _ => (1 / 1000 : ℚ)) [1, 5 / 2, -7] (0, 4) 4 (some [-1, 1, 1]) ∧
    histogram (fun _ => (1 / 1000 : ℚ)) .tophat [1, 5 / 2, -7] (0, 4) 4 (some [1, 4, 2]) = .ok ([1 / 2, 1 / 2, 4, 0], [0, 1, 2, 3, 4]) := by
  refine ⟨⟨⟨by norm_num, by norm_num⟩, by norm_num, by simp [weightsOf]⟩,
    ⟨⟨by norm_num, by norm_num⟩, by norm_num, by simp [weightsOf]⟩, by decide +kernel⟩

/-! ## C112: independent of the units -/

theorem scaled_units (a b : K) (ha : a ≠ 0) (r : K × K) (n : ℕ) (d : K) :
    scaled (rangeInUnits a b r) n (inUnits a b d) = scaled r n d := by
  unfold scaled rangeInUnits inUnits
  rw [show a * d + b - (a * r.1 + b) = a * (d - r.1) by ring, show a * r.2 + b - (a * r.1 + b) = a * (r.2 - r.1) by ring,
    mul_div_mul_left _ _ ha]

theorem binEdges_units (a b : K) (r : K × K) (n : ℕ) :
    binEdges (rangeInUnits a b r) n = (binEdges r n).map (inUnits a b) := by
  simp only [binEdges, List.map_map]
  apply List.map_congr_left
  intro i _
  simp only [rangeInUnits, inUnits, Function.comp]
  ring

theorem zip_units (a b : K) (d w : List K) : (d.map (inUnits a b)).zip w = (d.zip w).map fun p => (inUnits a b p.1, p.2) := by
  rw [List.zip_map_left]; rfl

theorem c1_units (a b : K) (ha : a ≠ 0) (s : Shape) (n : ℕ) (r : K × K) (p : K × K) :
    c1 s n (rangeInUnits a b r) (inUnits a b p.1, p.2) = c1 s n r p := by
  simp only [c1, scaled_units a b ha]

/-- 1D: expressing the positions and the range in other units leaves the bins as they are; the edges are the edges in the other
units. -/
theorem histogram_units (spacing : K → K) (s : Shape) (d : List K) (r : K × K) (bins : ℕ) (weights : Option (List K)) (a b : K)
    (ha : a ≠ 0) (h : Args1 spacing d r bins weights) (hr : Proper spacing (rangeInUnits a b r)) :
    ∃ c e, histogram spacing s d r bins weights = .ok (c, e) ∧
      histogram spacing s (d.map (inUnits a b)) (rangeInUnits a b r) bins weights = .ok (c, e.map (inUnits a b)) := by
  have safe : ∀ r : K × K, ∀ (ps : List (K × K)), ∀ p ∈ ps, ∀ w ∈ c1 s bins r p, inRange (bins + 2 * supp s) w.1 = true :=
    fun r ps p _ w hw => c1_inRange s h.bins r p w hw
  have hl : (d.map (inUnits a b)).length = d.length := List.length_map _
  rw [histogram_closed spacing s d r bins weights h.range h.weights.ge, if_pos (safe _ _),
    histogram_closed spacing s _ _ bins weights hr (by rw [hl]; exact h.weights.ge), if_pos (safe _ _), hl]
  refine ⟨_, _, rfl, ?_⟩
  simp only [binEdges_units, zip_units, List.map_map, Function.comp_def, c1_units a b ha]

/-- 2D, with other units along both axes. -/
theorem histogram2d_units (spacing : K → K) (s : Shape) (x y : List K) (rx ry : K × K) (xb yb : ℕ) (weights : Option (List K))
    (a b a' b' : K) (ha : a ≠ 0) (ha' : a' ≠ 0) (h : Args2 spacing x y rx ry xb yb weights)
    (hx : Proper spacing (rangeInUnits a b rx)) (hy : Proper spacing (rangeInUnits a' b' ry)) :
    histogram2d spacing s (x.map (inUnits a b)) (y.map (inUnits a' b')) (rangeInUnits a b rx) (rangeInUnits a' b' ry) xb yb weights =
      (histogram2d spacing s x y rx ry xb yb weights).map fun q =>
        (q.1, q.2.1.map (inUnits a b), q.2.2.map (inUnits a' b')) := by
  have hl : (x.map (inUnits a b)).length = x.length := List.length_map _
  rw [histogram2d_closed spacing s x y rx ry xb yb weights h.len h.rangex h.rangey h.weights.ge,
    histogram2d_closed spacing s _ _ _ _ xb yb weights (by simpa using h.len) hx hy (by rw [hl]; exact h.weights.ge), hl]
  have hz : ((x.map (inUnits a b)).zip (y.map (inUnits a' b'))).zip (weightsOf x.length weights) =
      ((x.zip y).zip (weightsOf x.length weights)).map fun p => ((inUnits a b p.1.1, inUnits a' b' p.1.2), p.2) := by
    rw [List.zip_map, List.zip_map_left]; rfl
  have hc : ∀ p : (K × K) × K, c2 s xb yb (rangeInUnits a b rx) (rangeInUnits a' b' ry)
      ((inUnits a b p.1.1, inUnits a' b' p.1.2), p.2) = c2 s xb yb rx ry p := by
    intro p
    simp only [c2, scaled_units a b ha, scaled_units a' b' ha']
  simp only [hz, List.map_map, Function.comp_def, List.forall_mem_map, hc, binEdges_units]
  split <;> rfl

/-- 3D. -/
theorem histogram3d_units (spacing : K → K) (s : Shape) (x y z : List K) (rx ry rz : K × K) (xb yb zb : ℕ)
    (weights : Option (List K)) (a b a' b' a'' b'' : K) (ha : a ≠ 0) (ha' : a' ≠ 0) (ha'' : a'' ≠ 0)
    (h : Args3 spacing x y z rx ry rz xb yb zb weights) (hx : Proper spacing (rangeInUnits a b rx))
    (hy : Proper spacing (rangeInUnits a' b' ry)) (hz : Proper spacing (rangeInUnits a'' b'' rz)) :
    histogram3d spacing s (x.map (inUnits a b)) (y.map (inUnits a' b')) (z.map (inUnits a'' b'')) (rangeInUnits a b rx)
        (rangeInUnits a' b' ry) (rangeInUnits a'' b'' rz) xb yb zb weights =
      (histogram3d spacing s x y z rx ry rz xb yb zb weights).map fun q =>
        (q.1, q.2.1.map (inUnits a b), q.2.2.1.map (inUnits a' b'), q.2.2.2.map (inUnits a'' b'')) := by
  have hl : (x.map (inUnits a b)).length = x.length := List.length_map _
  rw [histogram3d_closed spacing s x y z rx ry rz xb yb zb weights h.len h.len' h.rangex h.rangey h.rangez h.weights.ge,
    histogram3d_closed spacing s _ _ _ _ _ _ xb yb zb weights (by simpa using h.len) (by simpa using h.len') hx hy hz
      (by rw [hl]; exact h.weights.ge), hl]
  have hzip : ((x.map (inUnits a b)).zip ((y.map (inUnits a' b')).zip (z.map (inUnits a'' b'')))).zip (weightsOf x.length weights) =
      ((x.zip (y.zip z)).zip (weightsOf x.length weights)).map fun p =>
        ((inUnits a b p.1.1, inUnits a' b' p.1.2.1, inUnits a'' b'' p.1.2.2), p.2) := by
    rw [List.zip_map, List.zip_map, List.zip_map_left]; rfl
  have hc : ∀ p : (K × K × K) × K, c3 s xb yb zb (rangeInUnits a b rx) (rangeInUnits a' b' ry) (rangeInUnits a'' b'' rz)
      ((inUnits a b p.1.1, inUnits a' b' p.1.2.1, inUnits a'' b'' p.1.2.2), p.2) = c3 s xb yb zb rx ry rz p := by
    intro p
    simp only [c3, scaled_units a b ha, scaled_units a' b' ha', scaled_units a'' b'' ha'']
  simp only [hzip, List.map_map, Function.comp_def, List.forall_mem_map, hc, binEdges_units]
  split <;> rfl

/-- Two particles in metres and in micrometres. -/
example : Args1 (fun _ => (1 / 1000000000 : ℚ)) [1 / 1000000, 3 / 1000000] (0, 1 / 100000) 5 none ∧
    Proper (fun _ => (1 / 1000000000 : ℚ)) (rangeInUnits 1000000 0 (0, 1 / 100000)) := by
  refine ⟨⟨⟨by norm_num, by norm_num⟩, by norm_num, by simp [weightsOf]⟩, ?_⟩
  constructor <;> norm_num [rangeInUnits, inUnits]

theorem rangeMeans_unique {F : Type} [_root_.Field F] [LinearOrder F] {a b : Option F} {d : List F} {r r' : F × F}
    (h : RangeMeans a b d r) (h' : RangeMeans a b d r') : r = r' := by
  obtain ⟨h1, h2, h3, h4⟩ := h
  obtain ⟨g1, g2, g3, g4⟩ := h'
  refine Prod.ext ?_ ?_
  · cases a with
    | none => exact le_antisymm ((h2 rfl).2 _ (g2 rfl).1) ((g2 rfl).2 _ (h2 rfl).1)
    | some x => rw [h1 x rfl, g1 x rfl]
  · cases b with
    | none => exact le_antisymm ((g4 rfl).2 _ (h4 rfl).1) ((h4 rfl).2 _ (g4 rfl).1)
    | some x => rw [h3 x rfl, g3 x rfl]

theorem rangeMeans_units {F : Type} [_root_.Field F] [LinearOrder F] [IsStrictOrderedRing F] {a b : Option F} {d : List F} {r : F × F}
    (u v : F) (hu : 0 < u) (h : RangeMeans a b d r) :
    RangeMeans (a.map (inUnits u v)) (b.map (inUnits u v)) (d.map (inUnits u v)) (rangeInUnits u v r) := by
  have mono : ∀ x y : F, x ≤ y → inUnits u v x ≤ inUnits u v y := fun x y hxy => by
    unfold inUnits
    have := mul_le_mul_of_nonneg_left hxy hu.le
    linarith
  obtain ⟨h1, h2, h3, h4⟩ := h
  refine ⟨?_, ?_, ?_, ?_⟩
  · intro x hx
    obtain ⟨y, hy, rfl⟩ := Option.map_eq_some_iff.1 hx
    simp only [rangeInUnits, h1 y hy]
  · intro hn
    obtain ⟨p, q⟩ := h2 (by simpa using hn)
    exact ⟨List.mem_map_of_mem p, by
      intro y hy
      obtain ⟨x, hx, rfl⟩ := List.mem_map.1 hy
      exact mono _ _ (q x hx)⟩
  · intro x hx
    obtain ⟨y, hy, rfl⟩ := Option.map_eq_some_iff.1 hx
    simp only [rangeInUnits, h3 y hy]
  · intro hn
    obtain ⟨p, q⟩ := h4 (by simpa using hn)
    exact ⟨List.mem_map_of_mem p, by
      intro y hy
      obtain ⟨x, hx, rfl⟩ := List.mem_map.1 hy
      exact mono _ _ (q x hx)⟩

/-- With missing ends of the range, which are then the smallest and the largest coordinate, the histogram does not depend on the units
either. -/
theorem histogramdd_units {F : Type} [_root_.Field F] [LinearOrder F] [IsStrictOrderedRing F] [FloorRing F] (spacing : F → F)
    (d : List F) (hd : d ≠ []) (a b : Option F) (n : ℕ) (weights : Option (List F)) (s : Shape) (c : ℕ)
    (hs : Shape.ofCode c = some s) (u v : F) (hu : 0 < u)
    (h : ∀ r, RangeMeans a b d r → Args1 spacing d r n weights ∧ Proper spacing (rangeInUnits u v r)) :
    ∃ bins e, histogramdd spacing (.scalars d) (.many [some (a, b)]) (.int n) weights (some c) = .ok (.h1 bins e) ∧
      histogramdd spacing (.scalars (d.map (inUnits u v))) (.many [some (a.map (inUnits u v), b.map (inUnits u v))]) (.int n) weights
        (some c) = .ok (.h1 bins (e.map (inUnits u v))) := by
  obtain ⟨r, hr, e⟩ := histogramdd_range spacing d hd a b n weights s c hs
  obtain ⟨r', hr', e'⟩ := histogramdd_range spacing (d.map (inUnits u v)) (by simpa using hd) (a.map (inUnits u v))
    (b.map (inUnits u v)) n weights s c hs
  rw [rangeMeans_unique hr' (rangeMeans_units u v hu hr)] at e'
  obtain ⟨ha, hp⟩ := h r hr
  obtain ⟨bins, edg, h1, h2⟩ := histogram_units spacing s d r n weights u v hu.ne' ha hp
  refine ⟨bins, edg, ?_, ?_⟩
  · rw [e, h1]; rfl
  · rw [e', h2]; rfl

/-- 2D. -/
theorem histogramdd_units_2d {F : Type} [_root_.Field F] [LinearOrder F] [IsStrictOrderedRing F] [FloorRing F] (spacing : F → F)
    (x y : List F) (hx : x ≠ []) (hy : y ≠ []) (a b a' b' : Option F) (nx ny : ℕ) (weights : Option (List F)) (s : Shape) (c : ℕ)
    (hs : Shape.ofCode c = some s) (u v u' v' : F) (hu : 0 < u) (hu' : 0 < u')
    (h : ∀ rx ry, RangeMeans a b x rx → RangeMeans a' b' y ry → Args2 spacing x y rx ry nx ny weights ∧
      Proper spacing (rangeInUnits u v rx) ∧ Proper spacing (rangeInUnits u' v' ry)) {bins : List (List F)} {e f : List F}
    (hok : histogramdd spacing (.seq [x, y]) (.many [some (a, b), some (a', b')]) (.many [nx, ny]) weights (some c) =
      .ok (.h2 bins e f)) :
    histogramdd spacing (.seq [x.map (inUnits u v), y.map (inUnits u' v')])
        (.many [some (a.map (inUnits u v), b.map (inUnits u v)), some (a'.map (inUnits u' v'), b'.map (inUnits u' v'))])
        (.many [nx, ny]) weights (some c) = .ok (.h2 bins (e.map (inUnits u v)) (f.map (inUnits u' v'))) := by
  obtain ⟨rx, ry, hrx, hry, e1⟩ := histogramdd_2d spacing x y hx hy a b a' b' nx ny weights s c hs
  obtain ⟨rx', ry', hrx', hry', e2⟩ := histogramdd_2d spacing (x.map (inUnits u v)) (y.map (inUnits u' v')) (by simpa using hx)
    (by simpa using hy) (a.map (inUnits u v)) (b.map (inUnits u v)) (a'.map (inUnits u' v')) (b'.map (inUnits u' v')) nx ny weights s c hs
  rw [rangeMeans_unique hrx' (rangeMeans_units u v hu hrx), rangeMeans_unique hry' (rangeMeans_units u' v' hu' hry)] at e2
  obtain ⟨ha, hp, hp'⟩ := h rx ry hrx hry
  rw [histogram2d_units spacing s x y rx ry nx ny weights u v u' v' hu.ne' hu'.ne' ha hp hp'] at e2
  rw [e1] at hok
  rw [e2]
  cases hh : histogram2d spacing s x y rx ry nx ny weights with
  | error err => rw [hh] at hok; simp [Except.map] at hok
  | ok q =>
    rw [hh] at hok
    simp only [Except.map, Except.ok.injEq, Hist.h2.injEq] at hok ⊢
    obtain ⟨rfl, rfl, rfl⟩ := hok
    exact ⟨rfl, rfl, rfl⟩

/-- 3D. -/
theorem histogramdd_units_3d {F : Type} [_root_.Field F] [LinearOrder F] [IsStrictOrderedRing F] [FloorRing F] (spacing : F → F)
    (x y z : List F) (hx : x ≠ []) (hy : y ≠ []) (hz : z ≠ []) (a b a' b' a'' b'' : Option F) (nx ny nz : ℕ)
    (weights : Option (List F)) (s : Shape) (c : ℕ)
    (hs : Shape.ofCode c = some s) (u v u' v' u'' v'' : F) (hu : 0 < u) (hu' : 0 < u') (hu'' : 0 < u'')
    (h : ∀ rx ry rz, RangeMeans a b x rx → RangeMeans a' b' y ry → RangeMeans a'' b'' z rz →
      Args3 spacing x y z rx ry rz nx ny nz weights ∧
      Proper spacing (rangeInUnits u v rx) ∧ Proper spacing (rangeInUnits u' v' ry) ∧ Proper spacing (rangeInUnits u'' v'' rz))
    {bins : List (List (List F))} {e f g : List F}
    (hok : histogramdd spacing (.seq [x, y, z]) (.many [some (a, b), some (a', b'), some (a'', b'')]) (.many [nx, ny, nz]) weights
      (some c) = .ok (.h3 bins e f g)) :
    histogramdd spacing (.seq [x.map (inUnits u v), y.map (inUnits u' v'), z.map (inUnits u'' v'')])
        (.many [some (a.map (inUnits u v), b.map (inUnits u v)), some (a'.map (inUnits u' v'), b'.map (inUnits u' v')),
          some (a''.map (inUnits u'' v''), b''.map (inUnits u'' v''))])
        (.many [nx, ny, nz]) weights (some c) =
      .ok (.h3 bins (e.map (inUnits u v)) (f.map (inUnits u' v')) (g.map (inUnits u'' v''))) := by
  obtain ⟨rx, ry, rz, hrx, hry, hrz, e1⟩ := histogramdd_3d spacing x y z hx hy hz a b a' b' a'' b'' nx ny nz weights s c hs
  obtain ⟨rx', ry', rz', hrx', hry', hrz', e2⟩ := histogramdd_3d spacing (x.map (inUnits u v)) (y.map (inUnits u' v'))
    (z.map (inUnits u'' v'')) (by simpa using hx) (by simpa using hy) (by simpa using hz) (a.map (inUnits u v)) (b.map (inUnits u v))
    (a'.map (inUnits u' v')) (b'.map (inUnits u' v')) (a''.map (inUnits u'' v'')) (b''.map (inUnits u'' v'')) nx ny nz weights s c hs
  rw [rangeMeans_unique hrx' (rangeMeans_units u v hu hrx), rangeMeans_unique hry' (rangeMeans_units u' v' hu' hry),
    rangeMeans_unique hrz' (rangeMeans_units u'' v'' hu'' hrz)] at e2
  obtain ⟨ha, hp, hp', hp''⟩ := h rx ry rz hrx hry hrz
  rw [histogram3d_units spacing s x y z rx ry rz nx ny nz weights u v u' v' u'' v'' hu.ne' hu'.ne' hu''.ne' ha hp hp' hp''] at e2
  rw [e1] at hok
  rw [e2]
  cases hh : histogram3d spacing s x y z rx ry rz nx ny nz weights with
  | error err => rw [hh] at hok; simp [Except.map] at hok
  | ok q =>
    rw [hh] at hok
    simp only [Except.map, Except.ok.injEq, Hist.h3.injEq] at hok ⊢
    obtain ⟨rfl, rfl, rfl, rfl⟩ := hok
    exact ⟨rfl, rfl, rfl, rfl⟩

/-- Two particles and no range. -/
example : ∀ r, RangeMeans none none ([1, 3] : List ℚ) r →
    Args1 (fun _ => (1 / 1000 : ℚ)) [1, 3] r 2 none ∧ Proper (fun _ => (1 / 1000 : ℚ)) (rangeInUnits 10 5 r) := by
  intro r hr
  have : r = (1, 3) := rangeMeans_unique hr ⟨by simp, by simp, by simp, by simp⟩
  subst this
  refine ⟨⟨⟨by norm_num, by norm_num⟩, by norm_num, by simp [weightsOf]⟩, ?_⟩
  constructor <;> norm_num [rangeInUnits, inUnits]

/-! ## C113: merging bins of order 0 -/

theorem scaled_merge (r : K × K) (k n : ℕ) (d : K) : scaled r (k * n) d = k * scaled r n d := by
  unfold scaled; push_cast; ring

theorem cInt_pos {x : K} (h0 : 0 ≤ x) (n : ℕ) (hn : n < 2 ^ 31) (hx : x < n) : cInt x = ⌊x⌋ := by
  have h1 : ⌊x⌋ < (2 : ℤ) ^ 31 := by
    have : ⌊x⌋ < (n : ℤ) := Int.floor_lt.2 (by exact_mod_cast hx)
    have : (n : ℤ) < 2 ^ 31 := by exact_mod_cast hn
    omega
  have h2 : 0 ≤ ⌊x⌋ := Int.floor_nonneg.2 h0
  unfold cInt trunc
  rw [if_pos h0, if_pos ⟨by omega, h1⟩]

/-- One of the `k` small cells in a large cell is the one of the particle, if the large cell is the one of the particle. -/
theorem sum_small_cells (k i : ℕ) (hk : 0 < k) (x v : K) :
    ∑ a ∈ Finset.range k, (if ⌊(k : K) * x⌋ = ((k * i + a : ℕ) : ℤ) then v else 0) = if ⌊x⌋ = (i : ℤ) then v else 0 := by
  have hdiv : ⌊(k : K) * x⌋ / (k : ℤ) = ⌊x⌋ := by
    rw [← Int.floor_div_natCast]
    congr 1
    field_simp
  by_cases h : ⌊x⌋ = (i : ℤ)
  · rw [if_pos h]
    have hm := Int.emod_add_mul_ediv ⌊(k : K) * x⌋ (k : ℤ)
    rw [hdiv, h] at hm
    have h0 := Int.emod_nonneg ⌊(k : K) * x⌋ (b := (k : ℤ)) (by omega)
    have h1 := Int.emod_lt_of_pos ⌊(k : K) * x⌋ (b := (k : ℤ)) (by omega)
    obtain ⟨m, hmm⟩ := Int.eq_ofNat_of_zero_le h0
    rw [Finset.sum_eq_single m]
    · rw [if_pos]
      rw [← hm, hmm]; push_cast; ring
    · intro a _ ha
      rw [if_neg]
      rw [← hm, hmm]; push_cast
      intro hc
      exact ha (by omega)
    · intro hmem
      exact absurd (Finset.mem_range.2 (by omega)) hmem
  · rw [if_neg h]
    apply Finset.sum_eq_zero
    intro a ha
    rw [if_neg]
    intro hc
    apply h
    rw [← hdiv, hc]
    have := Finset.mem_range.1 ha
    push_cast
    rw [Int.mul_add_ediv_left _ _ (by omega : (k : ℤ) ≠ 0), Int.ediv_eq_zero_of_lt (by omega) (by omega), add_zero]

theorem wsum_ngp1 {n : ℕ} (hn : n < 2 ^ 31) (r : K × K) (p : K × K) (i : ℕ) :
    wsum (c1 .ngp n r p) ((supp .ngp : ℤ) + i) =
      if 0 < scaled r n p.1 ∧ scaled r n p.1 < n then (if ⌊scaled r n p.1⌋ = (i : ℤ) then p.2 else 0) else 0 := by
  by_cases h : 0 < scaled r n p.1 ∧ scaled r n p.1 < n
  · have hc := cInt_pos h.1.le n hn h.2
    simp only [c1, guard1, h.1, h.2, decide_true, Bool.and_self, if_true, cells, wts, firstCell, cellRef, hc, supp]
    simp [wsum_cons]
  · rw [if_neg h]
    have : (decide (0 < scaled r n p.1) && decide (scaled r n p.1 < n)) = false := by simpa [not_and] using h
    simp [c1, guard1, this]

theorem wsum_ngp2 {n m : ℕ} (hn : n < 2 ^ 31) (hm : m < 2 ^ 31) (rx ry : K × K) (p : (K × K) × K) (i j : ℕ) :
    wsum (c2 .ngp n m rx ry p) ((supp .ngp : ℤ) + i, (supp .ngp : ℤ) + j) =
      if (0 < scaled rx n p.1.1 ∧ scaled rx n p.1.1 < n) ∧ 0 < scaled ry m p.1.2 ∧ scaled ry m p.1.2 < m then
        (if ⌊scaled rx n p.1.1⌋ = (i : ℤ) then (if ⌊scaled ry m p.1.2⌋ = (j : ℤ) then p.2 else 0) else 0) else 0 := by
  by_cases h : (0 < scaled rx n p.1.1 ∧ scaled rx n p.1.1 < n) ∧ 0 < scaled ry m p.1.2 ∧ scaled ry m p.1.2 < m
  · have hc := cInt_pos h.1.1.le n hn h.1.2
    have hc' := cInt_pos h.2.1.le m hm h.2.2
    simp only [c2, guard2, h.1.1, h.1.2, h.2.1, h.2.2, decide_true, Bool.and_self, if_true, cells, wts, firstCell, cellRef, hc, hc', supp]
    simp [wsum_cons, Prod.ext_iff, ite_and]
  · rw [if_neg h]
    have : guard2 .ngp n m (scaled rx n p.1.1) (scaled ry m p.1.2) = false := by
      simp only [guard2, Bool.and_eq_false_iff, decide_eq_false_iff_not]
      tauto
    simp [c2, this]

theorem wsum_ngp3 {n m l : ℕ} (hn : n < 2 ^ 31) (hm : m < 2 ^ 31) (hl : l < 2 ^ 31) (rx ry rz : K × K) (p : (K × K × K) × K)
    (i j k : ℕ) :
    wsum (c3 .ngp n m l rx ry rz p) ((supp .ngp : ℤ) + i, (supp .ngp : ℤ) + j, (supp .ngp : ℤ) + k) =
      if (0 < scaled rx n p.1.1 ∧ scaled rx n p.1.1 < n) ∧ (0 < scaled ry m p.1.2.1 ∧ scaled ry m p.1.2.1 < m) ∧
          0 < scaled rz l p.1.2.2 ∧ scaled rz l p.1.2.2 < l then
        (if ⌊scaled rx n p.1.1⌋ = (i : ℤ) then (if ⌊scaled ry m p.1.2.1⌋ = (j : ℤ) then
          (if ⌊scaled rz l p.1.2.2⌋ = (k : ℤ) then p.2 else 0) else 0) else 0) else 0 := by
  by_cases h : (0 < scaled rx n p.1.1 ∧ scaled rx n p.1.1 < n) ∧ (0 < scaled ry m p.1.2.1 ∧ scaled ry m p.1.2.1 < m) ∧
      0 < scaled rz l p.1.2.2 ∧ scaled rz l p.1.2.2 < l
  · have hc := cInt_pos h.1.1.le n hn h.1.2
    have hc' := cInt_pos h.2.1.1.le m hm h.2.1.2
    have hc'' := cInt_pos h.2.2.1.le l hl h.2.2.2
    simp only [c3, guard3, h.1.1, h.1.2, h.2.1.1, h.2.1.2, h.2.2.1, h.2.2.2, decide_true, Bool.and_self, if_true, cells, wts, firstCell,
      cellRef, hc, hc', hc'', supp]
    simp [wsum_cons, Prod.ext_iff, ite_and]
  · rw [if_neg h]
    have : guard3 .ngp n m l (scaled rx n p.1.1) (scaled ry m p.1.2.1) (scaled rz l p.1.2.2) = false := by
      simp only [guard3, Bool.and_eq_false_iff, decide_eq_false_iff_not]
      tauto
    simp [c3, this]

theorem inside_merge (k n : ℕ) (hk : 0 < k) (x : K) : (0 < (k : K) * x ∧ (k : K) * x < ((k * n : ℕ) : K)) ↔ (0 < x ∧ x < n) := by
  have hk' : (0 : K) < k := by exact_mod_cast hk
  push_cast
  rw [mul_pos_iff_of_pos_left hk', mul_lt_mul_iff_right₀ hk']

theorem edges_merge (r : K × K) (k n : ℕ) (hk : 0 < k) : everyNth k n (binEdges r (k * n)) = binEdges r n := by
  have hk' : (k : K) ≠ 0 := by exact_mod_cast hk.ne'
  simp only [everyNth, binEdges]
  apply List.map_congr_left
  intro i hi
  have hi' : i < n + 1 := List.mem_range.1 hi
  have : k * i < k * n + 1 := by nlinarith [Nat.mul_le_mul_left k (Nat.lt_succ_iff.1 hi')]
  simp only [List.getD_eq_getElem?_getD, List.getElem?_map, List.getElem?_range this, Option.map_some, Option.getD_some]
  push_cast
  by_cases hn : (n : K) = 0
  · simp [hn]
  · field_simp

theorem getD_grid1 (n : ℕ) (F : ℕ → K) {i : ℕ} (hi : i < n) : (grid1 n F).getD i 0 = F i := by
  simp [grid1, List.getD_eq_getElem?_getD, List.getElem?_range hi]

theorem sum_sum_list {α : Type*} (k : ℕ) (l : List α) (f : ℕ → α → K) :
    ∑ a ∈ Finset.range k, (l.map (f a)).sum = (l.map fun p => ∑ a ∈ Finset.range k, f a p).sum := by
  induction l with
  | nil => simp
  | cons p l ih => simp only [List.map_cons, List.sum_cons, Finset.sum_add_distrib, ih]

theorem small_lt {k i a n : ℕ} (hi : i < n) (ha : a < k) : k * i + a < k * n := by
  have := Nat.mul_le_mul_left k (Nat.succ_le_of_lt hi)
  rw [Nat.mul_succ] at this
  omega

/-- 1D: the sums of `k` neighbouring bins of order 0 are the bins of the histogram with `k` times fewer bins, and every `k`-th edge is an
edge. -/
theorem histogram_merge (spacing : K → K) (d : List K) (r : K × K) (k n : ℕ) (hk : 0 < k) (weights : Option (List K))
    (h : Args1 spacing d r (k * n) weights) :
    ∃ b e, histogram spacing .ngp d r (k * n) weights = .ok (b, e) ∧
      histogram spacing .ngp d r n weights = .ok (merged1 k n b, everyNth k n e) := by
  have hn : n < 2 ^ 31 := lt_of_le_of_lt (Nat.le_mul_of_pos_left n hk) h.bins
  rw [histogram_closed spacing .ngp d r (k * n) weights h.range h.weights.ge,
    if_pos (fun p _ w hw => c1_inRange .ngp h.bins r p w hw),
    histogram_closed spacing .ngp d r n weights h.range h.weights.ge, if_pos (fun p _ w hw => c1_inRange .ngp hn r p w hw)]
  refine ⟨_, _, rfl, ?_⟩
  rw [edges_merge r k n hk]
  simp only [merged1, grid1, Except.ok.injEq, Prod.mk.injEq, and_true]
  apply List.map_congr_left
  intro i hi
  have hi' := List.mem_range.1 hi
  have e : ∀ a ∈ Finset.range k, ((List.range (k * n)).map fun i : ℕ => ((d.zip (weightsOf d.length weights)).map fun p =>
      wsum (c1 .ngp (k * n) r p) ((supp .ngp : ℤ) + i)).sum).getD (k * i + a) 0 =
      ((d.zip (weightsOf d.length weights)).map fun p => wsum (c1 .ngp (k * n) r p) ((supp .ngp : ℤ) + ((k * i + a : ℕ) : ℤ))).sum :=
    fun a ha => getD_grid1 _ _ (small_lt hi' (Finset.mem_range.1 ha))
  rw [Finset.sum_congr rfl e, sum_sum_list]
  congr 1
  apply List.map_congr_left
  intro p _
  simp only [wsum_ngp1 h.bins, wsum_ngp1 hn, scaled_merge, inside_merge k n hk]
  split_ifs with h1 h2
  · rw [sum_small_cells k i hk, if_pos h2]
  · rw [sum_small_cells k i hk, if_neg h2]
  · simp

theorem getD_grid2 (n m : ℕ) (F : ℕ → ℕ → K) {i j : ℕ} (hi : i < n) (hj : j < m) : ((grid2 n m F).getD i []).getD j 0 = F i j := by
  simp [grid2, List.getD_eq_getElem?_getD, List.getElem?_range hi, List.getElem?_range hj]

theorem getD_grid3 (n m l : ℕ) (F : ℕ → ℕ → ℕ → K) {i j t : ℕ} (hi : i < n) (hj : j < m) (ht : t < l) :
    (((grid3 n m l F).getD i []).getD j []).getD t 0 = F i j t := by
  simp [grid3, List.getD_eq_getElem?_getD, List.getElem?_range hi, List.getElem?_range hj, List.getElem?_range ht]

theorem grid2_congr {n m : ℕ} {F G : ℕ → ℕ → K} (h : ∀ i j, i < n → j < m → F i j = G i j) : grid2 n m F = grid2 n m G := by
  unfold grid2
  exact List.map_congr_left fun i hi => List.map_congr_left fun j hj => h i j (List.mem_range.1 hi) (List.mem_range.1 hj)

theorem grid3_congr {n m l : ℕ} {F G : ℕ → ℕ → ℕ → K} (h : ∀ i j t, i < n → j < m → t < l → F i j t = G i j t) :
    grid3 n m l F = grid3 n m l G := by
  unfold grid3
  exact List.map_congr_left fun i hi => List.map_congr_left fun j hj => List.map_congr_left fun t ht =>
    h i j t (List.mem_range.1 hi) (List.mem_range.1 hj) (List.mem_range.1 ht)

theorem sum_small_ite (k i : ℕ) (hk : 0 < k) (x : K) (f : ℕ → K) (v : K) (hf : ∀ a, f a = if ⌊(k : K) * x⌋ = ((k * i + a : ℕ) : ℤ) then v else 0) :
    ∑ a ∈ Finset.range k, f a = if ⌊x⌋ = (i : ℤ) then v else 0 := by
  rw [Finset.sum_congr rfl fun a _ => hf a, sum_small_cells k i hk]

/-- 2D. -/
theorem histogram2d_merge (spacing : K → K) (x y : List K) (rx ry : K × K) (k l nx ny : ℕ) (hk : 0 < k) (hl : 0 < l)
    (weights : Option (List K)) (h : Args2 spacing x y rx ry (k * nx) (l * ny) weights) :
    ∃ b e f, histogram2d spacing .ngp x y rx ry (k * nx) (l * ny) weights = .ok (b, e, f) ∧
      histogram2d spacing .ngp x y rx ry nx ny weights = .ok (merged2 k l nx ny b, everyNth k nx e, everyNth l ny f) := by
  have hnx : nx < 2 ^ 31 := lt_of_le_of_lt (Nat.le_mul_of_pos_left nx hk) h.binsx
  have hny : ny < 2 ^ 31 := lt_of_le_of_lt (Nat.le_mul_of_pos_left ny hl) h.binsy
  rw [histogram2d_closed spacing .ngp x y rx ry (k * nx) (l * ny) weights h.len h.rangex h.rangey h.weights.ge,
    if_pos (fun p _ w hw => c2_inRange .ngp h.binsx h.binsy rx ry p (Or.inl rfl) w hw),
    histogram2d_closed spacing .ngp x y rx ry nx ny weights h.len h.rangex h.rangey h.weights.ge,
    if_pos (fun p _ w hw => c2_inRange .ngp hnx hny rx ry p (Or.inl rfl) w hw)]
  refine ⟨_, _, _, rfl, ?_⟩
  rw [edges_merge rx k nx hk, edges_merge ry l ny hl]
  simp only [merged2, Except.ok.injEq, Prod.mk.injEq, and_true]
  refine grid2_congr fun i j hi' hj' => ?_
  rw [Finset.sum_congr rfl fun a ha => Finset.sum_congr rfl fun b hb =>
    getD_grid2 (k * nx) (l * ny) _ (small_lt hi' (Finset.mem_range.1 ha)) (small_lt hj' (Finset.mem_range.1 hb))]
  simp only [sum_sum_list]
  congr 1
  apply List.map_congr_left
  intro p _
  simp only [wsum_ngp2 h.binsx h.binsy, wsum_ngp2 hnx hny, scaled_merge, inside_merge k nx hk, inside_merge l ny hl]
  by_cases hg : (0 < scaled rx nx p.1.1 ∧ scaled rx nx p.1.1 < nx) ∧ 0 < scaled ry ny p.1.2 ∧ scaled ry ny p.1.2 < ny
  · simp only [if_pos hg]
    symm
    refine sum_small_ite k i hk _ _ _ fun a => ?_
    split_ifs with h1 h2
    · rw [sum_small_cells l j hl, if_pos h2]
    · rw [sum_small_cells l j hl, if_neg h2]
    · simp
  · simp only [if_neg hg, Finset.sum_const_zero]

/-- 3D. -/
theorem histogram3d_merge (spacing : K → K) (x y z : List K) (rx ry rz : K × K) (k l m nx ny nz : ℕ) (hk : 0 < k) (hl : 0 < l)
    (hm : 0 < m) (weights : Option (List K)) (h : Args3 spacing x y z rx ry rz (k * nx) (l * ny) (m * nz) weights) :
    ∃ b e f g, histogram3d spacing .ngp x y z rx ry rz (k * nx) (l * ny) (m * nz) weights = .ok (b, e, f, g) ∧
      histogram3d spacing .ngp x y z rx ry rz nx ny nz weights =
        .ok (merged3 k l m nx ny nz b, everyNth k nx e, everyNth l ny f, everyNth m nz g) := by
  have hnx : nx < 2 ^ 31 := lt_of_le_of_lt (Nat.le_mul_of_pos_left nx hk) h.binsx
  have hny : ny < 2 ^ 31 := lt_of_le_of_lt (Nat.le_mul_of_pos_left ny hl) h.binsy
  have hnz : nz < 2 ^ 31 := lt_of_le_of_lt (Nat.le_mul_of_pos_left nz hm) h.binsz
  rw [histogram3d_closed spacing .ngp x y z rx ry rz (k * nx) (l * ny) (m * nz) weights h.len h.len' h.rangex h.rangey h.rangez
      h.weights.ge,
    if_pos (fun p _ w hw => c3_inRange .ngp h.binsx h.binsy h.binsz rx ry rz p (Or.inl rfl) (Or.inl (by simp)) w hw),
    histogram3d_closed spacing .ngp x y z rx ry rz nx ny nz weights h.len h.len' h.rangex h.rangey h.rangez h.weights.ge,
    if_pos (fun p _ w hw => c3_inRange .ngp hnx hny hnz rx ry rz p (Or.inl rfl) (Or.inl (by simp)) w hw)]
  refine ⟨_, _, _, _, rfl, ?_⟩
  rw [edges_merge rx k nx hk, edges_merge ry l ny hl, edges_merge rz m nz hm]
  simp only [merged3, Except.ok.injEq, Prod.mk.injEq, and_true]
  refine grid3_congr fun i j t hi' hj' ht' => ?_
  rw [Finset.sum_congr rfl fun a ha => Finset.sum_congr rfl fun b hb => Finset.sum_congr rfl fun c hc =>
    getD_grid3 (k * nx) (l * ny) (m * nz) _ (small_lt hi' (Finset.mem_range.1 ha)) (small_lt hj' (Finset.mem_range.1 hb))
      (small_lt ht' (Finset.mem_range.1 hc))]
  simp only [sum_sum_list]
  congr 1
  apply List.map_congr_left
  intro p _
  simp only [wsum_ngp3 h.binsx h.binsy h.binsz, wsum_ngp3 hnx hny hnz, scaled_merge, inside_merge k nx hk, inside_merge l ny hl,
    inside_merge m nz hm]
  by_cases hg : (0 < scaled rx nx p.1.1 ∧ scaled rx nx p.1.1 < nx) ∧ (0 < scaled ry ny p.1.2.1 ∧ scaled ry ny p.1.2.1 < ny) ∧
      0 < scaled rz nz p.1.2.2 ∧ scaled rz nz p.1.2.2 < nz
  · simp only [if_pos hg]
    symm
    refine sum_small_ite k i hk _ _ _ fun a => ?_
    by_cases h1 : ⌊(k : K) * scaled rx nx p.1.1⌋ = ((k * i + a : ℕ) : ℤ)
    · simp only [if_pos h1]
      refine sum_small_ite l j hl _ _ _ fun b => ?_
      by_cases h2 : ⌊(l : K) * scaled ry ny p.1.2.1⌋ = ((l * j + b : ℕ) : ℤ)
      · simp only [if_pos h2]
        exact sum_small_ite m t hm _ _ _ fun c => rfl
      · simp only [if_neg h2, Finset.sum_const_zero]
    · simp only [if_neg h1, Finset.sum_const_zero]
  · simp only [if_neg hg, Finset.sum_const_zero]

/-- Four bins merged to two; one of the particles lies on a border. -/
example : Args1 (fun _ => (1 / 1000 : ℚ)) [1 / 2, 1, 3, -1] (0, 4) (2 * 2) (some [1, 2, 4, 8]) ∧
    histogram (fun _ => (1 / 1000 : ℚ)) .ngp [1 / 2, 1, 3, -1] (0, 4) 4 (some [1, 2, 4, 8]) = .ok ([1, 2, 0, 4], [0, 1, 2, 3, 4]) ∧
    histogram (fun _ => (1 / 1000 : ℚ)) .ngp [1 / 2, 1, 3, -1] (0, 4) 2 (some [1, 2, 4, 8]) = .ok ([3, 4], [0, 2, 4]) := by
  refine ⟨⟨⟨by norm_num, by norm_num⟩, by norm_num, by simp [weightsOf]⟩, by decide +kernel, by decide +kernel⟩

/-- Not so for the other shapes: their width is the size of a bin. -/
example : histogram (fun _ => (1 / 1000 : ℚ)) .tophat [2] (0, 4) 4 none = .ok ([0, 1 / 2, 1 / 2, 0], [0, 1, 2, 3, 4]) ∧
    histogram (fun _ => (1 / 1000 : ℚ)) .tophat [3 / 2] (0, 4) 4 none = .ok ([0, 1, 0, 0], [0, 1, 2, 3, 4]) ∧
    histogram (fun _ => (1 / 1000 : ℚ)) .tophat [3 / 2] (0, 4) 2 none = .ok ([3 / 4, 1 / 4], [0, 2, 4]) := by
  refine ⟨by decide +kernel, by decide +kernel, by decide +kernel⟩

/-! ### The theorems applied -/

example := histogram_weights_add _ .spline3 _ _ _ _ _ args1_sample
  (show Args1 _ _ _ _ (some [1, -1, 1 / 2]) from ⟨args1_sample.range, args1_sample.bins, rfl⟩)

theorem args2_weights : Args2 (fun _ => (1 / 1000 : ℚ)) [1, 5 / 2, -20] [2, 1, 3] (0, 4) (-1, 5) 4 3 (some [1, -1, 1 / 2]) :=
  { args2_sample with weights := rfl }

theorem args3_weights : Args3 (fun _ => (1 / 1000 : ℚ)) [1, 5 / 2, -20] [2, 1, 3] [1, 2, 3] (0, 4) (-1, 5) (0, 4) 4 3 5 (some [1, -1, 1 / 2]) :=
  { args3_sample with weights := rfl }

example := histogram2d_weights_add _ .triangle _ _ _ _ _ _ _ _ args2_sample args2_weights
  (histogram2d_clear _ .triangle _ _ _ _ _ _ _ args2_sample (by decide +kernel) (by decide +kernel))
  (histogram2d_clear _ .triangle _ _ _ _ _ _ _ args2_weights (by decide +kernel) (by decide +kernel))
example := histogram3d_weights_add _ .tophat _ _ _ _ _ _ _ _ _ _ _ args3_sample args3_weights
  (histogram3d_clear _ .tophat _ _ _ _ _ _ _ _ _ _ args3_sample (by decide +kernel) (by decide +kernel) (by decide +kernel))
  (histogram3d_clear _ .tophat _ _ _ _ _ _ _ _ _ _ args3_weights (by decide +kernel) (by decide +kernel) (by decide +kernel))
example := histogram_weights_none (fun _ => (1 / 1000 : ℚ)) .spline3 [1, 5 / 2, -20] (0, 4) 4 args1_sample.range
example := histogram2d_weights_none _ .triangle [1, 5 / 2] [2, 1] _ _ 4 3 rfl args2_sample.rangex args2_sample.rangey
example := histogram3d_weights_none _ .triangle [1, 5 / 2] [2, 1] [7, 8] _ _ _ 4 3 5 rfl rfl args3_sample.rangex args3_sample.rangey
  args3_sample.rangez
example := histogram_units _ .spline3 _ _ _ _ (1 / 10) 3 (by norm_num) args1_sample ⟨by decide +kernel, by decide +kernel⟩
example := histogram2d_units _ .triangle _ _ _ _ _ _ _ (1 / 10) 3 (-2) 0 (by norm_num) (by norm_num) args2_sample
  ⟨by decide +kernel, by decide +kernel⟩ ⟨by decide +kernel, by decide +kernel⟩
example := histogram3d_units _ .tophat _ _ _ _ _ _ _ _ _ _ (1 / 10) 3 (-2) 0 1 1 (by norm_num) (by norm_num) (by norm_num) args3_sample
  ⟨by decide +kernel, by decide +kernel⟩ ⟨by decide +kernel, by decide +kernel⟩ ⟨by decide +kernel, by decide +kernel⟩
example := histogram_merge _ _ _ 2 2 (by norm_num) _ args1_sample
example := histogram2d_merge _ _ _ _ _ 2 3 2 1 (by norm_num) (by norm_num) _ args2_sample
example := histogram3d_merge _ _ _ _ _ _ _ 2 3 5 2 1 1 (by norm_num) (by norm_num) (by norm_num) _ args3_sample

end Postpic.Props
