import Verif.Lemmas.CalculusFloat
import Verif.Props.FieldReduce
import Verif.Props.StatisticsFloat

/-!
# Rounding errors of sums and integrals of fields
-/

set_option autoImplicit false
set_option linter.unusedSectionVars false

namespace Postpic.Props

open Postpic Postpic.Axes Postpic.Fields Postpic.Histogram Postpic.Statistics Postpic.Spec

section
variable {K : Type} [_root_.Field K] [LinearOrder K] [IsStrictOrderedRing K] [FloorRing K] {rnd : K → Dbl K} {u : K}

/-! ## C126: sums and integrals of fields are accurate despite rounding -/

/-- The integral of the absolute values; cell sizes count as positive. -/
def integralAbs (f : Field K K) (dims : List ℕ) (idx : List ℕ) : K :=
  integral (f.axes.map fun ax => (cellSizes ax).map abs) (flags f.shape.length dims) (fun j => |f.matrix.at' j|) idx

theorem mapValues_sound {V W : Type} {f : Field K V} (hf : f.Sound) (g : V → W) : (f.mapValues g).Sound := ⟨hf.ok, hf.valid, hf.nonempty⟩

theorem nearArr_fin (f : Field K K) : NearArr u 0 f.matrix.at' (fun j => |f.matrix.at' j|) (f.mapValues Dbl.fin).matrix.at' :=
  fun idx => ⟨f.matrix.at' idx, rfl, near_refl _⟩

theorem le_prod {shape : List ℕ} (h0 : 0 ∉ shape) {s : ℕ} (hs : s ∈ shape) : s ≤ shape.prod :=
  Nat.le_of_dvd (Nat.pos_of_ne_zero (List.prod_ne_zero h0)) (List.dvd_prod hs)

/-- C126: the fast method. The result has the shape and the metadata of the exact one, and its error is at most `d + 2` roundings per
dimension of the integral of the absolute values. -/
theorem integrate_fast_rounded (A : Accurate rnd u) (hu1 : u < 1) {add : List (Dbl K) → Dbl K} {n d : ℕ} (S : Summation rnd add n d)
    (f : Field K K) (hf : f.Sound) (hn : f.shape.prod ≤ n) (dims : List ℕ) (hd : ∀ i ∈ dims, i < f.shape.length)
    (hk : ((dims.dedup.length * (d + 2) : ℕ) : K) * u ≤ 1 / 2) :
    ∃ r rF, f.integrateFast (dims.map Int.ofNat) = .ok r ∧ (f.mapValues .fin).integrateFastF rnd add (dims.map Int.ofNat) = .ok rF ∧
      rF.shape = r.shape ∧ rF.axes = r.axes ∧ rF.ats = r.ats ∧ rF.tao = r.tao ∧ rF.name = r.name ∧ rF.unit = r.unit ∧
      ∀ idx, InBounds r.shape idx → ∃ y, rF.matrix.at' idx = .fin y ∧
        |y - r.matrix.at' idx| ≤ 2 * (dims.dedup.length * (d + 2) : ℕ) * u * integralAbs f dims idx := by
  obtain ⟨r, h1, _, h3, h4, h5, h6, h7, h8, h9⟩ := integrateFast_sound hf hd
  obtain ⟨rF, g1, g3, g4, g5, g6, g7, g8, g9⟩ := integrateFastF_near A hu1 S (mapValues_sound hf Dbl.fin)
    (fun s hs => (le_prod hf.nonempty hs).trans hn) (nearArr_fin f) hd
  refine ⟨r, rF, h1, g1, g5.trans h5.symm, g6.trans h6.symm, g7.trans h7.symm, g8.trans h8.symm, g3.trans h3.symm, g4.trans h4.symm, ?_⟩
  intro idx hidx
  have hs : rF.shape = r.shape := g5.trans h5.symm
  obtain ⟨y, y1, y2⟩ := g9 idx (by rw [hs]; exact hidx.1)
  refine ⟨y, y1, ?_⟩
  rw [h9 idx hidx.1]
  rw [Nat.zero_add] at y2
  exact near_error A.nonneg hk y2

/-- C126: the constant method, for fields with up to three dimensions. All additions are done at the end. -/
theorem integrate_constant_rounded (A : Accurate rnd u) (hu1 : u < 1) {add : List (Dbl K) → Dbl K} {n d : ℕ} (S : Summation rnd add n d)
    (spl : Splines K) (f : Field K K) (hf : f.Sound) (h3 : f.shape.length ≤ 3) (hn : f.shape.prod ≤ n) (dims : List ℕ)
    (hd : ∀ i ∈ dims, i < f.shape.length) (hk : ((2 * dims.dedup.length + d : ℕ) : K) * u ≤ 1 / 2) :
    ∃ r rF, f.integrateConstant spl (dims.map Int.ofNat) = .ok r ∧
      (f.mapValues .fin).integrateConstantF rnd add spl (dims.map Int.ofNat) = .ok rF ∧
      rF.shape = r.shape ∧ rF.axes = r.axes ∧ rF.ats = r.ats ∧ rF.tao = r.tao ∧ rF.name = r.name ∧ rF.unit = r.unit ∧
      ∀ idx, InBounds r.shape idx → ∃ y, rF.matrix.at' idx = .fin y ∧
        |y - r.matrix.at' idx| ≤ 2 * (2 * dims.dedup.length + d : ℕ) * u * integralAbs f dims idx := by
  obtain ⟨r, h1, h3', h4, h5, h6, h7, h8, h9⟩ := integrateConstant_sound spl hf h3 hd
  obtain ⟨rF, g1, g3, g4, g5, g6, g7, g8, g9⟩ := integrateConstantF_near A hu1 S spl (mapValues_sound hf Dbl.fin) hn h3 (nearArr_fin f) hd
  refine ⟨r, rF, h1, g1, g5.trans h5.symm, g6.trans h6.symm, g7.trans h7.symm, g8.trans h8.symm, g3.trans h3'.symm, g4.trans h4.symm, ?_⟩
  intro idx hidx
  have hs : rF.shape = r.shape := g5.trans h5.symm
  obtain ⟨y, y1, y2⟩ := g9 idx (by rw [hs]; exact hidx.1)
  refine ⟨y, y1, ?_⟩
  rw [h9 idx hidx.1]
  rw [Nat.zero_add] at y2
  exact near_error A.nonneg hk y2

/-- C126: the two methods agree up to rounding, although they add in different orders. -/
theorem integrate_methods_rounded (A : Accurate rnd u) (hu1 : u < 1) {add add' : List (Dbl K) → Dbl K} {n d : ℕ}
    (S : Summation rnd add n d) (S' : Summation rnd add' n d) (spl : Splines K) (f : Field K K) (hf : f.Sound) (h3 : f.shape.length ≤ 3)
    (hn : f.shape.prod ≤ n) (dims : List ℕ) (hd : ∀ i ∈ dims, i < f.shape.length) (hne : dims ≠ [])
    (hk : ((dims.dedup.length * (d + 2) : ℕ) : K) * u ≤ 1 / 2) :
    ∃ r r', (f.mapValues .fin).integrateFastF rnd add (dims.map Int.ofNat) = .ok r ∧
      (f.mapValues .fin).integrateConstantF rnd add' spl (dims.map Int.ofNat) = .ok r' ∧ r.shape = r'.shape ∧ r.axes = r'.axes ∧
      ∀ idx, InBounds r.shape idx → ∃ y y', r.matrix.at' idx = .fin y ∧ r'.matrix.at' idx = .fin y' ∧
        |y - y'| ≤ 4 * (dims.dedup.length * (d + 2) : ℕ) * u * integralAbs f dims idx := by
  have hu0 := A.nonneg
  obtain ⟨r, h1, _, h3', h4, h5, h6, h7, h8, h9⟩ := integrateFast_sound hf hd
  obtain ⟨rF, g1, g3, g4, g5, g6, g7, g8, g9⟩ := integrateFastF_near A hu1 S (mapValues_sound hf Dbl.fin)
    (fun s hs => (le_prod hf.nonempty hs).trans hn) (nearArr_fin f) hd
  obtain ⟨rC, c1, c3, c4, c5, c6, c7, c8, c9⟩ := integrateConstantF_near A hu1 S' spl (mapValues_sound hf Dbl.fin) hn h3 (nearArr_fin f) hd
  refine ⟨rF, rC, g1, c1, g5.trans c5.symm, g6.trans c6.symm, ?_⟩
  intro idx hidx
  have hs : rF.shape = rC.shape := g5.trans c5.symm
  obtain ⟨y, y1, y2⟩ := g9 idx hidx.1
  obtain ⟨z, z1, z2⟩ := c9 idx (by rw [← hs]; exact hidx.1)
  refine ⟨y, z, y1, z1, ?_⟩
  have hpos : 1 ≤ dims.dedup.length := by
    rw [Nat.one_le_iff_ne_zero]
    intro h
    exact hne ((List.dedup_eq_nil dims).1 (List.length_eq_zero_iff.1 h))
  have z3 := near_mono hu0 hu1 (l := dims.dedup.length * (d + 2)) (by nlinarith) z2
  rw [Nat.zero_add] at y2
  have b1 := near_error hu0 hk y2
  have b2 := near_error hu0 hk z3
  rw [abs_sub_comm] at b2
  refine (abs_sub_le _ _ _).trans ((add_le_add b1 b2).trans (le_of_eq ?_))
  change 2 * _ * u * integralAbs f dims idx + 2 * _ * u * integralAbs f dims idx = _
  ring

/-- C126: `sum` over any dimensions. -/
theorem sum_rounded (A : Accurate rnd u) (hu1 : u < 1) {add : List (Dbl K) → Dbl K} {n d : ℕ} (S : Summation rnd add n d)
    (spl : Splines K) (f : Field K K) (hf : f.Sound) (h3 : f.shape.length ≤ 3) (hn : f.shape.prod ≤ n) (dims : List ℕ) (hnd : dims.Nodup)
    (hd : ∀ i ∈ dims, i < f.shape.length) (hk : (d : K) * u ≤ 1 / 2) :
    ∃ r m rF, f.reduce spl List.sum (some (dims.map Int.ofNat)) false = .ok r ∧
      (f.mapValues abs).reduce spl List.sum (some (dims.map Int.ofNat)) false = .ok m ∧
      (f.mapValues .fin).reduce spl add (some (dims.map Int.ofNat)) false = .ok rF ∧
      rF.shape = r.shape ∧ rF.axes = r.axes ∧
      ∀ idx, ∃ y, rF.matrix.at' idx = .fin y ∧ |y - r.matrix.at' idx| ≤ 2 * d * u * m.matrix.at' idx := by
  have h1 : List.Forall₂ (fun i k => pyIdx f.shape.length i = some k) (dims.map Int.ofNat) dims := by
    rw [List.forall₂_map_left_iff, List.forall₂_same]
    intro i hi
    exact pyIdx_nat (hd i hi)
  have h2 : (∀ i ∈ dims.map Int.ofNat, 0 ≤ i) ∨ (dims.map Int.ofNat).length ≤ 1 := Or.inl (by
    intro i hi
    obtain ⟨a, -, rfl⟩ := List.mem_map.1 hi
    exact Int.natCast_nonneg a)
  have h4 : (unflagged (flags f.shape.length dims) f.shape).length ≤ 3 := by
    refine le_trans ?_ h3
    rw [unflagged_count (flags_length _ _).symm]
    refine le_trans List.count_le_length ?_
    rw [flags_length]
  refine ⟨_, _, _, reduce_sound spl List.sum hf h1 hnd h2 h4, reduce_sound spl List.sum (mapValues_sound hf abs) h1 hnd h2 h4,
    reduce_sound spl add (mapValues_sound hf Dbl.fin) h1 hnd h2 h4, rfl, rfl, ?_⟩
  intro idx
  have hN := nearAll_map (u := u) (k := 0) (fibre f.shape (flags f.shape.length dims) idx) f.matrix.at' (fun j => |f.matrix.at' j|)
    (fun j => Dbl.fin (f.matrix.at' j)) (fun j _ => ⟨_, rfl, near_refl _⟩)
  obtain ⟨y, y1, y2⟩ := nearAll_add A hu1 S hN (by
    rw [List.length_map]
    exact (fibre_length hf.nonempty _ _).trans hn)
  rw [Nat.zero_add] at y2
  exact ⟨y, y1, near_error A.nonneg hk y2⟩

theorem integral_le {bs : List (List K)} (hb : ∀ b ∈ bs, ∀ x ∈ b, 0 ≤ x) (sel : List Bool) {g : List ℕ → K} (idx : List ℕ)
    (hg : ∀ j, 0 ≤ g j) : 0 ≤ integral bs sel g idx := by
  induction bs generalizing sel g idx with
  | nil => simp only [integral]; exact hg []
  | cons b bs ih =>
    have hb' : ∀ b ∈ bs, ∀ x ∈ b, 0 ≤ x := fun c hc => hb c (List.mem_cons_of_mem _ hc)
    rcases sel with _ | ⟨s, sel⟩
    · simp only [integral]; exact hg []
    · cases s with
      | true =>
        simp only [integral]
        refine Finset.sum_nonneg fun i hi => ?_
        rw [smul_eq_mul]
        refine mul_nonneg ?_ (ih hb' sel idx fun j => hg _)
        rw [List.getD_eq_getElem _ _ (Finset.mem_range.1 hi)]
        exact hb b (by simp) _ (List.getElem_mem _)
      | false =>
        rcases idx with _ | ⟨i, idx⟩
        · simp only [integral]; exact hg []
        · simp only [integral]; exact ih hb' sel idx fun j => hg _

/-- C126: data which is nowhere negative, on ascending axes, is integrated with a small relative error. -/
theorem integrate_fast_rounded_relative (A : Accurate rnd u) (hu1 : u < 1) {add : List (Dbl K) → Dbl K} {n d : ℕ} (S : Summation rnd add n d)
    (f : Field K K) (hf : f.Sound) (hn : f.shape.prod ≤ n) (dims : List ℕ) (hd : ∀ i ∈ dims, i < f.shape.length)
    (hk : ((dims.dedup.length * (d + 2) : ℕ) : K) * u ≤ 1 / 2) (hpos : ∀ j, 0 ≤ f.matrix.at' j)
    (hup : ∀ ax ∈ f.axes, ∀ x ∈ cellSizes ax, 0 ≤ x) :
    ∃ r rF, f.integrateFast (dims.map Int.ofNat) = .ok r ∧ (f.mapValues .fin).integrateFastF rnd add (dims.map Int.ofNat) = .ok rF ∧
      ∀ idx, InBounds r.shape idx → ∃ y, rF.matrix.at' idx = .fin y ∧ 0 ≤ r.matrix.at' idx ∧
        |y - r.matrix.at' idx| ≤ 2 * (dims.dedup.length * (d + 2) : ℕ) * u * r.matrix.at' idx := by
  obtain ⟨r, rF, h1, h2, -, -, -, -, -, -, h3⟩ := integrate_fast_rounded A hu1 S f hf hn dims hd hk
  refine ⟨r, rF, h1, h2, ?_⟩
  intro idx hidx
  obtain ⟨y, y1, y2⟩ := h3 idx hidx
  obtain ⟨r0, k1, k⟩ := integrateFast_sound hf hd
  rw [h1] at k1
  cases k1
  have hval := k.2.2.2.2.2.2.2 idx hidx.1
  have e : integralAbs f dims idx = r.matrix.at' idx := by
    rw [hval]
    unfold integralAbs
    congr 1
    · apply List.map_congr_left
      intro ax hax
      conv_rhs => rw [← List.map_id (cellSizes ax)]
      apply List.map_congr_left
      intro x hx
      exact abs_of_nonneg (hup ax hax x hx)
    · funext j
      exact abs_of_nonneg (hpos j)
  rw [e] at y2
  refine ⟨y, y1, ?_, y2⟩
  rw [hval]
  refine integral_le ?_ _ _ hpos
  intro b hb
  obtain ⟨ax, hax, rfl⟩ := List.mem_map.1 hb
  exact hup ax hax

end

/-- Adding one number after the other. -/
def chain : ℕ → SumTree
  | 0 => .empty
  | n + 1 => .node (chain n) (.leaf n)

theorem chain_leaves (n : ℕ) : (chain n).leaves = List.range n := by
  induction n with
  | zero => rfl
  | succ n ih => rw [chain, SumTree.leaves, ih, List.range_succ]; rfl

theorem chain_depth (n : ℕ) : (chain n).depth = n := by
  induction n with
  | zero => rfl
  | succ n ih => simp [chain, SumTree.depth, ih]

/-- Adding one number after the other is one of the orders, for every number of entries. -/
theorem chain_summation {K : Type} [_root_.Field K] [LinearOrder K] [FloorRing K] (rnd : K → Dbl K) (n : ℕ) :
    Summation rnd (fun l => sumF rnd l (chain l.length)) n n := by
  intro l hl
  refine ⟨chain l.length, ?_, ?_, rfl⟩
  · unfold Adds
    rw [chain_leaves]
  · rw [chain_depth]
    exact hl

/-- A field with two times one points. -/
def field21 : Field ℚ ℚ := ⟨"f", "", ⟨[2, 1], fun idx => 3 + 2 * idx.getD 0 0⟩, [⟨"x", "", [0, tenth, 1], [1 / 20, 1 / 2], (0, 1)⟩,
  ⟨"y", "", [0, tenth], [1 / 20], (0, tenth)⟩], [some false, some false], [none, none]⟩

/-- The errors are real: the two methods give different numbers for the same field. -/
theorem integrate_methods_differ :
    ((field21.mapValues .fin).integrateFastF nearest53 (fun l => sumF nearest53 l (chain l.length)) [0, 1]).map (fun r => r.matrix.at' []) ≠
    ((field21.mapValues .fin).integrateConstantF nearest53 (fun l => sumF nearest53 l (chain l.length)) midSplines [0, 1]).map
      fun r => r.matrix.at' [] := by
  decide +kernel

example := integrate_fast_rounded nearest53_accurate (by norm_num) (chain_summation nearest53 12) field43 field43_sound (by decide) [0, 1]
  (by decide) (by norm_num [show ([0, 1] : List ℕ).dedup = [0, 1] by decide])
example := integrate_constant_rounded nearest53_accurate (by norm_num) (chain_summation nearest53 12) midSplines field43 field43_sound
  (by decide) (by decide) [1, 0] (by decide) (by norm_num [show ([1, 0] : List ℕ).dedup = [1, 0] by decide])
example := integrate_methods_rounded nearest53_accurate (by norm_num) (chain_summation nearest53 12) (chain_summation nearest53 12) midSplines
  field43 field43_sound (by decide) (by decide) [1, 0] (by decide) (by decide) (by norm_num [show ([1, 0] : List ℕ).dedup = [1, 0] by decide])
example := sum_rounded nearest53_accurate (by norm_num) (chain_summation nearest53 12) midSplines field43 field43_sound (by decide) (by decide)
  [1] (by decide) (by decide) (by norm_num)
example := integrate_fast_rounded_relative nearest53_accurate (by norm_num) (chain_summation nearest53 12) field43 field43_sound (by decide) [0]
  (by decide) (by norm_num [show ([0] : List ℕ).dedup = [0] by decide]) (fun j => by simp only [field43]; positivity) (by decide +kernel)

end Postpic.Props
