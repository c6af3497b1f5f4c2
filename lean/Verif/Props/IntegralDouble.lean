import Verif.Props.AxisDouble
import Verif.Props.SumDouble

/-!
# Integrals of fields of IEEE doubles
-/

set_option autoImplicit false

namespace Postpic.Props

open Postpic Postpic.Axes Postpic.Fields Postpic.Histogram Postpic.Statistics Postpic.Spec

/-! ## C135: integrals of doubles -/

section

variable {K : Type} [_root_.Field K] [LinearOrder K] [IsStrictOrderedRing K]

/-- Rounded terms `z` of a sum of the terms `e`: what is added. -/
theorem rounded_terms {n : ℕ} {u η : K} {e z : ℕ → K} (hz : ∀ j < n, |z j - e j| ≤ 3 * u * |e j| + η) :
    ∑ j ∈ Finset.range n, |z j| ≤ (1 + 3 * u) * ∑ j ∈ Finset.range n, |e j| + n * η ∧
    |∑ j ∈ Finset.range n, z j - ∑ j ∈ Finset.range n, e j| ≤ 3 * u * ∑ j ∈ Finset.range n, |e j| + n * η := by
  have hc : ∑ j ∈ Finset.range n, η = n * η := by rw [Finset.sum_const, Finset.card_range, nsmul_eq_mul]
  constructor
  · rw [← hc, Finset.mul_sum, ← Finset.sum_add_distrib]
    refine Finset.sum_le_sum fun j hj => ?_
    have h1 := hz j (Finset.mem_range.1 hj)
    have h2 := abs_sub_abs_le_abs_sub (z j) (e j)
    linarith
  · rw [← hc, Finset.mul_sum, ← Finset.sum_add_distrib, ← Finset.sum_sub_distrib]
    exact (Finset.abs_sum_le_sum_abs _ _).trans (Finset.sum_le_sum fun j hj => hz j (Finset.mem_range.1 hj))

/-- The error of a sum of rounded terms. -/
theorem rounded_total {n : ℕ} {u η D M s S y Z : K} (hu : 0 ≤ u) (hη : 0 ≤ η) (hD : 0 ≤ D) (hD1 : D ≤ 1) (hM : 0 ≤ M)
    (hZ : Z ≤ (1 + 3 * u) * M + n * η) (hs : |s - S| ≤ 3 * u * M + n * η) (hy : |y - s| ≤ D * Z) :
    |y - S| ≤ (D + 6 * u) * M + 2 * n * η := by
  have h1 := abs_sub_le y s S
  have hn : 0 ≤ (n : K) * η := mul_nonneg (Nat.cast_nonneg n) hη
  have huM : 0 ≤ 3 * u * M := mul_nonneg (mul_nonneg (by norm_num) hu) hM
  have h2 := mul_le_mul_of_nonneg_left hZ hD
  have h3 := mul_le_mul_of_nonneg_right hD1 hn
  have h4 := mul_le_mul_of_nonneg_right hD1 huM
  nlinarith

end

/-- The product of a rounded difference and a double. -/
theorem box_product {a b x : ℚ} (ha : double a = .fin a) (hb : double b = .fin b) (hab : |b - a| < 2 ^ 1023)
    (h : |(b - a) * x| < 2 ^ 1022) :
    ∃ z, Dbl.mul double (Dbl.sub double (.fin b) (.fin a)) (.fin x) = .fin z ∧ double z = .fin z ∧
      |z - (b - a) * x| ≤ 3 * (1 / 2 ^ 53) * |(b - a) * x| + 1 / 2 ^ 1075 := by
  obtain ⟨c, c1, c2⟩ := limited_sub double_limited hb ha hab
  have c3 : |c * x - (b - a) * x| ≤ 1 / 2 ^ 53 * |(b - a) * x| := by
    rw [← sub_mul, abs_mul, abs_mul, ← mul_assoc]
    exact mul_le_mul_of_nonneg_right c2 (abs_nonneg x)
  have e2 : (2 : ℚ) ^ 1023 = 2 * 2 ^ 1022 := by rw [← pow_succ']
  have hp := abs_nonneg ((b - a) * x)
  have c4 : |c * x| ≤ 2 * |(b - a) * x| := by
    have h1 := abs_sub_abs_le_abs_sub (c * x) ((b - a) * x)
    have h2 : 1 / 2 ^ 53 * |(b - a) * x| ≤ 1 * |(b - a) * x| := mul_le_mul_of_nonneg_right (by norm_num) hp
    linarith
  have hlt : |c * x| < 2 ^ 1023 := by
    rw [e2]
    exact lt_of_le_of_lt c4 (mul_lt_mul_of_pos_left h (by norm_num))
  obtain ⟨z, z1, z2⟩ := double_near (c * x) hlt
  rw [c1]
  refine ⟨z, z1, double_idem z1, ?_⟩
  have t1 : |z - c * x| ≤ 1 / 2 ^ 53 * (2 * |(b - a) * x|) + 1 / 2 ^ 1075 := by
    refine z2.trans (max_le ?_ ?_)
    · have := mul_le_mul_of_nonneg_left c4 (show (0 : ℚ) ≤ 1 / 2 ^ 53 by norm_num)
      exact this.trans (le_add_of_nonneg_right (by positivity))
    · exact le_add_of_nonneg_left (mul_nonneg (by norm_num) (mul_nonneg (by norm_num) hp))
  have t2 := abs_sub_le z (c * x) ((b - a) * x)
  generalize (1 : ℚ) / 2 ^ 1075 = η at *
  clear hlt e2 h hab z2
  linarith

/-- A sum of products of rounded differences with doubles, in any order of the additions. -/
theorem weighted_sum_double {add : List (Dbl ℚ) → Dbl ℚ} {m d : ℕ} (S : Summation double add m d) (hd : d ≤ 2 ^ 52) {n : ℕ} (hn : n ≤ m)
    (hn53 : n ≤ 2 ^ 53) {p x : ℕ → ℚ} (hp : ∀ j ≤ n, double (p j) = .fin (p j))
    (hp' : ∀ j < n, |p (j + 1) - p j| < 2 ^ 1023) (hM : ∑ j ∈ Finset.range n, |(p (j + 1) - p j) * x j| < 2 ^ 1020) :
    ∃ y, add ((List.range n).map fun j => Dbl.mul double (Dbl.sub double (.fin (p (j + 1))) (.fin (p j))) (.fin (x j))) = .fin y ∧
      double y = .fin y ∧ |y - ∑ j ∈ Finset.range n, (p (j + 1) - p j) * x j| ≤
        (d + 3) / 2 ^ 52 * (∑ j ∈ Finset.range n, |(p (j + 1) - p j) * x j|) + n / 2 ^ 1074 := by
  have e20 : (2 : ℚ) ^ 1020 < 2 ^ 1022 := by decide +kernel
  have hz : ∀ j, ∃ z : ℚ, j < n → Dbl.mul double (Dbl.sub double (.fin (p (j + 1))) (.fin (p j))) (.fin (x j)) = .fin z ∧
      double z = .fin z ∧ |z - (p (j + 1) - p j) * x j| ≤ 3 * (1 / 2 ^ 53) * |(p (j + 1) - p j) * x j| + 1 / 2 ^ 1075 := by
    intro j
    by_cases hj : j < n
    · have h1 : |(p (j + 1) - p j) * x j| ≤ ∑ j ∈ Finset.range n, |(p (j + 1) - p j) * x j| :=
        Finset.single_le_sum (f := fun j => |(p (j + 1) - p j) * x j|) (fun i _ => abs_nonneg _) (Finset.mem_range.2 hj)
      obtain ⟨z, z1, z2, z3⟩ := box_product (hp j hj.le) (hp (j + 1) hj) (hp' j hj) ((h1.trans_lt hM).trans e20)
      exact ⟨z, fun _ => ⟨z1, z2, z3⟩⟩
    · exact ⟨0, fun h => absurd h hj⟩
  choose z hz using hz
  have hl : ((List.range n).map fun j => Dbl.mul double (Dbl.sub double (.fin (p (j + 1))) (.fin (p j))) (.fin (x j))) =
      ((List.range n).map z).map .fin := by
    rw [List.map_map]
    exact List.map_congr_left fun j hj => (hz j (List.mem_range.1 hj)).1
  rw [hl]
  obtain ⟨r1, r2⟩ := rounded_terms (e := fun j => (p (j + 1) - p j) * x j) (fun j hj => (hz j hj).2.2)
  have hM0 : 0 ≤ ∑ j ∈ Finset.range n, |(p (j + 1) - p j) * x j| := Finset.sum_nonneg fun i _ => abs_nonneg _
  have hnη : (n : ℚ) * (1 / 2 ^ 1075) ≤ 1 := by
    have h1 : (n : ℚ) ≤ 2 ^ 53 := by exact_mod_cast hn53
    have h2 : (2 : ℚ) ^ 53 * (1 / 2 ^ 1075) ≤ 1 := by decide +kernel
    exact (mul_le_mul_of_nonneg_right h1 (by positivity)).trans h2
  have hlt : ∑ j ∈ Finset.range n, |z j| < 2 ^ 1022 := by
    refine lt_of_le_of_lt r1 ?_
    have h1 : (1 + 3 * (1 / 2 ^ 53 : ℚ)) ≤ 2 := by norm_num
    have h2 := mul_le_mul_of_nonneg_right h1 hM0
    have h3 : (2 : ℚ) * 2 ^ 1020 + 1 < 2 ^ 1022 := by decide +kernel
    refine lt_of_le_of_lt (add_le_add h2 hnη) (lt_trans ?_ h3)
    exact (add_lt_add_iff_right 1).2 (mul_lt_mul_of_pos_left hM (by norm_num))
  obtain ⟨y, y1, y2, y3⟩ := sum_list_double S hd (xs := (List.range n).map z)
    (by
      intro q hq
      obtain ⟨j, hj, rfl⟩ := List.mem_map.1 hq
      exact (hz j (List.mem_range.1 hj)).2.1)
    (by simpa using hn) (by rw [List.map_map]; exact hlt)
  refine ⟨y, y1, y2, ?_⟩
  rw [List.map_map] at y3
  have hdd : (d : ℚ) / 2 ^ 52 ≤ 1 := by
    rw [div_le_one (by norm_num)]
    exact_mod_cast hd
  have hd0 : (0 : ℚ) ≤ d / 2 ^ 52 := div_nonneg (Nat.cast_nonneg d) (pow_nonneg (by norm_num) 52)
  have t := rounded_total (by norm_num) (by positivity) hd0 hdd hM0 r1 r2 y3
  refine t.trans (le_of_eq ?_)
  have e1 : (2 : ℚ) * n * (1 / 2 ^ 1075) = n / 2 ^ 1074 := by
    clear t r1 r2 y3 hlt hnη hM hz hp hp' e20
    rw [pow_succ (2 : ℚ) 1074]
    field_simp
  rw [e1]
  have e2 : (d : ℚ) / 2 ^ 52 + 6 * (1 / 2 ^ 53) = (d + 3) / 2 ^ 52 := by
    rw [add_div]
    norm_num
  rw [e2]

section

variable {K : Type} [_root_.Field K] [LinearOrder K] [IsStrictOrderedRing K]

/-- An integral over one dimension. -/
theorem integral_single {bs : List (List K)} {k : ℕ} (hk : k < bs.length) (g : List ℕ → K) {idx : List ℕ}
    (hi : idx.length + 1 = bs.length) :
    integral bs (flags bs.length [k]) g idx =
      ∑ i ∈ Finset.range (bs.getD k []).length, (bs.getD k []).getD i 0 * g (idx.insertIdx k i) := by
  have hl : (bs.eraseIdx k).length = bs.length - 1 := List.length_eraseIdx_of_lt hk
  have hc : idx.length = (flags (bs.length - 1) []).count false := by
    have : flags (bs.length - 1) [] = List.replicate (bs.length - 1) false := by
      apply List.ext_getElem <;> simp [flags]
    rw [this, List.count_replicate_self]
    omega
  rw [flags_insert hk (by simp), List.map_nil, integral_insert g (by rw [flags_length]; omega) (by rw [flags_length]; omega) hc, ← hl,
    integral_none _ _ _ (by omega)]
  simp only [smul_eq_mul]

theorem integrateFastF_single [FloorRing K] (rnd : K → Dbl K) (add : List (Dbl K) → Dbl K) {f : Field K (Dbl K)} (hf : f.Sound) {k : ℕ}
    {ax : Axis K} (hax : f.axes[k]? = some ax) :
    f.integrateFastF rnd add [(k : ℤ)] = .ok { f with
      matrix := ⟨f.shape.eraseIdx k, fun idx => add ((List.range (boxesF rnd ax).length).map fun j =>
        Dbl.mul rnd ((boxesF rnd ax).getD j (.fin 0)) (f.matrix.at' (idx.insertIdx k j)))⟩
      axes := f.axes.eraseIdx k, ats := f.ats.eraseIdx k, tao := f.tao.eraseIdx k } := by
  have hl := ok_axes_length hf.ok
  have hk : k < f.shape.length := by rw [← hl]; exact (List.getElem?_eq_some_iff.1 hax).1
  have hv := hf.valid ax (List.mem_of_getElem? hax)
  have ha : pyIdx f.shape.length (k : ℤ) = some k := pyIdx_nat hk
  have e0 : pyGet f.shape (k : ℤ) = .ok f.shape[k] := pyGet_of ha (List.getElem?_eq_getElem hk)
  have e1 : pyGet f.axes (k : ℤ) = .ok ax := pyGet_of (by rw [hl]; exact ha) hax
  have e2 : pyIdx f.dims.toNat (k : ℤ) = some k := by rw [dims_sound hf]; exact ha
  have hs : f.shape[k]? = some (boxesF rnd ax).length := by
    rw [boxesF_length, cellSizes_length hv, ← hf.ok.lengths, List.getElem?_map, hax]
    rfl
  have hdel : ∀ {α : Type} (l : List α), l.length = f.shape.length → pyDel l (k : ℤ) = .ok (l.eraseIdx k) := by
    intro α l hl
    unfold pyDel
    rw [hl, ha]
  have hstep : f.integrateStepF rnd add (k : ℤ) = .ok { f with
      matrix := ⟨f.shape.eraseIdx k, fun idx => add ((List.range (boxesF rnd ax).length).map fun j =>
        Dbl.mul rnd ((boxesF rnd ax).getD j (.fin 0)) (f.matrix.at' (idx.insertIdx k j)))⟩
      axes := f.axes.eraseIdx k, ats := f.ats.eraseIdx k, tao := f.tao.eraseIdx k } := by
    unfold Field.integrateStepF
    rw [e1]
    simp only [bind, Except.bind]
    rw [e2]
    simp only
    rw [hs]
    simp only [ne_eq, not_true_eq_false, if_false]
    rw [hdel f.axes hl, hdel f.ats hf.ok.states, hdel f.tao hf.ok.origins]
    rfl
  unfold Field.integrateFastF
  rw [show [(k : ℤ)].dedup = [(k : ℤ)] from List.dedup_eq_self.2 (List.nodup_singleton _)]
  simp only [List.mapM_cons, List.mapM_nil, e0, bind, Except.bind, pure, Except.pure, List.insertionSort_cons, List.insertionSort_nil,
    List.orderedInsert, List.reverse_singleton, List.map_cons, List.map_nil]
  rw [fastLoopF, hstep]
  simp only [bind, Except.bind, List.map_nil]
  rw [fastLoopF]

theorem cellSizes_getD {ax : Axis K} (hv : ValidAxis ax.gridNode ax.grid ax.extent) {j : ℕ} (hj : j < ax.len) :
    (cellSizes ax).getD j 0 = ax.gridNode.getD (j + 1) 0 - ax.gridNode.getD j 0 := by
  have hl : ax.gridNode.length = ax.len + 1 := hv.wf.1
  rw [List.getD_eq_getElem _ _ (by rw [cellSizes_length hv]; exact hj), List.getD_eq_getElem _ _ (by omega),
    List.getD_eq_getElem _ _ (by omega)]
  simp [cellSizes]

theorem boxesF_getD [FloorRing K] (rnd : K → Dbl K) {ax : Axis K} (hv : ValidAxis ax.gridNode ax.grid ax.extent) {j : ℕ} (hj : j < ax.len) :
    (boxesF rnd ax).getD j (.fin 0) = Dbl.sub rnd (.fin (ax.gridNode.getD (j + 1) 0)) (.fin (ax.gridNode.getD j 0)) := by
  have hl : ax.gridNode.length = ax.len + 1 := hv.wf.1
  rw [List.getD_eq_getElem _ _ (by rw [boxesF_length, cellSizes_length hv]; exact hj), List.getD_eq_getElem _ _ (by omega),
    List.getD_eq_getElem _ _ (by omega)]
  simp [boxesF]

end

/-- C135: integrating a field along one of its dimensions with the method fast, computed with doubles. -/
theorem integrate_double {add : List (Dbl ℚ) → Dbl ℚ} {m d : ℕ} (S : Summation double add m d) (hd : d ≤ 2 ^ 52) (f : Field ℚ ℚ)
    (hf : f.Sound) (k : ℕ) (ax : Axis ℚ) (hax : f.axes[k]? = some ax) (hm : ax.len ≤ m) (h53 : ax.len ≤ 2 ^ 53)
    (hnode : ∀ x ∈ ax.gridNode, double x = .fin x) (hcell : ∀ c ∈ cellSizes ax, |c| < 2 ^ 1023) :
    ∃ r rF, f.integrateFast [(k : ℤ)] = .ok r ∧ (f.mapValues .fin).integrateFastF double add [(k : ℤ)] = .ok rF ∧
      rF.shape = r.shape ∧ rF.axes = r.axes ∧ rF.ats = r.ats ∧ rF.tao = r.tao ∧ rF.name = r.name ∧ rF.unit = r.unit ∧
      ∀ idx, InBounds r.shape idx → integralAbs f [k] idx < 2 ^ 1020 → ∃ y, rF.matrix.at' idx = .fin y ∧ double y = .fin y ∧
        |y - r.matrix.at' idx| ≤ (d + 3) / 2 ^ 52 * integralAbs f [k] idx + ax.len / 2 ^ 1074 := by
  have hl := ok_axes_length hf.ok
  have hk : k < f.shape.length := by rw [← hl]; exact (List.getElem?_eq_some_iff.1 hax).1
  have hv := hf.valid ax (List.mem_of_getElem? hax)
  have hgl : ax.gridNode.length = ax.len + 1 := hv.wf.1
  obtain ⟨r, r1, r2, r3, r4, r5, r6, r7, r8, r9⟩ := integrateFast_sound hf (L := [k]) (by simpa using hk)
  have hun : ∀ {α : Type} (l : List α), l.length = f.shape.length → unflagged (flags f.shape.length [k]) l = l.eraseIdx k := by
    intro α l hl
    rw [flags_insert hk (by simp), unflagged_insert (by omega) (by rw [flags_length]; omega), List.map_nil]
    have hl' : (l.eraseIdx k).length = f.shape.length - 1 := by rw [List.length_eraseIdx_of_lt (by omega), hl]
    exact unflagged_none _ _ hl'
  have hF := integrateFastF_single double add (mapValues_sound hf Dbl.fin) (k := k) (ax := ax) hax
  rw [hun _ rfl] at r5
  rw [hun _ hl] at r6
  rw [hun _ hf.ok.states] at r7
  rw [hun _ hf.ok.origins] at r8
  refine ⟨r, _, r1, hF, r5.symm, r6.symm, r7.symm, r8.symm, r3.symm, r4.symm, ?_⟩
  intro idx hi hM
  have hil : idx.length + 1 = f.shape.length := by
    rw [hi.1, r5, List.length_eraseIdx_of_lt hk]
    omega
  have hD : (f.axes.map cellSizes).getD k [] = cellSizes ax := by
    rw [List.getD_eq_getElem?_getD, List.getElem?_map, hax]
    rfl
  have hD' : (f.axes.map fun ax => (cellSizes ax).map abs).getD k [] = (cellSizes ax).map abs := by
    rw [List.getD_eq_getElem?_getD, List.getElem?_map, hax]
    rfl
  have hI : r.matrix.at' idx = ∑ j ∈ Finset.range ax.len,
      (ax.gridNode.getD (j + 1) 0 - ax.gridNode.getD j 0) * f.matrix.at' (idx.insertIdx k j) := by
    have h1 : f.shape.length = (f.axes.map cellSizes).length := by rw [List.length_map, hl]
    rw [r9 idx hi.1, h1, integral_single (by omega) _ (by omega), hD, cellSizes_length hv]
    exact Finset.sum_congr rfl fun j hj => by rw [cellSizes_getD hv (Finset.mem_range.1 hj)]
  have hA : integralAbs f [k] idx = ∑ j ∈ Finset.range ax.len,
      |(ax.gridNode.getD (j + 1) 0 - ax.gridNode.getD j 0) * f.matrix.at' (idx.insertIdx k j)| := by
    have h1 : f.shape.length = (f.axes.map fun ax => (cellSizes ax).map abs).length := by rw [List.length_map, hl]
    unfold integralAbs
    rw [h1, integral_single (by omega) _ (by omega), hD', List.length_map, cellSizes_length hv]
    exact Finset.sum_congr rfl fun j hj => by rw [getD_map_abs, cellSizes_getD hv (Finset.mem_range.1 hj), abs_mul]
  rw [hA] at hM ⊢
  rw [hI]
  obtain ⟨y, y1, y2, y3⟩ := weighted_sum_double S hd hm h53 (p := fun j => ax.gridNode.getD j 0)
    (x := fun j => f.matrix.at' (idx.insertIdx k j))
    (by
      intro j hj
      rw [List.getD_eq_getElem _ _ (by omega)]
      exact hnode _ (List.getElem_mem _))
    (by
      intro j hj
      rw [← cellSizes_getD hv hj, List.getD_eq_getElem _ _ (by rw [cellSizes_length hv]; exact hj)]
      exact hcell _ (List.getElem_mem _)) hM
  refine ⟨y, ?_, y2, y3⟩
  rw [← y1]
  show add _ = add _
  congr 1
  rw [boxesF_length, cellSizes_length hv]
  exact List.map_congr_left fun j hj => by rw [boxesF_getD double hv (List.mem_range.1 hj)]; rfl

/-- The positions along one dimension, in order. -/
theorem fibre_ordered : ∀ (a : ℕ) (s idx : List ℕ), a < s.length → idx.length + 1 = s.length →
    fibre s ((List.replicate (s.length - 1) false).insertIdx a true) idx = (List.range (s.getD a 0)).map fun i => idx.insertIdx a i
  | 0, n :: s, idx, _, hi => by
    have hnone : ∀ (s idx : List ℕ), idx.length = s.length → fibre s (List.replicate s.length false) idx = [idx] := by
      intro s
      induction s with
      | nil =>
        intro idx hi
        rw [List.length_eq_zero_iff.1 hi]
        simp [fibre]
      | cons n s ih =>
        intro idx hi
        cases idx with
        | nil => simp at hi
        | cons i idx =>
          simp only [List.length_cons, List.replicate_succ, fibre, List.tail_cons, List.headD_cons]
          rw [ih idx (by simpa using hi)]
          rfl
    have hi' : idx.length = s.length := by simpa using hi
    simp only [List.length_cons, Nat.add_sub_cancel, List.insertIdx_zero, fibre, hnone s idx hi', List.map_cons, List.map_nil]
    rw [show (fun k => [k :: idx]) = fun k => [(fun i : ℕ => i :: idx) k] from rfl, ← List.map_eq_flatMap]
    rfl
  | a + 1, n :: s, idx, ha, hi => by
    have ha' : a < s.length := by simpa using ha
    cases idx with
    | nil =>
      simp at hi
      subst hi
      simp at ha'
    | cons i idx =>
      have hi' : idx.length + 1 = s.length := by simpa using hi
      have hr : List.replicate ((n :: s).length - 1) false = false :: List.replicate (s.length - 1) false := by
        rw [← List.replicate_succ]
        congr 1
        simp only [List.length_cons]
        omega
      rw [hr, List.insertIdx_succ_cons]
      simp only [fibre, List.tail_cons, List.headD_cons]
      rw [fibre_ordered a s idx ha' hi', List.map_map]
      rfl

theorem dbl_mul_comm {K : Type} [_root_.Field K] [LinearOrder K] (rnd : K → Dbl K) (x y : Dbl K) : Dbl.mul rnd x y = Dbl.mul rnd y x := by
  cases x <;> cases y <;> simp [Dbl.mul, mul_comm, Bool.xor_comm]

/-- With the same order of the additions both methods give the same numbers, if the integral goes over a single dimension. -/
theorem integrate_single_same {K : Type} [_root_.Field K] [LinearOrder K] [IsStrictOrderedRing K] [FloorRing K] (rnd : K → Dbl K)
    (add : List (Dbl K) → Dbl K) (spl : Splines K) (f : Field K (Dbl K)) (h3 : f.shape.length ≤ 3) (hf : f.Sound) (k : ℕ) (ax : Axis K)
    (hax : f.axes[k]? = some ax) :
    ∃ rF rC, f.integrateFastF rnd add [(k : ℤ)] = .ok rF ∧ f.integrateConstantF rnd add spl [(k : ℤ)] = .ok rC ∧
      rC.shape = rF.shape ∧ rC.axes = rF.axes ∧ rC.ats = rF.ats ∧ rC.tao = rF.tao ∧ rC.name = rF.name ∧ rC.unit = rF.unit ∧
      ∀ idx, InBounds rF.shape idx → rC.matrix.at' idx = rF.matrix.at' idx := by
  have hl := ok_axes_length hf.ok
  have hk : k < f.shape.length := by rw [← hl]; exact (List.getElem?_eq_some_iff.1 hax).1
  have hv := hf.valid ax (List.mem_of_getElem? hax)
  have ha : pyIdx f.shape.length (k : ℤ) = some k := pyIdx_nat hk
  have e1 : pyGet f.axes (k : ℤ) = .ok ax := pyGet_of (by rw [hl]; exact ha) hax
  have e2 : pyIdx f.dims.toNat (k : ℤ) = some k := by rw [dims_sound hf]; exact ha
  have hs : f.shape[k]? = some (boxesF rnd ax).length := by
    rw [boxesF_length, cellSizes_length hv, ← hf.ok.lengths, List.getElem?_map, hax]
    rfl
  have hun : ∀ {α : Type} (l : List α), l.length = f.shape.length → unflagged (flags f.shape.length [k]) l = l.eraseIdx k := by
    intro α l hl
    rw [flags_insert hk (by simp), unflagged_insert (by omega) (by rw [flags_length]; omega), List.map_nil]
    exact unflagged_none _ _ (by rw [List.length_eraseIdx_of_lt (by omega), hl])
  have hmul : f.mulBoxesF rnd f (k : ℤ) = .ok ⟨f.name, f.unit, ⟨f.shape, fun idx => Dbl.mul rnd (f.matrix.at' idx)
      ((boxesF rnd ax).getD (idx.getD k 0) (.fin 0))⟩, f.axes, f.ats, f.tao⟩ := by
    unfold Field.mulBoxesF
    rw [e1]
    simp only [bind, Except.bind]
    rw [e2]
    simp only
    rw [hs]
    simp only [ne_eq, not_true_eq_false, if_false]
    exact mkField_of_eq hf.ok.lengths h3
  have hf' : (⟨f.name, f.unit, ⟨f.shape, fun idx => Dbl.mul rnd (f.matrix.at' idx) ((boxesF rnd ax).getD (idx.getD k 0) (.fin 0))⟩, f.axes,
      f.ats, f.tao⟩ : Field K (Dbl K)).Sound := ⟨hf.ok, hf.valid, hf.nonempty⟩
  have hred := reduce_sound spl add hf' (l := [(k : ℤ)]) (p := [k]) (List.Forall₂.cons ha List.Forall₂.nil) (by simp) (Or.inr (by simp))
    (by
      show (unflagged (flags f.shape.length [k]) f.shape).length ≤ 3
      rw [hun _ rfl, List.length_eraseIdx_of_lt hk]
      omega)
  have hC : f.integrateConstantF rnd add spl [(k : ℤ)] = Field.reduce spl add (⟨f.name, f.unit, ⟨f.shape, fun idx => Dbl.mul rnd
      (f.matrix.at' idx) ((boxesF rnd ax).getD (idx.getD k 0) (.fin 0))⟩, f.axes, f.ats, f.tao⟩ : Field K (Dbl K)) (some [(k : ℤ)]) false := by
    unfold Field.integrateConstantF
    simp only [show [(k : ℤ)].dedup = [(k : ℤ)] from List.dedup_eq_self.2 (List.nodup_singleton _), List.insertionSort_cons,
      List.insertionSort_nil, List.orderedInsert, List.reverse_singleton, mulAllBoxesF, hmul, bind, Except.bind]
  refine ⟨_, _, integrateFastF_single rnd add hf hax, hC.trans hred, ?_, hun _ hl, hun _ hf.ok.states, hun _ hf.ok.origins, rfl, rfl, ?_⟩
  · exact (keep_eq _ _).trans (hun _ rfl)
  · intro idx hi
    have hil : idx.length + 1 = f.shape.length := by
      rw [hi.1]
      show (f.shape.eraseIdx k).length + 1 = _
      rw [List.length_eraseIdx_of_lt hk]
      omega
    show add ((fibre f.shape (flags f.shape.length [k]) idx).map _) = add _
    congr 1
    have hr : flags (f.shape.length - 1) [] = List.replicate (f.shape.length - 1) false := by
      apply List.ext_getElem <;> simp [flags]
    have hn : f.shape.getD k 0 = (boxesF rnd ax).length := by
      rw [List.getD_eq_getElem?_getD, hs]
      rfl
    rw [flags_insert hk (by simp), List.map_nil, hr, fibre_ordered k f.shape idx hk hil, List.map_map, hn]
    refine List.map_congr_left fun j _ => ?_
    simp only [Function.comp]
    have hg : (idx.insertIdx k j).getD k 0 = j := by
      rw [List.getD_eq_getElem?_getD, List.getElem?_insertIdx_self, if_pos (by omega)]
      rfl
    rw [hg, dbl_mul_comm]

/-- C135: the same with the method constant. -/
theorem integrate_constant_double {add : List (Dbl ℚ) → Dbl ℚ} {m d : ℕ} (S : Summation double add m d) (hd : d ≤ 2 ^ 52)
    (spl : Splines ℚ) (f : Field ℚ ℚ) (h3 : f.shape.length ≤ 3) (hf : f.Sound) (k : ℕ) (ax : Axis ℚ) (hax : f.axes[k]? = some ax)
    (hm : ax.len ≤ m) (h53 : ax.len ≤ 2 ^ 53) (hnode : ∀ x ∈ ax.gridNode, double x = .fin x)
    (hcell : ∀ c ∈ cellSizes ax, |c| < 2 ^ 1023) :
    ∃ r rC, f.integrateConstant spl [(k : ℤ)] = .ok r ∧ (f.mapValues .fin).integrateConstantF double add spl [(k : ℤ)] = .ok rC ∧
      rC.shape = r.shape ∧ rC.axes = r.axes ∧ rC.ats = r.ats ∧ rC.tao = r.tao ∧ rC.name = r.name ∧ rC.unit = r.unit ∧
      ∀ idx, InBounds r.shape idx → integralAbs f [k] idx < 2 ^ 1020 → ∃ y, rC.matrix.at' idx = .fin y ∧ double y = .fin y ∧
        |y - r.matrix.at' idx| ≤ (d + 3) / 2 ^ 52 * integralAbs f [k] idx + ax.len / 2 ^ 1074 := by
  obtain ⟨r, rF, r1, r2, r3, r4, r5, r6, r7, r8, r9⟩ := integrate_double S hd f hf k ax hax hm h53 hnode hcell
  have hk : k < f.shape.length := by rw [← ok_axes_length hf.ok]; exact (List.getElem?_eq_some_iff.1 hax).1
  obtain ⟨rF', rC, c1, c2, c3, c4, c5, c6, c7, c8, c9⟩ :=
    integrate_single_same double add spl (f.mapValues .fin) h3 (mapValues_sound hf Dbl.fin) k ax hax
  rw [r2] at c1
  obtain rfl := Except.ok.inj c1
  obtain ⟨q, q1, q3, q4, q5, q6, q7, q8, q9⟩ := integrateConstant_sound spl hf h3 (L := [k]) (by simpa using hk)
  obtain ⟨r', p1, p2, p3, p4, p5, p6, p7, p8, p9⟩ := integrateFast_sound hf (L := [k]) (by simpa using hk)
  rw [show f.integrateFast ([k].map Int.ofNat) = .ok r from r1] at p1
  obtain rfl := Except.ok.inj p1
  have es : q.shape = r.shape := q5.trans p5.symm
  refine ⟨q, rC, q1, c2, (c3.trans r3).trans es.symm, (c4.trans r4).trans (p6.trans q6.symm), (c5.trans r5).trans (p7.trans q7.symm),
    (c6.trans r6).trans (p8.trans q8.symm), (c7.trans r7).trans (p3.trans q3.symm), (c8.trans r8).trans (p4.trans q4.symm), ?_⟩
  intro idx hi hM
  rw [es] at hi
  rw [q9 idx (by rw [es]; exact hi.1), ← p9 idx hi.1, c9 idx (by rw [r3]; exact hi)]
  exact r9 idx hi hM

/-! ### Cases -/

theorem uniform44_doubles : (∀ x ∈ (uniformAxis 0 4 4).gridNode, double x = .fin x) ∧ ∀ c ∈ cellSizes (uniformAxis 0 4 4), |c| < 2 ^ 1023 := by
  decide +kernel

example := integrate_double (chain_summation double 4) (by norm_num) field43 field43_sound 0 (uniformAxis 0 4 4) rfl (by decide +kernel)
  (by decide +kernel) uniform44_doubles.1 uniform44_doubles.2

example := integrate_constant_double (chain_summation double 4) (by norm_num) midSplines field43 (by decide) field43_sound 0
  (uniformAxis 0 4 4) rfl (by decide +kernel) (by decide +kernel) uniform44_doubles.1 uniform44_doubles.2

/-- The integrals along the first dimension are less than `2^1020`. -/
example : ∀ b < 3, integralAbs field43 [0] [b] < 2 ^ 1020 := by decide +kernel

/-- A field with two points; the cells have the size `h`, both values are `v`. -/
def fieldTwo (h v : ℚ) : Field ℚ ℚ :=
  ⟨"f", "", ⟨[2], fun _ => v⟩, [⟨"x", "", [-h, 0, h], [-h / 2, h / 2], (-h, h)⟩], [some false], [none]⟩

/-- The absolute part of the error is needed: the products of small values with small cells underflow. -/
theorem integrate_double_underflow :
    ((fieldTwo (1 / 2 ^ 600) (1 / 2 ^ 600)).integrateFast [0]).map values = .ok [2 / 2 ^ 1200] ∧
    (((fieldTwo (1 / 2 ^ 600) (1 / 2 ^ 600)).mapValues .fin).integrateFastF double (fun l => sumF double l (chain l.length)) [0]).map
      (fun r => r.matrix.at' []) = .ok (.fin 0) := by
  constructor <;> decide +kernel

/-- The limit for the integral is needed: large values overflow, although the exact integral is a double. -/
theorem integrate_double_overflow :
    let f : Field ℚ ℚ := { fieldTwo (2 ^ 600) 0 with matrix := ⟨[2], fun idx => if idx = [0] then 2 ^ 500 else -2 ^ 500⟩ }
    (f.integrateFast [0]).map values = .ok [0] ∧
    ((f.mapValues .fin).integrateFastF double (fun l => sumF double l (chain l.length)) [0]).map (fun r => r.matrix.at' []) = .ok .nan := by
  constructor <;> decide +kernel

end Postpic.Props
