import Verif.Lemmas.GradientDouble
import Verif.Props.GradientFloat
import Verif.Props.AxisDouble

/-!
# Derivatives of fields of IEEE doubles
-/

set_option autoImplicit false

namespace Postpic.Props

open Postpic Postpic.Axes Postpic.Fields Postpic.Histogram Postpic.Statistics Postpic.Spec

/-! ## C136: derivatives of doubles -/

/-- C136: the derivative of a field of doubles. The samples are 0 or between `2^-300` and `2^300`, the distances of neighbouring points between
`2^-200` and `2^200`. All results are finite doubles. At the border the relative error is at most six roundings. Inside the error is at most 18
roundings of the sum of the absolute values over the distances. -/
theorem derivative_double (f : Field ℚ ℚ) (hf : f.Sound) (a : ℤ) (k : ℕ) (ax : Axis ℚ)
    (ha : pyIdx f.shape.length a = some k) (hax : f.axes[k]? = some ax) (h2 : 2 ≤ ax.len)
    (hv : ∀ idx, InBounds f.shape idx → double (f.matrix.at' idx) = .fin (f.matrix.at' idx) ∧ Moderate (-300) 300 (f.matrix.at' idx))
    (hg : ∀ i x y, ax.grid[i]? = some x → ax.grid[i + 1]? = some y → (2 : ℚ) ^ (-200 : ℤ) ≤ |y - x| ∧ |y - x| ≤ (2 : ℚ) ^ (200 : ℤ)) :
    ∃ r rF, f.derivative a = .ok r ∧ (f.mapValues .fin).derivativeF double a = .ok rF ∧ rF.shape = r.shape ∧ rF.axes = r.axes ∧
      rF.name = r.name ∧ rF.unit = r.unit ∧ rF.ats = r.ats ∧ rF.tao = r.tao ∧
      ∀ idx, InBounds f.shape idx → ∃ z, rF.matrix.at' idx = .fin z ∧
        (∀ i, idx[k]? = some i → i = 0 ∨ i + 1 = ax.len → |z - r.matrix.at' idx| ≤ 6 * (1 / 2 ^ 53) * |r.matrix.at' idx|) ∧
        ∀ i x0 x1 x2, idx[k]? = some (i + 1) → ax.grid[i]? = some x0 → ax.grid[i + 1]? = some x1 → ax.grid[i + 2]? = some x2 →
          |z - r.matrix.at' idx| ≤ 18 * (1 / 2 ^ 53) * ((|f.matrix.at' (idx.set k i)| + |f.matrix.at' idx|) / |x1 - x0| +
            (|f.matrix.at' idx| + |f.matrix.at' (idx.set k (i + 2))|) / |x2 - x1|) := by
  obtain ⟨r, rF, h1, h3, -, -, -, -, -, -, h4⟩ := derivative_rounded digits53_accurate (by norm_num) f hf a k ax ha hax h2
  have hr := derivative_ok hf ha hax h2
  have hr' := h1.symm.trans hr
  have e53 := derivativeF_ok (rnd := digits53) (mapValues_sound hf Dbl.fin) ha hax h2
  have ed := derivativeF_ok (rnd := double) (mapValues_sound hf Dbl.fin) ha hax h2
  have hF := h3.symm.trans e53
  refine ⟨r, _, h1, ed, ?_⟩
  cases hr'
  cases hF
  refine ⟨rfl, rfl, rfl, rfl, rfl, rfl, fun idx hidx => ?_⟩
  obtain ⟨z, z1, z2⟩ := h4 idx hidx
  refine ⟨z, ?_, z2⟩
  rw [← z1]
  have hvax := hf.valid ax (List.mem_of_getElem? hax)
  have hk : k < idx.length := by rw [hidx.1]; exact pyIdx_lt ha
  have hs : f.shape[k]? = some ax.grid.length := by
    rw [← hf.ok.lengths, List.getElem?_map, hax]
    rfl
  have hi : idx.getD k 0 < ax.grid.length := by
    rw [List.getD_eq_getElem _ _ hk]
    exact hidx.2 k _ _ (List.getElem?_eq_getElem hk) hs
  have hset : ∀ j < ax.grid.length, InBounds f.shape (idx.set k j) := by
    intro j hj
    refine ⟨by rw [List.length_set]; exact hidx.1, fun m i s hm hsm => ?_⟩
    by_cases hmk : m = k
    · subst hmk
      rw [List.getElem?_set_self hk] at hm
      cases hm
      rw [hs] at hsm
      cases hsm
      exact hj
    · rw [List.getElem?_set_ne (Ne.symm hmk)] at hm
      exact hidx.2 m i s hm hsm
  refine gradient_agree ?_ (grid_monotone hvax) h2 (fun j => f.matrix.at' (idx.set k j)) (fun j hj => hv _ (hset j hj)) _ hi
  intro i hi
  have hi' : i < ax.grid.length := by omega
  obtain ⟨g1, g2⟩ := hg i _ _ (List.getElem?_eq_getElem hi') (List.getElem?_eq_getElem hi)
  rw [List.getD_eq_getElem _ _ hi, List.getD_eq_getElem _ _ hi']
  refine ⟨fun h => ?_, Or.inr ⟨g1, g2⟩⟩
  rw [h, abs_zero] at g1
  exact absurd g1 (not_le.2 (two_zpow_pos _))

/-- What the staggered derivative computes, exactly and with any rounding. -/
theorem derivativeStagger_form {spl : Splines ℚ} {f : Field ℚ ℚ} (hf : f.Sound) {a : ℤ} {r : Field ℚ ℚ} (hr : f.derivativeStagger spl a = .ok r)
    (rnd : ℚ → Dbl ℚ) :
    ∃ ax k x y l, pyGet f.axes a = .ok ax ∧ pyIdx f.dims.toNat a = some k ∧ ax.gridNode = x :: y :: l ∧ y - x ≠ 0 ∧
      r.shape = f.shape.modify k (· - 1) ∧
      (∀ idx, r.matrix.at' idx = (f.matrix.at' (idx.modify k (· + 1)) - f.matrix.at' idx) / |y - x|) ∧
      ∃ rF, (Field.mapValues f Dbl.fin).derivativeStaggerF rnd spl a = .ok rF ∧ rF.shape = r.shape ∧ rF.axes = r.axes ∧
      rF.name = r.name ∧ rF.unit = r.unit ∧ rF.ats = r.ats ∧ rF.tao = r.tao ∧
      ∀ idx, rF.matrix.at' idx = quotF rnd (Dbl.sub rnd (.fin (f.matrix.at' (idx.modify k (· + 1)))) (.fin (f.matrix.at' idx)))
        (Dbl.sub rnd (.fin y) (.fin x)).abs := by
  unfold Field.derivativeStagger at hr
  cases h1 : pyGet f.axes a with
  | error e => rw [h1] at hr; cases hr
  | ok ax =>
    rw [h1] at hr
    simp only [bind, Except.bind] at hr
    split_ifs at hr with h2
    cases h3 : mkAxis spl { name := ax.name, unit := ax.unit, grid := some ax.gridNode.tail.dropLast } with
    | error e => rw [h3] at hr; cases hr
    | ok ax' =>
      rw [h3] at hr
      simp only at hr
      cases h4 : pySet f.axes a ax' with
      | error e => rw [h4] at hr; cases hr
      | ok axes =>
        rw [h4] at hr
        simp only at hr
        cases h5 : pyIdx f.dims.toNat a with
        | none => rw [h5] at hr; cases hr
        | some k =>
          rw [h5] at hr
          simp only at hr
          have hmem : ax ∈ f.axes := by
            unfold pyGet at h1
            split at h1
            · split at h1
              · rename_i h
                cases h1
                exact List.mem_of_getElem? h
              · cases h1
            · cases h1
          have hv := hf.valid ax hmem
          unfold Axis.spacing at hr
          rw [if_neg h2] at hr
          match hg : ax.gridNode with
          | [] => rw [hg] at hr; cases hr
          | [_] => rw [hg] at hr; cases hr
          | x :: y :: l =>
            rw [hg] at hr
            simp only at hr
            have hne : y - x ≠ 0 := by
              rcases (wf_iff _ _).1 hv.wf with h | h
              · have := (List.pairwise_cons.1 (hg ▸ pairwise_of_mono lt_tr (interleave_mono_nodes lt_tr h))).1 y (by simp)
                exact sub_ne_zero.2 (ne_of_gt this)
              · have := (List.pairwise_cons.1 (hg ▸ pairwise_of_mono gt_tr (interleave_mono_nodes gt_tr h))).1 y (by simp)
                exact sub_ne_zero.2 (ne_of_lt this)
            obtain ⟨g1, g2⟩ := mkField_shape (m' := ⟨(Field.mapValues f Dbl.fin).shape.modify k fun x => x - 1, fun idx =>
              quotF rnd (Dbl.sub rnd ((Field.mapValues f Dbl.fin).matrix.at' (idx.modify k fun x => x + 1))
                ((Field.mapValues f Dbl.fin).matrix.at' idx)) (Dbl.sub rnd (.fin y) (.fin x)).abs⟩) (by rfl) hr
            have key : (Field.mapValues f Dbl.fin).derivativeStaggerF rnd spl a =
                mkField ⟨(Field.mapValues f Dbl.fin).shape.modify k fun x => x - 1, fun idx =>
                  quotF rnd (Dbl.sub rnd ((Field.mapValues f Dbl.fin).matrix.at' (idx.modify k fun x => x + 1))
                    ((Field.mapValues f Dbl.fin).matrix.at' idx)) (Dbl.sub rnd (.fin y) (.fin x)).abs⟩ (f.name ++ "'") f.unit axes
                  (List.map (fun _ => some false) (f.shape.modify k fun x => x - 1)) (List.map (fun _ => none) (f.shape.modify k fun x => x - 1)) := by
              unfold Field.derivativeStaggerF
              rw [show (Field.mapValues f Dbl.fin).axes = f.axes from rfl, show (Field.mapValues f Dbl.fin).dims = f.dims from rfl, h1]
              simp only [bind, Except.bind]
              rw [if_neg h2, h3]
              simp only
              rw [h4]
              simp only
              rw [h5]
              simp only
              unfold spacingF
              rw [if_neg h2, hg]
              rfl
            rw [g1]
            refine ⟨ax, k, x, y, l, rfl, rfl, hg, hne, rfl, fun idx => ?_, _, key.trans g2, rfl, rfl, rfl, rfl, rfl, rfl, fun idx => rfl⟩
            rw [div_eq_inv_mul]
            rfl

theorem quotient_error {u q w z e : ℚ} (hu0 : 0 ≤ u) (hu : 4 * u ≤ 1) (hw : Within u 2 q w) (hz : |z - w| ≤ max (u * |w|) e) (he : 0 ≤ e) :
    |z - q| ≤ 6 * u * |q| + e := by
  have h1 := within_error hu0 (by push_cast; linarith) hw
  push_cast at h1
  have h2 : |w| ≤ 2 * |q| := by
    have h3 := abs_sub_abs_le_abs_sub w q
    have h4 := mul_le_mul_of_nonneg_right hu (abs_nonneg q)
    linarith
  have h5 : max (u * |w|) e ≤ u * (2 * |q|) + e :=
    max_le (by have := mul_le_mul_of_nonneg_left h2 hu0; linarith) (by have := mul_nonneg hu0 (abs_nonneg q); linarith)
  have h6 := abs_sub_le z w q
  linarith

theorem double_same_sign {x y : ℚ} (h : double x = .fin y) : (0 < y → 0 < x) ∧ (y < 0 → x < 0) ∧ (x = 0 → y = 0) := by
  have e : nearDouble x = y := by
    unfold double at h
    split_ifs at h
    exact Dbl.fin.inj h
  subst e
  refine ⟨fun h => ?_, nearDouble_sign, fun h => by rw [h, nearDouble_zero]⟩
  by_contra h'
  have := nearDouble_nonneg (show 0 ≤ -x by linarith)
  rw [nearDouble_neg] at this
  linarith

theorem sub_within {y1 y0 : ℚ} (e1 : double y1 = .fin y1) (e0 : double y0 = .fin y0) (h : |y1 - y0| < 2 ^ 1023) :
    ∃ s, Dbl.sub double (.fin y1) (.fin y0) = .fin s ∧ Within (1 / 2 ^ 53) 1 (y1 - y0) s := by
  obtain ⟨s, s1, s2⟩ := limited_sub double_limited e1 e0 h
  exact ⟨s, s1, within_round (by norm_num) (by norm_num) (within_refl _) s2⟩

/-- The quotient of two differences of doubles. -/
theorem quotient_double {y1 y0 x1 x0 : ℚ} (e1 : double y1 = .fin y1) (e0 : double y0 = .fin y0) (f1 : double x1 = .fin x1)
    (f0 : double x0 = .fin x0) (hx : x1 - x0 ≠ 0) (hy' : |y1 - y0| < 2 ^ 1023) (hx' : |x1 - x0| < 2 ^ 1023)
    (hq : abs ((y1 - y0) / |x1 - x0|) < 2 ^ 1022) :
    ∃ z, quotF double (Dbl.sub double (.fin y1) (.fin y0)) (Dbl.sub double (.fin x1) (.fin x0)).abs = .fin z ∧ double z = .fin z ∧
      abs (z - (y1 - y0) / |x1 - x0|) ≤ 6 * (1 / 2 ^ 53) * abs ((y1 - y0) / |x1 - x0|) + 1 / 2 ^ 1075 ∧
      (0 < z → y0 < y1) ∧ (z < 0 → y1 < y0) ∧ (y1 = y0 → z = 0) := by
  obtain ⟨s, s1, s2⟩ := sub_within e1 e0 hy'
  obtain ⟨D, d1, d2⟩ := sub_within f1 f0 hx'
  have hD : Within (1 / 2 ^ 53) 1 |x1 - x0| |D| := by
    obtain ⟨t, t1, t2, rfl⟩ := d2
    exact ⟨t, t1, t2, by rw [abs_mul, abs_of_nonneg (le_trans (pow_nonneg (by norm_num) _) t1)]⟩
  have hD0 : |D| ≠ 0 := within_ne (by norm_num) (abs_ne_zero.2 hx) hD
  have hw : Within (1 / 2 ^ 53 : ℚ) 2 ((y1 - y0) / |x1 - x0|) (s / |D|) := within_div (by norm_num) s2 hD
  have hw' : abs (s / |D|) < 2 ^ 1023 := by
    have h1 := within_error (by norm_num) (by norm_num) hw
    have h2 := abs_sub_abs_le_abs_sub (s / |D|) ((y1 - y0) / |x1 - x0|)
    have h3 : (2 : ℚ) ^ 1023 = 2 * 2 ^ 1022 := by rw [pow_succ, mul_comm]
    rw [h3]
    generalize (2 : ℚ) ^ 1022 = B at *
    have h4 : 2 * ((2 : ℕ) : ℚ) * (1 / 2 ^ 53) * abs ((y1 - y0) / |x1 - x0|) ≤ abs ((y1 - y0) / |x1 - x0|) := by
      refine mul_le_of_le_one_left (abs_nonneg _) (by norm_num)
    have h5 := h2.trans (h1.trans h4)
    clear h1 h2 h3 h4 hy' hx' hD hw d1 d2 s1 s2
    generalize abs ((y1 - y0) / |x1 - x0|) = q at *
    generalize abs (s / |D|) = w at *
    linarith
  obtain ⟨z, z1, z2⟩ := double_near _ hw'
  have hz := double_same_sign z1
  obtain ⟨t, t1, -, ht⟩ := s2
  have ht0 : 0 < t := lt_of_lt_of_le (pow_pos (by norm_num) _) t1
  have hDp : 0 < |D| := lt_of_le_of_ne (abs_nonneg D) (Ne.symm hD0)
  refine ⟨z, ?_, double_idem z1, quotient_error (by norm_num) (by norm_num) hw z2 (by positivity), fun h => ?_, fun h => ?_, fun h => ?_⟩
  · rw [s1, d1, show (Dbl.fin D).abs = Dbl.fin |D| from rfl]
    simp only [quotF, if_neg hD0]
    exact z1
  · have := hz.1 h
    rw [ht, div_pos_iff_of_pos_right hDp, mul_pos_iff_of_pos_right ht0] at this
    linarith
  · have := hz.2.1 h
    rw [ht, div_neg_iff] at this
    rcases this with ⟨_, h'⟩ | ⟨h', _⟩
    · linarith
    · by_contra hc
      have := mul_nonneg (show 0 ≤ y1 - y0 by linarith) ht0.le
      linarith
  · refine hz.2.2 ?_
    rw [ht, h, sub_self, zero_mul, zero_div]

/-- C136: the staggered derivative of a field of doubles. All values that do not overflow are doubles, the relative error is at most six
roundings plus half of the smallest double. No value has the wrong sign, equal samples have the derivative 0. -/
theorem derivative_stagger_double (spl : Splines ℚ) (f : Field ℚ ℚ) (hf : f.Sound) (a : ℤ) (k : ℕ) (ax : Axis ℚ)
    (ha : pyIdx f.shape.length a = some k) (hax : f.axes[k]? = some ax)
    (hv : ∀ idx, InBounds f.shape idx → double (f.matrix.at' idx) = .fin (f.matrix.at' idx))
    (hg : ∀ x ∈ ax.gridNode, double x = .fin x) (hd : ∀ c ∈ cellSizes ax, |c| < 2 ^ 1023)
    (r : Field ℚ ℚ) (hr : f.derivativeStagger spl a = .ok r) :
    ∃ rF, (f.mapValues .fin).derivativeStaggerF double spl a = .ok rF ∧ rF.shape = r.shape ∧ rF.axes = r.axes ∧
      rF.name = r.name ∧ rF.unit = r.unit ∧ rF.ats = r.ats ∧ rF.tao = r.tao ∧
      ∀ idx, InBounds r.shape idx → |f.matrix.at' (idx.modify k (· + 1)) - f.matrix.at' idx| < 2 ^ 1023 → |r.matrix.at' idx| < 2 ^ 1022 →
        ∃ z, rF.matrix.at' idx = .fin z ∧ double z = .fin z ∧
          |z - r.matrix.at' idx| ≤ 6 * (1 / 2 ^ 53) * |r.matrix.at' idx| + 1 / 2 ^ 1075 ∧
          (0 < z → 0 < r.matrix.at' idx) ∧ (z < 0 → r.matrix.at' idx < 0) ∧
          (f.matrix.at' (idx.modify k (· + 1)) = f.matrix.at' idx → z = 0) := by
  obtain ⟨ax', k', x, y, l, h1, h2, h3, h4, h5, h6, rF, h7, h8, h9, h10, h11, h12, h13, h14⟩ := derivativeStagger_form hf hr double
  have hl := ok_axes_length hf.ok
  have e1 : pyGet f.axes a = .ok ax := pyGet_of (by rw [hl]; exact ha) hax
  rw [e1] at h1
  cases h1
  refine ⟨rF, h7, h8, h9, h10, h11, h12, h13, fun idx hidx hdy hq => ?_⟩
  have hk : k' = k := by
    unfold Field.dims at h2
    split_ifs at h2 with h0
    · exfalso
      have : pyIdx 0 a = none := by
        unfold pyIdx
        split_ifs <;> first | rfl | (exfalso; push_cast at *; omega)
      rw [show (-1 : ℤ).toNat = 0 from rfl, this] at h2
      cases h2
    · rw [Int.toNat_natCast, ha] at h2
      exact (Option.some.inj h2).symm
  subst hk
  have hb : ∀ m i s, idx[m]? = some i → f.shape[m]? = some s → if m = k' then i + 1 < s else i < s := by
    intro m i s hi hs
    by_cases hm : m = k'
    · have := hidx.2 m i (s - 1) hi (by rw [h5, hm, List.getElem?_modify_eq, ← hm, hs]; rfl)
      rw [if_pos hm]
      omega
    · rw [if_neg hm]
      exact hidx.2 m i s hi (by rw [h5, List.getElem?_modify_ne _ _ (Ne.symm hm), hs])
  have hlen : idx.length = f.shape.length := by rw [hidx.1, h5, List.length_modify]
  have i0 : InBounds f.shape idx := by
    refine ⟨hlen, fun m i s hi hs => ?_⟩
    have := hb m i s hi hs
    split_ifs at this <;> omega
  have i1 : InBounds f.shape (idx.modify k' (· + 1)) := by
    refine ⟨by rw [List.length_modify]; exact hlen, fun m i s hi hs => ?_⟩
    by_cases hmk : m = k'
    · rw [hmk, List.getElem?_modify_eq, ← hmk] at hi
      cases hm : idx[m]? with
      | none => rw [hm] at hi; cases hi
      | some j =>
        have := hb m j s hm hs
        rw [if_pos hmk] at this
        rw [hm] at hi
        cases hi
        exact this
    · rw [List.getElem?_modify_ne _ _ (Ne.symm hmk)] at hi
      have := hb m i s hi hs
      rwa [if_neg hmk] at this
  have hc : |y - x| < 2 ^ 1023 := hd _ (by unfold cellSizes; rw [h3]; simp)
  rw [h6] at hq
  obtain ⟨z, z1, z2, z3, z4, z5, z6⟩ := quotient_double (hv _ i1) (hv _ i0) (hg y (by rw [h3]; simp)) (hg x (by rw [h3]; simp)) h4 hdy hc hq
  have hp : 0 < |y - x| := abs_pos.2 h4
  refine ⟨z, (h14 idx).trans z1, z2, by rw [h6]; exact z3, fun h => ?_, fun h => ?_, z6⟩
  · rw [h6]
    exact div_pos (sub_pos.2 (z4 h)) hp
  · rw [h6]
    exact div_neg_of_neg_of_pos (sub_neg.2 (z5 h)) hp

/-! ### Cases -/

theorem fieldSquare_values (idx : List ℕ) (h : InBounds fieldSquare.shape idx) :
    double (fieldSquare.matrix.at' idx) = .fin (fieldSquare.matrix.at' idx) ∧ Moderate (-300) 300 (fieldSquare.matrix.at' idx) := by
  obtain ⟨h1, h2⟩ := h
  obtain ⟨i, rfl⟩ : ∃ i, idx = [i] := List.length_eq_one_iff.1 h1
  have : i < 3 := h2 0 i 3 rfl rfl
  have key : ∀ i < 3, double (fieldSquare.matrix.at' [i]) = .fin (fieldSquare.matrix.at' [i]) ∧ Moderate (-300) 300 (fieldSquare.matrix.at' [i]) := by
    decide +kernel
  exact key i this

theorem unevenAxis_distances (i : ℕ) (x y : ℚ) (hx : unevenAxis.grid[i]? = some x) (hy : unevenAxis.grid[i + 1]? = some y) :
    (2 : ℚ) ^ (-200 : ℤ) ≤ |y - x| ∧ |y - x| ≤ (2 : ℚ) ^ (200 : ℤ) := by
  match i, hx, hy with
  | 0, hx, hy => cases hx; cases hy; decide +kernel
  | 1, hx, hy => cases hx; cases hy; decide +kernel
  | i + 2, hx, hy => simp [unevenAxis] at hy

example := derivative_double fieldSquare fieldSquare_sound 0 0 unevenAxis (by decide) rfl (by decide) fieldSquare_values unevenAxis_distances

theorem field43_samples_double (idx : List ℕ) (h : InBounds field43.shape idx) : double (field43.matrix.at' idx) = .fin (field43.matrix.at' idx) := by
  obtain ⟨h1, h2⟩ := h
  obtain ⟨i, j, rfl⟩ : ∃ i j, idx = [i, j] := List.length_eq_two.1 h1
  have hi : i < 4 := h2 0 i 4 rfl rfl
  have hj : j < 3 := h2 1 j 3 rfl rfl
  have key : ∀ i < 4, ∀ j < 3, double (field43.matrix.at' [i, j]) = .fin (field43.matrix.at' [i, j]) := by decide +kernel
  exact key i hi j hj

example (r : Field ℚ ℚ) := derivative_stagger_double midSplines field43 field43_sound 0 0 (uniformAxis 0 4 4) (by decide) rfl field43_samples_double
  (by decide +kernel) (by decide +kernel) r
example : (field43.derivativeStagger midSplines 0).toOption.isSome = true := by decide +kernel

/-- Two points with the distance `h` and the values 0 and `v`. -/
def fieldStep (h v : ℚ) : Field ℚ ℚ :=
  ⟨"f", "", ⟨[2], fun idx => v * idx.getD 0 0⟩, [⟨"x", "", [-h, 0, h], [-h / 2, h / 2], (-h, h)⟩], [some false], [none]⟩

/-- C136: the limits are needed. The derivative of different samples can be 0, and it can be infinite. -/
theorem derivative_double_limits :
    ((fieldStep (2 ^ 1000) (1 / 2 ^ 1000)).mapValues .fin |>.derivativeF double 0).map (fun r => r.matrix.at' [0]) = .ok (.fin 0) ∧
    ((fieldStep (1 / 2 ^ 1000) (2 ^ 1000)).mapValues .fin |>.derivativeF double 0).map (fun r => r.matrix.at' [0]) = .ok (.inf false) := by
  decide +kernel

end Postpic.Props
