import Verif.Lemmas.GradientDouble
import Verif.Model.HalfFloat
import Verif.Spec.HalfDouble
import Verif.Props.FieldResolution
import Verif.Props.HistogramDouble
import Verif.Props.CalculusFloat

/-!
# Half the resolution of fields of IEEE doubles
-/

set_option autoImplicit false

namespace Postpic.Props

open Postpic Postpic.Axes Postpic.Fields Postpic.Histogram Postpic.Spec

/-! ## C138: half the resolution with doubles -/

theorem nearDouble_of_double {x : ℚ} (h : double x = .fin x) : nearDouble x = x := by
  unfold double at h
  split_ifs at h
  exact Dbl.fin.inj h

theorem nearDouble_twice {x : ℚ} (h : double x = .fin x) : nearDouble (2 * x) = 2 * x := by
  obtain ⟨m, e, hm, he, hx⟩ := nearDouble_form x
  rw [nearDouble_of_double h] at hx
  have e1 : 2 * x = m * 2 ^ (e + 1) := by
    rw [hx, zpow_add_one₀ (by norm_num)]
    ring
  rw [e1, nearDouble_exact m (e + 1) hm (by omega)]

theorem half_error {s : ℚ} (h : double s = .fin s) : |nearDouble (s / 2) - s / 2| ≤ 1 / 2 ^ 1075 := by
  obtain ⟨m, e, hm, he, hx⟩ := nearDouble_form s
  rw [nearDouble_of_double h] at hx
  have e1 : s / 2 = m * 2 ^ (e - 1) := by
    rw [hx, zpow_sub_one₀ (by norm_num)]
    ring
  by_cases h0 : -1074 ≤ e - 1
  · rw [e1, nearDouble_exact m (e - 1) hm h0, sub_self, abs_zero]
    positivity
  · obtain rfl : e = -1074 := by omega
    have h1 := nearDouble_error (s / 2)
    refine h1.trans (max_le ?_ le_rfl)
    have hm' : |(m : ℚ)| ≤ 2 ^ 53 := by exact_mod_cast hm
    have e2 : (2 : ℚ) ^ (-1074 - 1 : ℤ) = 1 / 2 ^ 1075 := by
      rw [show (-1074 - 1 : ℤ) = -((1075 : ℕ) : ℤ) by norm_num, zpow_neg, zpow_natCast, one_div]
    have hp : (0 : ℚ) < 1 / 2 ^ 1075 := by positivity
    rw [e1, e2]
    generalize (1 : ℚ) / 2 ^ 1075 = B at *
    rw [abs_mul, abs_of_pos hp]
    have := mul_le_mul_of_nonneg_right hm' hp.le
    linarith

/-- The middle of two doubles, as it is computed. -/
theorem middle_double {a b : ℚ} (ha : double a = .fin a) (hb : double b = .fin b) (ha' : |a| < 2 ^ 1022) (hb' : |b| < 2 ^ 1022) :
    ∃ s m, double (a + b) = .fin s ∧ double (s / 2) = .fin m ∧ double m = .fin m ∧ min a b ≤ m ∧ m ≤ max a b ∧ |m| < 2 ^ 1022 ∧
      |m - (a + b) / 2| ≤ 1 / 2 ^ 53 * |(a + b) / 2| + 1 / 2 ^ 1075 := by
  have hab : |a + b| < 2 ^ 1023 := by
    have h3 : (2 : ℚ) ^ 1023 = 2 * 2 ^ 1022 := by rw [pow_succ, mul_comm]
    rw [h3]
    have := abs_add_le a b
    generalize (2 : ℚ) ^ 1022 = B at *
    clear h3
    linarith
  have hs := double_small hab
  have hlo : min a b ≤ nearDouble (a + b) / 2 := by
    rcases le_total a b with h | h
    · rw [min_eq_left h]
      have := nearDouble_mono (show 2 * a ≤ a + b by linarith)
      rw [nearDouble_twice ha] at this
      linarith
    · rw [min_eq_right h]
      have := nearDouble_mono (show 2 * b ≤ a + b by linarith)
      rw [nearDouble_twice hb] at this
      linarith
  have hhi : nearDouble (a + b) / 2 ≤ max a b := by
    rcases le_total a b with h | h
    · rw [max_eq_right h]
      have := nearDouble_mono (show a + b ≤ 2 * b by linarith)
      rw [nearDouble_twice hb] at this
      linarith
    · rw [max_eq_left h]
      have := nearDouble_mono (show a + b ≤ 2 * a by linarith)
      rw [nearDouble_twice ha] at this
      linarith
  have hmin : nearDouble (min a b) = min a b := by
    rcases min_choice a b with h | h <;> rw [h]
    exacts [nearDouble_of_double ha, nearDouble_of_double hb]
  have hmax : nearDouble (max a b) = max a b := by
    rcases max_choice a b with h | h <;> rw [h]
    exacts [nearDouble_of_double ha, nearDouble_of_double hb]
  have hm1 := nearDouble_mono hlo
  have hm2 := nearDouble_mono hhi
  rw [hmin] at hm1
  rw [hmax] at hm2
  have hbound : ∀ z : ℚ, min a b ≤ z → z ≤ max a b → |z| < 2 ^ 1022 := by
    intro z h1 h2
    generalize (2 : ℚ) ^ 1022 = B at *
    rw [abs_lt] at ha' hb' ⊢
    exact ⟨lt_of_lt_of_le (lt_min ha'.1 hb'.1) h1, lt_of_le_of_lt h2 (max_lt ha'.2 hb'.2)⟩
  have hz : |nearDouble (a + b) / 2| < 2 ^ 1023 := (hbound _ hlo hhi).trans (by
    have : (2 : ℚ) ^ 1023 = 2 * 2 ^ 1022 := by rw [pow_succ, mul_comm]
    rw [this]
    have hp : (0 : ℚ) < 2 ^ 1022 := by positivity
    exact lt_two_mul_self hp)
  refine ⟨_, _, hs, double_small hz, double_nearDouble hz, hm1, hm2, hbound _ hm1 hm2, ?_⟩
  have h1 := half_error (double_nearDouble hab)
  have h2 : |nearDouble (a + b) - (a + b)| ≤ 1 / 2 ^ 53 * |a + b| := by
    obtain ⟨y, y1, y2⟩ := digits53_accurate.near (a + b)
    rw [← double_add ha hb hab, hs] at y1
    cases y1
    exact y2
  have h3 := abs_sub_le (nearDouble (nearDouble (a + b) / 2)) (nearDouble (a + b) / 2) ((a + b) / 2)
  have h4 : |nearDouble (a + b) / 2 - (a + b) / 2| = |nearDouble (a + b) - (a + b)| / 2 := by
    rw [← sub_div, abs_div, abs_of_pos (by norm_num : (0 : ℚ) < 2)]
  have h5 : |(a + b) / 2| = |a + b| / 2 := by rw [abs_div, abs_of_pos (by norm_num : (0 : ℚ) < 2)]
  rw [h4] at h3
  rw [h5]
  generalize (1 : ℚ) / 2 ^ 1075 = B at *
  clear ha' hb' hab hz hbound
  linarith

theorem middleF_double {a b : ℚ} (ha : double a = .fin a) (hb : double b = .fin b) (ha' : |a| < 2 ^ 1022) (hb' : |b| < 2 ^ 1022) :
    ∃ m, middleF double a b = .fin m ∧ double m = .fin m ∧ min a b ≤ m ∧ m ≤ max a b ∧ |m| < 2 ^ 1022 ∧
      |m - (a + b) / 2| ≤ 1 / 2 ^ 53 * |(a + b) / 2| + 1 / 2 ^ 1075 := by
  obtain ⟨s, m, h1, h2, h3⟩ := middle_double ha hb ha' hb'
  refine ⟨m, ?_, h3⟩
  unfold middleF
  have : Dbl.add double (.fin a) (.fin b) = .fin s := h1
  rw [this, ← h2, show s / 2 = 1 / 2 * s by ring]
  rfl

/-- Any points between the joined ones make a well formed axis. -/
theorem wf_half_between {ns gs gs' : List ℚ} (h : WellFormedAxis ns gs) (hl : gs'.length = gs.length / 2)
    (hb : ∀ i x y z, gs[2 * i]? = some x → gs[2 * i + 1]? = some y → gs'[i]? = some z → min x y ≤ z ∧ z ≤ max x y) :
    WellFormedAxis (evens ns) gs' := by
  obtain ⟨hn, h⟩ := h
  refine ⟨by rw [evens_length, hn, hl]; omega, ?_⟩
  have key : ∀ (i : ℕ) (a g b : ℚ), (evens ns)[i]? = some a → gs'[i]? = some g → (evens ns)[i + 1]? = some b →
      ∃ c x y, ns[2 * i]? = some a ∧ gs[2 * i]? = some x ∧ ns[2 * i + 1]? = some c ∧ gs[2 * i + 1]? = some y ∧ ns[2 * i + 1 + 1]? = some b ∧
        min x y ≤ g ∧ g ≤ max x y := by
    intro i a g b ha hg hb'
    rw [evens_get] at ha hb'
    have hi : i < gs.length / 2 := by rw [← hl]; exact (List.getElem?_eq_some_iff.1 hg).1
    have g1 : 2 * i < gs.length := by omega
    have g2 : 2 * i + 1 < gs.length := by omega
    have g3 : 2 * i + 1 < ns.length := by omega
    exact ⟨_, _, _, ha, List.getElem?_eq_getElem g1, List.getElem?_eq_getElem g3, List.getElem?_eq_getElem g2,
      by rw [← hb']; congr 1, hb i _ _ _ (List.getElem?_eq_getElem g1) (List.getElem?_eq_getElem g2) hg⟩
  rcases h with h | h
  · left
    intro i a g b ha hg hb'
    obtain ⟨c, x, y, k1, k2, k3, k4, k5, k6, k7⟩ := key i a g b ha hg hb'
    have m1 := h (2 * i) a x c k1 k2 k3
    have m2 := h (2 * i + 1) c y b k3 k4 k5
    have hxy : x ≤ y := by linarith [m1.2, m2.1]
    rw [min_eq_left hxy] at k6
    rw [max_eq_right hxy] at k7
    exact ⟨by linarith [m1.1], by linarith [m2.2]⟩
  · right
    intro i a g b ha hg hb'
    obtain ⟨c, x, y, k1, k2, k3, k4, k5, k6, k7⟩ := key i a g b ha hg hb'
    have m1 := h (2 * i) a x c k1 k2 k3
    have m2 := h (2 * i + 1) c y b k3 k4 k5
    have hxy : y ≤ x := by linarith [m1.2, m2.1]
    rw [min_eq_right hxy] at k6
    rw [max_eq_left hxy] at k7
    exact ⟨by linarith [m1.1], by linarith [m2.2]⟩

theorem mapM_finite {l : List (Dbl ℚ)} {r : List ℚ} (h : l = r.map .fin) : l.mapM finite? = some r := by
  subst h
  induction r with
  | nil => rfl
  | cons a r ih =>
    rw [List.map_cons, List.mapM_cons, ih]
    rfl

/-- C138: an axis of doubles with half the resolution is valid again, despite rounding: every second node is kept, every grid point is a
double between the two points it replaces, as close to their middle as a rounding and half of the smallest double. The new axis satisfies the
conditions of this theorem again. -/
theorem axis_half_double (spl : Splines ℚ) (ax : Axis ℚ) (hv : ValidAxis ax.gridNode ax.grid ax.extent)
    (hg : ∀ x ∈ ax.grid, Addable x) :
    ∃ ax', axisHalfF double spl ax = some (.ok ax') ∧ ValidAxis ax'.gridNode ax'.grid ax'.extent ∧ ax'.grid.length = ax.grid.length / 2 ∧
      (∀ i, ax'.gridNode[i]? = ax.gridNode[2 * i]?) ∧ ax'.name = ax.name ∧ ax'.unit = ax.unit ∧
      (∀ x ∈ ax'.grid, Addable x) ∧
      ∀ i x y, ax.grid[2 * i]? = some x → ax.grid[2 * i + 1]? = some y →
        ∃ z, ax'.grid[i]? = some z ∧ min x y ≤ z ∧ z ≤ max x y ∧ |z - (x + y) / 2| ≤ 1 / 2 ^ 53 * |(x + y) / 2| + 1 / 2 ^ 1075 := by
  have hL : (List.zipWith (middleF double) (evens ax.grid.dropLast) (evens ax.grid.tail)).length = ax.grid.length / 2 := by
    simp only [List.length_zipWith, evens_length, List.length_dropLast, List.length_tail]
    omega
  have hget : ∀ i x y, ax.grid[2 * i]? = some x → ax.grid[2 * i + 1]? = some y →
      (List.zipWith (middleF double) (evens ax.grid.dropLast) (evens ax.grid.tail))[i]? = some (middleF double x y) := by
    intro i x y hx hy
    have hi := (List.getElem?_eq_some_iff.1 hy).1
    rw [List.getElem?_zipWith, evens_get, evens_get, List.getElem?_tail, hy, List.getElem?_dropLast, if_pos (by omega), hx]
  generalize hl : List.zipWith (middleF double) (evens ax.grid.dropLast) (evens ax.grid.tail) = l at hL hget
  have hpt : ∀ i (hi : i < ax.grid.length / 2), ∃ x y m, ax.grid[2 * i]? = some x ∧ ax.grid[2 * i + 1]? = some y ∧ l[i]? = some (.fin m) ∧
      double m = .fin m ∧ min x y ≤ m ∧ m ≤ max x y ∧ |m| < 2 ^ 1022 ∧ |m - (x + y) / 2| ≤ 1 / 2 ^ 53 * |(x + y) / 2| + 1 / 2 ^ 1075 := by
    intro i hi
    have h1 : 2 * i < ax.grid.length := by omega
    have h2 : 2 * i + 1 < ax.grid.length := by omega
    obtain ⟨p1, p2⟩ := hg _ (List.getElem_mem h1)
    obtain ⟨q1, q2⟩ := hg _ (List.getElem_mem h2)
    obtain ⟨m, m1, m2⟩ := middleF_double p1 q1 p2 q2
    refine ⟨_, _, m, List.getElem?_eq_getElem h1, List.getElem?_eq_getElem h2, ?_, m2⟩
    rw [hget i _ _ (List.getElem?_eq_getElem h1) (List.getElem?_eq_getElem h2), m1]
  obtain ⟨r, hr⟩ : ∃ r : List ℚ, l = r.map .fin := by
    refine ⟨l.map fun d => (finite? d).getD 0, ?_⟩
    rw [List.map_map]
    conv_lhs => rw [← List.map_id l]
    refine List.map_congr_left fun d hd => ?_
    obtain ⟨i, hi⟩ := List.mem_iff_getElem?.1 hd
    obtain ⟨x, y, m, -, -, h3, -⟩ := hpt i (by rw [← hL]; exact (List.getElem?_eq_some_iff.1 hi).1)
    rw [hi] at h3
    cases h3
    rfl
  have hrl : r.length = ax.grid.length / 2 := by rw [← hL, hr, List.length_map]
  have hrg : ∀ (i : ℕ) (m : ℚ), l[i]? = some (.fin m) → r[i]? = some m := by
    intro i m h
    rw [hr, List.getElem?_map] at h
    cases hri : r[i]? with
    | none => rw [hri] at h; cases h
    | some z => rw [hri] at h; cases h; rfl
  have hwf : WellFormedAxis (evens ax.gridNode) r := by
    refine wf_half_between hv.wf hrl fun i x y z hx hy hz => ?_
    obtain ⟨x', y', m, h1, h2, h3, -, h5, h6, -⟩ := hpt i (by rw [← hrl]; exact (List.getElem?_eq_some_iff.1 hz).1)
    rw [hx] at h1
    rw [hy] at h2
    have := hrg i m h3
    rw [hz] at this
    cases h1; cases h2; cases this
    exact ⟨h5, h6⟩
  obtain ⟨e, e1, e2, e3⟩ := mkAxis_wf spl ax.name ax.unit hwf
  refine ⟨⟨ax.name, ax.unit, evens ax.gridNode, r, e⟩, ?_, ⟨hwf, e2, e3⟩, hrl, fun i => evens_get _ i, rfl, rfl, fun x hx => ?_, fun i x y hx hy => ?_⟩
  · unfold axisHalfF
    rw [hl, mapM_finite hr, Option.map_some, e1]
  · obtain ⟨i, hi⟩ := List.mem_iff_getElem?.1 hx
    obtain ⟨_, _, m, -, -, h3, h4, -, -, h7, -⟩ := hpt i (by rw [← hrl]; exact (List.getElem?_eq_some_iff.1 hi).1)
    have := (hrg i m h3).symm.trans hi
    cases this
    exact ⟨h4, h7⟩
  · have hi := (List.getElem?_eq_some_iff.1 hy).1
    obtain ⟨x', y', m, h1, h2, h3, -, h5, h6, -, h8⟩ := hpt i (by omega)
    rw [hx] at h1
    rw [hy] at h2
    cases h1; cases h2
    exact ⟨m, hrg i m h3, h5, h6, h8⟩

theorem inBounds_double {shape idx : List ℕ} {a n : ℕ} (hn : shape[a]? = some n) (h : InBounds (shape.set a (n / 2)) idx) :
    InBounds shape (idx.modify a fun k => 2 * k) ∧ InBounds shape (idx.modify a fun k => 2 * k + 1) := by
  obtain ⟨h1, h2⟩ := h
  rw [List.length_set] at h1
  have hal := (List.getElem?_eq_some_iff.1 hn).1
  have key : ∀ j, j ≤ 1 → InBounds shape (idx.modify a fun k => 2 * k + j) := by
    intro j hj
    refine ⟨by rw [List.length_modify, h1], fun d i m hi hm => ?_⟩
    by_cases hd : a = d
    · subst hd
      rw [hn] at hm
      cases hm
      rw [List.getElem?_modify_eq] at hi
      cases hk : idx[a]? with
      | none => rw [hk] at hi; cases hi
      | some k =>
        rw [hk] at hi
        cases hi
        have := h2 a k (n / 2) hk (by rw [List.getElem?_set_self hal])
        show 2 * k + j < n
        omega
    · rw [List.getElem?_modify_ne _ _ hd] at hi
      exact h2 d i m hi (by rw [List.getElem?_set_ne hd]; exact hm)
  exact ⟨key 0 (by omega), key 1 (by omega)⟩

/-- C138: the field with half the resolution along an axis, computed with doubles: its axes are valid and fit its shape, every value is a double
between the two samples it replaces, as close to their mean as a rounding and half of the smallest double, and the result can be reduced again.
In particular rounding never makes a value which is larger or smaller than all samples, and equal samples stay exactly as they are. -/
theorem half_resolution_double (spl : Splines ℚ) (f : Field ℚ (Dbl ℚ)) (hf : f.Sound) (lo hi : ℚ) (hd : AddableField lo hi f) (a : ℕ)
    (ax : Axis ℚ) (ha : a ≤ 2) (hax : f.axes[a]? = some ax) (h2 : 2 ≤ ax.len) :
    ∃ r ax', f.halfResolutionF double spl a = some (.ok r) ∧ r.Sound ∧ AddableField lo hi r ∧ r.shape = f.shape.set a (ax.len / 2) ∧
      r.axes = f.axes.set a ax' ∧ axisHalfF double spl ax = some (.ok ax') ∧ r.name = f.name ∧ r.unit = f.unit ∧ r.ats = f.ats ∧
      ∀ idx, InBounds r.shape idx → ∃ x y z, f.matrix.at' (idx.modify a fun k => 2 * k) = .fin x ∧
        f.matrix.at' (idx.modify a fun k => 2 * k + 1) = .fin y ∧ r.matrix.at' idx = .fin z ∧ min x y ≤ z ∧ z ≤ max x y ∧
        |z - (x + y) / 2| ≤ 1 / 2 ^ 53 * |(x + y) / 2| + 1 / 2 ^ 1075 := by
  have hal := (List.getElem?_eq_some_iff.1 hax).1
  have hl := ok_axes_length hf.ok
  have hmem : ax ∈ f.axes := List.mem_of_getElem? hax
  obtain ⟨ax', e1, e6, e2, e3, e4, e5, e7, e8⟩ := axis_half_double spl ax (hf.valid ax hmem) (hd.points ax hmem)
  have hs : f.shape[a]? = some ax.len := by
    rw [← hf.ok.lengths, List.getElem?_map, hax]; rfl
  have hchk : checkAxisObj (f.shape.set a (ax.len / 2)) a ax' = .ok () := by
    unfold checkAxisObj
    rw [if_neg (by omega), List.getElem?_set_self (by omega)]
    exact if_pos e2
  have hval : ∀ idx, InBounds (f.shape.set a (ax.len / 2)) idx → ∃ x y z, f.matrix.at' (idx.modify a fun k => 2 * k) = .fin x ∧
      f.matrix.at' (idx.modify a fun k => 2 * k + 1) = .fin y ∧
      quotF double (Dbl.add double (f.matrix.at' (idx.modify a fun k => 2 * k)) (f.matrix.at' (idx.modify a fun k => 2 * k + 1))) (.fin 2) =
        .fin z ∧ (Addable z ∧ lo ≤ z ∧ z ≤ hi) ∧ min x y ≤ z ∧ z ≤ max x y ∧
      |z - (x + y) / 2| ≤ 1 / 2 ^ 53 * |(x + y) / 2| + 1 / 2 ^ 1075 := by
    intro idx hidx
    obtain ⟨b1, b2⟩ := inBounds_double hs hidx
    obtain ⟨x, x1, x2, x3, x4⟩ := hd.values _ b1
    obtain ⟨y, y1, y2, y3, y4⟩ := hd.values _ b2
    obtain ⟨s, m, m1, m2, m3, m4, m5, m6, m7⟩ := middle_double x2.1 y2.1 x2.2 y2.2
    refine ⟨x, y, m, x1, y1, ?_, ⟨⟨m3, m6⟩, (le_min x3 y3).trans m4, m5.trans (max_le x4 y4)⟩, m4, m5, m7⟩
    have : Dbl.add double (.fin x) (.fin y) = .fin s := m1
    rw [x1, y1, this, ← m2]
    show (if (2 : ℚ) = 0 then (if s = 0 then Dbl.nan else .inf (decide (s < 0))) else double (s / 2)) = _
    rw [if_neg (by norm_num)]
  refine ⟨⟨f.name, f.unit, ⟨f.shape.set a (ax.len / 2), fun idx =>
        quotF double (Dbl.add double (f.matrix.at' (idx.modify a fun k => 2 * k)) (f.matrix.at' (idx.modify a fun k => 2 * k + 1))) (.fin 2)⟩,
      f.axes.set a ax', f.ats, f.tao.set a none⟩, ax', ?_, ⟨⟨?_, ?_, ?_⟩, ?_, ?_⟩, ⟨?_, ?_⟩, rfl, rfl, e1, rfl, rfl, rfl, ?_⟩
  · unfold Field.halfResolutionF
    rw [if_neg (by omega), hs, hax]
    simp only [e1, Option.map_some, bind, Except.bind, hchk]
    rfl
  · show (f.axes.set a ax').map Axis.len = f.shape.set a (ax.len / 2)
    rw [List.map_set, hf.ok.lengths, show ax'.len = ax.len / 2 from e2]
  · show f.ats.length = (f.shape.set a (ax.len / 2)).length
    rw [List.length_set, hf.ok.states]
  · show (f.tao.set a none).length = (f.shape.set a (ax.len / 2)).length
    rw [List.length_set, List.length_set, hf.ok.origins]
  · intro b hb
    rcases List.mem_or_eq_of_mem_set hb with hb | rfl
    · exact hf.valid b hb
    · exact e6
  · intro h0
    have h0 : 0 ∈ f.shape.set a (ax.len / 2) := h0
    rcases List.mem_or_eq_of_mem_set h0 with h0 | h0
    · exact hf.nonempty h0
    · omega
  · intro b hb
    rcases List.mem_or_eq_of_mem_set hb with hb | rfl
    · exact hd.points b hb
    · exact e7
  · intro idx hidx
    obtain ⟨x, y, z, -, -, h3, h4, -⟩ := hval idx hidx
    exact ⟨z, h3, h4⟩
  · intro idx hidx
    obtain ⟨x, y, z, g1, g2, h3, -, h5⟩ := hval idx hidx
    exact ⟨x, y, z, g1, g2, h3, h5⟩

theorem halveLoopF_double (spl : Splines ℚ) {lo hi : ℚ} {maxlen : ℤ} (hm : 1 ≤ maxlen) {a : ℕ} (ha : a ≤ 2) (fuel : ℕ) :
    ∀ {f : Field ℚ (Dbl ℚ)}, f.Sound → AddableField lo hi f → ∀ {n : ℕ}, f.shape[a]? = some n → n < fuel →
    ∃ r n', halveLoopF double spl maxlen a fuel f = some (.ok r) ∧ r.Sound ∧ AddableField lo hi r ∧ r.shape = f.shape.set a n' ∧ n' ≤ n ∧
      (n' : ℤ) ≤ maxlen := by
  induction fuel with
  | zero => intro f _ _ n _ h; omega
  | succ fuel ih =>
    intro f hf hd n hn hlt
    have hal := (List.getElem?_eq_some_iff.1 hn).1
    have hl := ok_axes_length hf.ok
    obtain ⟨ax, hax⟩ : ∃ ax, f.axes[a]? = some ax := ⟨_, List.getElem?_eq_getElem (by omega)⟩
    have hs : f.shape[a]? = some ax.len := by
      rw [← hf.ok.lengths, List.getElem?_map, hax]; rfl
    obtain rfl : n = ax.len := by rw [hn] at hs; exact Option.some.inj hs
    unfold halveLoopF
    rw [hax]
    by_cases h : maxlen < ax.len
    · obtain ⟨r, ax', r1, r2, r3, r4, -⟩ := half_resolution_double spl f hf lo hi hd a ax ha hax (by omega)
      obtain ⟨q, n', q1, q2, q3, q4, q5, q6⟩ := ih r2 r3 (n := ax.len / 2) (by rw [r4, List.getElem?_set_self hal]) (by omega)
      refine ⟨q, n', ?_, q2, q3, by rw [q4, r4, List.set_set], by omega, q6⟩
      simp only [if_pos h, r1]
      exact q1
    · refine ⟨f, ax.len, by simp only [if_neg h], hf, hd, ?_, le_rfl, by omega⟩
      refine List.ext_getElem? fun i => ?_
      by_cases hi : a = i
      · subst hi
        rw [List.getElem?_set_self hal, hs]
      · rw [List.getElem?_set_ne hi]

/-- C138: `autoreduce` of a field of doubles ends, no axis of the result is longer than requested, its axes are valid, and no value is larger
or smaller than all samples. -/
theorem autoreduce_double (spl : Splines ℚ) (f : Field ℚ (Dbl ℚ)) (hf : f.Sound) (h3 : f.shape.length ≤ 3) (lo hi : ℚ) (hd : AddableField lo hi f)
    (maxlen : ℤ) (hm : 1 ≤ maxlen) (fuel : ℕ) (hfuel : ∀ n ∈ f.shape, n < fuel) :
    ∃ r, f.autoreduceF double spl maxlen fuel = some (.ok r) ∧ r.Sound ∧ AddableField lo hi r ∧ r.shape.length = f.shape.length ∧
      ∀ n ∈ r.shape, 0 < n ∧ (n : ℤ) ≤ maxlen := by
  have key : ∀ (L : List ℕ) (f : Field ℚ (Dbl ℚ)), f.Sound → AddableField lo hi f → f.shape.length ≤ 3 → (∀ n ∈ f.shape, n < fuel) →
      (∀ i ∈ L, i < f.shape.length) →
      ∃ r, reduceLoopF double spl maxlen fuel L f = some (.ok r) ∧ r.Sound ∧ AddableField lo hi r ∧ r.shape.length = f.shape.length ∧
        (∀ i ∈ L, ∀ n, r.shape[i]? = some n → (n : ℤ) ≤ maxlen) ∧
        ∀ i n : ℕ, f.shape[i]? = some n → (n : ℤ) ≤ maxlen → ∀ n', r.shape[i]? = some n' → (n' : ℤ) ≤ maxlen := by
    intro L
    induction L with
    | nil =>
      intro f hf hd _ _ _
      refine ⟨f, rfl, hf, hd, rfl, by simp, fun i n h1 h2 n' h3 => ?_⟩
      rw [h1] at h3
      cases h3
      exact h2
    | cons a L ih =>
      intro f hf hd h3 hfuel hL
      have hal := hL a (by simp)
      obtain ⟨q, n', q1, q2, q3, q4, q5, q6⟩ := halveLoopF_double spl hm (by omega : a ≤ 2) fuel hf hd (List.getElem?_eq_getElem hal)
        (hfuel _ (List.getElem_mem hal))
      have hql : q.shape.length = f.shape.length := by rw [q4, List.length_set]
      obtain ⟨r, r1, r2, r3, r4, r5, r6⟩ := ih q q2 q3 (by omega) (by
        intro n hn
        rw [q4] at hn
        rcases List.mem_or_eq_of_mem_set hn with hn | rfl
        · exact hfuel n hn
        · exact lt_of_le_of_lt q5 (hfuel _ (List.getElem_mem hal))) (fun i hi => by rw [hql]; exact hL i (by simp [hi]))
      have hqa : q.shape[a]? = some n' := by rw [q4, List.getElem?_set_self hal]
      refine ⟨r, ?_, r2, r3, by omega, ?_, ?_⟩
      · unfold reduceLoopF
        rw [q1]
        exact r1
      · intro i hi n hn
        rcases List.mem_cons.1 hi with rfl | hi
        · exact r6 i n' hqa q6 n hn
        · exact r5 i hi n hn
      · intro i n h1 h2 m hm'
        by_cases hia : a = i
        · subst hia
          exact r6 a n' hqa q6 m hm'
        · exact r6 i n (by rw [q4, List.getElem?_set_ne hia]; exact h1) h2 m hm'
  have hl := ok_axes_length hf.ok
  obtain ⟨r, r1, r2, r3, r4, r5, -⟩ := key (List.range f.axes.length) f hf hd h3 hfuel (fun i hi => by rw [List.mem_range] at hi; omega)
  refine ⟨r, r1, r2, r3, r4, fun n hn => ?_⟩
  obtain ⟨i, hi⟩ := List.mem_iff_getElem?.1 hn
  have hil := (List.getElem?_eq_some_iff.1 hi).1
  exact ⟨Nat.pos_of_ne_zero fun h => r2.nonempty (h ▸ hn), r5 i (by rw [List.mem_range]; omega) n hi⟩

/-! ### Examples -/

theorem field43_addable : AddableField 0 302 (field43.mapValues .fin) := by
  refine ⟨?_, fun idx h => ?_⟩
  · have key : ∀ ax ∈ field43.axes, ∀ x ∈ ax.grid, Addable x := by decide +kernel
    exact key
  · refine ⟨_, rfl, ?_⟩
    have h : InBounds [4, 3] idx := h
    obtain ⟨h1, h2⟩ := h
    obtain ⟨i, j, rfl⟩ := List.length_eq_two.1 h1
    have hi := h2 0 i 4 rfl rfl
    have hj := h2 1 j 3 rfl rfl
    have key : ∀ i < 4, ∀ j < 3, Addable (field43.matrix.at' [i, j]) ∧ 0 ≤ field43.matrix.at' [i, j] ∧ field43.matrix.at' [i, j] ≤ 302 := by
      decide +kernel
    exact key i hi j hj

example := half_resolution_double midSplines _ (mapValues_sound field43_sound Dbl.fin) 0 302 field43_addable 0 (uniformAxis 0 4 4) (by decide) rfl
  (by decide +kernel)

example := autoreduce_double midSplines _ (mapValues_sound field43_sound Dbl.fin) (by decide) 0 302 field43_addable 2 (by decide) 5 (by decide)

/-- A field with two points and two samples. -/
def fieldPair (x y : ℚ) : Field ℚ (Dbl ℚ) :=
  ⟨"f", "", ⟨[2], fun idx => if idx.getD 0 0 = 0 then .fin x else .fin y⟩, [uniformAxis 0 2 2], [some false], [none]⟩

/-- The samples must be small: the mean of two equal large doubles is infinite. The mean of 0 and the smallest double is 0, and that of 1 and
the next double is 1: half a rounding is lost. -/
theorem half_resolution_double_limits :
    ((fieldPair (2 ^ 1023) (2 ^ 1023)).halfResolutionF double midSplines 0).map (fun r => r.map fun r => r.matrix.at' [0]) =
      some (.ok (.inf false)) ∧
    ((fieldPair 0 (1 / 2 ^ 1074)).halfResolutionF double midSplines 0).map (fun r => r.map fun r => r.matrix.at' [0]) = some (.ok (.fin 0)) ∧
    ((fieldPair 1 (1 + 1 / 2 ^ 52)).halfResolutionF double midSplines 0).map (fun r => r.map fun r => r.matrix.at' [0]) = some (.ok (.fin 1)) := by
  decide +kernel

end Postpic.Props
